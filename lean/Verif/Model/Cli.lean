import Verif.Model.Cmd
import Verif.Model.Install
import Verif.Model.Pool
/-!
# The command line: `src/main.c`, `src/bsys.c` and the entry points of `src/bsys/bob/main.c`

The answers of the operating system, and of the build systems, are parameters; what is modelled is which questions are asked in which order and
what follows from the answers.
-/

namespace Bob

/-! ## Options -/

abbrev DASH : UInt8 := 45

def isSpace (c : UInt8) : Bool := c == 32 || (9 ≤ c && c ≤ 13)
def isDigit (c : UInt8) : Bool := 48 ≤ c && c ≤ 57

/-- The value of the leading digits. -/
def digitsValue : Bytes → Nat → Nat
  | [], n => n
  | c :: cs, n => if isDigit c then digitsValue cs (n * 10 + (c.toNat - 48)) else n

/-- A number of 32 bits, as a signed number. -/
def wrap32 (n : Int) : Int := (n + 2147483648) % 4294967296 - 2147483648

/-- `strtol`, which stops at the largest and the smallest value. -/
def clampLong (n : Int) : Int := if n > 9223372036854775807 then 9223372036854775807 else if n < -9223372036854775808 then -9223372036854775808 else n

/-- `atoi`, as glibc does it: `strtol` cut to 32 bits.  (By the standard a value out of range is undefined.) -/
def atoi (s : Bytes) : Int :=
  match s.dropWhile isSpace with
  | [] => 0
  | c :: cs =>
    wrap32 (clampLong (if c = DASH then - (digitsValue cs 0 : Int) else if c = 43 then (digitsValue cs 0 : Int) else (digitsValue (c :: cs) 0 : Int)))

/-- Conversion of an `int` to `size_t`. -/
def toSize (n : Int) : Nat := if n < 0 then (18446744073709551616 + n).toNat else n.toNat

/-- The globals and locals that options set, `src/main.c:27-33`, `65`. -/
structure Opts where
  project : Option Bytes
  jobs : Option Nat
  out : Bytes
  pre : Option Bytes
deriving DecidableEq, Repr

def Opts.init : Opts := { project := none, jobs := none, out := b!".bob", pre := none }

/-- The cases at `src/main.c:73-91`.  `none`: bob exits. -/
def setOpt (c : UInt8) (val : Bytes) (o : Opts) : Option Opts :=
  if c = 67 then some { o with project := some val }
  else if c = 106 then (setMaxJobs (toSize (atoi val))).map fun n => { o with jobs := some n }
  else if c = 111 then some { o with out := val }
  else if c = 112 then some { o with pre := some val }
  else none

def isOptChar (c : UInt8) : Bool := c == 67 || c == 106 || c == 111 || c == 112

/-- The loop `while ((c = getopt(argc, argv, "C:j:o:p:")) != -1)`, `src/main.c:72-95`.  `posix`: parsing stops at the first argument that is not an
option; otherwise (glibc) options are taken from everywhere before `--` and the other arguments move to the end.  `pend` is an option waiting for its
value.  The result is the options and the remaining arguments; `none`: bob exits unsuccessfully. -/
def getoptScan (posix : Bool) : Option UInt8 → List Bytes → Opts → List Bytes → Option (Opts × List Bytes)
  | none, [], o, non => some (o, non)
  | some _, [], _, _ => none
  | some c, v :: rest, o, non => (setOpt c v o).bind fun o => getoptScan posix none rest o non
  | none, a :: rest, o, non =>
    if a = b!"--" then some (o, non ++ rest)
    else match a with
      | d :: c :: val =>
        if d = DASH then
          if isOptChar c then
            if val = [] then getoptScan posix (some c) rest o non
            else (setOpt c val o).bind fun o => getoptScan posix none rest o non
          else none
        else if posix then some (o, non ++ a :: rest) else getoptScan posix none rest o (non ++ [a])
      | _ => if posix then some (o, non ++ a :: rest) else getoptScan posix none rest o (non ++ [a])

/-! ## Environment -/

abbrev Env := List (Bytes × Bytes)

def getenv (name : Bytes) (env : Env) : Option Bytes := (env.find? (·.1 == name)).map (·.2)

def setenv (name val : Bytes) : Env → Env
  | [] => [(name, val)]
  | e :: env => if e.1 = name then (name, val) :: env else e :: setenv name val env

/-- `prepend_env`, `src/bsys.c:54-85`. -/
def prependEnv (name val : Bytes) (env : Env) : Env :=
  match getenv name env with
  | none => setenv name val env
  | some prev => setenv name (val ++ b!":" ++ prev) env

/-- `setup_environment`, `src/bsys.c:123-134`. -/
def setupEnvironment (out : Bytes) (env : Env) : Env :=
  prependEnv b!"LD_LIBRARY_PATH" (out ++ b!"/prefix/lib") (prependEnv b!"PATH" (out ++ b!"/prefix/bin") env)

/-! ## What bob does -/

/-- Things that happen. -/
inductive MainAct where
  | mkdir (path : Bytes)
  | setup
  /-- the steps of a build, with the prefix for products -/
  | steps (pre : Option Bytes)
  /-- `install_all` -/
  | install (pre : Bytes)
  /-- another program replaces bob -/
  | exec (path : Bytes) (argv : List Bytes) (env : Env)
deriving DecidableEq, Repr

inductive End where
  | exit (ok : Bool)
  | replaced
  /-- an assertion fails -/
  | abort
deriving DecidableEq, Repr

/-- What a build system's `run` does: return, or run a command. -/
inductive RunAct where
  | ret (ok : Bool)
  | exec (argv : List Bytes)
deriving DecidableEq, Repr

/-- `bsys_t`, `src/bsys.h:10-20`. -/
structure Bsys where
  key : Option Bytes
  identify : Bool
  setup : Option Bool
  build : Option (Option Bytes → List MainAct × Bool)
  install : Option (Bytes → List MainAct × Bool)
  run : Option (List Bytes → RunAct)

structure MainWorld where
  posix : Bool
  env : Env
  realpath : Bytes → Bool
  chdir : Bytes → Bool
  root : Bool
  statDot : Bool
  mkdir : Bytes → Bool
  /-- `access(path, F_OK)` -/
  there : Bytes → Bool
  bsys : List Bsys
  /-- `stat` and `access`, as in `ExecWorld` -/
  kind : Bytes → Option Bool
  xok : Bytes → Bool
  /-- `execv` succeeds -/
  execv : Bytes → List Bytes → Bool

/-- Something with a trace that may end the program. -/
abbrev M (α : Type) := List MainAct × Except End α

def M.pure (a : α) : M α := ([], .ok a)
def M.end (e : End) : M α := ([], .error e)
def M.act (a : MainAct) : M Unit := ([a], .ok ())
def M.bind (m : M α) (f : α → M β) : M β :=
  match m with
  | (t, .error e) => (t, .error e)
  | (t, .ok a) => (t ++ (f a).1, (f a).2)

instance : Monad M where
  pure := M.pure
  bind := M.bind

/-- `cmd_exec_inplace`, `src/cmd.c:137-146`: returns only if it fails. -/
def execInplace (w : MainWorld) (env : Env) (cmd : CmdArgs) : M Unit :=
  if cmd.len ≤ 1 then M.end .abort
  else match osArgv cmd.args with
    | some (name :: rest) =>
      match findBin { kind := w.kind, xok := w.xok, path := getenv b!"PATH" env } name with
      | .exit => M.end (.exit false)
      | .missing => M.pure ()
      | .found p => if w.execv p (name :: rest) then ([.exec p (name :: rest) env], .error .replaced) else M.pure ()
    | _ => M.end .abort

/-- `bsys_build`, `src/bsys.c:28-52`. -/
def bsysBuild (w : MainWorld) (o : Opts) (b : Bsys) (pre : Option Bytes) : M Bool :=
  match b.build with
  | none => M.pure true
  | some build =>
    match b.key with
    | none => ((build pre).1, .ok (build pre).2)
    | some key =>
      let path := o.out ++ b!"/" ++ key
      if w.mkdir path then (.mkdir path :: (build pre).1, .ok (build pre).2) else ([.mkdir path], .ok false)

/-- `install`, `src/bsys.c:87-121`. -/
def bsysInstallTo (w : MainWorld) (o : Opts) (b : Bsys) (toPrefix : Bool) (installPre : Bytes) : M Bool :=
  match b.install with
  | none => M.pure true
  | some install =>
    let path := if toPrefix then o.out ++ b!"/prefix" else installPre
    let first : M Bool := if toPrefix then ([.mkdir path], .ok (w.mkdir path)) else M.pure true
    M.bind first fun ok => if !ok then M.pure false else
      M.bind (bsysBuild w o b (some path)) fun ok => if !ok then M.pure false else
        ((install path).1, .ok (install path).2)

/-- `bsys_run`, `src/bsys.c:136-149`. -/
def bsysRun (w : MainWorld) (o : Opts) (b : Bsys) (installPre : Bytes) (args : List Bytes) : M Bool :=
  M.bind (bsysInstallTo w o b true installPre) fun ok => if !ok then M.pure false else
    match b.run with
    | none => M.pure true
    | some run =>
      let env := setupEnvironment o.out w.env
      match run args with
      | .ret ok => M.pure ok
      | .exec argv => M.bind (execInplace w env (cmdCreate argv)) fun _ => M.pure false

/-- `bsys_sh`, `src/bsys.c:151-185`. -/
def bsysSh (w : MainWorld) (o : Opts) (b : Bsys) (installPre : Bytes) (args : List Bytes) : M Bool :=
  M.bind (bsysInstallTo w o b true installPre) fun ok => if !ok then M.pure false else
    let env := setupEnvironment o.out w.env
    if args = [] then
      match getenv b!"SHELL" env with
      | none => M.pure false
      | some shell => M.bind (execInplace w env (cmdAdd shell (cmdCreate []))) fun _ => M.pure false
    else M.bind (execInplace w env (cmdAddArgv args (cmdCreate []))) fun _ => M.pure false

/-- The prefix, `src/main.c:170-176`. -/
def prefixOf (o : Opts) (env : Env) : Bytes :=
  match o.pre with
  | some p => p
  | none => (getenv b!"PREFIX" env).getD b!"/usr/local"

/-- The part of `main` from `src/main.c:216`. -/
def instruction (w : MainWorld) (o : Opts) (b : Bsys) (pre : Bytes) (instr : Bytes) (args : List Bytes) : M Bool :=
  if instr = b!"build" then bsysBuild w o b none
  else if instr = b!"run" then bsysRun w o b pre args
  else if instr = b!"sh" then bsysSh w o b pre args
  else if instr = b!"install" then bsysInstallTo w o b false pre
  else M.end (.exit false)

/-- `main` after the options, `src/main.c:99-257`.  (Debugging only sets the number of jobs.) -/
def mainRest (w : MainWorld) (o : Opts) (args : List Bytes) : M Bool :=
  match args with
  | [] => M.end (.exit false)
  | instr :: args =>
    let project := o.project.getD b!"."
    if !w.realpath project then M.end (.exit false)
    else if !w.chdir project then M.end (.exit false)
    else if w.root && !w.statDot then M.end (.exit false)
    else M.bind (M.act (.mkdir o.out)) fun _ =>
      if !w.mkdir o.out then M.end (.exit false)
      else if !w.realpath o.out then M.end (.exit false)
      else if !w.there (prefixOf o w.env) then M.end (.exit false)
      else match w.bsys.find? (·.identify) with
        | none => M.end (.exit false)
        | some b =>
          match b.setup with
          | none => instruction w o b (prefixOf o w.env) instr args
          | some ok => M.bind (M.act .setup) fun _ => if ok then instruction w o b (prefixOf o w.env) instr args else M.end (.exit false)

/-- `main`, `src/main.c:63-257`: what happens, and how it ends. -/
def bobMain (w : MainWorld) (args : List Bytes) : List MainAct × End :=
  match getoptScan w.posix none args .init [] with
  | none => ([], .exit false)
  | some (o, rest) =>
    match mainRest w o rest with
    | (t, .ok ok) => (t, .exit ok)
    | (t, .error e) => (t, e)

/-! ## bob's own build system -/

/-- The loop at `src/bsys/bob/main.c:273-282`. -/
def addRunVec : List (Option Bytes) → CmdArgs → Option CmdArgs
  | [], c => some c
  | none :: _, _ => none
  | some s :: rest, c => addRunVec rest (cmdAddf s.length s c)

/-- `run`, `src/bsys/bob/main.c:237-304`. -/
def runBob (vars : List (Bytes × ScriptVal)) (args : List Bytes) : RunAct :=
  match vars.find? (fun v => v.1 == b!"run") with
  | none => .ret false
  | some (_, .none) => .ret true
  | some (_, .vec elems) =>
    match addRunVec elems (cmdCreate []) with
    | none => .ret false
    | some c =>
      let c := cmdAddArgv args c
      if c.len = 1 then .ret true
      else match osArgv c.args with
        | some argv => .exec argv
        | none => .ret false
  | some _ => .ret false

/-- `BSYS_BOB`, `src/bsys/bob/main.c:315-324`.  `thereBuild`: there is a `build.fl`; `setupOk`: the script ran; `vars` are its variables; `steps`
and `installs` say whether the steps and installing succeed. -/
def bsysBob (thereBuild setupOk : Bool) (vars : List (Bytes × ScriptVal)) (steps : Option Bytes → Bool) (installs : Bytes → Bool) : Bsys where
  key := some b!"bob"
  identify := thereBuild
  setup := some setupOk
  build := some fun pre => if (setupInstallMap vars pre .init).2 then ([.steps pre], steps pre) else ([], false)
  install := some fun pre => ([.install pre], installs pre)
  run := some (runBob vars)

/-- The others, such as `src/bsys/cargo/main.c`, recognise nothing. -/
def bsysStub : Bsys where
  key := none
  identify := false
  setup := none
  build := some fun _ => ([], true)
  install := none
  run := none

end Bob
