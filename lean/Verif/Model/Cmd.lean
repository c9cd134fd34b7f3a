import Verif.Model.Build
/-!
# Running external commands: `src/cmd.c`

The operating system's answers are parameters.  Memory is modelled where it matters: slots of the argument vector that were never
written, and the process ID that `posix_spawnp` does not set when it fails.
-/

namespace Bob

/-! ## The argument vector -/

/-- A slot of `cmd->args`. -/
inductive Slot where
  /-- memory from `realloc` not yet written -/
  | uninit
  | null
  | str (s : Bytes)
deriving DecidableEq, Repr

/-- `cmd_t`, `src/cmd.h:9-19`, the part about arguments. -/
structure CmdArgs where
  len : Nat
  args : List Slot
deriving DecidableEq, Repr

/-- `realloc(cmd->args, ++cmd->len * ...)`, and storing the argument and the sentinel: `src/cmd.c:36-42`, `51-58`, `64-69`.  The
argument is a C string. -/
def cmdAdd (arg : Bytes) (c : CmdArgs) : CmdArgs :=
  let len := c.len + 1
  { len := len, args := ((c.args ++ [Slot.uninit]).set (len - 2) (.str (cstr arg))).set (len - 1) .null }

/-- `cmd_create`, `src/cmd.c:21-49`, with its arguments before the NULL. -/
def cmdCreate (args : List Bytes) : CmdArgs := args.foldl (fun c a => cmdAdd a c) { len := 1, args := [.null] }

/-- `cmd_addf(cmd, "%.*s", size, str)`, `src/cmd.c:60-72`, as in `src/class/cc.c:50` and `src/bsys/bob/main.c:281`: at most `size` bytes,
and none from the first NUL on.  (Formats with a fixed text around a `%s` are `cmdAdd` of the concatenation.) -/
def cmdAddf (size : Nat) (str : Bytes) (c : CmdArgs) : CmdArgs := cmdAdd (str.take size) c

/-- `cmd_add_argv`, `src/cmd.c:74-84`. -/
def cmdAddArgv (argv : List Bytes) (c : CmdArgs) : CmdArgs :=
  argv.foldl (fun c a => if cstr a = b!"--" then c else cmdAdd a c) c

/-- What `execv` or `posix_spawn` does with the vector: it takes the strings before the first NULL.  `none`: reads memory that was
not written, or behind the end. -/
def osArgv : List Slot → Option (List Bytes)
  | [] => none
  | .uninit :: _ => none
  | .null :: _ => some []
  | .str s :: rest => (osArgv rest).map (s :: ·)

/-! ## Looking up the executable -/

/-- What `stat` and `access` say about paths, and `$PATH`. -/
structure ExecWorld where
  /-- `stat` succeeds; `true` for directories -/
  kind : Bytes → Option Bool
  /-- `access(path, X_OK) == 0` -/
  xok : Bytes → Bool
  path : Option Bytes

/-- `is_executable`, `src/cmd.c:86-98`. -/
def ExecWorld.isExecutable (w : ExecWorld) (p : Bytes) : Bool :=
  match w.kind p with
  | none => false
  | some true => false
  | some false => w.xok p

inductive FindBin where
  /-- the process ends, `src/cmd.c:112` -/
  | exit
  | missing
  | found (path : Bytes)
deriving DecidableEq, Repr

/-- The loop of `find_bin`, `src/cmd.c:121-131`. -/
def searchDirs (w : ExecWorld) (name : Bytes) : List Bytes → FindBin
  | [] => .missing
  | tok :: toks => if w.isExecutable (tok ++ b!"/" ++ name) then .found (tok ++ b!"/" ++ name) else searchDirs w name toks

/-- `find_bin`, `src/cmd.c:100-135`. -/
def findBin (w : ExecWorld) (name : Bytes) : FindBin :=
  if w.isExecutable name then .found name
  else match w.path with
    | none => .exit
    | some path => searchDirs w name (strsepAll COLON path)

/-- What `posix_spawnp` runs when asked for a file (POSIX): the file itself if its name has a slash, otherwise the first found in
`$PATH`, where an empty entry means the working directory.  `none`: it reports that there is none.  (Without `$PATH` the default is up to
the system: also `none`.) -/
def spawnTarget (w : ExecWorld) (file : Bytes) : Option Bytes :=
  if SLASH ∈ file then if w.isExecutable file then some file else none
  else match w.path with
    | none => none
    | some path => ((strsepAll COLON path).map fun d => if d = [] then file else d ++ b!"/" ++ file).find? w.isExecutable

/-! ## Starting and waiting -/

/-- `WIFSIGNALED` and `WTERMSIG` of Linux. -/
def wTermSig (w : Nat) : Nat := w % 128
def wIfSignaled (w : Nat) : Bool := wTermSig w != 0 && wTermSig w != 127
def wIfExited (w : Nat) : Bool := wTermSig w == 0
def wExitStatus (w : Nat) : Nat := w / 256 % 256

/-- `wait_for_process`, `src/cmd.c:209-226`.  The list has what successive calls of `waitpid` give: a status, or `none` for a return
value that is not positive; the status is the one of the last call that set it.  The result is `rv` and `sig` (0 if not set). -/
def waitLoop : List (Option Nat) → Nat → Nat
  | some w :: rest, _ => waitLoop rest w
  | _, w => w

def waitForProcess (calls : List (Option Nat)) : Int × Nat :=
  let w := waitLoop calls 0
  if wIfSignaled w then (-1, wTermSig w)
  else if wIfExited w then (if wExitStatus w = 0 then 0 else -1, 0)
  else (0, 0)

/-- What the system does when bob starts a command. -/
structure SpawnWorld where
  exec : ExecWorld
  /-- `pipe` succeeds -/
  pipeOk : Bool
  /-- what `posix_spawnp` returns: 0 or an error number, which is positive -/
  spawnRet : Int
  /-- the new process -/
  child : Int
  /-- what is in the memory of the variable `pid`, `src/cmd.c:189`, before it is set -/
  garbage : Int
  /-- the answers of `waitpid` for a process ID -/
  wait : Int → List (Option Nat)

/-- `cmd_exec_async`, `src/cmd.c:148-207`.  `none`: bob exits. -/
def cmdExecAsync (debugging : Bool) (w : SpawnWorld) (name : Bytes) : Option Int :=
  match findBin w.exec name with
  | .exit => none
  | .missing => some (-1)
  | .found _ =>
    if !debugging && !w.pipeOk then some (-1)
    else
      let pid := if w.spawnRet = 0 then w.child else w.garbage
      if w.spawnRet < 0 then some (-1) else some pid

/-- `cmd_exec`, `src/cmd.c:228-239`: the result and the signal; `none`: bob exits.  The signal of a command that was not started is given as 0, as if the
structure had been cleared before; `cmdExecRes` in `Verif.Model.Logging` has the fields as they are. -/
def cmdExec (debugging : Bool) (w : SpawnWorld) (name : Bytes) : Option (Int × Nat) :=
  match cmdExecAsync debugging w name with
  | none => none
  | some pid => if pid < 0 then some (-1, 0) else some (waitForProcess (w.wait pid))

/-! ## Reading the output -/

/-- The loop of `cmd_read_out`, `src/cmd.c:253-264`: `out` and `total`. -/
def readLoop : List Bytes → Bytes × Nat → Bytes × Nat
  | [], acc => acc
  | chunk :: rest, (out, total) =>
    let total := total + chunk.length
    -- `realloc(out, total + 1)`, `memcpy(out + total - bytes, chunk, bytes)`
    readLoop rest (out.take (total - chunk.length) ++ chunk, total)

/-- `src/cmd.c:274`: `BOLD RED "Terminated by signal: %s\n"`, where `BOLD RED` is `"\033[1;" "31m"`, `src/logging.h:45-48`. -/
def sigLine (name : Bytes) : Bytes := b!"\x1b[1;31mTerminated by signal: " ++ name ++ b!"\n"

/-- `cmd_read_out`, `src/cmd.c:241-286`: the bytes before the terminating zero that is added. -/
def cmdReadOut (debugging : Bool) (chunks : List Bytes) (sig : Nat) (strsignal : Nat → Bytes) : Bytes :=
  if debugging then []
  else
    let (out, total) := readLoop chunks ([], 0)
    if sig ≠ 0 then out.take total ++ sigLine (strsignal sig) else out.take total

/-- The file part of `cmd_log`, `src/cmd.c:288-329`. -/
def cmdLog (cookie out : Bytes) (s : Store) : Store :=
  match out with
  | [] => s.remove (cookie ++ b!".log")
  | ch :: _ => if ch = NUL then s.remove (cookie ++ b!".log") else s.write (cookie ++ b!".log") (cstr out)

/-! ## Waiting before reading -/

inductive Parent where
  /-- in `wait_for_process` -/
  | waiting
  /-- in `cmd_read_out` -/
  | reading
  | done
deriving DecidableEq, Repr

/-- A child that writes a number of bytes into a pipe and exits, and bob, which waits for it to exit and only then reads. -/
structure PipeSt where
  /-- bytes the child still has to write -/
  left : Nat
  exited : Bool
  /-- bytes in the pipe -/
  fill : Nat
  /-- bytes bob has read -/
  got : Nat
  parent : Parent
deriving DecidableEq, Repr

/-- One step, for a pipe of the given capacity.  Writing to a full pipe and reading from an empty one that is still open block. -/
inductive PipeStep (cap : Nat) : PipeSt → PipeSt → Prop where
  | write {s : PipeSt} (k : Nat) (hk : 0 < k) (h1 : k ≤ s.left) (h2 : s.fill + k ≤ cap) :
      PipeStep cap s { s with left := s.left - k, fill := s.fill + k }
  | exit {s : PipeSt} (h : s.left = 0) (he : s.exited = false) : PipeStep cap s { s with exited := true }
  | reap {s : PipeSt} (hp : s.parent = .waiting) (he : s.exited = true) : PipeStep cap s { s with parent := .reading }
  | read {s : PipeSt} (k : Nat) (hk : 0 < k) (h : k ≤ s.fill) (hp : s.parent = .reading) :
      PipeStep cap s { s with fill := s.fill - k, got := s.got + k }
  | eof {s : PipeSt} (hp : s.parent = .reading) (h : s.fill = 0) (he : s.exited = true) : PipeStep cap s { s with parent := .done }

def PipeSt.init (n : Nat) : PipeSt := { left := n, exited := false, fill := 0, got := 0, parent := .waiting }

end Bob
