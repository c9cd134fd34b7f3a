import Verif.Model.Frugal
import Verif.Model.Pool
/-!
# Builds: `src/class/cc.c`, `src/class/linker.c`, and the part of `src/install.c` used while building

A build is a transition system (`BuildNext`).  Every configuration it can reach is a point at which bob can be
killed.

Simplifications: the file system is a map from path strings to regular files with a content and a modification
time in seconds; directories, permissions and links are left out (`Verif.Model.Install` has directories).
Writing a file and running the compiler or linker are atomic (so a compiler killed halfway through writing its output
is not considered).  External programs are functions of the files they
are given (`Toolchain`).  Output lines announcing progress are not modelled, replayed diagnostics are.
-/

namespace Bob

structure File where
  content : Bytes
  mtime : Nat
deriving DecidableEq, Repr

abbrev FS := Bytes → Option File

/-- `stat(2)` of a path. -/
def FS.stat (fs : FS) (p : Bytes) : StatRes :=
  match fs p with
  | some f => .ok f.mtime
  | none => .enoent

def FS.content (fs : FS) (p : Bytes) : Option Bytes := (fs p).map (·.content)

def FS.set (fs : FS) (p : Bytes) (f : Option File) : FS := fun q => if q = p then f else fs q

/-- External commands run by a build, and messages about skipped work. -/
inductive BEvent where
  | compiled (src out : Bytes) (flags : List Bytes)
  | linked (out : Bytes) (srcs flags : List Bytes)
  /-- `log_already_done`: the log that is shown again, if there is one -/
  | already (out : Bytes) (log : Option Bytes)
  | installed (out dst : Bytes)
deriving DecidableEq, Repr

structure Store where
  fs : FS
  /-- the clock, in seconds -/
  now : Nat
  trace : List BEvent
  /-- what the command that made a product printed: the pipe of its `cmd_t` -/
  buf : Bytes → Bytes

def Store.write (s : Store) (p content : Bytes) : Store :=
  { s with fs := s.fs.set p (some ⟨content, s.now⟩) }

def Store.remove (s : Store) (p : Bytes) : Store := { s with fs := s.fs.set p none }

def Store.capture (s : Store) (out output : Bytes) : Store :=
  { s with buf := fun p => if p = out then output else s.buf p }

def Store.emit (s : Store) (e : BEvent) : Store := { s with trace := s.trace ++ [e] }

def depsPath (out : Bytes) : Bytes := out ++ b!".deps"
def flagsPath (out : Bytes) : Bytes := out ++ b!".flags"
def logPath (out : Bytes) : Bytes := out ++ b!".log"

/-- The external compiler, linker and archiver. -/
structure Toolchain where
  /-- the prerequisites printed by `cc -MM`, each with the way it is separated from the one before; `none`: it failed -/
  deps : FS → Bytes → List Bytes → Option (List (Bool × Bytes))
  /-- `cc -c`: content of the object file; `none`: it failed -/
  obj : FS → Bytes → List Bytes → Option Bytes
  /-- what `cc -c` prints -/
  diag : FS → Bytes → List Bytes → Bytes
  /-- whether a failing `cc -c` removes an object that existed before -/
  objFailRemoves : FS → Bytes → List Bytes → Bool
  /-- the linker, or (`true`) the archiver: content of its output -/
  link : Bool → FS → List Bytes → List Bytes → Option Bytes
  linkDiag : Bool → FS → List Bytes → List Bytes → Bytes
  linkFailRemoves : Bool → FS → List Bytes → List Bytes → Bool

/-- One source of a compile request: `src_vec[j]`, `out_vec[j]` and the flags of its `Cc`, `src/class/cc.c:244-265`. -/
structure CJob where
  src : Bytes
  out : Bytes
  flags : List Bytes
deriving DecidableEq, Repr

/-- A link or archive request, `src/class/linker.c:30-41`. -/
structure LJob where
  archive : Bool
  srcs : List Bytes
  out : Bytes
  flags : List Bytes
deriving DecidableEq, Repr

/-- The install map and the prefix in force, `src/install.c:16-17`.  `bad` are the destinations for which creating
the directory or copying fails. -/
structure InstCfg where
  pre : Option Bytes
  map : List (Bytes × Bytes)
  bad : Bytes → Bool

/-- Where a build product goes: the first entry of the map for it, `src/install.c:204-232`. -/
def InstCfg.dest (c : InstCfg) (out : Bytes) : Option Bytes :=
  c.pre.bind fun pre => (c.map.find? fun e => e.1 == out).map fun e => pre ++ b!"/" ++ e.2

/-- `install_cookie`, `src/install.c:234-247`, with `install_single`, `src/install.c:80-183`.  The flag is true if it
succeeded.  Compare `Verif.Model.Install` for the directories. -/
def installCookie (c : InstCfg) (out : Bytes) (s : Store) : Store × Bool :=
  match c.dest out with
  | none => (s, true)
  | some dst =>
    match s.fs out with
    | none => (s, false)
    | some f =>
      if c.bad dst then (s, false)
      else match frugalMtime s.fs.stat [out] dst with
        | none => (s, false)
        | some false => (s, true)
        | some true => ((s.write dst f.content).emit (.installed out dst), true)

/-- `frugal_flags` on the file system, `src/frugal.c:15-87`. -/
def checkFlags (out : Bytes) (flags : List Bytes) (s : Store) : Store × Bool :=
  match frugalFlags (s.fs.content (flagsPath out)) true flags with
  | (true, some rec) => (s.write (flagsPath out) rec, true)
  | (b, _) => (s, b)

inductive Validation where
  | err | skip | compile
deriving DecidableEq, Repr

/-- `validate_requirements`, `src/class/cc.c:168-233`. -/
def validate (j : CJob) (s : Store) : Store × Validation :=
  match checkFlags j.out j.flags s with
  | (s, true) => (s, .compile)
  | (s, false) =>
    match s.fs.content (depsPath j.out) with
    | none => (s, .compile)
    | some text =>
      match frugalMtime s.fs.stat (j.src :: readDeps text) j.out with
      | none => (s, .err)
      | some true => (s, .compile)
      | some false => (s, .skip)

/-- `cmd_log`, `src/cmd.c:288-329`: writes the output of a command next to its product, or removes an old log. -/
def writeLog (out output : Bytes) (s : Store) : Store :=
  if cstr output = [] then s.remove (logPath out) else s.write (logPath out) (cstr output)

/-- `get_include_deps`, `src/class/cc.c:54-108`, as run by a compile task. -/
def depsOp (tc : Toolchain) (j : CJob) : TaskOp Store := fun f s =>
  match tc.deps s.fs j.src j.flags with
  | none => (s, f)
  | some items => (s.write (depsPath j.out) (depsText (ruleText items)), f)

/-- Running the compiler, `src/class/cc.c:131-137`. -/
def objOp (tc : Toolchain) (j : CJob) : TaskOp Store := fun f s =>
  let s' := (s.emit (.compiled j.src j.out j.flags)).capture j.out (tc.diag s.fs j.src j.flags)
  match tc.obj s.fs j.src j.flags with
  | some c => (s'.write j.out c, f)
  | none => (if tc.objFailRemoves s.fs j.src j.flags then s'.remove j.out else s', true)

/-- Recording the compiler's output, `src/class/cc.c:143-145`. -/
def logOp (j : CJob) : TaskOp Store := fun f s => (writeLog j.out (s.buf j.out) s, f)

/-- `src/class/cc.c:147-149`. -/
def instOp (c : InstCfg) (j : CJob) : TaskOp Store := fun f s =>
  if f then (s, true)
  else ((installCookie c j.out s).1, !(installCookie c j.out s).2)

/-- `compile_task`, `src/class/cc.c:110-160`. -/
def compileTask (tc : Toolchain) (c : InstCfg) (j : CJob) : List (TaskOp Store) :=
  [depsOp tc j, objOp tc j, logOp j, instOp c j]

/-- The tasks of a pool. -/
def taskProg (tc : Toolchain) (c : InstCfg) (tasks : List CJob) (i : Nat) : List (TaskOp Store) :=
  match tasks[i]? with
  | some j => compileTask tc c j
  | none => []

/-- A build step after grouping (`Verif.Model.BuildStep`): all sources of neighbouring compile requests of one `Cc`,
or one link request. -/
inductive Req where
  | compile (jobs : List CJob)
  | link (job : LJob)
deriving DecidableEq, Repr

/-- Where a build is. -/
inductive Cfg where
  /-- between steps -/
  | idle (rest : List Req) (s : Store)
  /-- in the loop of `compile_step`, `src/class/cc.c:240-284`; `tasks` were added to the pool -/
  | validating (todo tasks : List CJob) (rest : List Req) (s : Store)
  /-- in `pool_wait`, `src/class/cc.c:286` -/
  | pooling (tasks : List CJob) (rest : List Req) (pool : Pool Store)
  /-- `src/class/linker.c:91` -/
  | linking (j : LJob) (rest : List Req) (s : Store)
  /-- `src/class/linker.c:147`; `true`: the linker succeeded -/
  | linkRan (ok : Bool) (j : LJob) (rest : List Req) (s : Store)
  /-- `src/class/linker.c:150` -/
  | linked (j : LJob) (rest : List Req) (s : Store)
  /-- `run_build_steps` returned, `true`: success -/
  | finished (ok : Bool) (s : Store)

def Cfg.store : Cfg → Store
  | .idle _ s => s
  | .validating _ _ _ s => s
  | .pooling _ _ p => p.store
  | .linking _ _ s => s
  | .linkRan _ _ _ s => s
  | .linked _ _ s => s
  | .finished _ s => s

/-- The decision of `link_step`, `src/class/linker.c:68-82`: whether to run the linker. -/
def linkCheck (j : LJob) (s : Store) : Store × Bool :=
  match checkFlags j.out j.flags s with
  | (s, true) => (s, true)
  | (s, false) =>
    match frugalMtime s.fs.stat j.srcs j.out with
    | some false => (s, false)
    | _ => (s, true)

/-- Running the linker, `src/class/linker.c:141-145`.  `-L<prefix>/lib` is left out, and so is that `ar` keeps members of
an archive that exists (`Verif.Model.Archive` has that). -/
def linkOp (tc : Toolchain) (j : LJob) (s : Store) : Store × Bool :=
  let s' := (s.emit (.linked j.out j.srcs j.flags)).capture j.out (tc.linkDiag j.archive s.fs j.srcs j.flags)
  match tc.link j.archive s.fs j.srcs j.flags with
  | some c => (s'.write j.out c, true)
  | none => (if tc.linkFailRemoves j.archive s.fs j.srcs j.flags then s'.remove j.out else s', false)

/-- After a step: go on, or stop the build, `src/build_step.c` (`run_build_steps`). -/
def afterStep (rest : List Req) (r : Store × Bool) : Cfg :=
  if r.2 then .idle rest r.1 else .finished false r.1

/-- The main thread's next action outside of `pool_wait`. -/
def seqNext (tc : Toolchain) (c : InstCfg) : Cfg → Option Cfg
  | .idle [] s => some (.finished true s)
  | .idle (.compile jobs :: rest) s => some (.validating jobs [] rest s)
  | .validating (j :: todo) tasks rest s =>
    match validate j s with
    | (s, .compile) => some (.validating todo (tasks ++ [j]) rest s)
    | (s, .err) => some (.finished false s)
    | (s, .skip) =>
      match installCookie c j.out (s.emit (.already j.out (s.fs.content (logPath j.out)))) with
      | (s, true) => some (.validating todo tasks rest s)
      | (s, false) => some (.finished false s)
  | .validating [] tasks rest s => some (.pooling tasks rest (Pool.init tasks.length s))
  | .pooling _ _ _ => none
  | .idle (.link j :: rest) s =>
    match linkCheck j s with
    | (s, true) => some (.linking j rest s)
    | (s, false) => some (afterStep rest (installCookie c j.out (s.emit (.already j.out (s.fs.content (logPath j.out))))))
  | .linking j rest s =>
    match linkOp tc j s with
    | (s, ok) => some (.linkRan ok j rest s)
  | .linkRan true j rest s => some (.linked j rest (writeLog j.out (s.buf j.out) s))
  | .linkRan false j _ s => some (.finished false (writeLog j.out (s.buf j.out) s))
  | .linked j rest s => some (afterStep rest (installCookie c j.out s))
  | .finished _ _ => none

/-- The clock moves on. -/
def Tick (s s' : Store) : Prop := ∃ t, s.now ≤ t ∧ s' = { s with now := t }

def Cfg.withNow (t : Nat) : Cfg → Cfg
  | .idle r s => .idle r { s with now := t }
  | .validating a b r s => .validating a b r { s with now := t }
  | .pooling a r p => .pooling a r { p with store := { p.store with now := t } }
  | .linking j r s => .linking j r { s with now := t }
  | .linkRan ok j r s => .linkRan ok j r { s with now := t }
  | .linked j r s => .linked j r { s with now := t }
  | .finished ok s => .finished ok { s with now := t }

/-- One transition of a build with `n` workers. -/
inductive BuildNext (tc : Toolchain) (c : InstCfg) (n : Nat) : Cfg → Cfg → Prop where
  | seq {a b} (h : seqNext tc c a = some b) : BuildNext tc c n a b
  | tick {a} (t : Nat) (h : a.store.now ≤ t) : BuildNext tc c n a (a.withNow t)
  | pool {tasks rest p p'} (h : PoolStep (taskProg tc c tasks) n (fun _ _ => False) p p') :
      BuildNext tc c n (.pooling tasks rest p) (.pooling tasks rest p')
  | join {tasks rest p} (h : p.Joined n) :
      BuildNext tc c n (.pooling tasks rest p) (afterStep rest (p.store, p.waitOk))

/-- Building a list of steps reaches a configuration. -/
def BuildReaches (tc : Toolchain) (c : InstCfg) (n : Nat) (reqs : List Req) (s : Store) (cfg : Cfg) : Prop :=
  Steps (BuildNext tc c n) (.idle reqs s) cfg

end Bob
