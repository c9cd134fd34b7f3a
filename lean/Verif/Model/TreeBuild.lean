import Verif.Model.Build
import Verif.Model.Install
/-!
# Builds on a file system with directories

`Verif.Model.Build` has a map from path strings to files, in which everything can be written.  Here the same program runs on the tree of `Verif.Model.Install`: a file can be written only where there
is a directory for it, `stat` follows paths, and products are installed by `install_single` with the directories it makes.  The definitions follow those of `Verif.Model.Build` one by one.

Simplifications: those of `Verif.Model.Install` (no links) and of `Verif.Model.Build` (running a tool is atomic).  Tools see the files under the names in `known`; the other names there are for a file
(`./a`, `b/../a`) they do not use.  The assertion at `src/install.c:101` (a product is outside of the output directory) is a failure here.
-/

namespace Bob

/-- What does not change during a build: what the system refuses, the working directory, `abs_out_path`, the prefix and the map (`src/install.c:16-17`), and the names the tools use. -/
structure TEnv where
  deny : Deny
  cwd : Path
  absOut : Bytes
  pre : Option Bytes
  map : List (Bytes × Bytes)
  known : Bytes → Bool

/-- The same without the prefix. -/
def TEnv.inst (e : TEnv) (pre : Bytes) : InstEnv := { deny := e.deny, cwd := e.cwd, absOut := e.absOut, pre := pre }

/-- The file with a name. -/
def Tree.fileAt (t : Tree) (cwd : Path) (s : Bytes) : Option File :=
  match t.stat cwd s with
  | .ok (_, .file c m) => some ⟨c, m⟩
  | _ => none

/-- What tools see of the tree. -/
def Tree.view (t : Tree) (cwd : Path) (known : Bytes → Bool) : FS := fun s => if known s then t.fileAt cwd s else none

/-- Writing a file, with `fopen` or by a tool.  `none`: there is no directory for it, or it is a directory. -/
def Tree.put (t : Tree) (cwd : Path) (now : Nat) (s content : Bytes) : Option Tree :=
  match t.resolve cwd s with
  | .error _ => none
  | .ok p => match t p with
    | some (.dir _) => none
    | some (.file _ _) => some (t.set p (.file content now))
    | none => some ((t.set p (.file content now)).touch p.dropLast now)

/-- Removing a file, if it is one. -/
def Tree.del (t : Tree) (cwd : Path) (now : Nat) (s : Bytes) : Tree :=
  match t.resolve cwd s with
  | .error _ => t
  | .ok p => match t p with
    | some (.file _ _) => Tree.touch (fun q => if q = p then none else t q) p.dropLast now
    | _ => t

structure TStore where
  tree : Tree
  now : Nat
  trace : List BEvent
  buf : Bytes → Bytes

def TStore.view (e : TEnv) (s : TStore) : FS := s.tree.view e.cwd e.known

def TStore.read (e : TEnv) (s : TStore) (p : Bytes) : Option Bytes := (s.tree.fileAt e.cwd p).map (·.content)

def TStore.stat (e : TEnv) (s : TStore) : Bytes → StatRes := s.tree.statRes e.cwd

def TStore.write (e : TEnv) (s : TStore) (p content : Bytes) : Option TStore :=
  (s.tree.put e.cwd s.now p content).map fun t => { s with tree := t }

def TStore.remove (e : TEnv) (s : TStore) (p : Bytes) : TStore := { s with tree := s.tree.del e.cwd s.now p }

def TStore.capture (s : TStore) (out output : Bytes) : TStore := { s with buf := fun p => if p = out then output else s.buf p }

def TStore.emit (s : TStore) (ev : BEvent) : TStore := { s with trace := s.trace ++ [ev] }

/-- `install_cookie`, `src/install.c:234-247`: `install_single` for the first entry of the map. -/
def tInstall (e : TEnv) (out : Bytes) (s : TStore) : TStore × Bool :=
  match e.pre with
  | none => (s, true)
  | some pre => match e.map.find? (fun x => x.1 == out) with
    | none => (s, true)
    | some x => match installSingle (e.inst pre) out x.2 true s.now s.tree with
      | .copied t => ({ s with tree := t }.emit (.installed out (pre ++ b!"/" ++ x.2)), true)
      | .already t => ({ s with tree := t }, true)
      | .failed t => ({ s with tree := t }, false)
      | .abort => (s, false)
      | .product => (s, true)

/-- `frugal_flags`, `src/frugal.c:15-87`; that the flags cannot be written is ignored. -/
def tCheckFlags (e : TEnv) (out : Bytes) (flags : List Bytes) (s : TStore) : TStore × Bool :=
  match frugalFlags (s.read e (flagsPath out)) true flags with
  | (true, some rec) => ((s.write e (flagsPath out) rec).getD s, true)
  | (b, _) => (s, b)

/-- `validate_requirements`, `src/class/cc.c:168-233`. -/
def tValidate (e : TEnv) (j : CJob) (s : TStore) : TStore × Validation :=
  match tCheckFlags e j.out j.flags s with
  | (s, true) => (s, .compile)
  | (s, false) =>
    match s.read e (depsPath j.out) with
    | none => (s, .compile)
    | some text =>
      match frugalMtime (s.stat e) (j.src :: readDeps text) j.out with
      | none => (s, .err)
      | some true => (s, .compile)
      | some false => (s, .skip)

/-- `cmd_log`, `src/cmd.c:288-329`. -/
def tLog (e : TEnv) (out output : Bytes) (s : TStore) : TStore :=
  if cstr output = [] then s.remove e (logPath out) else (s.write e (logPath out) (cstr output)).getD s

/-- `get_include_deps`, `src/class/cc.c:54-108`; its failure is ignored. -/
def tDepsOp (e : TEnv) (tc : Toolchain) (j : CJob) : TaskOp TStore := fun f s =>
  match tc.deps (s.view e) j.src j.flags with
  | none => (s, f)
  | some items => ((s.write e (depsPath j.out) (depsText (ruleText items))).getD s, f)

/-- Running the compiler, `src/class/cc.c:131-137`; it fails if it cannot write its output. -/
def tObjOp (e : TEnv) (tc : Toolchain) (j : CJob) : TaskOp TStore := fun f s =>
  let s' := (s.emit (.compiled j.src j.out j.flags)).capture j.out (tc.diag (s.view e) j.src j.flags)
  match tc.obj (s.view e) j.src j.flags with
  | some c => match s'.write e j.out c with
    | some s' => (s', f)
    | none => (s', true)
  | none => (if tc.objFailRemoves (s.view e) j.src j.flags then s'.remove e j.out else s', true)

/-- `src/class/cc.c:143-145`. -/
def tLogOp (e : TEnv) (j : CJob) : TaskOp TStore := fun f s => (tLog e j.out (s.buf j.out) s, f)

/-- `src/class/cc.c:147-149`. -/
def tInstOp (e : TEnv) (j : CJob) : TaskOp TStore := fun f s =>
  if f then (s, true)
  else ((tInstall e j.out s).1, !(tInstall e j.out s).2)

/-- `compile_task`, `src/class/cc.c:110-160`. -/
def tTask (e : TEnv) (tc : Toolchain) (j : CJob) : List (TaskOp TStore) := [tDepsOp e tc j, tObjOp e tc j, tLogOp e j, tInstOp e j]

/-- The tasks of a pool. -/
def tTaskProg (e : TEnv) (tc : Toolchain) (tasks : List CJob) (i : Nat) : List (TaskOp TStore) :=
  match tasks[i]? with
  | some j => tTask e tc j
  | none => []

/-- Where a build is; compare `Cfg`. -/
inductive TCfg where
  | idle (rest : List Req) (s : TStore)
  | validating (todo tasks : List CJob) (rest : List Req) (s : TStore)
  | pooling (tasks : List CJob) (rest : List Req) (pool : Pool TStore)
  | linking (j : LJob) (rest : List Req) (s : TStore)
  | linkRan (ok : Bool) (j : LJob) (rest : List Req) (s : TStore)
  | linked (j : LJob) (rest : List Req) (s : TStore)
  | finished (ok : Bool) (s : TStore)

def TCfg.store : TCfg → TStore
  | .idle _ s => s
  | .validating _ _ _ s => s
  | .pooling _ _ p => p.store
  | .linking _ _ s => s
  | .linkRan _ _ _ s => s
  | .linked _ _ s => s
  | .finished _ s => s

/-- `src/class/linker.c:68-82`. -/
def tLinkCheck (e : TEnv) (j : LJob) (s : TStore) : TStore × Bool :=
  match tCheckFlags e j.out j.flags s with
  | (s, true) => (s, true)
  | (s, false) =>
    match frugalMtime (s.stat e) j.srcs j.out with
    | some false => (s, false)
    | _ => (s, true)

/-- Running the linker, `src/class/linker.c:141-145`. -/
def tLinkOp (e : TEnv) (tc : Toolchain) (j : LJob) (s : TStore) : TStore × Bool :=
  let s' := (s.emit (.linked j.out j.srcs j.flags)).capture j.out (tc.linkDiag j.archive (s.view e) j.srcs j.flags)
  match tc.link j.archive (s.view e) j.srcs j.flags with
  | some c => match s'.write e j.out c with
    | some s' => (s', true)
    | none => (s', false)
  | none => (if tc.linkFailRemoves j.archive (s.view e) j.srcs j.flags then s'.remove e j.out else s', false)

def tAfter (rest : List Req) (r : TStore × Bool) : TCfg := if r.2 then .idle rest r.1 else .finished false r.1

def TStore.already (e : TEnv) (out : Bytes) (s : TStore) : TStore := s.emit (.already out (s.read e (logPath out)))

/-- The main thread's next action outside of `pool_wait`. -/
def tSeqNext (e : TEnv) (tc : Toolchain) : TCfg → Option TCfg
  | .idle [] s => some (.finished true s)
  | .idle (.compile jobs :: rest) s => some (.validating jobs [] rest s)
  | .validating (j :: todo) tasks rest s =>
    match tValidate e j s with
    | (s, .compile) => some (.validating todo (tasks ++ [j]) rest s)
    | (s, .err) => some (.finished false s)
    | (s, .skip) =>
      match tInstall e j.out (s.already e j.out) with
      | (s, true) => some (.validating todo tasks rest s)
      | (s, false) => some (.finished false s)
  | .validating [] tasks rest s => some (.pooling tasks rest (Pool.init tasks.length s))
  | .pooling _ _ _ => none
  | .idle (.link j :: rest) s =>
    match tLinkCheck e j s with
    | (s, true) => some (.linking j rest s)
    | (s, false) => some (tAfter rest (tInstall e j.out (s.already e j.out)))
  | .linking j rest s =>
    match tLinkOp e tc j s with
    | (s, ok) => some (.linkRan ok j rest s)
  | .linkRan true j rest s => some (.linked j rest (tLog e j.out (s.buf j.out) s))
  | .linkRan false j _ s => some (.finished false (tLog e j.out (s.buf j.out) s))
  | .linked j rest s => some (tAfter rest (tInstall e j.out s))
  | .finished _ _ => none

def TCfg.withNow (t : Nat) : TCfg → TCfg
  | .idle r s => .idle r { s with now := t }
  | .validating a b r s => .validating a b r { s with now := t }
  | .pooling a r p => .pooling a r { p with store := { p.store with now := t } }
  | .linking j r s => .linking j r { s with now := t }
  | .linkRan ok j r s => .linkRan ok j r { s with now := t }
  | .linked j r s => .linked j r { s with now := t }
  | .finished ok s => .finished ok { s with now := t }

/-- One transition of a build with `n` workers. -/
inductive TBuildNext (e : TEnv) (tc : Toolchain) (n : Nat) : TCfg → TCfg → Prop where
  | seq {a b} (h : tSeqNext e tc a = some b) : TBuildNext e tc n a b
  | tick {a} (t : Nat) (h : a.store.now ≤ t) : TBuildNext e tc n a (a.withNow t)
  | pool {tasks rest p p'} (h : PoolStep (tTaskProg e tc tasks) n (fun _ _ => False) p p') : TBuildNext e tc n (.pooling tasks rest p) (.pooling tasks rest p')
  | join {tasks rest p} (h : p.Joined n) : TBuildNext e tc n (.pooling tasks rest p) (tAfter rest (p.store, p.waitOk))

/-- Building a list of steps reaches a configuration. -/
def TBuildReaches (e : TEnv) (tc : Toolchain) (n : Nat) (reqs : List Req) (s : TStore) (cfg : TCfg) : Prop :=
  Steps (TBuildNext e tc n) (.idle reqs s) cfg

end Bob
