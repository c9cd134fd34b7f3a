import Verif.Model.Build
import Verif.Model.Install
/-!
# Who owns what a build makes

A build of `Verif.Model.Build` together with the owner of every file and, for every thread, the path it is about to give to `set_owner`.  The calls are the ones at
`src/frugal.c:84`, `src/class/cc.c:107` and `140`, `src/class/linker.c:144` and `src/cmd.c:328`; between making a file and the call other threads can act.

A file that is made belongs to the user bob runs as, one that is only written to keeps its owner.  The compiler, the linker and the archiver may put a new file in the place of their output,
or write to it; `cp` writes to a destination that exists, `fopen` does anyway.

Simplifications: the ones of `Verif.Model.Build`, in particular that paths are different files if they are different strings; `chown` by root succeeds.
-/

namespace Bob

/-- What does not change during a run: the user bob runs as, `owner` and `abs_out_path` (`src/main.c:139-160`), and what `realpath` makes of a path that exists. -/
structure Owners where
  me : Nat
  owner : Nat
  absOut : Bytes
  full : Bytes → Bytes

/-- What `set_owner` knows at a time. -/
def Owners.env (e : Owners) (fs : FS) : OwnEnv where
  root := e.me == 0
  owner := e.owner
  absOut := some e.absOut
  realpath p := if (fs p).isSome then some (e.full p) else none

/-- Calls of `chown`. -/
def chowns (l : List (Bytes × Nat)) (own : Bytes → Nat) : Bytes → Nat :=
  l.foldl (fun o x p => if p = x.1 then x.2 else o p) own

/-- A build with the owners of the files, and what each thread (`none` is the main one) is about to give to `set_owner`. -/
structure OCfg where
  cfg : Cfg
  own : Bytes → Nat
  due : Option Nat → Option Bytes

/-- The path given to `set_owner` at the end of `frugal_flags`, `src/frugal.c:84`. -/
def dueFlags (out : Bytes) (flags : List Bytes) (s : Store) : Option Bytes :=
  match frugalFlags (s.fs.content (flagsPath out)) true flags with
  | (true, some _) => some (flagsPath out)
  | _ => none

/-- The path given to `set_owner` at the end of `cmd_log`, `src/cmd.c:314-328`. -/
def dueLog (out output : Bytes) : Option Bytes := if cstr output = [] then none else some (logPath out)

/-- What the main thread is about to give to `set_owner` after its next action. -/
def dueMain (tc : Toolchain) : Cfg → Option Bytes
  | .validating (j :: _) _ _ s => dueFlags j.out j.flags s
  | .idle (.link j :: _) s => dueFlags j.out j.flags s
  | .linking j _ s => if (tc.link j.archive s.fs j.srcs j.flags).isSome then some j.out else none
  | .linkRan _ j _ s => dueLog j.out (s.buf j.out)
  | _ => none

/-- The same for action `k` of a compile task: `src/class/cc.c:70-107`, `135-141`, `144` and `147`. -/
def dueTask (tc : Toolchain) (j : CJob) (k : Nat) (s : Store) : Option Bytes :=
  match k with
  | 0 => if (tc.deps s.fs j.src j.flags).isSome then some (depsPath j.out) else none
  | 1 => if (tc.obj s.fs j.src j.flags).isSome then some j.out else none
  | 2 => dueLog j.out (s.buf j.out)
  | _ => none

/-- The same for a worker. -/
def dueWork (tc : Toolchain) (tasks : List CJob) (p : Pool Store) (w : Nat) : Option Bytes :=
  match p.pc w with
  | .run i k _ => match tasks[i]? with
    | some j => dueTask tc j k p.store
    | none => none
  | _ => none

/-- The owners after an action: files that were not there, and those that were replaced, belong to the user bob runs as. -/
def ownAfter (me : Nat) (anew : Bytes → Bool) (a b : Store) (own : Bytes → Nat) : Bytes → Nat := fun p =>
  if (b.fs p).isSome && ((a.fs p).isNone || anew p) then me else own p

def OCfg.setDue (due : Option Nat → Option Bytes) (t : Option Nat) (p : Option Bytes) : Option Nat → Option Bytes := fun u => if u = t then p else due u

/-- One transition of a build with `n` workers: an action of a thread that is not about to call `set_owner`, or a call of it.  What an action replaces is at most what it then gives to
`set_owner`: the output of a compiler, linker or archiver. -/
inductive OStep (e : Owners) (tc : Toolchain) (c : InstCfg) (n : Nat) : OCfg → OCfg → Prop where
  | main {a b own due} (anew : Bytes → Bool) (ha : ∀ p, anew p = true → dueMain tc a = some p) (hd : due none = none) (h : seqNext tc c a = some b) :
      OStep e tc c n ⟨a, own, due⟩ ⟨b, ownAfter e.me anew a.store b.store own, OCfg.setDue due none (dueMain tc a)⟩
  | work {tasks rest p p' own due} (anew : Bytes → Bool) (w : Nat) (hw : w < n) (ha : ∀ q, anew q = true → dueWork tc tasks p w = some q) (hd : due (some w) = none)
      (h : workStep (taskProg tc c tasks) p w = some p') :
      OStep e tc c n ⟨.pooling tasks rest p, own, due⟩
        ⟨.pooling tasks rest p', ownAfter e.me anew p.store p'.store own, OCfg.setDue due (some w) (dueWork tc tasks p w)⟩
  | join {tasks rest p own due} (h : p.Joined n) : OStep e tc c n ⟨.pooling tasks rest p, own, due⟩ ⟨afterStep rest (p.store, p.waitOk), own, due⟩
  | tick {a own due} (t : Nat) (h : a.store.now ≤ t) : OStep e tc c n ⟨a, own, due⟩ ⟨a.withNow t, own, due⟩
  | chown {a own due} (t : Option Nat) (p : Bytes) (h : due t = some p) :
      OStep e tc c n ⟨a, own, due⟩ ⟨a, chowns (setOwner (e.env a.store.fs) p) own, OCfg.setDue due t none⟩

/-- A build of `reqs` from the files `s`, owned as `own` says, reaches a configuration. -/
def OReaches (e : Owners) (tc : Toolchain) (c : InstCfg) (n : Nat) (reqs : List Req) (s : Store) (own : Bytes → Nat) (o : OCfg) : Prop :=
  Steps (OStep e tc c n) ⟨.idle reqs s, own, fun _ => none⟩ o

/-! ## Directories -/

/-- `mkdir_wrapped`, `src/fsutil.c:127-140`, where it succeeds: `there` says whether there is something already.  The owner of the path afterwards. -/
def mkdirOwn (me : Nat) (e : OwnEnv) (there : Bool) (path : Bytes) (own : Bytes → Nat) : Bytes → Nat :=
  if there then own else chowns (setOwner e path) fun p => if p = path then me else own p

/-- The directories made by a run before building: the output directory (`src/main.c:153`), where `abs_out_path` is not yet known, the prefix of `run` and `sh` (`src/bsys.c:107`), and that of
the build system (`src/bsys.c:41-46`).  `there` says which of them exist. -/
def dirsOwn (e : Owners) (there : Bytes → Bool) (out : Bytes) (toPrefix : Bool) (own : Bytes → Nat) : Bytes → Nat :=
  let env : OwnEnv := { root := e.me == 0, owner := e.owner, absOut := some e.absOut, realpath := fun p => some (e.full p) }
  let own := mkdirOwn e.me { env with absOut := none } (there out) out own
  let own := if toPrefix then mkdirOwn e.me env (there (out ++ b!"/prefix")) (out ++ b!"/prefix") own else own
  let own := mkdirOwn e.me env (there (out ++ b!"/bob")) (out ++ b!"/bob") own
  chowns (setOwner env (out ++ b!"/bob")) own

/-! ## Installing -/

/-- The tree of `Verif.Model.Install` and the owners of what is in it, while bob installs: what appears belongs to the user bob runs as, and `set_owner`, called by `mkdir_wrapped`
(`src/fsutil.c:135`), gives away only what has an absolute path that starts with that of the output directory. -/
inductive TreeOwn (e : Owners) : Tree × (Path → Nat) → Tree × (Path → Nat) → Prop where
  | change (t t' : Tree) (own : Path → Nat) : TreeOwn e (t, own) (t', fun p => if (t' p).isSome && (t p).isNone then e.me else own p)
  | chown (t : Tree) (own : Path → Nat) (p : Path) (h : isCookie e.absOut (pathStr p) = true) : TreeOwn e (t, own) (t, fun q => if q = p then e.owner else own q)

end Bob
