import Verif.Model.Build
/-!
# Several bobs in one directory: `src/main.c`

Nothing in bob keeps a second bob from being started in the same directory while the first one builds: `main`
(`src/main.c:63-257`) takes no lock, and neither do `cc.c`, `linker.c`, `frugal.c` and `install.c`.  Each bob is a build
(`Verif.Model.Build`) of its own, with its own main thread, workers and pipes; what they share are the files and the clock.

Simplifications: those of `Verif.Model.Build`.  In particular writing a file and running the compiler or linker are atomic, so two
compilers writing the same object in turns is not considered.
-/

namespace Bob

/-- A bob: its install map and prefix, its number of workers (`src/ncpu.c:26`), and its build steps. -/
structure Proc where
  c : InstCfg
  n : Nat
  reqs : List Req

/-- The same point of a build, with other files and at another time. -/
def Cfg.onDisk (fs : FS) (t : Nat) : Cfg → Cfg
  | .idle r s => .idle r { s with fs := fs, now := t }
  | .validating a b r s => .validating a b r { s with fs := fs, now := t }
  | .pooling a r p => .pooling a r { p with store := { p.store with fs := fs, now := t } }
  | .linking j r s => .linking j r { s with fs := fs, now := t }
  | .linkRan ok j r s => .linkRan ok j r { s with fs := fs, now := t }
  | .linked j r s => .linked j r { s with fs := fs, now := t }
  | .finished ok s => .finished ok { s with fs := fs, now := t }

/-- The files, the clock, and where each bob is. -/
structure Crowd where
  fs : FS
  now : Nat
  procs : List Cfg

/-- Each bob is at the beginning of `run_build_steps`, `src/build_step.c`.  A bob that is started later is one that does
nothing before. -/
def Crowd.start (ps : List Proc) (s : Store) : Crowd := ⟨s.fs, s.now, ps.map fun p => .idle p.reqs s⟩

/-- The files and the clock. -/
def Crowd.store (m : Crowd) : Store := ⟨m.fs, m.now, [], fun _ => []⟩

/-- One of the bobs does something.  A bob that does nothing any more may have been killed. -/
inductive CrowdNext (tc : Toolchain) (ps : List Proc) : Crowd → Crowd → Prop where
  | act {m i p a b} (hp : ps[i]? = some p) (ha : m.procs[i]? = some a) (h : BuildNext tc p.c p.n (a.onDisk m.fs m.now) b) :
      CrowdNext tc ps m ⟨b.store.fs, b.store.now, m.procs.set i b⟩

def CrowdReaches (tc : Toolchain) (ps : List Proc) (s : Store) (m : Crowd) : Prop :=
  Steps (CrowdNext tc ps) (Crowd.start ps s) m

end Bob
