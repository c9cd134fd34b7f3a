import Verif.Model.Crowd
import Verif.Spec.Build
/-!
# What is assumed about several bobs in one directory
-/

namespace Bob

/-- A bob that builds a project in which every product is made with the given flags, and links are made from files of the user
and products of the project. -/
structure ProcOk (L : Layout) (flags : Bytes → List Bytes) (p : Proc) : Prop where
  layout : LayoutOk L p.c
  reqs : ReqsOk L p.reqs
  workers : 0 < p.n
  flags : ∀ r ∈ p.reqs, ∀ o F, r.flagsOf o F → F = flags o
  closed : ∀ j, .link j ∈ p.reqs → ∀ q ∈ j.srcs, L.user q ∨ q ∈ outsOf p.reqs

/-- A working directory after any number of edits, and of times at which any number of bobs were at work there at once.  Each may
have succeeded, failed or been killed at any point.  Every product was always asked for with the same flags. -/
inductive Crowded (tc : Toolchain) (L : Layout) (flags : Bytes → List Bytes) : Store → Prop where
  | start {s} (h : Pristine L s) : Crowded tc L flags s
  | built {s s1 ps m} (h : Crowded tc L flags s) (he : Edit L s s1) (hps : ∀ p ∈ ps, ProcOk L flags p)
      (hr : CrowdReaches tc ps s1 m) : Crowded tc L flags m.store

/-- What people do between builds, more generally than in `Edit`: files of theirs may have any times, as long as those that are changed are newer than every product there is then. -/
structure Change (L : Layout) (s s' : Store) : Prop where
  later : s.now < s'.now
  user : ∀ p, L.user p → s'.fs p = s.fs p ∨ s'.fs p = none ∨ ∃ f, s'.fs p = some f ∧ ∀ o, L.isOut o → ∀ x, s'.fs o = some x → x.mtime < f.mtime
  managed : ∀ o, L.isOut o → ∀ p, Managed o p → s'.fs p = s.fs p ∨ s'.fs p = none

/-- The `i`th bob reported success. -/
def Crowd.succeeded (m : Crowd) (i : Nat) : Prop := ∃ s, m.procs[i]? = some (.finished true s)

end Bob
