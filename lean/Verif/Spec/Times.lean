import Verif.Spec.Torn
/-!
# Times of files

`Edit` asks that a file that is changed gets the time at which this is done.  Files that are copied with their times, unpacked, or put back from a backup do not, and clocks of other machines differ.
-/

namespace Bob

/-- As `Survived`, where people's files may have any times as long as those that are changed are newer than every product there is then.  In particular they may be from the future. -/
inductive Lived (tc : Toolchain) (L : Layout) (flags : Bytes → List Bytes) : Store → Prop where
  | start {s} (h : ∀ o, L.isOut o → ∀ p, Managed o p → s.fs p = none) : Lived tc L flags s
  | built {s s1 p cfg s2 s3} (h : Lived tc L flags s) (he : Change L s s1) (hp : ProcOk L flags p)
      (hr : Steps (EditNext tc (MidEdit tc L) p.c p.n) (.idle p.reqs s1) cfg) (ht : Torn (Writing p.c cfg) cfg.store.fs cfg.store.now s2)
      (hm : Mended L cfg.store.fs s2 s3) : Lived tc L flags s3
  | crowd {s s1 ps m s2 s3} (h : Lived tc L flags s) (he : Change L s s1) (hps : ∀ p ∈ ps, ProcOk L flags p)
      (hr : CrowdReaches tc ps s1 m) (ht : Torn (m.writing ps) m.fs m.now s2) (hm : Mended L m.fs s2 s3) : Lived tc L flags s3

/-- Files are replaced by others that are as old or older, with any contents. -/
structure Backdated (L : Layout) (s s' : Store) : Prop where
  user : ∀ p, L.user p → s'.fs p = s.fs p ∨ ∃ f g, s.fs p = some f ∧ s'.fs p = some g ∧ g.mtime ≤ f.mtime
  rest : ∀ p, ¬ L.user p → s'.fs p = s.fs p

/-- As `Change`, at a time that may be before those of products. -/
structure SetBack (L : Layout) (s s' : Store) : Prop where
  user : ∀ p, L.user p → s'.fs p = s.fs p ∨ s'.fs p = none ∨ ∃ f, s'.fs p = some f ∧ ∀ o, L.isOut o → ∀ x, s'.fs o = some x → x.mtime < f.mtime
  managed : ∀ o, L.isOut o → ∀ p, Managed o p → s'.fs p = s.fs p ∨ s'.fs p = none

end Bob
