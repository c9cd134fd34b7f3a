import Verif.Props.Times
import Verif.Props.TornInst
/-!
# Concrete cases for the times of files (C115)
-/

namespace Bob

/-- A file is put there with a time. -/
def Store.place (s : Store) (p content : Bytes) (t : Nat) : Store := { s with fs := s.fs.set p (some ⟨content, t⟩) }

theorem place_same (s : Store) (p content : Bytes) (t : Nat) : (s.place p content t).fs p = some ⟨content, t⟩ := if_pos rfl
theorem place_other (s : Store) (content : Bytes) (t : Nat) {p q : Bytes} (h : q ≠ p) : (s.place p content t).fs q = s.fs q := if_neg h

theorem demo_newer {fs : FS} {t : Nat} (h : ∀ o ∈ [outA, outB, outL], (fs o).all (fun x => decide (x.mtime < t)) = true) :
    ∀ o, demoL.isOut o → ∀ x, fs o = some x → x.mtime < t := by
  intro o ho x hx
  have := h o ho
  rw [hx] at this
  simpa using this

theorem built2_lived : Lived demoTc demoL (fun _ => flagO) built2.store :=
  .built (p := crowdProc noInst flagO) (.start demoPristine.managed) ((crowded_settled (flags := fun _ => flagO) demoToolOk demoLayoutOk.linkSrcs (.start demoPristine)).edits (edit_later _ 1 (by omega)))
    (crowdProc_ok demoLayoutOk cleanO) (autoRun_edits 100 (.refl _)) ⟨rfl, fun _ _ => rfl, fun _ => Or.inl rfl⟩ ⟨rfl, fun _ => Or.inl rfl, fun _ _ => Or.inr ⟨rfl, rfl⟩⟩

/-! ## A file from the future -/

/-- The header is replaced by one that was written on a machine whose clock is ahead. -/
def fromAhead1 : Store := (built2.store.later 1).place b!"h.h" b!"K" 1000
def fromAhead2 : Cfg := autoBuild demoTc noInst (crowdReqs flagO) fromAhead1
/-- And then, before that time has come, by another. -/
def fromAhead3 : Store := (fromAhead2.store.later 1).place b!"h.h" b!"M" 900
def fromAhead4 : Cfg := autoBuild demoTc noInst (crowdReqs flagO) fromAhead3

theorem place_change {s : Store} (content : Bytes) (t k : Nat) (hk : 0 < k)
    (h : ∀ o ∈ [outA, outB, outL], (((s.later k).place b!"h.h" content t).fs o).all (fun x => decide (x.mtime < t)) = true) : Change demoL s ((s.later k).place b!"h.h" content t) where
  later := by show s.now < s.now + k; omega
  user := by
    intro p _
    by_cases e : p = b!"h.h"
    · subst e
      exact Or.inr (Or.inr ⟨_, place_same _ _ _ _, demo_newer h⟩)
    · exact Or.inl (place_other _ _ _ e)
  managed := by
    intro o ho p hm
    refine Or.inl (place_other _ _ _ ?_)
    rintro rfl
    exact demoLayoutOk.outNotUser o _ ho hm (by simp [demoL])

theorem fromAhead2_facts : fromAhead2.result = some true ∧ fromAhead2.store.fs.content outL = some b!"AK-OB-O-O" := by decide +kernel
theorem fromAhead4_facts : fromAhead4.result = some true ∧ fromAhead4.store.fs.content outL = some b!"AM-OB-O-O" := by decide +kernel

theorem fromAhead2_lived : Lived demoTc demoL (fun _ => flagO) fromAhead2.store :=
  .built (p := crowdProc noInst flagO) built2_lived (place_change b!"K" 1000 1 (by omega) (by decide +kernel))
    (crowdProc_ok demoLayoutOk cleanO) (autoRun_edits 100 (.refl _)) ⟨rfl, fun _ _ => rfl, fun _ => Or.inl rfl⟩ ⟨rfl, fun _ => Or.inl rfl, fun _ _ => Or.inr ⟨rfl, rfl⟩⟩

example : ProjFresh demoTc fromAhead4.store.fs (crowdReqs flagO) :=
  (C115_one_partial demoToolOk fromAhead2_lived (place_change b!"M" 900 1 (by omega) (by decide +kernel)) (crowdProc_ok demoLayoutOk cleanO) (autoBuild_reaches fromAhead4_facts.1)).1

/-! ## An older file -/

/-- The header is replaced by an older one, as by `cp -p`, `mv`, `tar` or `rsync -t`. -/
def older1 : Store := (built2.store.later 1).place b!"h.h" b!"K" 0
def older2 : Cfg := autoBuild demoTc noInst (crowdReqs flagO) older1

theorem older1_backdated : Backdated demoL built2.store older1 where
  user := by
    intro p _
    by_cases e : p = b!"h.h"
    · subst e
      exact Or.inr ⟨⟨b!"H", 1⟩, _, by decide +kernel, place_same _ _ _ _, by decide⟩
    · exact Or.inl (place_other _ _ _ e)
  rest := by
    intro p hp
    refine place_other _ _ _ ?_
    rintro rfl
    exact hp (by simp [demoL])

theorem not_fresh_a {fs : FS} (h : (demoTc.obj fs b!"a.c" flagO == fs.content outA) = false) : ¬ ProjFresh demoTc fs (crowdReqs flagO) := by
  intro hf
  obtain ⟨o, h1, h2⟩ := hf (.compile [⟨b!"a.c", outA, flagO⟩, ⟨b!"b.c", outB, flagO⟩]) (by simp [crowdReqs]) ⟨b!"a.c", outA, flagO⟩ (by simp)
  simp only at h1 h2
  rw [h1, h2] at h
  simp at h

/-- **C115** is false: a file that is replaced by an older one is not noticed, and bob reports success. -/
theorem C115_older_false : ∃ s s1 s2, Lived demoTc demoL (fun _ => flagO) s ∧ Backdated demoL s s1 ∧ s.now < s1.now ∧ ProcOk demoL (fun _ => flagO) (crowdProc noInst flagO) ∧
    BuildReaches demoTc noInst 1 (crowdReqs flagO) s1 (.finished true s2) ∧ ¬ ProjFresh demoTc s2.fs (crowdReqs flagO) :=
  ⟨built2.store, older1, _, built2_lived, older1_backdated, Nat.lt_succ_self _, crowdProc_ok demoLayoutOk cleanO, autoBuild_reaches (by decide +kernel), not_fresh_a (by decide +kernel)⟩

example : older2.store.fs = older1.fs ∧ older2.result ≠ some false :=
  have h := C115_unnoticed (c := noInst) (n := 1) (n' := 1) demoToolOk demoLayoutOk (fun o _ d _ _ h => by cases h) (crowdReqsOk flagO cleanO) (by omega) (by omega)
    (.start demoPristine) (edit_later demoStore 1 (by omega)) (autoBuild_reaches (by decide +kernel)) older1_backdated (autoRun_reaches 100 _ (.refl _))
  ⟨h.1, h.2.2.1⟩

/-! ## A clock that is set back -/

/-- The clock is set back to a time before that of the program, and the header replaced by one that is newer than all products. -/
def back1 : Store := { built2.store.place b!"h.h" b!"K" 1000 with now := 2 }
def back2 : Cfg := autoBuild demoTc noInst (crowdReqs flagO) back1

theorem back1_set : SetBack demoL built2.store back1 where
  user := by
    intro p _
    by_cases e : p = b!"h.h"
    · subst e
      exact Or.inr (Or.inr ⟨⟨b!"K", 1000⟩, place_same built2.store b!"h.h" b!"K" 1000, demo_newer (by decide +kernel)⟩)
    · exact Or.inl (place_other built2.store _ _ e)
  managed := by
    intro o ho p hm
    refine Or.inl (place_other built2.store _ _ ?_)
    rintro rfl
    exact demoLayoutOk.outNotUser o _ ho hm (by simp [demoL])

/-- **C115** is false if the clock is set back: the change is noticed and the object made again, but the object is then older than the program, which is therefore not linked again. -/
theorem C115_clock_false : ∃ s s1 s2, Lived demoTc demoL (fun _ => flagO) s ∧ SetBack demoL s s1 ∧ ProcOk demoL (fun _ => flagO) (crowdProc noInst flagO) ∧
    BuildReaches demoTc noInst 1 (crowdReqs flagO) s1 (.finished true s2) ∧ s2.fs.content outA = some b!"AK-O" ∧ s2.fs.content outL = some b!"AH-OB-O-O" ∧
    ¬ ProjFresh demoTc s2.fs (crowdReqs flagO) := by
  refine ⟨built2.store, back1, _, built2_lived, back1_set, crowdProc_ok demoLayoutOk cleanO, autoBuild_reaches (by decide +kernel), ?_, ?_, ?_⟩
  · decide +kernel
  · decide +kernel
  · intro hf
    obtain ⟨o, h1, h2⟩ := hf (.link ⟨false, [outA, outB], outL, flagO⟩) (by simp [crowdReqs])
    have h3 : (demoTc.link false (autoBuild demoTc noInst (crowdReqs flagO) back1).store.fs [outA, outB] flagO ==
      (autoBuild demoTc noInst (crowdReqs flagO) back1).store.fs.content outL) = false := by decide +kernel
    simp only at h1 h2
    rw [h1, h2] at h3
    simp at h3

end Bob
