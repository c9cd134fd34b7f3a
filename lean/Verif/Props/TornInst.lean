import Verif.Props.Torn
import Verif.Props.MidEditInst
/-!
# Concrete cases for being killed while files are being written (C113)
-/

namespace Bob

/-- A file that is open for writing, if there is only one worker. -/
def Cfg.opened (c : InstCfg) : Cfg → Option Bytes
  | .pooling tasks _ p =>
    match p.pc 0 with
    | .run i 0 _ => tasks[i]?.map fun j => depsPath j.out
    | .run i 1 _ => tasks[i]?.map fun j => j.out
    | _ => none
  | .linking j _ _ => some j.out
  | .linked j _ _ => c.dest j.out
  | _ => none

theorem opened_writing {c : InstCfg} {a : Cfg} {q : Bytes} (h : a.opened c = some q) : Writing c a q := by
  cases a with
  | pooling tasks rest p =>
    simp only [Cfg.opened] at h
    split at h
    · rename_i hpc
      obtain ⟨j, hj, rfl⟩ := Option.map_eq_some_iff.mp h
      exact .deps hpc hj
    · rename_i hpc
      obtain ⟨j, hj, rfl⟩ := Option.map_eq_some_iff.mp h
      exact .obj hpc hj
    · cases h
  | linking j rest s => cases h; exact .link
  | linked j rest s => exact .linkInst h
  | idle => cases h
  | validating => cases h
  | linkRan => cases h
  | finished => cases h

/-- The file is left empty. -/
theorem torn_empty {W : Bytes → Prop} {s : Store} {q : Bytes} (h : W q) : Torn W s.fs s.now (s.write q []) where
  now := rfl
  same p hp := write_other s _ fun e => hp (e ▸ h)
  time p := by
    by_cases e : p = q
    · subst e
      exact Or.inr (Or.inr ⟨⟨[], s.now⟩, write_same _ _ _, Nat.le_refl _⟩)
    · exact Or.inl (write_other s _ e)

/-- What is left of a build that was killed after `k` actions, with the file that was open being empty. -/
def cutAt (c : InstCfg) (k : Nat) (s : Store) : Cfg := autoRun demoTc c k (.idle (crowdReqs flagO) s)
def Cfg.cut (c : InstCfg) (a : Cfg) : Store := a.store.write ((a.opened c).getD []) []

theorem cut_damaged {c : InstCfg} (hL : LayoutOk demoL c) {k : Nat} {s s1 : Store} (h : Damaged demoTc demoL (fun _ => flagO) s) (he : Edit demoL s s1)
    (ho : ((cutAt c k s1).opened c).isSome = true) : Damaged demoTc demoL (fun _ => flagO) ((cutAt c k s1).cut c) := by
  refine .built (p := crowdProc c flagO) h he (crowdProc_ok hL cleanO) (autoRun_reaches k _ (.refl _)) (torn_empty ?_)
  obtain ⟨q, hq⟩ := Option.isSome_iff_exists.mp ho
  refine opened_writing ?_
  change (cutAt c k s1).opened c = _
  rw [hq]; rfl

/-- The build after that. -/
def nextBuild (c : InstCfg) (s : Store) : Cfg := autoBuild demoTc c (crowdReqs flagO) (s.later 1)

/-! ## A product that is half written -/

/-- Killed while the program is being linked. -/
def cut1 : Store := (cutAt noInst 30 (demoStore.later 1)).cut noInst

theorem cut1_damaged : Damaged demoTc demoL (fun _ => flagO) cut1 :=
  cut_damaged demoLayoutOk (.start demoPristine) (edit_later _ 1 (by omega)) (by decide +kernel)

/-- **C113** is false: if a linker is killed while it writes its output, what it has written is newer than what it is made from, and so taken to be complete.  The next build succeeds without doing
anything. -/
theorem C113_product_false : ∃ s s1 s2, Damaged demoTc demoL (fun _ => flagO) s ∧ Edit demoL s s1 ∧ ProcOk demoL (fun _ => flagO) (crowdProc noInst flagO) ∧
    BuildReaches demoTc noInst 1 (crowdReqs flagO) s1 (.finished true s2) ∧ s2.fs.content outL = some [] ∧ ¬ ProjFresh demoTc s2.fs (crowdReqs flagO) := by
  refine ⟨cut1, cut1.later 1, (nextBuild noInst cut1).store, cut1_damaged, edit_later _ 1 (by omega), crowdProc_ok demoLayoutOk cleanO, ?_, by decide +kernel, ?_⟩
  · exact autoBuild_reaches (by decide +kernel)
  · intro hf
    obtain ⟨o, h1, h2⟩ := hf (.link ⟨false, [outA, outB], outL, flagO⟩) (by simp [crowdReqs])
    have h3 : (demoTc.link false (nextBuild noInst cut1).store.fs [outA, outB] flagO == (nextBuild noInst cut1).store.fs.content outL) = false := by decide +kernel
    simp only at h1 h2
    rw [h1, h2] at h3
    simp at h3

/-! ## A record of includes that is half written -/

/-- Built, the header edited, and killed while the record of what `a.c` includes is being written. -/
def built2 : Cfg := autoBuild demoTc noInst (crowdReqs flagO) (demoStore.later 1)
def edited2 : Store := (built2.store.later 1).write b!"h.h" b!"K"
def cut2 : Store := (cutAt noInst 9 edited2).cut noInst

theorem built2_damaged : Damaged demoTc demoL (fun _ => flagO) built2.store :=
  .built (p := crowdProc noInst flagO) (.start demoPristine) (edit_later _ 1 (by omega)) (crowdProc_ok demoLayoutOk cleanO) (autoRun_reaches 100 _ (.refl _))
    ⟨rfl, fun _ _ => rfl, fun _ => Or.inl rfl⟩

theorem cut2_damaged : Damaged demoTc demoL (fun _ => flagO) cut2 :=
  cut_damaged demoLayoutOk built2_damaged (edit_write demoLayoutOk _ 1 (by omega) _ _ (by simp [demoL])) (by decide +kernel)

/-- **C113** is false: if bob is killed between opening and closing the record of includes, the next build does not know that the object is made from the header that was edited, and takes the old object
to be up to date.  No compiler needs to be running. -/
theorem C113_includes_false : ∃ s s1 s2, Damaged demoTc demoL (fun _ => flagO) s ∧ Edit demoL s s1 ∧ ProcOk demoL (fun _ => flagO) (crowdProc noInst flagO) ∧
    BuildReaches demoTc noInst 1 (crowdReqs flagO) s1 (.finished true s2) ∧ s2.fs.content outA = some b!"AH-O" ∧ s2.fs.content b!"h.h" = some b!"K" ∧
    ¬ ProjFresh demoTc s2.fs (crowdReqs flagO) := by
  refine ⟨cut2, cut2.later 1, (nextBuild noInst cut2).store, cut2_damaged, edit_later _ 1 (by omega), crowdProc_ok demoLayoutOk cleanO, ?_, by decide +kernel,
    by decide +kernel, ?_⟩
  · exact autoBuild_reaches (by decide +kernel)
  · intro hf
    obtain ⟨o, h1, h2⟩ := hf (.compile [⟨b!"a.c", outA, flagO⟩, ⟨b!"b.c", outB, flagO⟩]) (by simp [crowdReqs]) ⟨b!"a.c", outA, flagO⟩ (by simp)
    have h3 : (demoTc.obj (nextBuild noInst cut2).store.fs b!"a.c" flagO == (nextBuild noInst cut2).store.fs.content outA) = false := by decide +kernel
    simp only at h1 h2
    rw [h1, h2] at h3
    simp at h3

/-! ## An installed file that is half written -/

/-- Killed while the program is being copied. -/
def cut3 : Store := (cutAt demoInst 32 (demoStore.later 1)).cut demoInst

theorem cut3_damaged : Damaged demoTc demoL (fun _ => flagO) cut3 :=
  cut_damaged demoLayoutOk' (.start demoPristine) (edit_later _ 1 (by omega)) (by decide +kernel)

/-- **C113** is false for what is installed: a copy that is half written is newer than the product, and so taken to be complete.  The next build succeeds and says that it is installed. -/
theorem C113_installed_false : ∃ s s1 s2, Damaged demoTc demoL (fun _ => flagO) s ∧ Edit demoL s s1 ∧ ProcOk demoL (fun _ => flagO) (crowdProc demoInst flagO) ∧
    BuildReaches demoTc demoInst 1 (crowdReqs flagO) s1 (.finished true s2) ∧ demoInst.dest outL = some b!".bob/prefix/bin/prog" ∧
    s2.fs.content outL = some b!"AH-OB-O-O" ∧ s2.fs.content b!".bob/prefix/bin/prog" = some [] :=
  ⟨cut3, cut3.later 1, (nextBuild demoInst cut3).store, cut3_damaged, edit_later _ 1 (by omega), crowdProc_ok demoLayoutOk' cleanO,
    autoBuild_reaches (by decide +kernel), by decide +kernel, by decide +kernel, by decide +kernel⟩

/-! ## A case in which the theorem applies -/

/-- Killed while `a.c` is being compiled after an edit, so that its object is empty.  Then the object is removed. -/
def cut4 : Store := (cutAt noInst 10 edited2).cut noInst
def mend4 : Store := cut4.remove outA

theorem mend4_survived : Survived demoTc demoL (fun _ => flagO) mend4 := by
  have h1 : Survived demoTc demoL (fun _ => flagO) built2.store :=
    .built (p := crowdProc noInst flagO) (.start demoPristine) (edit_later _ 1 (by omega)) (crowdProc_ok demoLayoutOk cleanO) (autoRun_edits 100 (.refl _))
      ⟨rfl, fun _ _ => rfl, fun _ => Or.inl rfl⟩ ⟨rfl, fun _ => Or.inl rfl, fun _ _ => Or.inr ⟨rfl, rfl⟩⟩
  have ho : (cutAt noInst 10 edited2).opened noInst = some outA := by decide +kernel
  refine .built (p := crowdProc noInst flagO) (cfg := cutAt noInst 10 edited2) (s2 := cut4) h1 (edit_write demoLayoutOk _ 1 (by omega) _ _ (by simp [demoL]))
    (crowdProc_ok demoLayoutOk cleanO) (autoRun_edits 10 (.refl _)) (torn_empty (opened_writing ?_)) ⟨rfl, fun p => ?_, fun o _ => ?_⟩
  · change (cutAt noInst 10 edited2).opened noInst = _
    rw [ho]; rfl
  · by_cases e : p = outA
    · subst e
      exact Or.inr ⟨by simp [demoL], remove_same _ _⟩
    · exact Or.inl (remove_other _ e)
  · by_cases e : o = outA
    · subst e; exact Or.inl (remove_same _ _)
    · right
      have hw : ∀ q, q ≠ outA → cut4.fs q = (cutAt noInst 10 edited2).store.fs q := by
        intro q hq
        unfold cut4 Cfg.cut
        rw [ho]
        exact write_other _ _ hq
      refine ⟨hw o e, hw _ fun e' => ?_⟩
      have : (depsPath o).getLast? = outA.getLast? := by rw [e']
      simp [depsPath, outA] at this

theorem mend4_facts : cut4.fs.content outA = some [] ∧ (nextBuild noInst mend4).result = some true ∧
    (nextBuild noInst mend4).store.fs.content outL = some b!"AK-OB-O-O" := by decide +kernel

example : ProjFresh demoTc (nextBuild noInst mend4).store.fs (crowdReqs flagO) :=
  (C113_removed_partial demoToolOk mend4_survived (edit_later _ 1 (by omega)) (crowdProc_ok demoLayoutOk cleanO) (autoBuild_reaches mend4_facts.2.1)).1

/-- Not removing the object is not enough, even for the object. -/
example : (nextBuild noInst cut4).result = some true ∧ (nextBuild noInst cut4).store.fs.content outL = some b!"B-O-O" := by decide +kernel

end Bob
