import Verif.Props.MidEdit
import Verif.Props.CrowdInst
/-!
# Concrete cases for editing while bob builds (C112)
-/

namespace Bob

theorem autoRun_edits {tc : Toolchain} {E : Cfg → FS → Prop} {c : InstCfg} {a b : Cfg} (k : Nat) (h : Steps (EditNext tc E c 1) a b) :
    Steps (EditNext tc E c 1) a (autoRun tc c k b) := by
  induction k generalizing b with
  | zero => exact h
  | succ k ih =>
    simp only [autoRun]
    cases hs : autoStep tc c b with
    | none => exact h
    | some b' => exact ih (.tail h (.build (autoStep_next hs)))

/-- The user writes a file. -/
def Cfg.put (a : Cfg) (p content : Bytes) : Cfg := a.onDisk (a.store.fs.set p (some ⟨content, a.store.now⟩)) a.store.now

theorem put_any {L : Layout} {a : Cfg} {p content : Bytes} (hp : L.user p) : AnyEdit L a (a.store.fs.set p (some ⟨content, a.store.now⟩)) where
  user := by
    intro q _
    by_cases e : q = p
    · exact Or.inr (Or.inr ⟨_, by rw [FS.set, if_pos e], rfl⟩)
    · exact Or.inl (by rw [FS.set, if_neg e])
  rest := by
    intro q hq
    have : q ≠ p := fun e => hq (e ▸ hp)
    rw [FS.set, if_neg this]

theorem put_late {a : Cfg} {p content : Bytes} (hp : demoL.user p)
    (h : ∀ o ∈ [outA, outB, outL], (a.store.fs o).all (fun x => decide (x.mtime < a.store.now)) = true) :
    LateEdit demoL a (a.store.fs.set p (some ⟨content, a.store.now⟩)) where
  user := by
    intro q _
    by_cases e : q = p
    · refine Or.inr (Or.inr ⟨_, by rw [FS.set, if_pos e], fun o ho x hx => ?_⟩)
      have := h o ho
      rw [hx] at this
      simpa using this
    · exact Or.inl (by rw [FS.set, if_neg e])
  rest := (put_any hp).rest

/-! ## A case in which the theorem applies -/

/-- The first object has been made, and a second has passed. -/
def mid1 : Cfg := (autoRun demoTc noInst 12 (.idle (crowdReqs flagO) (demoStore.later 1))).withNow 7

/-- The header is edited. -/
def mid2 : Cfg := mid1.put b!"h.h" b!"K"

/-- The build goes on and succeeds. -/
def mid3 : Cfg := autoRun demoTc noInst 100 mid2

/-- The next build. -/
def mid4 : Cfg := autoBuild demoTc noInst (crowdReqs flagO) (mid3.store.later 1)

theorem mid1_steps : Steps (EditNext demoTc (MidEdit demoTc demoL) noInst 1) (.idle (crowdReqs flagO) (demoStore.later 1)) mid1 :=
  .tail (autoRun_edits 12 (.refl _)) (.build (.tick 7 (by decide +kernel)))

theorem mid2_edit : MidEdit demoTc demoL mid1 (mid1.store.fs.set b!"h.h" (some ⟨b!"K", mid1.store.now⟩)) where
  toLateEdit := put_late (by simp [demoL]) (by decide +kernel)
  deps := by
    intro j _ items hi
    have key : ∀ q, ((mid1.store.fs.set b!"h.h" (some ⟨b!"K", mid1.store.now⟩)) q).isSome = (mid1.store.fs q).isSome := by
      intro q
      by_cases e : q = b!"h.h"
      · rw [FS.set, if_pos e, e]; decide +kernel
      · rw [FS.set, if_neg e]
    simp only [demoTc, key] at hi ⊢
    exact hi

theorem mid3_worked : Worked demoTc demoL (fun _ => flagO) mid3.store :=
  .built (p := crowdProc noInst flagO) (.start demoPristine) (edit_later _ 1 (by omega)) (crowdProc_ok demoLayoutOk cleanO)
    (autoRun_edits 100 (.tail mid1_steps (.edit (by decide +kernel) mid2_edit)))

/-- The build in which the edit was made succeeds, with an object that is not right any more; the next one makes it right. -/
theorem mid_facts : mid1.store.fs.content outA = some b!"AH-O" ∧ mid1.store.fs.content outB = none ∧ mid3.result = some true ∧
    mid3.store.fs.content outL = some b!"AH-OB-O-O" ∧ mid4.result = some true ∧ mid4.store.fs.content outL = some b!"AK-OB-O-O" := by decide +kernel

example : ProjFresh demoTc mid4.store.fs (crowdReqs flagO) :=
  (C112_edits_noticed_partial demoToolOk mid3_worked (edit_later _ 1 (by omega)) (crowdProc_ok demoLayoutOk cleanO)
    (autoBuild_reaches mid_facts.2.2.2.2.1)).1

/-! ## Editing within the same second -/

/-- The same edit within the second in which the object was made. -/
def sec1 : Cfg := autoRun demoTc noInst 12 (.idle (crowdReqs flagO) (demoStore.later 1))
def sec2 : Cfg := autoRun demoTc noInst 100 (sec1.put b!"h.h" b!"K")

/-- **C112** is false for edits within a second of compiling: the build succeeds, and so does the next one, which does not notice. -/
theorem C112_same_second_false : ∃ s s1 s2 s3, Pristine demoL s ∧ Edit demoL s s1 ∧ ProcOk demoL (fun _ => flagO) (crowdProc noInst flagO) ∧
    Steps (EditNext demoTc (AnyEdit demoL) noInst 1) (.idle (crowdReqs flagO) s1) (.finished true s2) ∧
    BuildReaches demoTc noInst 1 (crowdReqs flagO) (s2.later 1) (.finished true s3) ∧ ¬ ProjFresh demoTc s3.fs (crowdReqs flagO) := by
  refine ⟨demoStore, demoStore.later 1, sec2.store, _, demoPristine, edit_later _ 1 (by omega), crowdProc_ok demoLayoutOk cleanO, ?_,
    autoBuild_reaches (by decide +kernel), ?_⟩
  · have h : Steps (EditNext demoTc (AnyEdit demoL) noInst 1) (.idle (crowdReqs flagO) (demoStore.later 1)) sec2 :=
      autoRun_edits 100 (.tail (autoRun_edits 12 (.refl _)) (.edit (by decide +kernel) (put_any (by simp [demoL]))))
    rw [← result_finished (show sec2.result = some true by decide +kernel)]
    exact h
  · intro hf
    obtain ⟨o, h1, h2⟩ := hf (.compile [⟨b!"a.c", outA, flagO⟩, ⟨b!"b.c", outB, flagO⟩]) (by simp [crowdReqs]) ⟨b!"a.c", outA, flagO⟩ (by simp)
    have h3 : (demoTc.obj (autoBuild demoTc noInst (crowdReqs flagO) (sec2.store.later 1)).store.fs b!"a.c" flagO ==
      (autoBuild demoTc noInst (crowdReqs flagO) (sec2.store.later 1)).store.fs.content outA) = false := by decide +kernel
    simp only at h1 h2
    rw [h1, h2] at h3
    simp at h3

/-! ## Including something else -/

/-- A compiler for which sources that begin with `#` include `h.h`. -/
def incTc : Toolchain where
  deps fs src _ :=
    if src = b!"a.c" ∨ src = b!"b.c" then
      (fs.content src).bind fun x =>
        if x.head? = some 35 then (fs.content b!"h.h").map fun _ => [(false, src), (true, b!"h.h")] else some [(false, src)]
    else none
  obj fs src F :=
    if src = b!"a.c" ∨ src = b!"b.c" then
      (fs.content src).bind fun x =>
        if x.head? = some 35 then (fs.content b!"h.h").map fun h => x ++ h ++ F.flatten else some (x ++ F.flatten)
    else none
  diag _ _ _ := []
  objFailRemoves _ _ _ := false
  link := demoTc.link
  linkDiag := demoTc.linkDiag
  linkFailRemoves := demoTc.linkFailRemoves

theorem content_there {fs : FS} {p x : Bytes} (h : fs.content p = some x) : (fs p).isSome := by
  cases hp : fs p with
  | none => simp [FS.content, hp] at h
  | some f => rfl

theorem incToolOk : ToolOk incTc demoL where
  depsOk := by
    intro fs src F items h
    simp only [incTc] at h
    split at h
    · rename_i hs
      have hsu : CleanName src ∧ demoL.user src := by rcases hs with rfl | rfl <;> exact ⟨by decide, by simp [demoL]⟩
      simp only [Option.bind_eq_some_iff] at h
      obtain ⟨x, hx, h⟩ := h
      have hxs := content_there hx
      refine ⟨hxs, ?_⟩
      split at h
      · simp only [Option.map_eq_some_iff] at h
        obtain ⟨y, hy, rfl⟩ := h
        intro it hit
        simp only [List.mem_cons, List.not_mem_nil, or_false] at hit
        rcases hit with rfl | rfl
        · exact ⟨hsu.1, hsu.2, hxs⟩
        · exact ⟨by decide, by simp [demoL], content_there hy⟩
      · cases h
        intro it hit
        rw [List.mem_singleton.mp hit]
        exact ⟨hsu.1, hsu.2, hxs⟩
    · cases h
  depsLaw := by
    intro fs fs' src F items h hsame
    have h1 := hsame src (by simp)
    simp only [incTc] at h ⊢
    split at h
    · rename_i hs
      rw [if_pos hs, if_pos hs, if_pos hs, h1]
      simp only [Option.bind_eq_some_iff] at h
      obtain ⟨x, hx, h⟩ := h
      rw [hx]
      simp only [Option.bind_some]
      split at h
      · rename_i hx'
        simp only [Option.map_eq_some_iff] at h
        obtain ⟨y, hy, rfl⟩ := h
        have h2 := hsame b!"h.h" (by simp)
        rw [h2, hy, if_pos hx', if_pos hx']
        exact ⟨rfl, rfl, trivial⟩
      · rename_i hx'
        cases h
        rw [if_neg hx', if_neg hx', if_neg hx']
        exact ⟨rfl, rfl, trivial⟩
    · cases h
  objDeps := by
    intro fs src F o h
    simp only [incTc] at h ⊢
    split at h
    · rename_i hs
      rw [if_pos hs]
      simp only [Option.bind_eq_some_iff] at h
      obtain ⟨x, hx, h⟩ := h
      rw [hx]
      simp only [Option.bind_some]
      split at h
      · rename_i hx'
        simp only [Option.map_eq_some_iff] at h
        obtain ⟨y, hy, rfl⟩ := h
        rw [hy, if_pos hx']
        exact ⟨_, rfl⟩
      · rename_i hx'
        rw [if_neg hx']
        exact ⟨_, rfl⟩
    · cases h
  linkLaw := demoToolOk.linkLaw
  linkExists := demoToolOk.linkExists

/-- What `a.c` is made from has been written down, and a second has passed.  -/
def inc1 : Cfg := (autoRun incTc noInst 10 (.idle (crowdReqs flagO) (demoStore.later 1))).withNow 7

/-- `a.c` gets to include the header, and is compiled. -/
def inc2 : Cfg := autoRun incTc noInst 100 (inc1.put b!"a.c" b!"#A")

/-- The header is edited, after the build. -/
def inc3 : Store := (inc2.store.later 1).write b!"h.h" b!"K"

/-- **C112** is false when a source gets to include something else after bob has asked the compiler what it includes and before it is compiled,
even if no two things happen within the same second: the header is not written down, and so its edits are not noticed from then on. -/
theorem C112_includes_false : ∃ s s1 s2 s3 s4, Pristine demoL s ∧ Edit demoL s s1 ∧ ToolOk incTc demoL ∧
    ProcOk demoL (fun _ => flagO) (crowdProc noInst flagO) ∧
    Steps (EditNext incTc (LateEdit demoL) noInst 1) (.idle (crowdReqs flagO) s1) (.finished true s2) ∧ ProjFresh incTc s2.fs (crowdReqs flagO) ∧ Edit demoL s2 s3 ∧
    BuildReaches incTc noInst 1 (crowdReqs flagO) s3 (.finished true s4) ∧ ¬ ProjFresh incTc s4.fs (crowdReqs flagO) := by
  refine ⟨demoStore, demoStore.later 1, inc2.store, inc3, _, demoPristine, edit_later _ 1 (by omega), incToolOk, crowdProc_ok demoLayoutOk cleanO, ?_, ?_,
    edit_write demoLayoutOk _ 1 (by omega) _ _ (by simp [demoL]), autoBuild_reaches (by decide +kernel), ?_⟩
  · have h : Steps (EditNext incTc (LateEdit demoL) noInst 1) (.idle (crowdReqs flagO) (demoStore.later 1)) inc2 :=
      autoRun_edits 100 (.tail (.tail (autoRun_edits 10 (.refl _)) (.build (.tick 7 (by decide +kernel))))
        (.edit (by decide +kernel) (put_late (by simp [demoL]) (by decide +kernel))))
    rw [← result_finished (show inc2.result = some true by decide +kernel)]
    exact h
  · intro r hr
    simp only [crowdReqs, List.mem_cons, List.not_mem_nil, or_false] at hr
    rcases hr with rfl | rfl
    · intro j hj
      simp only [List.mem_cons, List.not_mem_nil, or_false] at hj
      rcases hj with rfl | rfl
      · exact ⟨b!"#AH-O", by decide +kernel, by decide +kernel⟩
      · exact ⟨b!"B-O", by decide +kernel, by decide +kernel⟩
    · exact ⟨b!"#AH-OB-O-O", by decide +kernel, by decide +kernel⟩
  · intro hf
    obtain ⟨o, h1, h2⟩ := hf (.compile [⟨b!"a.c", outA, flagO⟩, ⟨b!"b.c", outB, flagO⟩]) (by simp [crowdReqs]) ⟨b!"a.c", outA, flagO⟩ (by simp)
    have h3 : (incTc.obj (autoBuild incTc noInst (crowdReqs flagO) inc3).store.fs b!"a.c" flagO ==
      (autoBuild incTc noInst (crowdReqs flagO) inc3).store.fs.content outA) = false := by decide +kernel
    simp only at h1 h2
    rw [h1, h2] at h3
    simp at h3

end Bob
