import Verif.Props.Crowd
/-!
# Concrete cases for several bobs in one directory (C111)
-/

namespace Bob

/-! ## Schedules -/

/-- The bobs act in the given order, each with one worker. -/
def crowdRun (tc : Toolchain) (ps : List Proc) : List Nat → Crowd → Crowd
  | [], m => m
  | i :: rest, m =>
    match ps[i]?, m.procs[i]? with
    | some p, some a =>
      match autoStep tc p.c (a.onDisk m.fs m.now) with
      | some b => crowdRun tc ps rest ⟨b.store.fs, b.store.now, m.procs.set i b⟩
      | none => crowdRun tc ps rest m
    | _, _ => crowdRun tc ps rest m

theorem crowdRun_reaches {tc : Toolchain} {ps : List Proc} (hn : ∀ p ∈ ps, p.n = 1) {s : Store} (sched : List Nat) {m : Crowd}
    (h : CrowdReaches tc ps s m) : CrowdReaches tc ps s (crowdRun tc ps sched m) := by
  induction sched generalizing m with
  | nil => exact h
  | cons i rest ih =>
    unfold crowdRun
    split
    · rename_i p a hp ha
      split
      · rename_i b hb
        refine ih (.tail h (.act hp ha ?_))
        rw [hn p (List.mem_of_getElem? hp)]
        exact autoStep_next hb
      · exact ih h
    · exact ih h

def Crowd.result (m : Crowd) (i : Nat) : Option Bool := m.procs[i]?.bind Cfg.result

theorem succeeded_of_result {m : Crowd} {i : Nat} (h : m.result i = some true) : m.succeeded i := by
  unfold Crowd.result at h
  cases hp : m.procs[i]? with
  | none => rw [hp] at h; cases h
  | some a =>
    rw [hp] at h
    exact ⟨_, by rw [hp, ← result_finished h]⟩

/-! ## The project -/

/-- Two sources and a program, all made with the flags `F`. -/
def crowdReqs (F : List Bytes) : List Req :=
  [.compile [⟨b!"a.c", outA, F⟩, ⟨b!"b.c", outB, F⟩], .link ⟨false, [outA, outB], outL, F⟩]

theorem crowdReqsOk (F : List Bytes) (hF : ∀ f ∈ F, CleanFlag f) : ReqsOk demoL (crowdReqs F) where
  jobs := by
    intro r hr
    simp only [crowdReqs, List.mem_cons, List.not_mem_nil, or_false] at hr
    rcases hr with rfl | rfl
    · exact (demoReqsOk F hF).jobs _ (by simp [demoReqs])
    · exact ⟨by simp [demoL], (by decide : demoL.kind outL = .link false [outA, outB]), by simp [demoL], hF⟩
  nodup := (demoReqsOk F hF).nodup
  ordered := by
    intro pre j post h p hp
    match pre, h with
    | [], h => simp [crowdReqs] at h
    | [_], h =>
      simp only [crowdReqs, List.cons_append, List.nil_append, List.cons.injEq, Req.link.injEq] at h
      obtain ⟨_, rfl, rfl⟩ := h
      simp only [outsOf, List.flatMap_cons, List.flatMap_nil, Req.outs, List.append_nil, List.mem_singleton]
      simp only [List.mem_cons, List.not_mem_nil, or_false] at hp
      rcases hp with rfl | rfl <;> decide
    | [_, _], h => simp [crowdReqs] at h
    | _ :: _ :: _ :: _, h => simp [crowdReqs] at h

def crowdProc (c : InstCfg) (F : List Bytes) : Proc := ⟨c, 1, crowdReqs F⟩

theorem crowdProc_ok {c : InstCfg} (hL : LayoutOk demoL c) {F : List Bytes} (hF : ∀ f ∈ F, CleanFlag f) : ProcOk demoL (fun _ => F) (crowdProc c F) where
  layout := hL
  reqs := crowdReqsOk F hF
  workers := Nat.one_pos
  flags := by
    intro r hr o G hG
    simp only [crowdProc, crowdReqs, List.mem_cons, List.not_mem_nil, or_false] at hr
    rcases hr with rfl | rfl
    · obtain ⟨j, hj, rfl, rfl⟩ := hG
      simp only [List.mem_cons, List.not_mem_nil, or_false] at hj
      rcases hj with rfl | rfl <;> rfl
    · obtain ⟨rfl, rfl⟩ := hG; rfl
  closed := by
    intro j hj q hq
    simp only [crowdProc, crowdReqs, List.mem_cons, List.not_mem_nil, or_false, reduceCtorEq, Req.link.injEq, false_or] at hj
    subst hj
    right
    simp only [List.mem_cons, List.not_mem_nil, or_false] at hq
    show q ∈ [outA, outB, outL]
    rcases hq with rfl | rfl <;> simp

/-! ## A case in which the theorem applies -/

def twoBobs (F : List Bytes) : List Proc := [crowdProc noInst F, crowdProc demoInst F]

theorem twoBobs_ok (F : List Bytes) (hF : ∀ f ∈ F, CleanFlag f) : ∀ p ∈ twoBobs F, ProcOk demoL (fun _ => F) p := by
  intro p hp
  simp only [twoBobs, List.mem_cons, List.not_mem_nil, or_false] at hp
  rcases hp with rfl | rfl
  · exact crowdProc_ok demoLayoutOk hF
  · exact crowdProc_ok demoLayoutOk' hF

theorem twoBobs_one (F : List Bytes) : ∀ p ∈ twoBobs F, p.n = 1 := by
  intro p hp
  simp only [twoBobs, List.mem_cons, List.not_mem_nil, or_false] at hp
  rcases hp with rfl | rfl <;> rfl

/-- Two bobs take turns; the second is killed in the middle, the first not much later. -/
def crowd1 : Crowd := crowdRun demoTc (twoBobs flagO) ((List.replicate 9 [0, 1]).flatten ++ List.replicate 5 0) (.start (twoBobs flagO) (demoStore.later 1))

/-- The header is edited, and two bobs take turns until the second one is done. -/
def crowd2 : Store := (crowd1.store.later 1).write b!"h.h" b!"K"

def crowd3 : Crowd := crowdRun demoTc (twoBobs flagO) ((List.replicate 25 [0, 1]).flatten ++ List.replicate 30 1) (.start (twoBobs flagO) crowd2)

theorem crowd1_reaches : CrowdReaches demoTc (twoBobs flagO) (demoStore.later 1) crowd1 := crowdRun_reaches (twoBobs_one _) _ (.refl _)

theorem crowd1_crowded : Crowded demoTc demoL (fun _ => flagO) crowd1.store :=
  .built (.start demoPristine) (edit_later _ 1 (by omega)) (twoBobs_ok _ cleanO) crowd1_reaches

theorem crowd2_edit : Edit demoL crowd1.store crowd2 := edit_write demoLayoutOk _ 1 (by omega) _ _ (by simp [demoL])

theorem crowd3_reaches : CrowdReaches demoTc (twoBobs flagO) crowd2 crowd3 := crowdRun_reaches (twoBobs_one _) _ (.refl _)

/-- Nobody was done the first time, an object was there and the program was not; the second time one bob is done and the other is not. -/
theorem crowd3_done : crowd1.result 0 = none ∧ crowd1.result 1 = none ∧ crowd1.fs.content outA = some b!"AH-O" ∧
    crowd1.fs.content outL = none ∧ crowd3.result 0 = none ∧ crowd3.result 1 = some true ∧
    crowd3.fs.content outL = some b!"AK-OB-O-O" := by decide +kernel

example : ProjFresh demoTc crowd3.fs (crowdReqs flagO) :=
  (C111_crowd_fresh_partial demoToolOk crowd1_crowded crowd2_edit (twoBobs_ok _ cleanO) crowd3_reaches (i := 1) rfl
    (succeeded_of_result crowd3_done.2.2.2.2.2.1)).1

/-- One bob alone, in a fresh checkout of the edited sources. -/
def aloneBob : List Proc := [crowdProc noInst flagO]

def alone : Crowd := crowdRun demoTc aloneBob (List.replicate 60 0) (.start aloneBob (caseClean.later 1))

theorem aloneBob_ok : ∀ p ∈ aloneBob, ProcOk demoL (fun _ => flagO) p := by
  intro p hp
  rw [List.mem_singleton.mp hp]
  exact crowdProc_ok demoLayoutOk cleanO

theorem alone_done : alone.result 0 = some true := by decide +kernel

example : ∀ o ∈ [outA, outB, outL], alone.fs.content o = crowd3.fs.content o := by
  intro o ho
  refine C111_same_as_alone_partial demoToolOk crowd1_crowded crowd2_edit (.start caseClean_pristine) (edit_later _ 1 (by omega))
    (twoBobs_ok _ cleanO) aloneBob_ok crowd3_reaches
    (crowdRun_reaches (by intro p hp; rw [List.mem_singleton.mp hp]; rfl) _ (.refl _)) (i := 1) (i' := 0) rfl rfl
    (succeeded_of_result crowd3_done.2.2.2.2.2.1) (succeeded_of_result alone_done) ?_ o ho ho
  intro p hp
  simp only [demoL, List.mem_cons, List.not_mem_nil, or_false] at hp
  rcases hp with rfl | rfl | rfl <;> decide +kernel

/-! ## Flags that change -/

/-- Built by one bob. -/
def clash1 : Store := (autoBuild demoTc noInst (crowdReqs flagO) (demoStore.later 1)).store

/-- The flags have changed, and two bobs are started at the same time.  The first writes down the new flags of both objects.  The second
finds them written down and the objects newer than their sources, so that it does not compile, and links the old objects.  The first
compiles the objects, within the same second, and does not link again: the flags of the program are written down, and the program
is not older than its objects.  Both report success. -/
def clashBobs : List Proc := [crowdProc noInst flagP, crowdProc noInst flagP]

def clash2 : Crowd :=
  crowdRun demoTc clashBobs (List.replicate 3 0 ++ List.replicate 40 1 ++ List.replicate 60 0) (.start clashBobs (clash1.later 1))

theorem clashBobs_ok : ∀ p ∈ clashBobs, ProcOk demoL (fun _ => flagP) p := by
  intro p hp
  simp only [clashBobs, List.mem_cons, List.not_mem_nil, or_false, or_self] at hp
  subst hp
  exact crowdProc_ok demoLayoutOk cleanP

theorem clash1_builds : Builds demoTc demoL clash1 :=
  .built (.start demoPristine) (edit_later _ 1 (by omega)) demoLayoutOk (crowdReqsOk _ cleanO) (by omega) (autoBuild_reaches (by rfl))

theorem not_fresh_program {fs : FS} {F : List Bytes} (h : (demoTc.link false fs [outA, outB] F == fs.content outL) = false) :
    ¬ ProjFresh demoTc fs (crowdReqs F) := by
  intro hf
  obtain ⟨o, h1, h2⟩ := hf (.link ⟨false, [outA, outB], outL, F⟩) (by simp [crowdReqs])
  simp only at h1 h2
  rw [h1, h2] at h
  simp at h

/-- **C111** is false when flags change, even if nothing ever failed and every bob reports success: the program is made from old
objects.  A later build does not notice it either. -/
theorem C111_all_succeed_false : ∃ s s1 ps m, Builds demoTc demoL s ∧ Edit demoL s s1 ∧ (∀ p ∈ ps, ProcOk demoL (fun _ => flagP) p) ∧
    CrowdReaches demoTc ps s1 m ∧ (∀ i, i < ps.length → m.succeeded i) ∧ (∀ p ∈ ps, ¬ ProjFresh demoTc m.fs p.reqs) ∧
    ∃ s2, BuildReaches demoTc noInst 1 (crowdReqs flagP) (m.store.later 1) (.finished true s2) ∧ ¬ ProjFresh demoTc s2.fs (crowdReqs flagP) := by
  refine ⟨clash1, clash1.later 1, clashBobs, clash2, clash1_builds, edit_later _ 1 (by omega), clashBobs_ok,
    crowdRun_reaches (by
      intro p hp
      simp only [clashBobs, List.mem_cons, List.not_mem_nil, or_false, or_self] at hp
      subst hp; rfl) _ (.refl _), ?_, ?_, _, autoBuild_reaches (by decide +kernel), ?_⟩
  · have key : ∀ i ∈ List.range 2, clash2.result i = some true := by decide +kernel
    exact fun i hi => succeeded_of_result (key i (List.mem_range.mpr hi))
  · intro p hp
    simp only [clashBobs, List.mem_cons, List.not_mem_nil, or_false, or_self] at hp
    subst hp
    exact not_fresh_program (by decide +kernel)
  · exact not_fresh_program (by decide +kernel)

end Bob
