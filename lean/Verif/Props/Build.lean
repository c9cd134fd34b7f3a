import Verif.Lemmas.BuildHist
import Verif.Spec.Demo
/-!
# Properties of builds: C04, C05, C27
-/

namespace Bob

variable {tc : Toolchain} {L : Layout} {c c' : InstCfg} {n n' : Nat} {reqs : List Req}

/-! ## From invariants to claims -/

theorem upToDate_of_fresh {TL : Bytes → Prop} {fs : FS} (h : ∀ r ∈ reqs, ReqFreshT tc (fun _ => False) TL fs r) : ProjFresh tc fs reqs := by
  intro r hr
  have := h r hr
  cases r with
  | compile jobs =>
    intro j hj
    obtain ⟨o, h1, h2, _⟩ := (this j hj id).1.obj
    exact ⟨o.content, h2, by simp [FS.content, h1]⟩
  | link j =>
    obtain ⟨o, h1, h2, _⟩ := (this id).1.out
    exact ⟨o.content, h2, by simp [FS.content, h1]⟩

/-- A successful build after a history without suspects. -/
theorem success {TL : Bytes → Prop} {s s1 s2 : Store} (hT : ToolOk tc L) (hL : LayoutOk L c) (hR : ReqsOk L reqs) (hn : 0 < n)
    (h : History tc L (fun _ => False) TL s) (he : Edit L s s1) (hb : BuildReaches tc c n reqs s1 (.finished true s2)) :
    RunInv tc L (fun _ => False) (fun o => TL o ∨ s1.fs (logPath o) ≠ s.fs (logPath o)) s1 reqs reqs s2 ∧
    ∀ r ∈ reqs, ReqFreshT tc (fun _ => False) (fun o => TL o ∨ s1.fs (logPath o) ≠ s.fs (logPath o)) s2.fs r := by
  have hinv := CfgInv.reach hL hT ((hist_inv hT h).edit hL he) hR hn hb
  cases hinv with
  | finished run fresh =>
    refine ⟨run, fun r hr => ?_⟩
    have := fresh rfl r hr
    cases r with
    | compile jobs => exact fun j hj _ => this j hj (fun hB => hB.1)
    | link j => exact fun _ => this (fun hB => hB.1)

theorem builds_history {s : Store} (h : Builds tc L s) : ∃ TL, History tc L (fun _ => False) TL s := by
  induction h with
  | start h => exact ⟨_, .start h⟩
  | built _ he hL hR hn hb ih =>
    obtain ⟨TL, ih⟩ := ih
    exact ⟨_, .forget (.built ih he hL hR hn hb) (fun o ho => ho.1.elim) (fun o ho => Or.inl ho)⟩

/-! ## C04 -/

/-- **C04.** After any history of edits, deletions, changes of flags, of the project and of the install map, and successful
builds, with any number of workers and any schedule, a build that succeeds leaves every product equal to what the compiler or
linker yields for the files there are now. -/
theorem C04_incremental_build_up_to_date (hT : ToolOk tc L) {s s1 s2 : Store} (h : Builds tc L s) (he : Edit L s s1)
    (hL : LayoutOk L c) (hR : ReqsOk L reqs) (hn : 0 < n) (hb : BuildReaches tc c n reqs s1 (.finished true s2)) :
    ProjFresh tc s2.fs reqs ∧ ∀ p, L.user p → s2.fs p = s1.fs p := by
  obtain ⟨TL, h⟩ := builds_history h
  obtain ⟨h1, h2⟩ := success hT hL hR hn h he hb
  exact ⟨upToDate_of_fresh h2, h1.user⟩

theorem content_isSome_iff (fs : FS) (p : Bytes) : (fs.content p).isSome = (fs p).isSome := by simp [FS.content]

/-- Two file systems in which the same project is up to date, and which agree on the user's files, agree on the products, if
in one of them there are no products of others. -/
theorem upToDate_unique (hT : ToolOk tc L) (hR : ReqsOk L reqs) {fs fs' : FS} (h : ProjFresh tc fs reqs) (h' : ProjFresh tc fs' reqs)
    (hu : ∀ p, L.user p → fs'.content p = fs.content p) (hnone : ∀ o, L.isOut o → o ∉ outsOf reqs → fs' o = none) :
    ∀ o ∈ outsOf reqs, fs'.content o = fs.content o := by
  have key : ∀ k, ∀ pre post, pre.length = k → reqs = pre ++ post → ∀ o ∈ outsOf pre, fs'.content o = fs.content o := by
    intro k
    induction k with
    | zero =>
      intro pre post hk _ o ho
      rw [List.eq_nil_of_length_eq_zero hk] at ho; cases ho
    | succ k ih =>
      intro pre post hk he o ho
      rcases List.eq_nil_or_concat pre with rfl | ⟨pre', r, rfl⟩
      · simp at hk
      · have ih' := ih pre' (r :: post) (by simpa using hk) (by simp [he])
        rw [List.concat_eq_append, outsOf_append] at ho
        rcases List.mem_append.mp ho with ho | ho
        · exact ih' o ho
        · have hr : r ∈ reqs := by simp [he]
          have hok := hR.jobs r hr
          have h1 := h r hr
          have h2 := h' r hr
          cases r with
          | compile jobs =>
            simp only [outsOf_cons, outsOf_nil, List.append_nil, Req.outs, List.mem_map] at ho
            obtain ⟨j, hj, rfl⟩ := ho
            obtain ⟨x, h3, h4⟩ := h1 j hj
            obtain ⟨y, h5, h6⟩ := h2 j hj
            have hjo := hok j hj
            obtain ⟨items, hi⟩ := hT.objDeps _ _ _ _ h3
            have hlaw := (hT.depsLaw fs fs' j.src j.flags items hi (by
              intro p hp
              refine hu p ?_
              rcases List.mem_cons.mp hp with rfl | hp
              · exact hjo.user
              · obtain ⟨it, hit, rfl⟩ := List.mem_map.mp hp
                exact ((hT.depsOk _ _ _ _ hi).2 it hit).2.1)).2.1
            rw [h4, h6, ← h3, ← h5, hlaw]
          | link j =>
            simp only [outsOf_cons, outsOf_nil, List.append_nil, Req.outs, List.mem_singleton] at ho
            subst ho
            obtain ⟨x, h3, h4⟩ := h1
            obtain ⟨y, h5, h6⟩ := h2
            have hjo : LJobOk L j := hok
            have hlaw := (hT.linkLaw j.archive fs fs' j.srcs j.flags (by
              intro p hp
              rcases hjo.srcs p hp with hpu | hpu
              · exact hu p hpu
              · have hnot := hR.ordered pre' j post (by simp [he]) p hp
                by_cases hin : p ∈ outsOf pre'
                · exact ih' p hin
                · have : p ∉ outsOf reqs := by
                    rw [he]
                    simp only [List.concat_eq_append, List.append_assoc, List.cons_append, List.nil_append, outsOf_append,
                      List.mem_append, not_or]
                    exact ⟨hin, hnot⟩
                  have hs := hT.linkExists _ _ _ _ _ h5 p hp
                  rw [hnone p hpu this] at hs
                  cases hs)).1
            rw [h4, h6, ← h3, ← h5, hlaw]
  exact key reqs.length reqs [] rfl (by simp)

/-- **C04.** An incremental build leaves the same products as a build of a fresh checkout with the same source files, whatever
the numbers of workers, the schedules and the install maps. -/
theorem C04_same_as_clean_build (hT : ToolOk tc L) {s s1 s2 k1 k2 : Store} (h : Builds tc L s) (he : Edit L s s1)
    (hL : LayoutOk L c) (hL' : LayoutOk L c') (hR : ReqsOk L reqs) (hn : 0 < n) (hn' : 0 < n')
    (hb : BuildReaches tc c n reqs s1 (.finished true s2))
    (hk : Pristine L k1) (hu : ∀ p, L.user p → k1.fs.content p = s1.fs.content p)
    (hb' : BuildReaches tc c' n' reqs k1 (.finished true k2)) :
    ∀ o ∈ outsOf reqs, s2.fs.content o = k2.fs.content o := by
  obtain ⟨TL, h⟩ := builds_history h
  obtain ⟨h1, h2⟩ := success hT hL hR hn h he hb
  -- the clean build starts in a pristine store
  have hS : StartOk tc L (fun _ => False) (fun _ => False) k1 := by
    refine ⟨hk.user, fun o ho f hf => ?_, fun o ho _ => OutInv.gone (hk.managed o ho o (Or.inl rfl))⟩
    rw [hk.managed o ho o (Or.inl rfl)] at hf; cases hf
  have hinv := CfgInv.reach hL' hT hS hR hn' hb'
  cases hinv with
  | finished run fresh =>
    have hup : ProjFresh tc k2.fs reqs := upToDate_of_fresh (TL := fun _ => False) (fun r hr => by
      have := fresh rfl r hr
      cases r with
      | compile jobs => exact fun j hj _ => this j hj (fun hB => hB.1)
      | link j => exact fun _ => this (fun hB => hB.1))
    intro o ho
    refine (upToDate_unique hT hR (upToDate_of_fresh h2) hup ?_ ?_ o ho).symm
    · intro p hp
      rw [content_congr (run.user p hp), content_congr (h1.user p hp)]
      exact hu p hp
    · intro o ho hnot
      rw [run.untouched o ho hnot o (Or.inl rfl)]
      exact hk.managed o ho o (Or.inl rfl)

/-! ## C05 -/

/-- **C05**, partial: the general claim is false, see `C05_flag_change_false`.  After any history of edits and of builds that
may have failed or been killed at any point, a successful build leaves every product up to date, if the history has no
product (that was not deleted since) whose flags were changed by a build that did not succeed. -/
theorem C05_stopped_builds_partial (hT : ToolOk tc L) {TL : Bytes → Prop} {s s1 s2 : Store} (h : History tc L (fun _ => False) TL s)
    (he : Edit L s s1) (hL : LayoutOk L c) (hR : ReqsOk L reqs) (hn : 0 < n) (hb : BuildReaches tc c n reqs s1 (.finished true s2)) :
    ProjFresh tc s2.fs reqs ∧ ∀ p, L.user p → s2.fs p = s1.fs p := by
  obtain ⟨h1, h2⟩ := success hT hL hR hn h he hb
  exact ⟨upToDate_of_fresh h2, h1.user⟩

/-- **C05**, partial, for single products: those not among the suspects are up to date. -/
theorem C05_suspects_partial (hT : ToolOk tc L) {T TL : Bytes → Prop} {s s1 s2 : Store} (h : History tc L T TL s)
    (he : Edit L s s1) (hL : LayoutOk L c) (hR : ReqsOk L reqs) (hn : 0 < n) (hb : BuildReaches tc c n reqs s1 (.finished true s2))
    {jobs : List CJob} (hj : .compile jobs ∈ reqs) {j : CJob} (hjj : j ∈ jobs) (hTj : ¬ T j.out ∨ FlagsChanged s1 reqs j.out) :
    ∃ o, tc.obj s2.fs j.src j.flags = some o ∧ s2.fs.content j.out = some o := by
  have hinv := CfgInv.reach hL hT ((hist_inv hT h).edit hL he) hR hn hb
  cases hinv with
  | finished run fresh =>
    obtain ⟨o, h1, h2, _⟩ := (fresh rfl _ hj j hjj (fun hB => hTj.elim (fun h => h hB.1) (fun h => hB.2 h))).1.obj
    exact ⟨o.content, h2, by simp [FS.content, h1]⟩

theorem killed_recorded {flags : Bytes → List Bytes} (hT : ToolOk tc L) {s : Store} (h : Killed tc L flags s) :
    (∃ TL, History tc L (fun _ => False) TL s) ∧ ∀ o, L.isOut o → (s.fs o).isSome → Recorded s.fs o (flags o) := by
  induction h with
  | start h =>
    refine ⟨⟨_, .start h⟩, fun o ho hs => ?_⟩
    rw [h.managed o ho o (Or.inl rfl)] at hs; cases hs
  | @built s s1 cfg c n reqs _ he hrec hL hR hF hn hb ih =>
    obtain ⟨⟨TL, hh⟩, hi⟩ := ih
    have h1 : ∀ o, L.isOut o → (s1.fs o).isSome → Recorded s1.fs o (flags o) := by
      intro o ho hs
      have hs0 : (s.fs o).isSome := by
        rcases he.managed o ho o (Or.inl rfl) with h | h
        · rw [h] at hs; exact hs
        · rw [h] at hs; cases hs
      obtain ⟨r, h2, h3⟩ := hi o ho hs0
      rcases hrec o ho with h | h
      · exact ⟨r, by rw [h]; exact h2, h3⟩
      · rw [h] at hs; cases hs
    have hinv := (CfgInv.reach hL hT ((hist_inv hT hh).edit hL he) hR hn hb).run
    refine ⟨⟨_, .forget (.stopped hh he hL hR hn hb) ?_ (fun o ho => Or.inl ho)⟩, ?_⟩
    · rintro o (h | ⟨hs, r, hr, F, hF', hne⟩)
      · exact h.elim
      · exfalso
        have ho : L.isOut o := by
          have hok := hR.jobs r hr
          cases r with
          | compile jobs => obtain ⟨j, hj, rfl, _⟩ := hF'; exact (hok j hj).isOut
          | link j => obtain ⟨rfl, _⟩ := hF'; exact LJobOk.isOut hok
        obtain ⟨f, h2, h3⟩ := h1 o ho hs
        have := hF r hr o F hF'
        subst this
        exact hne f h2 h3
    · intro o ho hs
      rcases hinv.recs o ho hs with ⟨h2, h3⟩ | ⟨r, hr, F, hF', hx⟩
      · obtain ⟨f, h4, h5⟩ := h1 o ho h2
        exact ⟨f, by rw [h3]; exact h4, h5⟩
      · rw [hF r hr o F hF'] at hx; exact hx

/-- **C05**, partial: as long as the flags of a product stay the same, builds may fail or be killed anywhere, any number of
times, between any edits: a successful build leaves every product up to date. -/
theorem C05_same_flags_partial {flags : Bytes → List Bytes} (hT : ToolOk tc L) {s s1 s2 : Store} (h : Killed tc L flags s)
    (he : Edit L s s1) (hL : LayoutOk L c) (hR : ReqsOk L reqs) (hn : 0 < n) (hb : BuildReaches tc c n reqs s1 (.finished true s2)) :
    ProjFresh tc s2.fs reqs ∧ ∀ p, L.user p → s2.fs p = s1.fs p := by
  obtain ⟨⟨TL, hh⟩, _⟩ := killed_recorded hT h
  exact C05_stopped_builds_partial hT hh he hL hR hn hb

/-! ## Concrete cases -/

def flagO : List Bytes := [b!"-O"]
def flagP : List Bytes := [b!"-P"]
def flagW : List Bytes := [b!"-W"]

theorem cleanO : ∀ f ∈ flagO, CleanFlag f := by decide
theorem cleanP : ∀ f ∈ flagP, CleanFlag f := by decide
theorem cleanW : ∀ f ∈ flagW, CleanFlag f := by decide

/-- Built, header edited and flags changed, built again: the hypotheses of `C04_incremental_build_up_to_date` hold and the
products are new. -/
def case1 : Store := (autoBuild demoTc noInst (demoReqs flagO) (demoStore.later 1)).store
def case2 : Store := (case1.later 1).write b!"h.h" b!"K"
def case3 : Store := (autoBuild demoTc noInst (demoReqs flagP) case2).store

theorem case1_builds : Builds demoTc demoL case1 :=
  .built (.start demoPristine) (edit_later _ 1 (by omega)) demoLayoutOk (demoReqsOk _ cleanO) (by omega)
    (autoBuild_reaches (by rfl))

theorem case2_edit : Edit demoL case1 case2 := edit_write demoLayoutOk _ 1 (by omega) _ _ (by simp [demoL])

theorem case3_reaches : BuildReaches demoTc noInst 1 (demoReqs flagP) case2 (.finished true case3) := autoBuild_reaches (by rfl)

example : case1.fs.content outL = some b!"AH-OB-O" ∧ case3.fs.content outL = some b!"AK-PB-P" := by decide +kernel
example : ProjFresh demoTc case3.fs (demoReqs flagP) :=
  (C04_incremental_build_up_to_date demoToolOk case1_builds case2_edit demoLayoutOk (demoReqsOk _ cleanP) (by omega) case3_reaches).1

/-- A fresh checkout of the edited sources. -/
def caseClean : Store := { demoStore with fs := demoStore.fs.set b!"h.h" (some ⟨b!"K", 3⟩) }

theorem caseClean_pristine : Pristine demoL caseClean where
  user := by
    intro p hp f hf
    by_cases e : p = b!"h.h"
    · simp only [caseClean, FS.set, e, if_true, Option.some.injEq] at hf
      subst hf; decide
    · simp only [caseClean, FS.set, e, if_false] at hf
      exact demoPristine.user p hp f hf
  managed := by
    intro o ho p hp
    have : p ≠ b!"h.h" := fun e => demoLayoutOk.outNotUser o p ho hp (by simp [demoL, e])
    simp only [caseClean, FS.set, this, if_false]
    exact demoPristine.managed o ho p hp

example : ∀ o ∈ outsOf (demoReqs flagP),
    case3.fs.content o = (autoBuild demoTc noInst (demoReqs flagP) caseClean).store.fs.content o :=
  C04_same_as_clean_build demoToolOk case1_builds case2_edit demoLayoutOk demoLayoutOk (demoReqsOk _ cleanP) (by omega) (by omega)
    case3_reaches caseClean_pristine (by
      intro p hp
      simp only [demoL, List.mem_cons, List.not_mem_nil, or_false] at hp
      rcases hp with rfl | rfl | rfl <;> decide +kernel) (autoBuild_reaches (by rfl))

/-- Exchanging the inputs of a link, which bob gives the same product path (C12), is not noticed: the product is not what the
linker yields now.  Such projects are excluded in `C04_incremental_build_up_to_date` by `Layout.kind`. -/
def reordered : List Req :=
  [.compile [⟨b!"a.c", outA, flagO⟩, ⟨b!"b.c", outB, flagO⟩], .link ⟨false, [outB, outA], outL, []⟩]

theorem C04_link_reorder_false : ∃ s2, BuildReaches demoTc noInst 1 reordered (case1.later 1) (.finished true s2) ∧
    ¬ ProjFresh demoTc s2.fs reordered := by
  refine ⟨_, autoBuild_reaches (by rfl), ?_⟩
  intro h
  obtain ⟨o, h1, h2⟩ := h (.link ⟨false, [outB, outA], outL, []⟩) (by simp [reordered])
  rw [← h2] at h1
  revert h1
  decide +kernel

/-- **C05** is false when flags change: built, flags changed, and the build killed after bob has written down the new flags
and before it has run the compiler.  The next build succeeds without compiling anything. -/
def killedAt : Store := (autoRun demoTc noInst 4 (.idle (demoReqs flagP) (case1.later 1))).store

theorem killedAt_history : ∃ TL, History demoTc demoL (FlagsChanged (case1.later 1) (demoReqs flagP)) TL killedAt := by
  obtain ⟨TL, h⟩ := builds_history case1_builds
  exact ⟨_, .forget (.stopped h (edit_later _ 1 (by omega)) demoLayoutOk (demoReqsOk _ cleanP) (by omega : 0 < 1)
    (autoRun_reaches 4 _ (.refl _))) (fun o ho => ho.elim False.elim Or.inl) (fun o ho => Or.inl ho)⟩

theorem C05_flag_change_false : ∃ T TL s s1 s2, History demoTc demoL T TL s ∧ Edit demoL s s1 ∧
    BuildReaches demoTc noInst 1 (demoReqs flagP) s1 (.finished true s2) ∧ ¬ ProjFresh demoTc s2.fs (demoReqs flagP) := by
  obtain ⟨TL, h⟩ := killedAt_history
  refine ⟨_, TL, killedAt, killedAt.later 1, _, h, edit_later _ 1 (by omega), autoBuild_reaches (by rfl), ?_⟩
  intro h
  obtain ⟨o, h1, h2⟩ := h (.compile [⟨b!"a.c", outA, flagP⟩, ⟨b!"b.c", outB, flagP⟩]) (by simp [demoReqs]) ⟨b!"a.c", outA, flagP⟩ (by simp)
  rw [← h2] at h1
  revert h1
  decide +kernel

/-- The partial claims are about something: a build killed in the middle of a compile task, the source edited, and a successful build. -/
def killed5 : Store := (autoRun demoTc noInst 12 (.idle (demoReqs flagO) (case2.later 1))).store

theorem killed5_killed : Killed demoTc demoL (fun o => if o = outL then [] else flagO) killed5 := by
  refine .built (.built (.start demoPristine) (edit_later _ 1 (by omega)) (fun _ _ => Or.inl rfl) demoLayoutOk (demoReqsOk _ cleanO) ?_
    (by omega : 0 < 1) (cfg := autoBuild demoTc noInst (demoReqs flagO) (demoStore.later 1)) (autoRun_reaches 100 _ (.refl _)))
    (s1 := case2.later 1) ?_ ?_ demoLayoutOk (demoReqsOk _ cleanO) ?_ (by omega : 0 < 1) (autoRun_reaches 12 _ (.refl _))
  · intro r hr o F hF
    simp only [demoReqs, List.mem_cons, List.not_mem_nil, or_false] at hr
    rcases hr with rfl | rfl
    · obtain ⟨j, hj, rfl, rfl⟩ := hF
      simp only [List.mem_cons, List.not_mem_nil, or_false] at hj
      rcases hj with rfl | rfl <;> rfl
    · obtain ⟨rfl, rfl⟩ := hF; rfl
  · have := case2_edit
    refine ⟨Nat.lt_succ_of_lt this.later, fun p hp => ?_, this.managed⟩
    rcases this.user p hp with h | h | ⟨f, h, h1, h2⟩
    · exact Or.inl h
    · exact Or.inr (Or.inl h)
    · exact Or.inr (Or.inr ⟨f, h, h1, Nat.le_succ_of_le h2⟩)
  · intro o ho
    left
    have : flagsPath o ≠ b!"h.h" := fun e => demoLayoutOk.outNotUser o _ ho (Or.inr (Or.inr (Or.inl rfl))) (by simp [demoL, e])
    show (case1.later 1).fs.set _ _ (flagsPath o) = _
    simp only [FS.set, this, if_false]
    rfl
  · intro r hr o F hF
    simp only [demoReqs, List.mem_cons, List.not_mem_nil, or_false] at hr
    rcases hr with rfl | rfl
    · obtain ⟨j, hj, rfl, rfl⟩ := hF
      simp only [List.mem_cons, List.not_mem_nil, or_false] at hj
      rcases hj with rfl | rfl <;> rfl
    · obtain ⟨rfl, rfl⟩ := hF; rfl

example : ProjFresh demoTc (autoBuild demoTc noInst (demoReqs flagO) (killed5.later 1)).store.fs (demoReqs flagO) :=
  (C05_same_flags_partial demoToolOk killed5_killed (edit_later _ 1 (by omega)) demoLayoutOk (demoReqsOk _ cleanO) (by omega : 0 < 1)
    (autoBuild_reaches (by rfl))).1

end Bob
