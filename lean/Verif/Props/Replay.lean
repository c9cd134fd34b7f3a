import Verif.Props.Rebuild
import Verif.Lemmas.BuildSeq
/-!
# Properties of builds: C08, C14, C27, C30
-/

namespace Bob

variable {tc : Toolchain} {L : Layout} {c : InstCfg} {n n' : Nat} {reqs : List Req}

/-! ## C08 -/

/-- **C08.** A build that reports failure has built all steps before some step with success, and that step with failure; its
end is the end of that step, so later steps had no effect. -/
theorem C08_failed_step_ends_build {s s' : Store} (h : BuildReaches tc c n reqs s (.finished false s')) :
    ∃ pre r post s1, reqs = pre ++ r :: post ∧ BuildReaches tc c n pre s (.finished true s1) ∧ BuildReaches tc c n [r] s1 (.finished false s') := by
  generalize hx : Cfg.finished false s' = x at h
  cases instep_reach h with
  | inside r k hreq hpre hk hne hne' => cases k <;> simp_all [Cfg.ext, Cfg.result]
  | last => cases hx
  | ok => cases hx
  | fail r hreq hpre hk => cases hx; exact ⟨_, r, _, _, hreq, hpre, hk⟩

/-- **C08.** A build that reports success has built each step with success, one after the other. -/
theorem C08_success_means_all_steps {s s' : Store} {pre post : List Req} (h : BuildReaches tc c n (pre ++ post) s (.finished true s')) :
    ∃ s1, BuildReaches tc c n pre s (.finished true s1) ∧ BuildReaches tc c n post s1 (.finished true s') := reaches_split h

/-- **C08.** After a step has failed the build is over, with failure; time may pass but nothing else happens. -/
theorem C08_failure_is_final {s s' : Store} {pre post : List Req} {r : Req} {s1 : Store} (h : BuildReaches tc c n pre s (.finished true s1))
    (hr : BuildReaches tc c n [r] s1 (.finished false s')) : BuildReaches tc c n (pre ++ r :: post) s (.finished false s') ∧
    ∀ cfg, Steps (BuildNext tc c n) (.finished false s') cfg → ∃ t, cfg = .finished false { s' with now := t } := by
  constructor
  · have := reaches_ext post hr
    exact reaches_append h this
  · intro cfg hc
    induction hc with
    | refl => exact ⟨s'.now, rfl⟩
    | tail _ hs ih =>
      obtain ⟨t, rfl⟩ := ih
      generalize hx : Cfg.finished false _ = x at hs
      cases hs with
      | seq hq => subst hx; cases hq
      | tick t ht => subst hx; exact ⟨t, rfl⟩
      | pool => cases hx
      | join => cases hx

/-- Instance: the second source is in error; the object of the first is made, nothing is linked. -/
def broken : Store := (demoStore.later 1).write b!"b.c" b!"!"

example : (autoBuild demoTc noInst (demoReqs flagO) broken).result = some false ∧
    (autoBuild demoTc noInst (demoReqs flagO) broken).store.trace = [.compiled b!"a.c" outA flagO, .compiled b!"b.c" outB flagO] := by
  decide +kernel

example : ∃ pre r post s1, demoReqs flagO = pre ++ r :: post ∧ BuildReaches demoTc noInst 1 pre broken (.finished true s1) ∧
    BuildReaches demoTc noInst 1 [r] s1 (.finished false (autoBuild demoTc noInst (demoReqs flagO) broken).store) :=
  C08_failed_step_ends_build (autoBuild_reaches (by rfl))

/-! ## C14 -/

/-- Events of a build of a single object. -/
structure OneAt (tc : Toolchain) (c : InstCfg) (s0 : Store) (j : CJob) (st : PStat) (s : Store) : Prop where
  /-- the trace grows -/
  grow : ∃ es, s.trace = s0.trace ++ es ∧
    (∀ k f, st = .task k f → 2 ≤ k → .compiled j.src j.out j.flags ∈ es) ∧
    (st = .done → ¬ Recorded s0.fs j.out j.flags → .compiled j.src j.out j.flags ∈ es)
  recorded : st ≠ .todo → Recorded s.fs j.out j.flags
  todo : st = .todo → s.fs = s0.fs
  outside : ∀ p, ¬ Own c j.out p → s.fs p = s0.fs p
  made : ∀ k f, st = .task k f → 2 ≤ k → f = false →
    ∃ fs', (∀ p, ¬ Own c j.out p → fs' p = s0.fs p) ∧ s.fs.content j.out = tc.obj fs' j.src j.flags ∧ (s.fs.content j.out).isSome
  finished : st = .done → ¬ Recorded s0.fs j.out j.flags →
    ∃ fs', (∀ p, ¬ Own c j.out p → fs' p = s0.fs p) ∧ s.fs.content j.out = tc.obj fs' j.src j.flags ∧ (s.fs.content j.out).isSome

theorem one_flow {j : CJob} (hd : ∀ d, c.dest j.out = some d → ¬ Managed j.out d) {s0 : Store} :
    Flow tc c [.compile [j]] (fun _ => True) (fun P st s => P = .c j → OneAt tc c s0 j st s) := by
  have onlyj : ∀ P ∈ prodsOf [Req.compile [j]], P = .c j := by
    intro P hP; simpa [Req.prods] using hP
  refine ⟨fun _ _ _ _ => trivial, ?_, ?_, ?_⟩
  · rintro P st s s' ⟨t, _, rfl⟩ _ h hP
    have h := h hP
    exact ⟨h.grow, h.recorded, h.todo, h.outside, h.made, h.finished⟩
  · intro P hP st s st' s' ha _ hQ
    obtain rfl := onlyj P hP
    refine ⟨trivial, fun _ => ?_⟩
    have h := hQ rfl
    have out : ∀ p, ¬ Own c j.out p → s'.fs p = s0.fs p := fun p hp => ((act_touch ha).same p hp).trans (h.outside p hp)
    have inst : ∀ {a b : Store} {ok : Bool}, installCookie c j.out a = (b, ok) →
        (∃ es, b.trace = a.trace ++ es) ∧ ∀ p, Managed j.out p → b.fs p = a.fs p := by
      intro a b ok hi
      constructor
      · unfold installCookie at hi
        split at hi
        · cases hi; exact ⟨[], by simp⟩
        · split at hi
          · cases hi; exact ⟨[], by simp⟩
          · split at hi
            · cases hi; exact ⟨[], by simp⟩
            · split at hi <;> cases hi
              · exact ⟨[], by simp⟩
              · exact ⟨[], by simp⟩
              · exact ⟨_, rfl⟩
      · intro p hp
        have := hi ▸ touch_install_dest c j.out a
        exact this.same p (fun e => hd p e hp)
    cases ha with
    | compile hv =>
      obtain ⟨es, h1, _⟩ := h.grow
      rcases validate_cases hv with ⟨rfl, hr⟩ | ⟨rfl, _, hr⟩
      · exact ⟨⟨es, h1, by rintro k f ⟨⟩ h; omega, by simp⟩, fun _ => hr, by simp, out, by rintro k f ⟨⟩ h; omega, by simp⟩
      · refine ⟨⟨es, h1, by rintro k f ⟨⟩ h; omega, by simp⟩, fun _ => ?_, by simp, out, by rintro k f ⟨⟩ h; omega, by simp⟩
        exact ⟨⟨flagText j.flags, s.now⟩, by simp [Store.write, FS.set], cstr_eq_self (nul_not_mem_flagText _)⟩
    | err hv =>
      obtain ⟨es, h1, _⟩ := h.grow
      rcases validate_cases hv with ⟨rfl, hr⟩ | ⟨rfl, e, hr⟩
      · exact ⟨⟨es, h1, by simp, by simp⟩, fun _ => hr, by simp, out, by simp, by simp⟩
      · cases e
    | @skip _ _ s1 s2 ok hv hi =>
      obtain ⟨es, h1, _⟩ := h.grow
      rcases validate_cases hv with ⟨rfl, hr⟩ | ⟨rfl, e, hr⟩
      · obtain ⟨⟨es', h2⟩, h3⟩ := inst hi
        have hr0 : Recorded s0.fs j.out j.flags := by rw [h.todo rfl] at hr; exact hr
        refine ⟨⟨es ++ ([.already j.out (s1.fs.content (logPath j.out))] ++ es'), ?_, ?_, fun _ hn => (hn hr0).elim⟩, fun _ => ?_, ?_, out, ?_,
          fun _ hn => (hn hr0).elim⟩
        · rw [h2]; simp [Store.emit, h1]
        · cases ok <;> simp [okStat]
        · exact (recorded_congr (h3 _ (managed_flags _))).mpr hr
        · cases ok <;> simp [okStat]
        · cases ok <;> simp [okStat]
      · cases e
    | @task _ k f op _ hop =>
      obtain ⟨es, h1, h2, _⟩ := h.grow
      have hrec := h.recorded (by simp)
      rcases compileTask_cases hop with ⟨rfl, rfl⟩ | ⟨rfl, rfl⟩ | ⟨rfl, rfl⟩ | ⟨rfl, rfl⟩
      · have e : ((depsOp tc j f s).1).fs (flagsPath j.out) = s.fs (flagsPath j.out) ∧ ((depsOp tc j f s).1).trace = s.trace := by
          unfold depsOp
          split
          · exact ⟨rfl, rfl⟩
          · refine ⟨?_, rfl⟩
            simp [Store.write, FS.set, flagsPath_ne_depsPath]
        exact ⟨⟨es, by rw [e.2, h1], by rintro k f ⟨⟩ h; omega, by simp⟩, fun _ => (recorded_congr e.1).mpr hrec, by simp, out,
          by rintro k f ⟨⟩ h; omega, by simp⟩
      · have e : ((objOp tc j f s).1).fs (flagsPath j.out) = s.fs (flagsPath j.out) ∧
            ((objOp tc j f s).1).trace = s.trace ++ [.compiled j.src j.out j.flags] := by
          unfold objOp
          simp only
          split
          · exact ⟨by simp [Store.write, FS.set, flagsPath_ne, Store.capture, Store.emit], rfl⟩
          · split
            · exact ⟨by simp [Store.remove, FS.set, flagsPath_ne, Store.capture, Store.emit], rfl⟩
            · exact ⟨rfl, rfl⟩
        refine ⟨⟨es ++ [.compiled j.src j.out j.flags], by rw [e.2, h1, List.append_assoc], fun _ _ _ _ => by simp, by simp⟩,
          fun _ => (recorded_congr e.1).mpr hrec, by simp, out, ?_, by simp⟩
        rintro k f' he _ rfl
        simp only [PStat.task.injEq] at he
        refine ⟨s.fs, h.outside, ?_⟩
        have he := he.2
        unfold objOp at he ⊢
        cases ho : tc.obj s.fs j.src j.flags with
        | none => rw [ho] at he; simp at he
        | some x => simp [Store.write, FS.set, FS.content]
      · have e : ((logOp j f s).1).fs (flagsPath j.out) = s.fs (flagsPath j.out) ∧ ((logOp j f s).1).fs j.out = s.fs j.out ∧
            ((logOp j f s).1).trace = s.trace ∧ (logOp j f s).2 = f := by
          unfold logOp writeLog
          simp only
          split
          · exact ⟨by simp [Store.remove, FS.set, flagsPath_ne_logPath], by simp [Store.remove, FS.set, (logPath_ne _).symm], rfl, trivial⟩
          · exact ⟨by simp [Store.write, FS.set, flagsPath_ne_logPath], by simp [Store.write, FS.set, (logPath_ne _).symm], rfl, trivial⟩
        refine ⟨⟨es, by rw [e.2.2.1, h1], fun _ _ _ _ => h2 2 f rfl (by omega), by simp⟩, fun _ => (recorded_congr e.1).mpr hrec, by simp, out, ?_, by simp⟩
        rintro k f' he _ rfl
        simp only [PStat.task.injEq, e.2.2.2] at he
        rw [content_congr e.2.1]
        exact h.made 2 f rfl (by omega) he.2
      · rcases hi : installCookie c j.out s with ⟨s2, ok⟩
        obtain ⟨⟨es', h3⟩, h4⟩ := inst hi
        cases f with
        | true =>
          have e : instOp c j true s = (s, true) := rfl
          rw [e]
          exact ⟨⟨es, h1, fun _ _ _ _ => h2 3 true rfl (by omega), by simp⟩, fun _ => hrec, by simp, h.outside, by rintro k f ⟨⟩ _ ⟨⟩, by simp⟩
        | false =>
          have e : instOp c j false s = (s2, !ok) := by unfold instOp; rw [hi]; rfl
          rw [e] at out ⊢
          refine ⟨⟨es ++ es', by rw [h3, h1, List.append_assoc], fun _ _ _ _ => List.mem_append_left _ (h2 3 false rfl (by omega)), by simp⟩,
            fun _ => (recorded_congr (h4 _ (managed_flags _))).mpr hrec, by simp, out, ?_, by simp⟩
          rintro k f' _ _ _
          rw [content_congr (h4 _ (managed_out _))]
          exact h.made 3 false rfl (by omega) rfl
    | taskOk =>
      obtain ⟨es, h1, h2, _⟩ := h.grow
      exact ⟨⟨es, h1, by simp, fun _ _ => h2 4 false rfl (by omega)⟩, fun _ => h.recorded (by simp), by simp, out, by simp,
        fun _ _ => h.made 4 false rfl (by omega) rfl⟩
  · intro P hP P' hP' hne
    rw [onlyj P hP, onlyj P' hP'] at hne
    exact (hne rfl).elim

/-- Building a single object. -/
theorem one_build {j : CJob} (hd : ∀ d, c.dest j.out = some d → ¬ Managed j.out d) (hn : 0 < n) {s s' : Store}
    (h : BuildReaches tc c n [.compile [j]] s (.finished true s')) : OneAt tc c s j .done s' := by
  have hord : Ord [Req.compile [j]] := by
    refine ⟨by simp [outsOf, Req.outs], ?_⟩
    intro pre j' post h
    cases pre with
    | nil => simp at h
    | cons a pre => simp at h
  refine (flow_success (one_flow (tc := tc) hd (s0 := s)) hord hn trivial ?_ h).2 (.c j) (by simp [Req.prods]) rfl
  rintro P _ _
  exact ⟨⟨[], by simp, by simp, by simp⟩, by simp, fun _ => rfl, fun _ _ => rfl, by simp, by simp⟩

theorem recorded_inj {fs : FS} {out : Bytes} {F G : List Bytes} (hF : ∀ f ∈ F, CleanFlag f) (hG : ∀ f ∈ G, CleanFlag f)
    (h : Recorded fs out F) (h' : Recorded fs out G) : F = G := by
  obtain ⟨r, h1, h2⟩ := h
  obtain ⟨r', h3, h4⟩ := h'
  rw [h1] at h3; injection h3 with h3; subst h3
  exact flagText_inj hF hG (by rw [← h2, ← h4])

/-- **C14** is false: when one source is compiled by two calls with different flags (bob gives both the same object path, as
`gen_cookie` looks at the source path only), then after every successful build the object is the one of the later call, and however
often the project is built, without any change in between, each build compiles the source twice again.  For every compiler, source,
pair of flag lists, number of workers and schedule. -/
theorem C14_two_flag_lists_share_object_false {src out : Bytes} {F G : List Bytes} (hne : F ≠ G) (hF : ∀ f ∈ F, CleanFlag f)
    (hG : ∀ f ∈ G, CleanFlag f) (hd : ∀ d, c.dest out = some d → ¬ Managed out d) (hn : 0 < n) (hn' : 0 < n') {s0 s1 s1' s2 : Store}
    (h1 : BuildReaches tc c n [.compile [⟨src, out, F⟩], .compile [⟨src, out, G⟩]] s0 (.finished true s1))
    (hsame : s1'.fs = s1.fs)
    (h2 : BuildReaches tc c n' [.compile [⟨src, out, F⟩], .compile [⟨src, out, G⟩]] s1' (.finished true s2)) :
    (∃ es, s2.trace = s1'.trace ++ es ∧ .compiled src out F ∈ es ∧ .compiled src out G ∈ es) ∧
    (∃ fs', (∀ p, ¬ Own c out p → fs' p = s0.fs p) ∧ s1.fs.content out = tc.obj fs' src G ∧ (s1.fs.content out).isSome) := by
  obtain ⟨a, ha, ha'⟩ := reaches_split (pre := [_]) (post := [_]) h1
  obtain ⟨b, hb, hb'⟩ := reaches_split (pre := [_]) (post := [_]) h2
  have oa := one_build hd hn ha
  have oa' := one_build hd hn ha'
  have ob := one_build hd hn' hb
  have ob' := one_build hd hn' hb'
  have nF : ¬ Recorded s1'.fs out F := fun h => hne (recorded_inj hF hG h (by rw [hsame]; exact oa'.recorded (by simp)))
  have nG : ¬ Recorded b.fs out G := fun h => hne (recorded_inj hF hG (ob.recorded (by simp)) h)
  have nG' : ¬ Recorded a.fs out G := fun h => hne (recorded_inj hF hG (oa.recorded (by simp)) h)
  constructor
  · obtain ⟨es, e1, _, e2⟩ := ob.grow
    obtain ⟨es', e3, _, e4⟩ := ob'.grow
    exact ⟨es ++ es', by rw [e3, e1, List.append_assoc], List.mem_append_left _ (e2 rfl nF), List.mem_append_right _ (e4 rfl nG)⟩
  · obtain ⟨fs', e1, e2⟩ := oa'.finished rfl nG'
    exact ⟨fs', fun p hp => (e1 p hp).trans (oa.outside p hp), e2⟩

/-- Instance. -/
def toggle : List Req := [.compile [⟨b!"b.c", outB, flagO⟩], .compile [⟨b!"b.c", outB, flagP⟩]]
def toggled (s : Store) : Store := (autoBuild demoTc noInst toggle s).store

example : ((toggled (toggled (toggled demoStore))).trace = List.flatten (List.replicate 3
      [.compiled b!"b.c" outB flagO, .compiled b!"b.c" outB flagP])) ∧ (toggled demoStore).fs.content outB = some b!"B-P" := by decide +kernel

example : ∃ es, (toggled (toggled demoStore)).trace = (toggled demoStore).trace ++ es ∧
    .compiled b!"b.c" outB flagO ∈ es ∧ .compiled b!"b.c" outB flagP ∈ es :=
  (C14_two_flag_lists_share_object_false (tc := demoTc) (c := noInst) (F := flagO) (G := flagP) (s0 := demoStore) (by decide) cleanO cleanP
    (fun d h => by cases h) (by omega : 0 < 1) (by omega : 0 < 1) (autoBuild_reaches (reqs := toggle) (by rfl)) rfl
    (autoBuild_reaches (reqs := toggle) (by rfl))).1

/-! ## C27 -/

/-- Edits and successful builds, where nobody deletes a log without the product it belongs to. -/
inductive Kept (tc : Toolchain) (L : Layout) : Store → Prop where
  | start {s} (h : Pristine L s) : Kept tc L s
  | built {s s1 s2 c n reqs} (h : Kept tc L s) (he : Edit L s s1)
      (hk : ∀ o, L.isOut o → s1.fs (logPath o) = s.fs (logPath o) ∨ s1.fs o = none) (hL : LayoutOk L c) (hR : ReqsOk L reqs) (hn : 0 < n)
      (hb : BuildReaches tc c n reqs s1 (.finished true s2)) : Kept tc L s2

theorem kept_start (hL : LayoutOk L c) {s s1 : Store} (h : HistInv tc L (fun _ => False) (fun _ => False) s) (he : Edit L s s1)
    (hk : ∀ o, L.isOut o → s1.fs (logPath o) = s.fs (logPath o) ∨ s1.fs o = none) :
    StartOk tc L (fun _ => False) (fun _ => False) s1 := by
  have := h.edit hL he
  refine ⟨this.future, this.old, fun o ho hT => ?_⟩
  rcases hk o ho with h1 | h1
  · exact (this.outs o ho hT).weaken (fun h => h.elim id (fun h => h h1))
  · exact OutInv.gone h1

theorem kept_inv (hT : ToolOk tc L) {s : Store} (h : Kept tc L s) : HistInv tc L (fun _ => False) (fun _ => False) s := by
  induction h with
  | start h => exact hist_inv hT (.start h)
  | built _ he hk hL hR hn hb ih =>
    have hS := kept_start hL ih he hk
    have hinv := CfgInv.reach hL hT hS hR hn hb
    have hrun := hinv.run
    refine ⟨hrun.future, ?_⟩
    cases hinv with
    | finished run fresh => exact fun o ho _ => fresh_outInv hR run (fresh rfl) o ho (fun h => h.1)

theorem kept_past {s : Store} (h : Kept tc L s) : Past tc L s := by
  induction h with
  | start h => exact .start h
  | built _ he _ hL hR hn hb ih => exact .built ih he hL hR hn hb

/-- What a build says about a product: either the command was run and nothing was replayed, or it was not run and exactly `log` was
replayed, and copies of the product may have been installed. -/
def Says (o : Bytes) (ran : BEvent) (log : Option Bytes) (es : List BEvent) : Prop :=
  ∃ ins, (∀ e ∈ ins, ∃ d, e = BEvent.installed o d) ∧ (es = ran :: ins ∨ es = .already o log :: ins)

/-- **C27.** After edits and successful builds, a successful build says about each product either that its command was run, or what
the command would print if it were run now (which is what it did print when the product was made), and nothing if that is nothing.
The log kept for the next build says the same. -/
theorem C27_diagnostics_replayed (hT : ToolOk tc L) (hL : LayoutOk L c) (hD : DestInj L c) (hR : ReqsOk L reqs) (hn : 0 < n)
    {s s1 s2 : Store} (h : Kept tc L s) (he : Edit L s s1)
    (hk : ∀ o, L.isOut o → s1.fs (logPath o) = s.fs (logPath o) ∨ s1.fs o = none)
    (hb : BuildReaches tc c n reqs s1 (.finished true s2)) :
    (∀ jobs, .compile jobs ∈ reqs → ∀ j ∈ jobs, s2.fs.content (logPath j.out) = logOf (tc.diag s2.fs j.src j.flags) ∧
      ∃ es, s2.trace.filter (fun e => e.about == j.out) = s1.trace.filter (fun e => e.about == j.out) ++ es ∧
        Says j.out (.compiled j.src j.out j.flags) (logOf (tc.diag s2.fs j.src j.flags)) es) ∧
    (∀ j, .link j ∈ reqs → s2.fs.content (logPath j.out) = logOf (tc.linkDiag j.archive s2.fs j.srcs j.flags) ∧
      ∃ es, s2.trace.filter (fun e => e.about == j.out) = s1.trace.filter (fun e => e.about == j.out) ++ es ∧
        Says j.out (.linked j.out j.srcs j.flags) (logOf (tc.linkDiag j.archive s2.fs j.srcs j.flags)) es) := by
  have hS := kept_start hL (kept_inv hT h) he hk
  obtain ⟨_, hall⟩ := build_result hL hD hT ((kept_past h).settled hT he) hR hn hb
  have hinv := CfgInv.reach hL hT hS hR hn hb
  cases hinv with
  | finished run fresh =>
    have fresh := fresh rfl
    constructor
    · intro jobs hr j hj
      have hlog := (fresh _ hr j hj (fun h => h.1)).2 id
      refine ⟨hlog, ?_⟩
      have hP : Prod.c j ∈ prodsOf reqs := List.mem_flatMap.mpr ⟨_, hr, by simp [Req.prods, hj]⟩
      rcases hall _ hP with h | h
      · obtain ⟨ins, h1, h2⟩ := h.inst
        rw [← content_congr (h.files _ (managed_log _)), hlog] at h2
        exact ⟨_, h2, ins, instRes_installed h1, Or.inr rfl⟩
      · obtain ⟨ins, h1, h2⟩ := h.inst rfl rfl
        exact ⟨_, h2, ins, instRes_installed h1, Or.inl rfl⟩
    · intro j hr
      have hlog := (fresh _ hr (fun h => h.1)).2 id
      refine ⟨hlog, ?_⟩
      have hP : Prod.l j ∈ prodsOf reqs := List.mem_flatMap.mpr ⟨_, hr, by simp [Req.prods]⟩
      rcases hall _ hP with h | h
      · obtain ⟨ins, h1, h2⟩ := h.inst
        rw [← content_congr (h.files _ (managed_log _)), hlog] at h2
        exact ⟨_, h2, ins, instRes_installed h1, Or.inr rfl⟩
      · obtain ⟨ins, h1, h2⟩ := h.inst rfl
        exact ⟨_, h2, ins, instRes_installed h1, Or.inl rfl⟩

/-- Instance: built with warnings, `b.c` edited, built again: `a.c` is not compiled and its warning is shown again. -/
def case6 : Store := (autoBuild demoTc noInst (demoReqs flagW) (demoStore.later 1)).store
def case7 : Store := (case6.later 1).write b!"b.c" b!"C"
def case8 : Store := (autoBuild demoTc noInst (demoReqs flagW) case7).store

theorem case6_kept : Kept demoTc demoL case6 :=
  .built (.start demoPristine) (edit_later _ 1 (by omega)) (fun _ _ => Or.inl rfl) demoLayoutOk (demoReqsOk _ cleanW) (by omega : 0 < 1)
    (autoBuild_reaches (by rfl))

example : case8.trace.drop case6.trace.length =
    [.already outA (some b!"warning in a.c"), .compiled b!"b.c" outB flagW, .linked outL [outA, outB] []] := by decide +kernel

theorem noDestInj : DestInj demoL noInst := fun _ _ _ _ _ h => by cases h

example : case8.fs.content (logPath outA) = logOf (demoTc.diag case8.fs b!"a.c" flagW) :=
  ((C27_diagnostics_replayed demoToolOk demoLayoutOk noDestInj (demoReqsOk _ cleanW) (by omega : 0 < 1) case6_kept
    (edit_write demoLayoutOk _ 1 (by omega) b!"b.c" b!"C" (by simp [demoL])) (by
      intro o ho
      left
      have : logPath o ≠ b!"b.c" := fun e => demoLayoutOk.outNotUser o _ ho (managed_log o) (by simp [demoL, e])
      show (case6.later 1).fs.set _ _ (logPath o) = _
      simp only [FS.set, this, if_false]
      rfl) (s2 := case8) (autoBuild_reaches (by rfl))).1 _ (List.mem_cons_self ..) ⟨b!"a.c", outA, flagW⟩ (by simp)).1

/-- **C27** is false after a build that was killed between compiling and writing the log: the next build succeeds, finds the
object up to date and shows no diagnostics, although compiling printed some. -/
theorem C27_killed_build_false : ∃ s s1 s2, Past demoTc demoL s ∧ Edit demoL s s1 ∧
    BuildReaches demoTc noInst 1 (demoReqs flagW) s1 (.finished true s2) ∧
    (∃ es, s2.trace = s1.trace ++ es ∧ .already outA none ∈ es) ∧ logOf (demoTc.diag s2.fs b!"a.c" flagW) = some b!"warning in a.c" := by
  let k := autoRun demoTc noInst 11 (.idle (demoReqs flagW) (demoStore.later 1))
  refine ⟨k.store, k.store.later 1, (autoBuild demoTc noInst (demoReqs flagW) (k.store.later 1)).store,
    .built (.start demoPristine) (edit_later _ 1 (by omega)) demoLayoutOk (demoReqsOk _ cleanW) (by omega : 0 < 1) (autoRun_reaches 11 _ (.refl _)),
    edit_later _ 1 (by omega), autoBuild_reaches (by rfl), ?_, ?_⟩
  · refine ⟨[.already outA none, .compiled b!"b.c" outB flagW, .linked outL [outA, outB] []], ?_, by simp⟩
    decide +kernel
  · decide +kernel

/-! ## C30 -/

/-- Where products are installed: places which are not bob's own files, and different for different products. -/
structure DestOk (L : Layout) (dest : Bytes → Option Bytes) : Prop where
  notManaged : ∀ o d, L.isOut o → dest o = some d → ∀ o', L.isOut o' → ¬ Managed o' d
  inj : ∀ o o' d, L.isOut o → L.isOut o' → dest o = some d → dest o' = some d → o = o'

/-- A working directory and prefix after edits and builds which may have failed or been killed.  Builds may or may not be for the
prefix; installed copies may be deleted but not be changed by anybody else. -/
inductive Installs (tc : Toolchain) (L : Layout) (dest : Bytes → Option Bytes) : Store → Prop where
  | start {s} (h : Pristine L s) (hd : ∀ o d, L.isOut o → dest o = some d → s.fs d = none) : Installs tc L dest s
  | built {s s1 cfg c n reqs} (h : Installs tc L dest s) (he : Edit L s s1)
      (hd : ∀ o d, L.isOut o → dest o = some d → s1.fs d = s.fs d ∨ s1.fs d = none)
      (hL : LayoutOk L c) (hR : ReqsOk L reqs) (hn : 0 < n) (hc : ∀ o, L.isOut o → c.dest o = dest o ∨ c.dest o = none)
      (hb : BuildReaches tc c n reqs s1 cfg) : Installs tc L dest cfg.store

structure InstInv (L : Layout) (dest : Bytes → Option Bytes) (s : Store) : Prop where
  future : ∀ o, L.isOut o → ∀ f, s.fs o = some f → f.mtime ≤ s.now
  agree : ∀ o d, L.isOut o → dest o = some d → Agree s.fs o d
  destTime : ∀ o d, L.isOut o → dest o = some d → ∀ g, s.fs d = some g → g.mtime ≤ s.now

theorem InstInv.edit {dest : Bytes → Option Bytes} {s s1 : Store} (h : InstInv L dest s) (he : Edit L s s1)
    (hd : ∀ o d, L.isOut o → dest o = some d → s1.fs d = s.fs d ∨ s1.fs d = none) :
    InstInv L dest s1 ∧ ∀ o d, L.isOut o → dest o = some d → ∀ g, s1.fs d = some g → g.mtime < s1.now := by
  have hl := he.later
  have ho : ∀ o, L.isOut o → ∀ f, s1.fs o = some f → s.fs o = some f := by
    intro o hoo f hf
    rcases he.managed o hoo o (Or.inl rfl) with h1 | h1
    · rw [← h1]; exact hf
    · rw [h1] at hf; cases hf
  have hd' : ∀ o d, L.isOut o → dest o = some d → ∀ g, s1.fs d = some g → s.fs d = some g := by
    intro o d hoo hdd g hg
    rcases hd o d hoo hdd with h1 | h1
    · rw [← h1]; exact hg
    · rw [h1] at hg; cases hg
  have ht : ∀ o d, L.isOut o → dest o = some d → ∀ g, s1.fs d = some g → g.mtime < s1.now := by
    intro o d hoo hdd g hg
    have := h.destTime o d hoo hdd g (hd' o d hoo hdd g hg)
    omega
  refine ⟨⟨?_, ?_, fun o d hoo hdd g hg => Nat.le_of_lt (ht o d hoo hdd g hg)⟩, ht⟩
  · intro o hoo f hf
    have := h.future o hoo f (ho o hoo f hf)
    omega
  · intro o d hoo hdd f g hf hg hle
    exact h.agree o d hoo hdd f g (ho o hoo f hf) (hd' o d hoo hdd g hg) hle

theorem reqs_isOut (hR : ReqsOk L reqs) : ∀ o ∈ outsOf reqs, L.isOut o := by
  intro o ho
  rw [← prodsOf_out] at ho
  obtain ⟨P, hP, rfl⟩ := List.mem_map.mp ho
  exact prod_isOut hR hP

/-- The start of a build for a prefix. -/
theorem InstInv.start {dest : Bytes → Option Bytes} {s : Store} (h : InstInv L dest s)
    (ht : ∀ o d, L.isOut o → dest o = some d → ∀ g, s.fs d = some g → g.mtime < s.now)
    (hc : ∀ o, L.isOut o → c.dest o = dest o ∨ c.dest o = none) : DestStart L c s := by
  have sub : ∀ o d, L.isOut o → c.dest o = some d → dest o = some d := by
    intro o d ho hd
    rcases hc o ho with h1 | h1
    · rw [← h1]; exact hd
    · rw [h1] at hd; cases hd
  exact ⟨h.future, fun o d ho hd => h.agree o d ho (sub o d ho hd), fun o d ho hd => ht o d ho (sub o d ho hd)⟩

theorem installs_inv {dest : Bytes → Option Bytes} (hD : DestOk L dest) {s : Store} (h : Installs tc L dest s) : InstInv L dest s := by
  induction h with
  | start h hd =>
    refine ⟨?_, ?_, ?_⟩
    · intro o ho f hf; rw [h.managed o ho o (Or.inl rfl)] at hf; cases hf
    · intro o d ho hdd f g hf; rw [h.managed o ho o (Or.inl rfl)] at hf; cases hf
    · intro o d ho hdd g hg; rw [hd o d ho hdd] at hg; cases hg
  | @built s s1 cfg c n reqs _ he hd hL hR hn hc hb ih =>
    obtain ⟨h1, ht⟩ := ih.edit he hd
    have sub : ∀ o d, L.isOut o → c.dest o = some d → dest o = some d := by
      intro o d ho hd
      rcases hc o ho with h1 | h1
      · rw [← h1]; exact hd
      · rw [h1] at hd; cases hd
    have hDI : DestInj L c := fun o o' d ho ho' hd hd' => hD.inj o o' d ho ho' (sub o d ho hd) (sub o' d ho' hd')
    have hFl := (FlowInv.reach (dest_flow (tc := tc) hL hDI (h1.start ht hc) (reqs_isOut hR)) hR.ord hn (Nat.le_refl _)
      ((h1.start ht hc).todo (reqs_isOut hR)) hb).any
    obtain ⟨hnow, hnew⟩ := build_new hR.ord hn hb
    -- the copy of a product that is not being installed stays
    have stay : ∀ o d, L.isOut o → dest o = some d → ¬ (o ∈ outsOf reqs ∧ c.dest o = some d) → cfg.store.fs d = s1.fs d := by
      intro o d ho hdd hno
      refine build_outside hR.ord hn hb d ?_
      rintro o' ho' (h | h)
      · exact hD.notManaged o d ho hdd o' (reqs_isOut hR o' ho') h
      · have := hD.inj o o' d ho (reqs_isOut hR o' ho') hdd (sub o' d (reqs_isOut hR o' ho') h)
        subst this
        exact hno ⟨ho', h⟩
    have fut : ∀ o, L.isOut o → ∀ f, cfg.store.fs o = some f → f.mtime ≤ cfg.store.now := by
      intro o ho f hf
      rcases hnew o with h | h | ⟨g, h, _, h3⟩
      · rw [h] at hf; exact Nat.le_trans (h1.future o ho f hf) hnow
      · rw [h] at hf; cases hf
      · rw [h] at hf; injection hf with hf; subst hf; exact h3
    refine ⟨fut, ?_, ?_⟩
    · intro o d ho hdd
      by_cases hin : o ∈ outsOf reqs ∧ c.dest o = some d
      · have ho' := hin.1
        rw [← prodsOf_out] at ho'
        obtain ⟨P, hP, rfl⟩ := List.mem_map.mp ho'
        obtain ⟨st, hst⟩ := hFl.2 P hP
        exact hst.agree d hin.2
      · intro f g hf hg hle
        have hst := stay o d ho hdd hin
        rw [hst] at hg
        rcases hnew o with h | h | ⟨f', h, h3, _⟩
        · rw [h] at hf; exact h1.agree o d ho hdd f g hf hg hle
        · rw [h] at hf; cases hf
        · rw [h] at hf; injection hf with hf; subst hf
          have := ht o d ho hdd g hg
          omega
    · intro o d ho hdd g hg
      rcases hnew d with h | h | ⟨g', h, _, h3⟩
      · rw [h] at hg; exact Nat.le_trans (h1.destTime o d ho hdd g hg) hnow
      · rw [h] at hg; cases hg
      · rw [h] at hg; injection hg with hg; subst hg; exact h3

/-- **C30**, partial: about the place of the first entry for a product in the install map; others are ignored
(`C30_second_entry_false`).  After any history of edits and builds, with or without the prefix, a successful build for the prefix
leaves an exact copy of every product that has such an entry. -/
theorem C30_products_installed_partial {dest : Bytes → Option Bytes} (hD : DestOk L dest) {s s1 s2 : Store} (h : Installs tc L dest s) (he : Edit L s s1)
    (hd : ∀ o d, L.isOut o → dest o = some d → s1.fs d = s.fs d ∨ s1.fs d = none) (hL : LayoutOk L c) (hR : ReqsOk L reqs) (hn : 0 < n)
    (hc : ∀ o, L.isOut o → c.dest o = dest o ∨ c.dest o = none) (hb : BuildReaches tc c n reqs s1 (.finished true s2)) :
    ∀ o ∈ outsOf reqs, ∀ d, c.dest o = some d → (s2.fs d).isSome ∧ s2.fs.content d = s2.fs.content o := by
  obtain ⟨h1, ht⟩ := (installs_inv hD h).edit he hd
  have hDI : DestInj L c := by
    have sub : ∀ o d, L.isOut o → c.dest o = some d → dest o = some d := by
      intro o d ho hd
      rcases hc o ho with h1 | h1
      · rw [← h1]; exact hd
      · rw [h1] at hd; cases hd
    exact fun o o' d ho ho' hd hd' => hD.inj o o' d ho ho' (sub o d ho hd) (sub o' d ho' hd')
  have := (flow_success (dest_flow (tc := tc) hL hDI (h1.start ht hc) (reqs_isOut hR)) hR.ord hn (Nat.le_refl _)
      ((h1.start ht hc).todo (reqs_isOut hR)) hb).2
  intro o ho d hdd
  rw [← prodsOf_out] at ho
  obtain ⟨P, hP, rfl⟩ := List.mem_map.mp ho
  obtain ⟨_, f, g, h2, h3, h4, _⟩ := (this P hP).good rfl d hdd
  exact ⟨by rw [h3]; rfl, by simp [FS.content, h2, h3, h4]⟩

theorem demoDestOk : DestOk demoL demoInst.dest where
  notManaged := fun o d _ h o' ho' => demoLayoutOk'.destNotManaged o d h o' ho'
  inj := demoDestInj

/-- Instance: built and installed, built without the prefix after an edit, then built for the prefix again: the copy is the new
product, although it is not made in that build. -/
def case9 : Store := (autoBuild demoTc demoInst (demoReqs flagO) (demoStore.later 1)).store
def case10 : Store := (autoBuild demoTc noInst (demoReqs flagO) ((case9.later 1).write b!"h.h" b!"K")).store
def case11 : Store := (autoBuild demoTc demoInst (demoReqs flagO) (case10.later 1)).store

theorem demo_dest_eq {o d : Bytes} (h : demoInst.dest o = some d) : d = b!".bob/prefix/bin/prog" := by
  simp only [InstCfg.dest, demoInst, Option.bind_some, List.find?] at h
  split at h
  · simpa using h.symm
  · cases h

theorem case10_installs : Installs demoTc demoL demoInst.dest case10 := by
  refine .built (s1 := (case9.later 1).write b!"h.h" b!"K") (.built (s1 := demoStore.later 1) (cfg := autoBuild demoTc demoInst (demoReqs flagO) (demoStore.later 1))
    (.start demoPristine ?_) (edit_later _ 1 (by omega)) (fun _ _ _ _ => Or.inl rfl) demoLayoutOk' (demoReqsOk _ cleanO) (by omega : 0 < 1)
    (fun _ _ => Or.inl rfl) (autoRun_reaches 100 _ (.refl _))) (edit_write demoLayoutOk _ 1 (by omega) _ _ (by simp [demoL])) ?_
    demoLayoutOk (demoReqsOk _ cleanO) (by omega : 0 < 1) (fun _ _ => Or.inr rfl)
    (cfg := autoBuild demoTc noInst (demoReqs flagO) ((case9.later 1).write b!"h.h" b!"K")) (autoRun_reaches 100 _ (.refl _))
  · intro o d _ h
    rw [demo_dest_eq h]; decide
  · intro o d _ h
    rw [demo_dest_eq h]
    left
    exact write_other (case9.later 1) _ (by decide)

example : case10.fs.content b!".bob/prefix/bin/prog" = some b!"AH-OB-O" ∧ case11.fs.content b!".bob/prefix/bin/prog" = some b!"AK-OB-O" := by
  decide +kernel

example : case11.fs.content b!".bob/prefix/bin/prog" = case11.fs.content outL :=
  (C30_products_installed_partial demoDestOk case10_installs (edit_later _ 1 (by omega)) (fun _ _ _ _ => Or.inl rfl) demoLayoutOk'
    (demoReqsOk _ cleanO) (by omega : 0 < 1) (fun _ _ => Or.inl rfl) (s2 := case11) (autoBuild_reaches (by rfl)) outL (by decide) _ (by rfl)).2

/-- **C30** is false for further entries: a product that is listed twice in the install map is installed at the first place only. -/
theorem C30_second_entry_false : ∃ s2, BuildReaches demoTc ⟨some b!"pre", [(outL, b!"bin/a"), (outL, b!"bin/b")], fun _ => false⟩ 1 (demoReqs flagO)
    demoStore (.finished true s2) ∧ (s2.fs b!"pre/bin/a").isSome ∧ s2.fs b!"pre/bin/b" = none := by
  refine ⟨_, autoBuild_reaches (by rfl), ?_, ?_⟩ <;> decide +kernel

end Bob
