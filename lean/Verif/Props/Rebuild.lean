import Verif.Lemmas.BuildEnd
import Verif.Spec.Demo
import Verif.Props.Build
/-!
# Properties of builds: C03, C07, C09, C19
-/

namespace Bob

variable {tc : Toolchain} {L : Layout} {c : InstCfg} {n n' : Nat} {reqs : List Req}

theorem steps_trans {α : Type} {R : α → α → Prop} {a b d : α} (h : Steps R a b) (h' : Steps R b d) : Steps R a d := by
  induction h' with
  | refl => exact h
  | tail _ r ih => exact .tail ih r

/-! ## C19 for builds -/

/-- Builds, counting the actions of the main thread and of the workers. -/
inductive CountedBuild (tc : Toolchain) (c : InstCfg) (n : Nat) (a : Cfg) : Nat → Cfg → Prop where
  | refl : CountedBuild tc c n a 0 a
  | seq {k b d} (h : CountedBuild tc c n a k b) (hs : seqNext tc c b = some d) : CountedBuild tc c n a (k + 1) d
  | work {k tasks rest p p'} (h : CountedBuild tc c n a k (.pooling tasks rest p)) (w : Nat) (hw : w < n)
      (hs : workStep (taskProg tc c tasks) p w = some p') : CountedBuild tc c n a (k + 1) (.pooling tasks rest p')
  | join {k tasks rest p} (h : CountedBuild tc c n a k (.pooling tasks rest p)) (hj : p.Joined n) :
      CountedBuild tc c n a (k + 1) (afterStep rest (p.store, p.waitOk))
  | tick {k b} (h : CountedBuild tc c n a k b) (t : Nat) (ht : b.store.now ≤ t) : CountedBuild tc c n a k (b.withNow t)

theorem CountedBuild.steps {a b : Cfg} {k : Nat} (h : CountedBuild tc c n a k b) : Steps (BuildNext tc c n) a b := by
  induction h with
  | refl => exact .refl _
  | seq _ hs ih => exact .tail ih (.seq hs)
  | work _ w hw hs ih => exact .tail ih (.pool (.work w hw hs))
  | join _ hj ih => exact .tail ih (.join hj)
  | tick _ t ht ih => exact .tail ih (.tick t ht)

theorem withNow_left (t : Nat) (a : Cfg) : (a.withNow t).left tc c n = a.left tc c n := by
  cases a <;> rfl

/-- **C19, for whole builds.** Whatever the schedule, no build makes more steps than twelve for each source, four for each worker
and three for each compile request, and four for each link request, plus one. -/
theorem C19_build_bounded {s : Store} {cfg : Cfg} {k : Nat} (h : CountedBuild tc c n (.idle reqs s) k cfg) :
    k ≤ listSum (reqs.map fun r => match r with | .compile jobs => 12 * jobs.length + 4 * n + 3 | .link _ => 4) + 1 := by
  have key : k + cfg.left tc c n ≤ costs n reqs := by
    induction h with
    | refl => simp [Cfg.left]
    | seq _ hs ih => have := seq_left (n := n) hs; omega
    | work h w hw hs ih => have := pool_left (started_reach h.steps) hw hs; omega
    | @join k tasks rest p h hj ih =>
      have := afterStep_left (tc := tc) (c := c) (n := n) rest (p.store, p.waitOk)
      simp only [Cfg.left] at ih
      omega
    | tick _ t ht ih => rw [withNow_left]; exact ih
  have e : costs n reqs = listSum (reqs.map fun r => match r with | .compile jobs => 12 * jobs.length + 4 * n + 3 | .link _ => 4) + 1 := by
    unfold costs
    rfl
  omega

/-- **C19, for whole builds.** At every point of a build it can be continued to its end. -/
theorem C19_build_returns {s : Store} {cfg : Cfg} (h : BuildReaches tc c n reqs s cfg) :
    ∃ ok s', BuildReaches tc c n reqs s (.finished ok s') ∧ Steps (BuildNext tc c n) cfg (.finished ok s') := by
  have gen : ∀ m (a : Cfg), BuildReaches tc c n reqs s a → a.left tc c n ≤ m →
      ∃ ok s', BuildReaches tc c n reqs s (.finished ok s') ∧ Steps (BuildNext tc c n) a (.finished ok s') := by
    intro m
    induction m with
    | zero =>
      intro a ha hm
      cases hr : a.result with
      | none =>
        obtain ⟨b, _, hb⟩ := progress (started_reach ha) hr
        omega
      | some ok => have := result_finished hr; exact ⟨ok, a.store, this ▸ ha, this ▸ .refl _⟩
    | succ m ih =>
      intro a ha hm
      cases hr : a.result with
      | none =>
        obtain ⟨b, hab, hb⟩ := progress (started_reach ha) hr
        obtain ⟨ok, s', h1, h2⟩ := ih b (.tail ha hab) (by omega)
        exact ⟨ok, s', h1, steps_trans (.tail (.refl _) hab) h2⟩
      | some ok => have := result_finished hr; exact ⟨ok, a.store, this ▸ ha, this ▸ .refl _⟩
  exact gen _ cfg h (Nat.le_refl _)

/-! ## What is true after a successful build -/

/-- Installing a product again does nothing. -/
def InstNew (c : InstCfg) (fs : FS) (o : Bytes) : Prop :=
  ∀ d, c.dest o = some d → c.bad d = false ∧ ∃ f g, fs o = some f ∧ fs d = some g ∧ f.mtime ≤ g.mtime

theorem installCookie_new {out : Bytes} {s : Store} (h : InstNew c s.fs out) : installCookie c out s = (s, true) := by
  unfold installCookie
  cases hd : c.dest out with
  | none => rfl
  | some d =>
    obtain ⟨hb, f, g, h1, h2, h4⟩ := h d hd
    simp only [h1, hb, Bool.false_eq_true, if_false, frugal_one h1, h2]
    have : ¬ g.mtime < f.mtime := by omega
    simp [this]

theorem instRes_new {s0 s : Store} {out : Bytes} {ins : List BEvent} (h : InstRes c s0 out ins s) : InstNew c s.fs out := by
  intro d hd
  rcases h with ⟨h, _⟩ | ⟨d', f, h1, h2, h3, h4⟩
  · rw [h] at hd; cases hd
  · rw [hd] at h1; injection h1 with h1; subst h1
    refine ⟨h2, f, ?_⟩
    rcases h4 with ⟨_, _, g, h5, _, h6, _⟩ | ⟨h5, _, h6⟩
    · exact ⟨g, h3, h5, h6⟩
    · obtain ⟨g, hg⟩ := Classical.not_forall.mp h5
      obtain ⟨hg, hlt⟩ := Classical.not_imp.mp hg
      exact ⟨g, h3, by rw [h6]; exact hg, by omega⟩

theorem flagsRes_recorded {s0 s : Store} {out : Bytes} {F : List Bytes} (h : FlagsRes s0 out F s) :
    Recorded s.fs out F := by
  rcases h with ⟨h1, h2⟩ | ⟨_, r, h1, h2⟩
  · exact (recorded_congr h2).mpr h1
  · exact ⟨r, h1, by rw [h2]; exact cstr_eq_self (nul_not_mem_flagText F)⟩

/-- After a success an object is found up to date. -/
theorem done_cskip (hT : ToolOk tc L) {s0 s : Store} (hS : Settled L s0) (hG : Glob L s0 s) {j : CJob} (hj : CJobOk L j)
    (h : CAt tc c s0 j .done s) : CSkip s.fs j ∧ InstNew c s.fs j.out := by
  rcases h with h | h
  · obtain ⟨ins, h1, _⟩ := h.inst
    exact ⟨cskip_same hj h.files hG.user (hS.deps _ hj.isOut) h.skip, instRes_new h1⟩
  · obtain ⟨ins, h1, _⟩ := h.inst rfl rfl
    refine ⟨⟨flagsRes_recorded h.flags, ?_⟩, instRes_new h1⟩
    obtain ⟨f, h2, h3, h4⟩ := h.made (by omega) rfl
    obtain ⟨items, hi⟩ := hT.objDeps _ _ _ _ h3
    have hd := h.deps (by omega)
    unfold DepsRes at hd
    rw [hi] at hd
    obtain ⟨d, h5, h6⟩ := hd
    refine ⟨d, h5, ?_⟩
    have hok := hT.depsOk _ _ _ _ hi
    rw [h6, show readDeps (depsText (ruleText items)) = items.map (·.2) from
      C06_include_deps_roundtrip items (fun it hit => (hok.2 it hit).1), (C01_mtime_decision_exact _ _ _).2.1]
    refine ⟨f.mtime, by simp [FS.stat, h2], ?_⟩
    intro p hp
    have hu : L.user p ∧ (s0.fs p).isSome := by
      rcases List.mem_cons.mp hp with rfl | hp
      · exact ⟨hj.user, hok.1⟩
      · obtain ⟨it, hit, rfl⟩ := List.mem_map.mp hp
        exact (hok.2 it hit).2
    obtain ⟨g, hg⟩ := Option.isSome_iff_exists.mp hu.2
    refine ⟨g.mtime, by simp [FS.stat, hG.user p hu.1, hg], ?_⟩
    have := hS.user p hu.1 g hg
    omega

theorem done_lskip {s0 s : Store} {j : LJob} (h : LAt tc c s0 j .done s) :
    LSkip s s.fs j ∧ InstNew c s.fs j.out := by
  rcases h with h | h
  · obtain ⟨ins, h1, _⟩ := h.inst
    refine ⟨?_, instRes_new h1⟩
    obtain ⟨h2, o, h3, h4⟩ := h.skip
    exact ⟨(recorded_congr (h.files _ (managed_flags _))).mpr h2, o, by rw [h.files _ (managed_out _)]; exact h3, h4⟩
  · obtain ⟨ins, h1, _⟩ := h.inst rfl
    refine ⟨?_, instRes_new h1⟩
    obtain ⟨f, h2, _, _, h3⟩ := h.made (by omega)
    exact ⟨flagsRes_recorded h.flags, f, h2, h3⟩

/-- Nothing is to be done for any product. -/
def AllDone (c : InstCfg) (reqs : List Req) (s : Store) : Prop :=
  ∀ P ∈ prodsOf reqs, InstNew c s.fs P.out ∧ match P with
    | .c j => CSkip s.fs j
    | .l j => LSkip s s.fs j

theorem allDone_of_success (hL : LayoutOk L c) (hD : DestInj L c) (hT : ToolOk tc L) {s0 s : Store} (hS : Settled L s0) (hR : ReqsOk L reqs) (hn : 0 < n)
    (h : BuildReaches tc c n reqs s0 (.finished true s)) : AllDone c reqs s := by
  obtain ⟨hG, hall⟩ := build_result hL hD hT hS hR hn h
  intro P hP
  have := hall P hP
  cases P with
  | c j => have := done_cskip hT hS hG (prod_cok hR hP) this; exact ⟨this.2, this.1⟩
  | l j => have := done_lskip this; exact ⟨this.2, this.1⟩

/-- What a build does where there is nothing to be done. -/
theorem idle_flow {s : Store} (h : AllDone c reqs s) : Flow tc c reqs
    (fun a => a.fs = s.fs ∧ ∃ es, a.trace = s.trace ++ es ∧ ∀ e ∈ es, ∃ o ∈ outsOf reqs, e = .already o (s.fs.content (logPath o)))
    (fun _ st _ => st = .todo ∨ st = .done) := by
  have quiet : ∀ P ∈ prodsOf reqs, ∀ a : Store, a.fs = s.fs → ∀ a', installCookie c P.out (a.emit (.already P.out (a.fs.content (logPath P.out)))) = a' →
      a' = (a.emit (.already P.out (s.fs.content (logPath P.out))), true) := by
    intro P hP a ha a' hi
    rw [← hi, ha]
    refine installCookie_new ?_
    rw [emit_fs, ha]
    exact (h P hP).1
  have ends : ∀ P ∈ prodsOf reqs, ∀ a : Store,
      (∃ es, a.trace = s.trace ++ es ∧ ∀ e ∈ es, ∃ o ∈ outsOf reqs, e = .already o (s.fs.content (logPath o))) →
      ∃ es, (a.emit (.already P.out (s.fs.content (logPath P.out)))).trace = s.trace ++ es ∧
        ∀ e ∈ es, ∃ o ∈ outsOf reqs, e = .already o (s.fs.content (logPath o)) := by
    rintro P hP a ⟨es, h1, h2⟩
    refine ⟨es ++ [.already P.out (s.fs.content (logPath P.out))], by simp [Store.emit, h1], ?_⟩
    intro e he
    rcases List.mem_append.mp he with he | he
    · exact h2 e he
    · refine ⟨P.out, ?_, List.mem_singleton.mp he⟩
      rw [← prodsOf_out]; exact List.mem_map_of_mem hP
  refine ⟨?_, fun _ _ _ _ _ _ h => h, ?_, fun _ _ _ _ _ _ _ _ _ _ _ _ _ _ h => h⟩
  · rintro a b ⟨t, _, rfl⟩ h; exact h
  · intro P hP st a st' b ha hG hQ
    have hP' := h P hP
    have cval : ∀ {j : CJob}, P = .c j → ∃ a', validate j a = (a', .skip) := by
      rintro j rfl
      exact validate_skip_iff.mpr (by rw [hG.1]; exact hP'.2)
    have lval : ∀ {j : LJob}, P = .l j → ∃ a', linkCheck j a = (a', false) := by
      rintro j rfl
      refine linkCheck_false_iff.mpr ((lskip_iff (s0 := s) (by rw [hG.1]) (by rw [hG.1])).mpr ?_)
      rw [hG.1]; exact hP'.2
    cases ha with
    | compile h' => obtain ⟨a', e⟩ := cval rfl; rw [h'] at e; cases e
    | err h' => obtain ⟨a', e⟩ := cval rfl; rw [h'] at e; cases e
    | skip h' hi =>
      rcases validate_cases h' with ⟨rfl, _⟩ | ⟨_, e, _⟩
      rotate_left
      · cases e
      have := quiet _ hP _ hG.1 _ hi
      simp only [Prod.mk.injEq] at this
      obtain ⟨rfl, rfl⟩ := this
      exact ⟨⟨hG.1, ends _ hP _ hG.2⟩, Or.inr rfl⟩
    | linkYes h' => obtain ⟨a', e⟩ := lval rfl; rw [h'] at e; cases e
    | linkSkip h' hi =>
      rcases linkCheck_cases h' with ⟨rfl, _⟩ | ⟨_, e, _⟩
      rotate_left
      · cases e
      have := quiet _ hP _ hG.1 _ hi
      simp only [Prod.mk.injEq] at this
      obtain ⟨rfl, rfl⟩ := this
      exact ⟨⟨hG.1, ends _ hP _ hG.2⟩, Or.inr rfl⟩
    | task => rcases hQ with h | h <;> cases h
    | taskOk => rcases hQ with h | h <;> cases h
    | linkRun => rcases hQ with h | h <;> cases h
    | linkLog => rcases hQ with h | h <;> cases h
    | linkFail => rcases hQ with h | h <;> cases h
    | linkInst => rcases hQ with h | h <;> cases h

/-! ## C03 -/

/-- A build where there is nothing to be done. -/
theorem quiet_build (hR : ReqsOk L reqs) (hn' : 0 < n') {s3 : Store} (hall : AllDone c reqs s3) {cfg : Cfg} (hb' : BuildReaches tc c n' reqs s3 cfg) :
    cfg.store.fs = s3.fs ∧
    (∃ es, cfg.store.trace = s3.trace ++ es ∧ ∀ e ∈ es, ∃ o l, e = .already o l) ∧
    cfg.result ≠ some false ∧
    ∃ s4, Steps (BuildNext tc c n') cfg (.finished true s4) := by
  have key : ∀ {cfg}, BuildReaches tc c n' reqs s3 cfg → FlowInv tc c n' reqs _ _ cfg := fun h =>
    FlowInv.reach (idle_flow (tc := tc) hall) hR.ord hn' ⟨rfl, [], by simp, by simp⟩ (fun P _ => Or.inl rfl) h
  have nofail : ∀ {cfg : Cfg}, BuildReaches tc c n' reqs s3 cfg → cfg.result ≠ some false := by
    intro cfg h e
    have hr := result_finished e
    rw [hr] at h
    cases key h with
    | finished _ _ _ hno =>
      obtain ⟨P, _, st, hbad, hst⟩ := hno rfl
      rcases hst with rfl | rfl <;> cases hbad
  have hG := (key hb').any.1
  refine ⟨hG.1, ?_, nofail hb', ?_⟩
  · obtain ⟨es, h1, h2⟩ := hG.2
    exact ⟨es, h1, fun e he => by obtain ⟨o, _, h⟩ := h2 e he; exact ⟨o, _, h⟩⟩
  · obtain ⟨ok, s4, h1, h2⟩ := C19_build_returns hb'
    cases ok with
    | true => exact ⟨s4, h2⟩
    | false => exact (nofail h1 rfl).elim

/-- **C03.** Whatever happened before, after a successful build another build of the same project with the same prefix, at any
later time and with any number of workers, changes no file, neither content nor time stamp, runs no compiler or linker, installs
nothing, and cannot fail, at any of its points; and it can always be continued to a successful end. -/
theorem C03_rebuild_does_nothing (hT : ToolOk tc L) (hL : LayoutOk L c) (hD : DestInj L c) (hR : ReqsOk L reqs) (hn : 0 < n) (hn' : 0 < n')
    {s s1 s2 s3 : Store} (hp : Past tc L s) (he : Edit L s s1) (hb : BuildReaches tc c n reqs s1 (.finished true s2))
    (hsame : s3.fs = s2.fs) {cfg : Cfg} (hb' : BuildReaches tc c n' reqs s3 cfg) :
    cfg.store.fs = s2.fs ∧
    (∃ es, cfg.store.trace = s3.trace ++ es ∧ ∀ e ∈ es, ∃ o l, e = .already o l) ∧
    cfg.result ≠ some false ∧
    ∃ s4, Steps (BuildNext tc c n') cfg (.finished true s4) := by
  have hall : AllDone c reqs s3 := by
    have := allDone_of_success hL hD hT (hp.settled hT he) hR hn hb
    intro P hP
    have := this P hP
    rw [hsame]
    refine ⟨this.1, ?_⟩
    cases P with
    | c j => exact this.2
    | l j =>
      obtain ⟨h1, h2⟩ := this.2
      unfold LSkip
      rw [hsame]
      exact ⟨h1, h2⟩
  obtain ⟨h1, h2⟩ := quiet_build hR hn' hall hb'
  exact ⟨h1.trans hsame, h2⟩

theorem demoDestInj : DestInj demoL demoInst := by
  have : ∀ o d, demoInst.dest o = some d → o = outL := by
    intro o d h
    simp only [InstCfg.dest, demoInst, Option.bind_some, List.find?] at h
    split at h
    · rename_i e; simpa using (eq_of_beq e).symm
    · cases h
  intro o o' d _ _ h h'
  rw [this o d h, this o' d h']

/-- Built for a prefix after an edit of a header, and built again with two workers. -/
def case4 : Store := (autoBuild demoTc demoInst (demoReqs flagW) (case2.later 1)).store

theorem case2_edit' : Edit demoL case1 (case2.later 1) := by
  have := case2_edit
  refine ⟨Nat.lt_succ_of_lt this.later, fun p hp => ?_, this.managed⟩
  rcases this.user p hp with h | h | ⟨f, h, h1, h2⟩
  · exact Or.inl h
  · exact Or.inr (Or.inl h)
  · exact Or.inr (Or.inr ⟨f, h, h1, Nat.le_succ_of_le h2⟩)

theorem case1_past : Past demoTc demoL case1 :=
  .built (.start demoPristine) (edit_later _ 1 (by omega)) demoLayoutOk (demoReqsOk _ cleanO) (by omega : 0 < 1)
    (cfg := autoBuild demoTc noInst (demoReqs flagO) (demoStore.later 1)) (autoRun_reaches 100 _ (.refl _))

example : case4.fs.content b!".bob/prefix/bin/prog" = some b!"AK-WB-W" ∧ case4.trace.length = 7 := by decide +kernel

example {cfg : Cfg} (h : BuildReaches demoTc demoInst 2 (demoReqs flagW) (case4.later 3) cfg) : cfg.store.fs = case4.fs :=
  (C03_rebuild_does_nothing demoToolOk demoLayoutOk' demoDestInj (demoReqsOk _ cleanW) (by omega : 0 < 1) (by omega : 0 < 2) case1_past case2_edit'
    (s3 := case4.later 3) (autoBuild_reaches (by rfl)) rfl h).1

example : (autoBuild demoTc demoInst (demoReqs flagW) (case4.later 3)).store.trace.drop 7 =
    [.already outA (some b!"warning in a.c"), .already outB (some b!"warning in b.c"), .already outL none] := by decide +kernel

/-! ## C07 -/

/-- Exactly the user's files in `E` were written after everything else, and nothing else changed. -/
structure Edited (L : Layout) (E : Bytes → Prop) (s s' : Store) : Prop where
  later : s.now < s'.now
  files : ∀ p, E p → L.user p ∧ ∃ f, s'.fs p = some f ∧ s.now < f.mtime ∧ f.mtime ≤ s'.now
  rest : ∀ p, ¬ E p → s'.fs p = s.fs p
  fresh : s'.trace = []

theorem Edited.edit {E : Bytes → Prop} {s s' : Store} (hL : LayoutOk L c) (h : Edited L E s s') : Edit L s s' := by
  refine ⟨h.later, fun p _ => ?_, fun o ho p hp => ?_⟩
  · by_cases hE : E p
    · obtain ⟨f, h1, h2⟩ := (h.files p hE).2
      exact Or.inr (Or.inr ⟨f, h1, h2⟩)
    · exact Or.inl (h.rest p hE)
  · exact Or.inl (h.rest p (fun hE => hL.outNotUser o p ho hp (h.files p hE).1))

/-- A new build finds an object of a successful build up to date if and only if none of its recorded inputs was edited. -/
theorem cskip_edited {E : Bytes → Prop} {s s' : Store} {j : CJob} (hL : LayoutOk L c) (hj : CJobOk L j) (h : Edited L E s s')
    (hout : ∀ f, s.fs j.out = some f → f.mtime ≤ s.now) (hs : CSkip s.fs j) {d : File} (hd : s.fs (depsPath j.out) = some d) :
    CSkip s'.fs j ↔ ∀ p ∈ j.src :: readDeps d.content, ¬ E p := by
  have hm : ∀ p, Managed j.out p → s'.fs p = s.fs p :=
    fun p hp => h.rest p (fun hE => hL.outNotUser j.out p hj.isOut hp (h.files p hE).1)
  obtain ⟨h1, d', h2, h3⟩ := hs
  rw [hd] at h2; injection h2 with h2; subst h2
  rw [(C01_mtime_decision_exact _ _ _).2.1] at h3
  obtain ⟨t, h4, h5⟩ := h3
  obtain ⟨o, h6, rfl⟩ := stat_ok h4
  constructor
  · rintro ⟨_, d', h7, h8⟩ p hp hE
    rw [hm _ (managed_deps _), hd] at h7; injection h7 with h7; subst h7
    rw [(C01_mtime_decision_exact _ _ _).2.1] at h8
    obtain ⟨t', h9, h10⟩ := h8
    obtain ⟨o', h11, rfl⟩ := stat_ok h9
    rw [hm _ (managed_out _), h6] at h11; injection h11 with h11; subst h11
    obtain ⟨m, h12, h13⟩ := h10 p hp
    obtain ⟨f, h14, rfl⟩ := stat_ok h12
    obtain ⟨f', h15, h16, _⟩ := (h.files p hE).2
    rw [h14] at h15; injection h15 with h15; subst h15
    have := hout o h6
    omega
  · intro hn
    refine ⟨(recorded_congr (hm _ (managed_flags _))).mpr h1, d, by rw [hm _ (managed_deps _)]; exact hd, ?_⟩
    rw [(C01_mtime_decision_exact _ _ _).2.1]
    refine ⟨o.mtime, by simp [FS.stat, hm _ (managed_out _), h6], fun p hp => ?_⟩
    obtain ⟨m, h7, h8⟩ := h5 p hp
    exact ⟨m, by simpa [FS.stat, h.rest p (hn p hp)] using h7, h8⟩

theorem mem_evs {e : BEvent} {o : Bytes} {tr : List BEvent} (he : e.about = o) : e ∈ tr ↔ e ∈ evs o tr := by
  simp [evs, he]

theorem instRes_installed {s0 s : Store} {out : Bytes} {ins : List BEvent} (h : InstRes c s0 out ins s) : ∀ e ∈ ins, ∃ d, e = .installed out d := by
  rcases h with ⟨_, rfl⟩ | ⟨d, f, _, _, _, ⟨_, rfl, _⟩ | ⟨_, rfl, _⟩⟩
  · simp
  · intro e he; exact ⟨d, List.mem_singleton.mp he⟩
  · simp

/-- The events of a build about an object. -/
theorem compiled_iff {s0 s : Store} (h0 : s0.trace = []) {j : CJob} {st : PStat} (h : CAt tc c s0 j st s) :
    (.compiled j.src j.out j.flags ∈ s.trace → ¬ CSkip s0.fs j) ∧ (st = .done → ¬ CSkip s0.fs j → .compiled j.src j.out j.flags ∈ s.trace) := by
  rw [mem_evs (o := j.out) rfl]
  have ev0 : evs j.out s0.trace = [] := by rw [h0]; rfl
  cases st with
  | todo =>
    have h : Untouched c s0 j.out s := h
    rw [h.evs, ev0]; simp
  | task k f =>
    have h : CTask tc c s0 j k f s := h
    exact ⟨fun _ => h.run, by simp⟩
  | done =>
    rcases h with h | h
    · obtain ⟨ins, h1, h2⟩ := h.inst
      rw [h2, ev0]
      refine ⟨fun hm => ?_, fun _ hn => (hn h.skip).elim⟩
      simp only [List.nil_append, List.mem_cons, reduceCtorEq, false_or] at hm
      obtain ⟨d, hd⟩ := instRes_installed h1 _ hm
      cases hd
    · obtain ⟨ins, h1, h2⟩ := h.inst rfl rfl
      exact ⟨fun _ => h.run, fun _ _ => by rw [h2]; simp⟩
  | failed =>
    rcases h with h | h
    · rw [h, ev0]; simp
    · rw [h.2, ev0]; simp
  | linking => exact h.elim
  | linkRan => exact h.elim
  | linked => exact h.elim

/-- **C07.** After edits, flag changes and successful builds, let the tree be up to date, and let some of the user's files be edited.
The next build compiles a source only if an edited file is among the files the compiler reports the source to be made from, at any
point of the build, and if it succeeds it has compiled all such sources. -/
theorem C07_edit_recompiles_exactly_includers (hT : ToolOk tc L) (hL : LayoutOk L c) (hD : DestInj L c) (hR : ReqsOk L reqs) (hn : 0 < n) (hn' : 0 < n')
    {s s1 s2 s3 : Store} (hp : Builds tc L s) (he : Edit L s s1) (hb : BuildReaches tc c n reqs s1 (.finished true s2))
    {E : Bytes → Prop} (hE : Edited L E s2 s3) {cfg : Cfg} (hb' : BuildReaches tc c n' reqs s3 cfg)
    {jobs : List CJob} (hr : .compile jobs ∈ reqs) {j : CJob} (hj : j ∈ jobs) :
    ∃ items, tc.deps s2.fs j.src j.flags = some items ∧
      (.compiled j.src j.out j.flags ∈ cfg.store.trace → ∃ p ∈ j.src :: items.map (·.2), E p) ∧
      (cfg.result = some true → (∃ p ∈ j.src :: items.map (·.2), E p) → .compiled j.src j.out j.flags ∈ cfg.store.trace) := by
  obtain ⟨TL, hh⟩ := builds_history hp
  have hfresh := (success hT hL hR hn hh he hb).2 _ hr j hj id
  obtain ⟨o, h1, h2, items, h3, ⟨d, h4, h5⟩, h6⟩ := hfresh.1.obj
  have hjo : CJobOk L j := hR.jobs _ hr j hj
  have hP : Prod.c j ∈ prodsOf reqs := List.mem_flatMap.mpr ⟨_, hr, by simp [Req.prods, hj]⟩
  have hpast : Past tc L s := by
    clear hh he hb hE hfresh h1 h2 h3 h4 h5 h6
    induction hp with
    | start h => exact .start h
    | built _ he hL hR hn hb ih => exact .built ih he hL hR hn hb
  have hpast2 : Past tc L s2 := .built hpast he hL hR hn hb
  have hall := allDone_of_success hL hD hT (hpast.settled hT he) hR hn hb
  have hS3 := hpast2.settled hT (hE.edit hL)
  have hok := (hT.depsOk _ _ _ _ h3).2
  have hread : readDeps d.content = items.map (·.2) := by
    rw [h5]; exact C06_include_deps_roundtrip items (fun it hit => (hok it hit).1)
  have hiff := cskip_edited hL hjo hE ((hpast2.inv hT).1 _ (Or.inr hjo.isOut)) (hall _ hP).2 h4
  rw [hread] at hiff
  have conv : ¬ CSkip s3.fs j ↔ ∃ p ∈ j.src :: items.map (·.2), E p := by
    rw [hiff]; simp only [Classical.not_forall, Classical.not_not]
    constructor
    · rintro ⟨p, hp, hE⟩; exact ⟨p, hp, hE⟩
    · rintro ⟨p, hp, hE⟩; exact ⟨p, hp, hE⟩
  refine ⟨items, h3, ?_, ?_⟩
  · intro hm
    obtain ⟨st, hst⟩ := (build_any hL hD hT hS3 hR hn' hb').2 _ hP
    exact conv.mp ((compiled_iff (tc := tc) (c := c) hE.fresh hst).1 hm)
  · intro hres hex
    have e := result_finished hres
    rw [e] at hb' 
    have := (build_result hL hD hT hS3 hR hn' hb').2 _ hP
    exact (compiled_iff (tc := tc) (c := c) (st := .done) hE.fresh this).2 rfl (conv.mpr hex)

/-- Instance: after editing the header, only `a.c` is compiled. -/
def case5 : Store := { (case4.later 1).write b!"h.h" b!"X" with trace := [] }

theorem case5_edited : Edited demoL (· = b!"h.h") case4 case5 where
  later := Nat.lt_succ_self _
  files := by
    rintro p rfl
    exact ⟨by simp [demoL], ⟨b!"X", case4.now + 1⟩, write_same (case4.later 1) b!"h.h" b!"X", Nat.lt_succ_self _, Nat.le_refl _⟩
  rest p hp := write_other _ _ hp
  fresh := rfl

example {cfg : Cfg} (h : BuildReaches demoTc demoInst 2 (demoReqs flagW) case5 cfg) :
    .compiled b!"b.c" outB flagW ∉ cfg.store.trace := by
  intro hm
  obtain ⟨items, h1, h2, _⟩ := C07_edit_recompiles_exactly_includers demoToolOk demoLayoutOk' demoDestInj (demoReqsOk _ cleanW)
    (by omega : 0 < 1) (by omega) case1_builds case2_edit' (autoBuild_reaches (by rfl)) case5_edited h
    (jobs := [⟨b!"a.c", outA, flagW⟩, ⟨b!"b.c", outB, flagW⟩]) (by simp [demoReqs]) (j := ⟨b!"b.c", outB, flagW⟩) (by simp)
  have : items = [(false, b!"b.c")] := by
    have e : demoTc.deps case4.fs b!"b.c" flagW = some [(false, b!"b.c")] := by decide +kernel
    exact Option.some.inj (h1.symm.trans e)
  subst this
  obtain ⟨p, hp, hE⟩ := h2 hm
  simp only [List.map_cons, List.map_nil, List.mem_cons, List.not_mem_nil, or_false] at hp
  rcases hp with rfl | rfl <;> revert hE <;> decide

example : (autoBuild demoTc demoInst (demoReqs flagW) case5).store.trace =
    [.already outB (some b!"warning in b.c"), .compiled b!"a.c" outA flagW, .linked outL [outA, outB] [],
      .installed outL b!".bob/prefix/bin/prog"] := by decide +kernel

end Bob
