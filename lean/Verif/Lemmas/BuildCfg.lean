import Verif.Lemmas.BuildRun
/-!
# Builds keep their invariant
-/

namespace Bob

variable {tc : Toolchain} {L : Layout} {c : InstCfg} {T TL : Bytes → Prop} {s0 : Store} {reqs0 : List Req}

/-! ## Requests -/

def Req.pairs : Req → List (Bytes × List Bytes)
  | .compile jobs => jobs.map fun j => (j.out, j.flags)
  | .link j => [(j.out, j.flags)]

theorem pairs_fst (reqs : List Req) : (reqs.flatMap Req.pairs).map (·.1) = outsOf reqs := by
  induction reqs with
  | nil => rfl
  | cons r rest ih =>
    simp only [List.flatMap_cons, List.map_append, ih, outsOf_cons]
    cases r <;> simp [Req.pairs, Req.outs, Function.comp_def]

theorem flagsOf_pairs {r : Req} {o : Bytes} {F : List Bytes} : r.flagsOf o F ↔ (o, F) ∈ r.pairs := by
  cases r <;> simp [Req.flagsOf, Req.pairs, eq_comm]

theorem nodup_fst_inj {α β : Type} {l : List (α × β)} (h : (l.map (·.1)).Nodup) {a : α} {b b' : β}
    (h1 : (a, b) ∈ l) (h2 : (a, b') ∈ l) : b = b' := by
  induction l with
  | nil => cases h1
  | cons x xs ih =>
    simp only [List.map_cons, List.nodup_cons, List.mem_map, not_exists, not_and] at h
    rcases List.mem_cons.mp h1 with h1 | h1 <;> rcases List.mem_cons.mp h2 with h2 | h2
    · rw [← h1] at h2; injection h2 with _ h2; exact h2.symm
    · exact absurd (by rw [← h1]) (h.1 _ h2)
    · exact absurd (by rw [← h2]) (h.1 _ h1)
    · exact ih h.2 h1 h2

theorem flagsOf_unique (hR : ReqsOk L reqs0) {r r' : Req} (hr : r ∈ reqs0) (hr' : r' ∈ reqs0) {o : Bytes} {F F' : List Bytes}
    (h : r.flagsOf o F) (h' : r'.flagsOf o F') : F = F' := by
  have hn := hR.nodup
  rw [← pairs_fst] at hn
  exact nodup_fst_inj hn (List.mem_flatMap.mpr ⟨r, hr, flagsOf_pairs.mp h⟩) (List.mem_flatMap.mpr ⟨r', hr', flagsOf_pairs.mp h'⟩)

/-- A product with the right record was not found with changed flags, as long as nobody touched the record. -/
theorem not_flagsChanged (hR : ReqsOk L reqs0) {r : Req} (hr : r ∈ reqs0) {o : Bytes} {F : List Bytes} (h : r.flagsOf o F)
    (hrec : Recorded s0.fs o F) : ¬ FlagsChanged s0 reqs0 o := by
  rintro ⟨_, r', hr', F', hF', hne⟩
  obtain ⟨f, h1, h2⟩ := hrec
  have := flagsOf_unique hR hr hr' h hF'
  subst this
  exact hne f h1 h2

theorem sep_before {done rest : List Req} {r : Req} (hR : ReqsOk L (done ++ r :: rest)) {o : Bytes} (ho : o ∈ outsOf (r :: rest))
    (j : LJob) (hj : .link j ∈ done) : o ∉ j.srcs := by
  obtain ⟨pre, mid, rfl⟩ := List.append_of_mem hj
  intro hp
  refine hR.ordered pre j (mid ++ r :: rest) (by simp) o hp ?_
  rw [outsOf_cons, outsOf_append]
  exact List.mem_append.mpr (Or.inr (List.mem_append.mpr (Or.inr ho)))

theorem sep_self {done rest : List Req} {j : LJob} (hR : ReqsOk L (done ++ .link j :: rest)) : j.out ∉ j.srcs := by
  intro h
  exact hR.ordered done j rest rfl _ h (by simp [Req.outs])

theorem not_done {done rest : List Req} {r : Req} (hR : ReqsOk L (done ++ r :: rest)) {o : Bytes} (ho : o ∈ r.outs) :
    o ∉ outsOf done := by
  have := hR.nodup
  rw [outsOf_append, outsOf_cons, List.nodup_append] at this
  intro h
  exact this.2.2 o h o (by simp [ho]) rfl

theorem jobs_nodup {done rest : List Req} {jobs : List CJob} (hR : ReqsOk L (done ++ .compile jobs :: rest)) :
    (jobs.map (·.out)).Nodup := by
  have := hR.nodup
  rw [outsOf_append, outsOf_cons, List.nodup_append, List.nodup_append] at this
  exact this.2.1.1

theorem not_processed {done rest : List Req} {procd todo : List CJob} {j : CJob}
    (hR : ReqsOk L (done ++ .compile (procd ++ j :: todo) :: rest)) : j.out ∉ procd.map (·.out) := by
  have := jobs_nodup hR
  rw [List.map_append, List.map_cons, List.nodup_append] at this
  intro h
  exact this.2.2 _ h _ (by simp) rfl

theorem job_ok {done rest : List Req} {jobs : List CJob} (hR : ReqsOk L (done ++ .compile jobs :: rest)) {j : CJob} (hj : j ∈ jobs) :
    CJobOk L j := hR.jobs (.compile jobs) (by simp) j hj

theorem ljob_ok {done rest : List Req} {j : LJob} (hR : ReqsOk L (done ++ .link j :: rest)) : LJobOk L j :=
  hR.jobs (.link j) (by simp)

theorem done_ok {done rest : List Req} {r : Req} (hR : ReqsOk L (done ++ r :: rest)) : ∀ x ∈ done, ReqOk L x :=
  fun x hx => hR.jobs x (by simp [hx])

/-- Products about which a successful build says nothing. -/
def Bad (T : Bytes → Prop) (s0 : Store) (reqs0 : List Req) (o : Bytes) : Prop := T o ∧ ¬ FlagsChanged s0 reqs0 o

/-- What is known about the object of a job after a success. -/
def JobFresh (tc : Toolchain) (TL : Bytes → Prop) (fs : FS) (j : CJob) : Prop :=
  CFresh tc fs j ∧ (¬ TL j.out → fs.content (logPath j.out) = logOf (tc.diag fs j.src j.flags))

theorem JobFresh.congr (hT : ToolOk tc L) {fs fs' : FS} {j : CJob} (hj : CJobOk L j) (h : JobFresh tc TL fs j)
    (hm : ∀ p, Managed j.out p → fs' p = fs p) (hu : ∀ p, L.user p → fs' p = fs p) : JobFresh tc TL fs' j := by
  have h2 := h.1.congr hT hj (fun p hp => hm p (managed_three hp)) hu
  refine ⟨h2.1, fun hn => ?_⟩
  rw [h2.2, content_congr (hm _ (managed_log _))]
  exact h.2 hn

theorem JobFresh.dest (hL : LayoutOk L c) (hT : ToolOk tc L) {s s' : Store} (ht : Touch (IsDest c) s s') {j : CJob}
    (hj : CJobOk L j) (h : JobFresh tc TL s.fs j) : JobFresh tc TL s'.fs j :=
  h.congr hT hj (fun p hp => ht.same p (not_dest_managed hL hj.isOut hp)) (fun p hp => ht.same p (not_dest_user hL hp))

/-! ## Validation -/

theorem validate_inv (hL : LayoutOk L c) (hT : ToolOk tc L) (hS : StartOk tc L T TL s0) {done rest : List Req} {procd todo : List CJob} {j : CJob}
    (hR : ReqsOk L (done ++ .compile (procd ++ j :: todo) :: rest)) {s s' : Store} {v : Validation}
    (h : RunInv tc L T TL s0 (done ++ .compile (procd ++ j :: todo) :: rest) (done ++ [.compile procd]) s) (hv : validate j s = (s', v)) :
    RunInv tc L T TL s0 (done ++ .compile (procd ++ j :: todo) :: rest) (done ++ [.compile (procd ++ [j])]) s' ∧
    Touch (fun p => Managed j.out p ∨ IsDest c p) s s' ∧
    (v = .compile → Recorded s'.fs j.out j.flags) ∧
    (v = .skip → ¬ Bad T s0 (done ++ .compile (procd ++ j :: todo) :: rest) j.out → JobFresh tc TL s'.fs j) := by
  have hmore : RunInv tc L T TL s0 (done ++ .compile (procd ++ j :: todo) :: rest) (done ++ [.compile (procd ++ [j])]) s :=
    h.more (by intro o; simp only [outsOf_append, outsOf_cons, outsOf_nil, Req.outs, List.map_append, List.mem_append, List.append_nil]
               rintro (h | h)
               · exact Or.inl h
               · exact Or.inr (Or.inl h))
  have hj : CJobOk L j := job_ok hR (by simp)
  have hmem : Req.compile (procd ++ j :: todo) ∈ done ++ .compile (procd ++ j :: todo) :: rest := by simp
  have hflagsOf : (Req.compile (procd ++ j :: todo)).flagsOf j.out j.flags := ⟨j, by simp, rfl, rfl⟩
  have hnot : j.out ∉ outsOf (done ++ [Req.compile procd]) := by
    rw [outsOf_append]
    simp only [outsOf_cons, outsOf_nil, List.append_nil, List.mem_append, not_or]
    exact ⟨not_done hR (by simp [Req.outs]), not_processed hR⟩
  have hun : ∀ p, Managed j.out p → s.fs p = s0.fs p := h.untouched j.out hj.isOut hnot
  have hok : ∀ r ∈ done ++ [.compile (procd ++ [j])], ReqOk L r := by
    intro r hr
    rcases List.mem_append.mp hr with hr | hr
    · exact done_ok hR r hr
    · rw [List.mem_singleton.mp hr]
      intro x hx
      refine job_ok hR ?_
      rcases List.mem_append.mp hx with hx | hx
      · simp [hx]
      · rw [List.mem_singleton.mp hx]; simp
  unfold validate at hv
  rcases hcf : checkFlags j.out j.flags s with ⟨s1, b⟩
  rw [hcf] at hv
  cases b with
  | true =>
    obtain ⟨rfl, hnr⟩ := checkFlags_true hcf
    simp only [Prod.mk.injEq] at hv
    obtain ⟨rfl, rfl⟩ := hv
    have ht : Touch (fun p => Managed j.out p ∨ IsDest c p) s (s.write (flagsPath j.out) (flagText j.flags)) :=
      touch_write s _ (Or.inl (Or.inr (Or.inr (Or.inl rfl))))
    refine ⟨?_, ht, fun _ => recorded_write _ _ _, by intro h; cases h⟩
    refine hmore.touch hL hS hok hj.isOut (by simp [Req.outs]) ?_ ht ?_ (Or.inr ⟨_, hmem, _, hflagsOf, recorded_write _ _ _⟩)
    · intro lj hlj
      refine sep_before hR (by simp [Req.outs]) lj ?_
      simpa using hlj
    · intro _ hFC
      cases hso : s.fs j.out with
      | none => exact OutInv.gone (by rw [write_other s _ (flagsPath_ne _).symm]; exact hso)
      | some f =>
        refine absurd ⟨?_, _, hmem, j.flags, hflagsOf, ?_⟩ hFC
        · rw [← hun _ (Or.inl rfl), hso]; rfl
        · intro g hg hc
          rw [← hun _ (Or.inr (Or.inr (Or.inl rfl)))] at hg
          exact hnr ⟨g, hg, hc⟩
  | false =>
    obtain ⟨rfl, hrec⟩ := checkFlags_false hcf
    have hs' : s' = s1 := by
      simp only at hv
      split at hv
      · exact (Prod.mk.inj hv).1.symm
      · split at hv <;> exact (Prod.mk.inj hv).1.symm
    subst hs'
    refine ⟨hmore, Touch.refl _ _, fun _ => hrec, ?_⟩
    rintro rfl hTj
    simp only at hv
    cases hd : s'.fs (depsPath j.out) with
    | none => simp [FS.content, hd] at hv
    | some d =>
      simp only [FS.content, hd, Option.map_some] at hv
      have hmt : frugalMtime s'.fs.stat (j.src :: readDeps d.content) j.out = some false := by
        cases hm : frugalMtime s'.fs.stat (j.src :: readDeps d.content) j.out with
        | none => simp [hm] at hv
        | some b => cases b <;> simp_all
      have hnf : ¬ FlagsChanged s0 (done ++ Req.compile (procd ++ j :: todo) :: rest) j.out := by
        refine not_flagsChanged hR hmem hflagsOf ?_
        obtain ⟨r, h1, h2⟩ := hrec
        exact ⟨r, by rw [← hun _ (Or.inr (Or.inr (Or.inl rfl)))]; exact h1, h2⟩
      have hold := (h.outs j.out hj.isOut (fun h => hTj ⟨h, hnf⟩) hnf).weaken (w' := TL j.out)
        (fun h => h.elim id (fun h => absurd h hnot))
      unfold OutInv at hold
      rw [hj.kind] at hold
      exact skip_fresh hT hj hold hrec hd hmt

/-! ## Compile tasks -/

/-- What holds about a compile task that has done `k` actions. -/
structure TaskAt (tc : Toolchain) (j : CJob) (k : Nat) (f : Bool) (s : Store) : Prop where
  recorded : Recorded s.fs j.out j.flags
  early : k ≤ 1 → f = false
  deps : k = 1 → ∀ items, tc.deps s.fs j.src j.flags = some items →
    ∃ d, s.fs (depsPath j.out) = some d ∧ d.content = depsText (ruleText items)
  fresh : 2 ≤ k → f = false → CFresh tc s.fs j
  buf : k = 2 → f = false → s.buf j.out = tc.diag s.fs j.src j.flags
  log : 3 ≤ k → f = false → s.fs.content (logPath j.out) = logOf (tc.diag s.fs j.src j.flags)

/-- The file contents a compiler call depends on are the user's. -/
theorem deps_back (hT : ToolOk tc L) {fs fs' : FS} {src : Bytes} {F : List Bytes} {items : List (Bool × Bytes)} (hsrc : L.user src)
    (hu : ∀ p, L.user p → fs' p = fs p) (h : tc.deps fs' src F = some items) :
    tc.deps fs src F = some items ∧ tc.obj fs src F = tc.obj fs' src F ∧ tc.diag fs src F = tc.diag fs' src F := by
  refine hT.depsLaw fs' fs src F items h ?_
  intro p hp
  have : L.user p := by
    rcases List.mem_cons.mp hp with rfl | hp
    · exact hsrc
    · obtain ⟨it, hit, rfl⟩ := List.mem_map.mp hp
      exact ((hT.depsOk _ _ _ _ h).2 it hit).2.1
  exact (content_congr (hu p this)).symm

theorem TaskAt.other (hT : ToolOk tc L) {j : CJob} (hj : CJobOk L j) {k : Nat} {f : Bool} {s s' : Store}
    (hu : ∀ p, L.user p → s'.fs p = s.fs p) (hm : ∀ p, Managed j.out p → s'.fs p = s.fs p) (hb : s'.buf j.out = s.buf j.out)
    (h : TaskAt tc j k f s) : TaskAt tc j k f s' := by
  have hc : 2 ≤ k → f = false → CFresh tc s'.fs j ∧ tc.diag s'.fs j.src j.flags = tc.diag s.fs j.src j.flags :=
    fun hk hf => (h.fresh hk hf).congr hT hj (fun p hp => hm p (managed_three hp)) hu
  refine ⟨?_, h.early, ?_, fun hk hf => (hc hk hf).1, ?_, ?_⟩
  · unfold Recorded; rw [hm _ (Or.inr (Or.inr (Or.inl rfl)))]; exact h.recorded
  · intro hk items hi
    rw [hm _ (Or.inr (Or.inl rfl))]
    exact h.deps hk items (deps_back hT hj.user hu hi).1
  · intro hk hf
    rw [hb, (hc (by omega) hf).2]; exact h.buf hk hf
  · intro hk hf
    rw [(hc (by omega) hf).2, content_congr (hm _ (managed_log _))]; exact h.log hk hf

theorem touch_depsOp (j : CJob) (f : Bool) (s : Store) : Touch (fun p => Managed j.out p ∨ IsDest c p) s (depsOp tc j f s).1 := by
  unfold depsOp
  split
  · exact Touch.refl _ _
  · exact touch_write s _ (Or.inl (Or.inr (Or.inl rfl)))

theorem touch_objOp (j : CJob) (f : Bool) (s : Store) : Touch (fun p => Managed j.out p ∨ IsDest c p) s (objOp tc j f s).1 := by
  unfold objOp
  simp only
  split
  · exact ((touch_emit s _).trans (touch_capture _ _ _)).trans (touch_write _ _ (Or.inl (Or.inl rfl)))
  · split
    · exact ((touch_emit s _).trans (touch_capture _ _ _)).trans (touch_remove _ (Or.inl (Or.inl rfl)))
    · exact (touch_emit s _).trans (touch_capture _ _ _)

theorem touch_logOp (j : CJob) (f : Bool) (s : Store) : Touch (fun p => Managed j.out p ∨ IsDest c p) s (logOp j f s).1 :=
  touch_writeLog _ _ _ (Or.inl (managed_log _))

theorem touch_instOp (j : CJob) (f : Bool) (s : Store) : Touch (IsDest c) s (instOp c j f s).1 := by
  unfold instOp
  split
  · exact Touch.refl _ _
  · exact touch_install c j.out s

theorem buf_depsOp (j : CJob) (f : Bool) (s : Store) : (depsOp tc j f s).1.buf = s.buf := by
  unfold depsOp
  split <;> rfl

theorem buf_objOp (j : CJob) (f : Bool) (s : Store) (o : Bytes) (h : o ≠ j.out) : (objOp tc j f s).1.buf o = s.buf o := by
  unfold objOp
  simp only
  split
  · exact capture_buf_other _ _ h
  · split <;> exact capture_buf_other _ _ h

theorem buf_writeLog (out output : Bytes) (s : Store) : (writeLog out output s).buf = s.buf := by
  unfold writeLog
  split <;> rfl

theorem buf_install (out : Bytes) (s : Store) : (installCookie c out s).1.buf = s.buf := by
  unfold installCookie
  split
  · rfl
  · split
    · rfl
    · split
      · rfl
      · split <;> rfl

theorem buf_instOp (j : CJob) (f : Bool) (s : Store) : (instOp c j f s).1.buf = s.buf := by
  unfold instOp
  split
  · rfl
  · exact buf_install _ _

/-- The dependency file written by a task. -/
theorem depsOp_inv (hL : LayoutOk L c) {j : CJob} (hj : CJobOk L j) {wl : Prop} {f : Bool} {s : Store}
    (h : CInv tc L.user wl s.fs j.out j.src) (hA : TaskAt tc j 0 f s) :
    CInv tc L.user wl (depsOp tc j f s).1.fs j.out j.src := by
  unfold depsOp
  cases hd : tc.deps s.fs j.src j.flags with
  | none => exact h
  | some items =>
    simp only
    have hnu := hL.outNotUser _ (depsPath j.out) hj.isOut (Or.inr (Or.inl rfl))
    refine h.setDeps hj.clean hA.recorded hd (fun p hp => write_other s _ (fun e => hnu (e ▸ hp)))
      (write_other s _ (depsPath_ne _).symm) (write_other s _ (depsPath_ne_logPath _).symm)
      (write_other s _ (flagsPath_ne_depsPath _)) ?_
    intro d hd'
    rw [write_same] at hd'
    injection hd' with e
    rw [← e]

theorem depsOp_next (hT : ToolOk tc L) (hL : LayoutOk L c) {j : CJob} (hj : CJobOk L j) {f : Bool} {s : Store} (hA : TaskAt tc j 0 f s) :
    TaskAt tc j 1 (depsOp tc j f s).2 (depsOp tc j f s).1 := by
  have hnu := hL.outNotUser _ (depsPath j.out) hj.isOut (Or.inr (Or.inl rfl))
  have hf := hA.early (by omega)
  unfold depsOp
  cases hd : tc.deps s.fs j.src j.flags with
  | none =>
    refine ⟨hA.recorded, fun _ => hf, ?_, by omega, by omega, by omega⟩
    intro _ items hi
    rw [hd] at hi; cases hi
  | some items =>
    simp only
    refine ⟨?_, fun _ => hf, ?_, by omega, by omega, by omega⟩
    · unfold Recorded; rw [write_other s _ (flagsPath_ne_depsPath _)]; exact hA.recorded
    · intro _ items' hi
      have hu : ∀ p, L.user p → (s.write (depsPath j.out) (depsText (ruleText items))).fs p = s.fs p :=
        fun p hp => write_other s _ (fun e => hnu (e ▸ hp))
      have := (deps_back hT hj.user hu hi).1
      rw [hd] at this
      injection this with e
      subst e
      exact ⟨_, write_same _ _ _, rfl⟩

/-- After a successful run of the compiler the object is fresh. -/
theorem objOp_fresh (hT : ToolOk tc L) (hL : LayoutOk L c) {j : CJob} (hj : CJobOk L j) {f : Bool} {s : Store}
    (hfut : ∀ p, L.user p → ∀ x, s.fs p = some x → x.mtime ≤ s.now)
    (hA : TaskAt tc j 1 f s) {o : Bytes} (ho : tc.obj s.fs j.src j.flags = some o) :
    CFresh tc (objOp tc j f s).1.fs j ∧ (objOp tc j f s).1.buf j.out = tc.diag (objOp tc j f s).1.fs j.src j.flags := by
  have htouch : Touch (fun p => Managed j.out p ∨ IsDest c p) s (objOp tc j f s).1 := touch_objOp j f s
  have hu : ∀ p, L.user p → (objOp tc j f s).1.fs p = s.fs p := touch_user hL hj.isOut htouch
  obtain ⟨items, hi⟩ := hT.objDeps _ _ _ _ ho
  have hb := deps_back hT hj.user (fs := (objOp tc j f s).1.fs) (fs' := s.fs) (fun p hp => (hu p hp).symm) hi
  obtain ⟨d, hd, hdc⟩ := hA.deps rfl items hi
  have hclean := hT.depsOk _ _ _ _ hi
  have hval : (objOp tc j f s).1 = ((s.emit (.compiled j.src j.out j.flags)).capture j.out (tc.diag s.fs j.src j.flags)).write j.out o := by
    unfold objOp; rw [ho]
  have hout : (objOp tc j f s).1.fs j.out = some ⟨o, s.now⟩ := by
    rw [hval, write_same]; rfl
  refine ⟨⟨⟨_, hout, by rw [hb.2.1]; exact ho, items, hb.1, ⟨d, ?_, hdc⟩, ?_⟩, ?_⟩, ?_⟩
  · rw [hval, write_other _ _ (depsPath_ne _)]
    exact hd
  · intro p hp
    have hpu : L.user p ∧ (s.fs p).isSome := by
      rcases List.mem_cons.mp hp with rfl | hp
      · exact ⟨hj.user, hclean.1⟩
      · obtain ⟨it, hit, rfl⟩ := List.mem_map.mp hp
        exact ⟨(hclean.2 it hit).2.1, (hclean.2 it hit).2.2⟩
    obtain ⟨x, hx⟩ := Option.isSome_iff_exists.mp hpu.2
    exact ⟨x, by rw [hu p hpu.1]; exact hx, hfut p hpu.1 x hx⟩
  · rw [hval, write_other _ _ (flagsPath_ne _)]
    exact hA.recorded
  · rw [hb.2.2, hval]
    exact capture_buf _ _ _

theorem objOp_inv (hT : ToolOk tc L) (hL : LayoutOk L c) {j : CJob} (hj : CJobOk L j) {wl : Prop} (hwl : wl) {f : Bool} {s : Store}
    (hfut : ∀ p, L.user p → ∀ x, s.fs p = some x → x.mtime ≤ s.now)
    (h : CInv tc L.user wl s.fs j.out j.src) (hA : TaskAt tc j 1 f s) :
    CInv tc L.user wl (objOp tc j f s).1.fs j.out j.src := by
  cases ho : tc.obj s.fs j.src j.flags with
  | some o => exact (objOp_fresh hT hL hj hfut hA ho).1.inv hj (fun h => absurd hwl h)
  | none =>
    unfold objOp
    rw [ho]
    simp only
    by_cases hrm : tc.objFailRemoves s.fs j.src j.flags = true
    · rw [if_pos hrm]
      exact CInv.gone (remove_same _ _)
    · rw [if_neg hrm]
      exact h

theorem objOp_next (hT : ToolOk tc L) (hL : LayoutOk L c) {j : CJob} (hj : CJobOk L j) {f : Bool} {s : Store}
    (hfut : ∀ p, L.user p → ∀ x, s.fs p = some x → x.mtime ≤ s.now) (hA : TaskAt tc j 1 f s) :
    TaskAt tc j 2 (objOp tc j f s).2 (objOp tc j f s).1 := by
  have hok : (objOp tc j f s).2 = false → CFresh tc (objOp tc j f s).1.fs j ∧
      (objOp tc j f s).1.buf j.out = tc.diag (objOp tc j f s).1.fs j.src j.flags := by
    intro hf
    cases ho : tc.obj s.fs j.src j.flags with
    | some o => exact objOp_fresh hT hL hj hfut hA ho
    | none => unfold objOp at hf; rw [ho] at hf; cases hf
  refine ⟨?_, by omega, by omega, fun _ hf => (hok hf).1, fun _ hf => (hok hf).2, by omega⟩
  unfold objOp
  cases ho : tc.obj s.fs j.src j.flags with
  | some o =>
    simp only
    unfold Recorded
    rw [write_other _ _ (flagsPath_ne _)]
    exact hA.recorded
  | none =>
    simp only
    unfold Recorded
    split
    · rw [remove_other _ (flagsPath_ne _)]; exact hA.recorded
    · exact hA.recorded

theorem logOp_next (hT : ToolOk tc L) (hL : LayoutOk L c) {j : CJob} (hj : CJobOk L j) {f : Bool} {s : Store} (hA : TaskAt tc j 2 f s) :
    TaskAt tc j 3 (logOp j f s).2 (logOp j f s).1 := by
  have ht : Touch (fun p => Managed j.out p ∨ IsDest c p) s (logOp j f s).1 := touch_logOp j f s
  have hu : ∀ p, L.user p → (logOp j f s).1.fs p = s.fs p := touch_user hL hj.isOut ht
  have hm : ∀ p, p = j.out ∨ p = depsPath j.out ∨ p = flagsPath j.out → (logOp j f s).1.fs p = s.fs p := by
    intro p hp
    refine writeLog_other _ _ _ ?_
    rcases hp with rfl | rfl | rfl
    · exact (logPath_ne _).symm
    · exact depsPath_ne_logPath _
    · exact flagsPath_ne_logPath _
  have hc : f = false → CFresh tc (logOp j f s).1.fs j ∧ tc.diag (logOp j f s).1.fs j.src j.flags = tc.diag s.fs j.src j.flags :=
    fun hf => (hA.fresh (by omega) hf).congr hT hj hm hu
  refine ⟨?_, by omega, by omega, fun _ hf => (hc hf).1, by omega, ?_⟩
  · unfold Recorded; rw [hm _ (Or.inr (Or.inr rfl))]; exact hA.recorded
  · intro _ hf
    rw [(hc hf).2, ← hA.buf rfl hf]
    exact writeLog_content _ _ _

theorem instOp_next (hT : ToolOk tc L) (hL : LayoutOk L c) {j : CJob} (hj : CJobOk L j) {f : Bool} {s : Store} (hA : TaskAt tc j 3 f s) :
    TaskAt tc j 4 (instOp c j f s).2 (instOp c j f s).1 := by
  have ht := touch_instOp (c := c) j f s
  have hu : ∀ p, L.user p → (instOp c j f s).1.fs p = s.fs p := fun p hp => ht.same p (not_dest_user hL hp)
  have hm : ∀ p, Managed j.out p → (instOp c j f s).1.fs p = s.fs p := fun p hp => ht.same p (not_dest_managed hL hj.isOut hp)
  have := hA.other hT hj hu hm (by rw [buf_instOp])
  have hff : (instOp c j f s).2 = false → f = false := by
    intro hf
    cases f with
    | false => rfl
    | true => simp [instOp] at hf
  exact ⟨this.recorded, by omega, by omega, fun _ hf => this.fresh (by omega) (hff hf), by omega,
    fun _ hf => this.log (by omega) (hff hf)⟩

/-! ## The pool of a step -/

/-- What holds in the store while the tasks of a step run. -/
structure PoolI (tc : Toolchain) (L : Layout) (T TL : Bytes → Prop) (s0 : Store) (dn : List Req) (jobs : List CJob) (rest : List Req)
    (tasks : List CJob) (s : Store) : Prop where
  run : RunInv tc L T TL s0 (dn ++ .compile jobs :: rest) (dn ++ [.compile jobs]) s
  done : ∀ r ∈ dn, ReqFreshT tc (Bad T s0 (dn ++ .compile jobs :: rest)) TL s.fs r
  skipped : ∀ j ∈ jobs, j ∉ tasks → ¬ Bad T s0 (dn ++ .compile jobs :: rest) j.out → JobFresh tc TL s.fs j

def PoolA (tc : Toolchain) (tasks : List CJob) (i k : Nat) (f : Bool) (s : Store) : Prop :=
  ∀ j, tasks[i]? = some j → TaskAt tc j k f s

theorem nodup_out_inj {l : List CJob} (h : (l.map (·.out)).Nodup) {i j : Nat} {a b : CJob} (ha : l[i]? = some a) (hb : l[j]? = some b)
    (he : a.out = b.out) : i = j := by
  have hi : i < (l.map (·.out)).length := by
    have := (List.getElem?_eq_some_iff.mp ha).1
    simpa using this
  refine (List.getElem?_inj hi h).mp ?_
  simp [ha, hb, he]

theorem mem_out_inj {l : List CJob} (h : (l.map (·.out)).Nodup) {a b : CJob} (ha : a ∈ l) (hb : b ∈ l)
    (he : a.out = b.out) : a = b := by
  obtain ⟨i, hi⟩ := List.mem_iff_getElem?.mp ha
  obtain ⟨j, hj⟩ := List.mem_iff_getElem?.mp hb
  have := nodup_out_inj h hi hj he
  subst this
  rw [hi] at hj
  exact Option.some.inj hj

theorem fresh_done_touch {U : Bytes → Prop} (hL : LayoutOk L c) (hT : ToolOk tc L) {done rest : List Req} {r : Req} (hR : ReqsOk L (done ++ r :: rest))
    {o : Bytes} (ho : L.isOut o) (hor : o ∈ r.outs) {s s' : Store} (ht : Touch (fun p => Managed o p ∨ IsDest c p) s s')
    (h : ∀ x ∈ done, ReqFreshT tc U TL s.fs x) : ∀ x ∈ done, ReqFreshT tc U TL s'.fs x := by
  intro x hx
  refine fresh_touch hL hT ho ht (done_ok hR x hx) ?_ ?_ (h x hx)
  · intro hox
    exact not_done hR hor (mem_outsOf.mpr ⟨x, hx, hox⟩)
  · intro lj hlj
    subst hlj
    exact sep_before hR (by simp [hor]) lj hx

/-- One action of a task. -/
theorem task_step (hL : LayoutOk L c) (hT : ToolOk tc L) (hS : StartOk tc L T TL s0) {done rest : List Req} {jobs tasks : List CJob}
    (hR : ReqsOk L (done ++ .compile jobs :: rest)) (hsub : ∀ j ∈ tasks, j ∈ jobs) (hnd : (tasks.map (·.out)).Nodup)
    (i : Nat) (hi : i < tasks.length) (k : Nat) (f : Bool) (op : TaskOp Store) (s : Store)
    (hop : (taskProg tc c tasks i)[k]? = some op)
    (hI : PoolI tc L T TL s0 done jobs rest tasks s) (hA : PoolA tc tasks i k f s) :
    PoolI tc L T TL s0 done jobs rest tasks (op f s).1 ∧ PoolA tc tasks i (k + 1) (op f s).2 (op f s).1 ∧
      ∀ j, j < tasks.length → j ≠ i → ∀ k' f', PoolA tc tasks j k' f' s → PoolA tc tasks j k' f' (op f s).1 := by
  obtain ⟨j, hj⟩ : ∃ j, tasks[i]? = some j := ⟨tasks[i], List.getElem?_eq_getElem hi⟩
  have hjm : j ∈ tasks := List.mem_of_getElem? hj
  have hjj := hsub j hjm
  have hjo : CJobOk L j := job_ok hR hjj
  have hAj := hA j hj
  have houts : j.out ∈ (Req.compile jobs).outs := by simp only [Req.outs, List.mem_map]; exact ⟨j, hjj, rfl⟩
  have hok : ∀ r ∈ done ++ [Req.compile jobs], ReqOk L r := by
    intro r hr
    refine hR.jobs r ?_
    rcases List.mem_append.mp hr with hr | hr
    · simp [hr]
    · rw [List.mem_singleton.mp hr]; simp
  have hsep : ∀ lj, .link lj ∈ done ++ [Req.compile jobs] → j.out ∉ lj.srcs := by
    intro lj hlj
    exact sep_before hR (by simp [houts]) lj (by simpa using hlj)
  have hfut : ∀ p, L.user p → ∀ x, s.fs p = some x → x.mtime ≤ s.now := fun p hp => hI.run.future p (Or.inl hp)
  have hod : j.out ∈ outsOf (done ++ [Req.compile jobs]) := by rw [outsOf_append]; simp [houts]
  have hwl : TL j.out ∨ j.out ∈ outsOf (done ++ [Req.compile jobs]) := Or.inr hod
  have hold : ¬ T j.out → ¬ FlagsChanged s0 (done ++ .compile jobs :: rest) j.out →
      CInv tc L.user (TL j.out ∨ j.out ∈ outsOf (done ++ [Req.compile jobs])) s.fs j.out j.src := by
    intro h1 h2
    have := hI.run.outs j.out hjo.isOut h1 h2
    unfold OutInv at this
    rw [hjo.kind] at this
    exact this
  -- what remains is to treat the actions
  suffices h : Touch (fun p => Managed j.out p ∨ IsDest c p) s (op f s).1 ∧
      (∀ wl : Prop, wl → CInv tc L.user wl s.fs j.out j.src → CInv tc L.user wl (op f s).1.fs j.out j.src) ∧
      TaskAt tc j (k + 1) (op f s).2 (op f s).1 ∧ ∀ o, o ≠ j.out → (op f s).1.buf o = s.buf o by
    obtain ⟨ht, hinv, hnext, hbuf⟩ := h
    refine ⟨⟨?_, fresh_done_touch hL hT hR hjo.isOut houts ht hI.done, ?_⟩, ?_, ?_⟩
    · refine hI.run.touch hL hS hok hjo.isOut hod hsep ht ?_
        (Or.inr ⟨.compile jobs, by simp, j.flags, ⟨j, hjj, rfl, rfl⟩, hnext.recorded⟩)
      intro h1 h2
      unfold OutInv; rw [hjo.kind]; exact hinv _ hwl (hold h1 h2)
    · intro x hx hnx hTx
      have hxo := job_ok hR hx
      have hne : x.out ≠ j.out := by
        intro e
        have := mem_out_inj (jobs_nodup hR) hx hjj e
        exact hnx (this ▸ hjm)
      exact (hI.skipped x hx hnx hTx).congr hT hxo (touch_managed hL hjo.isOut hxo.isOut hne ht) (touch_user hL hjo.isOut ht)
    · intro j' hj'
      rw [hj] at hj'; injection hj' with e; subst e
      exact hnext
    · intro i' _ hne k' f' hA' x hx
      have hxo := job_ok hR (hsub x (List.mem_of_getElem? hx))
      have hneo : x.out ≠ j.out := fun e => hne (nodup_out_inj hnd hx hj e)
      exact (hA' x hx).other hT hxo (touch_user hL hjo.isOut ht) (touch_managed hL hjo.isOut hxo.isOut hneo ht) (hbuf _ hneo)
  unfold taskProg at hop
  rw [hj] at hop
  simp only [compileTask] at hop
  match k, hop with
  | 0, hop =>
    simp at hop; subst hop
    exact ⟨touch_depsOp j f s, fun _ _ h => depsOp_inv hL hjo h hAj, depsOp_next hT hL hjo hAj, fun _ _ => by rw [buf_depsOp]⟩
  | 1, hop =>
    simp at hop; subst hop
    exact ⟨touch_objOp j f s, fun _ hw h => objOp_inv hT hL hjo hw hfut h hAj, objOp_next hT hL hjo hfut hAj, buf_objOp j f s⟩
  | 2, hop =>
    simp at hop; subst hop
    refine ⟨touch_logOp j f s, fun _ hw h => ?_, logOp_next hT hL hjo hAj, fun _ _ => by unfold logOp; rw [buf_writeLog]⟩
    have hu : ∀ p, L.user p → (logOp j f s).1.fs p = s.fs p := touch_user (c := c) hL hjo.isOut (touch_logOp j f s)
    refine h.congr ?_ (fun hn => absurd hw hn) (fun x _ p hp g hg _ => by rw [← hu p hp]; exact hg)
    intro p hp
    refine Or.inl (writeLog_other _ _ _ ?_)
    rcases hp with rfl | rfl | rfl
    · exact (logPath_ne _).symm
    · exact depsPath_ne_logPath _
    · exact flagsPath_ne_logPath _
  | 3, hop =>
    simp at hop; subst hop
    have ht := touch_instOp (c := c) j f s
    refine ⟨ht.mono (fun p hp => Or.inr hp), fun _ hw h => ?_, instOp_next hT hL hjo hAj, fun _ _ => by rw [buf_instOp]⟩
    exact h.congr (fun p hp => Or.inl (ht.same p (not_dest_managed hL hjo.isOut (managed_three hp)))) (fun hn => absurd hw hn)
      (fun x _ p hp g hg _ => by rw [← ht.same p (not_dest_user hL hp)]; exact hg)
  | k + 4, hop => simp at hop

theorem PoolI.tick {done rest : List Req} {jobs tasks : List CJob} {s s' : Store} (h : PoolI tc L T TL s0 done jobs rest tasks s)
    (ht : Tick s s') : PoolI tc L T TL s0 done jobs rest tasks s' := by
  have hr := h.run.tick ht
  obtain ⟨t, _, rfl⟩ := ht
  exact ⟨hr, h.done, h.skipped⟩

theorem TaskAt.tick {j : CJob} {k : Nat} {f : Bool} {s s' : Store} (h : TaskAt tc j k f s) (ht : Tick s s') : TaskAt tc j k f s' := by
  obtain ⟨t, _, rfl⟩ := ht
  exact ⟨h.recorded, h.early, h.deps, h.fresh, h.buf, h.log⟩

/-! ## Links -/

theorem touch_linkOp (j : LJob) (s : Store) : Touch (fun p => Managed j.out p ∨ IsDest c p) s (linkOp tc j s).1 := by
  unfold linkOp
  simp only
  split
  · exact ((touch_emit s _).trans (touch_capture _ _ _)).trans (touch_write _ _ (Or.inl (Or.inl rfl)))
  · split
    · exact ((touch_emit s _).trans (touch_capture _ _ _)).trans (touch_remove _ (Or.inl (Or.inl rfl)))
    · exact (touch_emit s _).trans (touch_capture _ _ _)

theorem srcs_touch (hL : LayoutOk L c) {j : LJob} (hj : LJobOk L j) (hself : j.out ∉ j.srcs) {s s' : Store}
    (ht : Touch (fun p => Managed j.out p ∨ IsDest c p) s s') (p : Bytes) (hp : p ∈ j.srcs) : s'.fs p = s.fs p := by
  rcases hj.srcs p hp with h | h
  · exact touch_user hL hj.isOut ht p h
  · exact touch_managed hL hj.isOut h (fun e => hself (e ▸ hp)) ht p (Or.inl rfl)

theorem linkOp_fresh (hT : ToolOk tc L) (hL : LayoutOk L c) {j : LJob} (hj : LJobOk L j) (hself : j.out ∉ j.srcs) {s : Store}
    (hfut : ∀ p, L.user p ∨ L.isOut p → ∀ x, s.fs p = some x → x.mtime ≤ s.now)
    (hrec : Recorded s.fs j.out j.flags) (h : (linkOp tc j s).2 = true) :
    LFresh tc (linkOp tc j s).1.fs j ∧
      (linkOp tc j s).1.buf j.out = tc.linkDiag j.archive (linkOp tc j s).1.fs j.srcs j.flags := by
  have ht : Touch (fun p => Managed j.out p ∨ IsDest c p) s (linkOp tc j s).1 := touch_linkOp j s
  have hsame := srcs_touch hL hj hself ht
  have hlaw := hT.linkLaw j.archive s.fs (linkOp tc j s).1.fs j.srcs j.flags (fun p hp => content_congr (hsame p hp))
  cases ho : tc.link j.archive s.fs j.srcs j.flags with
  | none => unfold linkOp at h; rw [ho] at h; cases h
  | some o =>
    have hval : (linkOp tc j s).1 =
        ((s.emit (.linked j.out j.srcs j.flags)).capture j.out (tc.linkDiag j.archive s.fs j.srcs j.flags)).write j.out o := by
      unfold linkOp; rw [ho]
    have hout : (linkOp tc j s).1.fs j.out = some ⟨o, s.now⟩ := by
      rw [hval, write_same]; rfl
    refine ⟨⟨⟨_, hout, by rw [hlaw.1]; exact ho, ?_⟩, ?_⟩, ?_⟩
    · intro p hp
      obtain ⟨x, hx⟩ := Option.isSome_iff_exists.mp (hT.linkExists _ _ _ _ _ ho p hp)
      exact ⟨x, by rw [hsame p hp]; exact hx, hfut p (hj.srcs p hp) x hx⟩
    · rw [hval, write_other _ _ (flagsPath_ne _)]
      exact hrec
    · rw [hlaw.2, hval]
      exact capture_buf _ _ _

theorem linkOp_recorded {j : LJob} {s : Store} (h : Recorded s.fs j.out j.flags) : Recorded (linkOp tc j s).1.fs j.out j.flags := by
  unfold linkOp
  simp only
  unfold Recorded
  split
  · rw [write_other _ _ (flagsPath_ne _)]; exact h
  · split
    · rw [remove_other _ (flagsPath_ne _)]; exact h
    · exact h

theorem linkOp_inv (hT : ToolOk tc L) (hL : LayoutOk L c) {j : LJob} (hj : LJobOk L j) (hself : j.out ∉ j.srcs) {wl : Prop} (hwl : wl)
    {s : Store} (hfut : ∀ p, L.user p ∨ L.isOut p → ∀ x, s.fs p = some x → x.mtime ≤ s.now)
    (hrec : Recorded s.fs j.out j.flags) (h : LInv tc wl s.fs j.archive j.out j.srcs) :
    LInv tc wl (linkOp tc j s).1.fs j.archive j.out j.srcs := by
  cases ho : tc.link j.archive s.fs j.srcs j.flags with
  | some o =>
    have : (linkOp tc j s).2 = true := by unfold linkOp; rw [ho]
    exact (linkOp_fresh hT hL hj hself hfut hrec this).1.inv hj (fun h => absurd hwl h)
  | none =>
    unfold linkOp
    rw [ho]
    simp only
    by_cases hrm : tc.linkFailRemoves j.archive s.fs j.srcs j.flags = true
    · rw [if_pos hrm]
      exact LInv.gone (remove_same _ _)
    · rw [if_neg hrm]
      exact h

theorem linkCheck_inv (hL : LayoutOk L c) (hT : ToolOk tc L) (hS : StartOk tc L T TL s0) {done rest : List Req} {j : LJob}
    (hR : ReqsOk L (done ++ .link j :: rest)) {s s' : Store} {b : Bool}
    (h : RunInv tc L T TL s0 (done ++ .link j :: rest) done s) (hv : linkCheck j s = (s', b)) :
    RunInv tc L T TL s0 (done ++ .link j :: rest) (done ++ [.link j]) s' ∧
    Touch (fun p => Managed j.out p ∨ IsDest c p) s s' ∧ Recorded s'.fs j.out j.flags ∧
    (b = false → ReqFreshT tc (Bad T s0 (done ++ .link j :: rest)) TL s'.fs (.link j)) := by
  have hmore : RunInv tc L T TL s0 (done ++ .link j :: rest) (done ++ [.link j]) s :=
    h.more (by intro o ho; rw [outsOf_append]; simp [ho])
  have hj : LJobOk L j := ljob_ok hR
  have hmem : Req.link j ∈ done ++ .link j :: rest := by simp
  have hflagsOf : (Req.link j).flagsOf j.out j.flags := ⟨rfl, rfl⟩
  have hnot := not_done hR (o := j.out) (by simp [Req.outs])
  have hun : ∀ p, Managed j.out p → s.fs p = s0.fs p := h.untouched j.out hj.isOut hnot
  have hself := sep_self hR
  have hok : ∀ r ∈ done ++ [Req.link j], ReqOk L r := by
    intro r hr
    refine hR.jobs r ?_
    rcases List.mem_append.mp hr with hr | hr
    · simp [hr]
    · rw [List.mem_singleton.mp hr]; simp
  unfold linkCheck at hv
  rcases hcf : checkFlags j.out j.flags s with ⟨s1, b'⟩
  rw [hcf] at hv
  cases b' with
  | true =>
    obtain ⟨rfl, hnr⟩ := checkFlags_true hcf
    simp only [Prod.mk.injEq] at hv
    obtain ⟨rfl, rfl⟩ := hv
    have ht : Touch (fun p => Managed j.out p ∨ IsDest c p) s (s.write (flagsPath j.out) (flagText j.flags)) :=
      touch_write s _ (Or.inl (Or.inr (Or.inr (Or.inl rfl))))
    refine ⟨?_, ht, recorded_write _ _ _, by intro h; cases h⟩
    refine hmore.touch hL hS hok hj.isOut (by simp [Req.outs]) ?_ ht ?_ (Or.inr ⟨_, hmem, _, hflagsOf, recorded_write _ _ _⟩)
    · intro lj hlj
      rcases List.mem_append.mp hlj with hlj | hlj
      · exact sep_before hR (by simp [Req.outs]) lj hlj
      · have : lj = j := by simpa using hlj
        subst this; exact hself
    · intro _ hFC
      cases hso : s.fs j.out with
      | none => exact OutInv.gone (by rw [write_other s _ (flagsPath_ne _).symm]; exact hso)
      | some f =>
        refine absurd ⟨?_, _, hmem, j.flags, hflagsOf, ?_⟩ hFC
        · rw [← hun _ (Or.inl rfl), hso]; rfl
        · intro g hg hc
          rw [← hun _ (Or.inr (Or.inr (Or.inl rfl)))] at hg
          exact hnr ⟨g, hg, hc⟩
  | false =>
    obtain ⟨rfl, hrec⟩ := checkFlags_false hcf
    have hs' : s' = s1 := by
      simp only at hv
      split at hv <;> exact (Prod.mk.inj hv).1.symm
    subst hs'
    refine ⟨hmore, Touch.refl _ _, hrec, ?_⟩
    rintro rfl hTj
    simp only at hv
    have hmt : frugalMtime s'.fs.stat j.srcs j.out = some false := by
      split at hv
      · assumption
      · cases hv
    have hnf : ¬ FlagsChanged s0 (done ++ Req.link j :: rest) j.out := by
      refine not_flagsChanged hR hmem hflagsOf ?_
      obtain ⟨r, h1, h2⟩ := hrec
      exact ⟨r, by rw [← hun _ (Or.inr (Or.inr (Or.inl rfl)))]; exact h1, h2⟩
    have hold := (h.outs j.out hj.isOut (fun h => hTj ⟨h, hnf⟩) hnf).weaken (w' := TL j.out)
      (fun h => h.elim id (fun h => absurd h hnot))
    unfold OutInv at hold
    rw [hj.kind] at hold
    exact link_skip_fresh hT hj hold hrec hmt

/-! ## The invariant of configurations -/

/-- What holds in every configuration of a build. -/
inductive CfgInv (tc : Toolchain) (L : Layout) (c : InstCfg) (n : Nat) (T TL : Bytes → Prop) (s0 : Store) (reqs0 : List Req) : Cfg → Prop where
  | idle {rest s} (done : List Req) (hreq : reqs0 = done ++ rest) (run : RunInv tc L T TL s0 reqs0 done s)
      (fresh : ∀ r ∈ done, ReqFreshT tc (Bad T s0 reqs0) TL s.fs r) : CfgInv tc L c n T TL s0 reqs0 (.idle rest s)
  | validating {todo tasks rest s} (done : List Req) (procd : List CJob) (hreq : reqs0 = done ++ .compile (procd ++ todo) :: rest)
      (run : RunInv tc L T TL s0 reqs0 (done ++ [.compile procd]) s)
      (fresh : ∀ r ∈ done, ReqFreshT tc (Bad T s0 reqs0) TL s.fs r)
      (hsub : ∀ j ∈ tasks, j ∈ procd) (hnd : (tasks.map (·.out)).Nodup)
      (ready : ∀ j ∈ tasks, Recorded s.fs j.out j.flags)
      (skipped : ∀ j ∈ procd, j ∉ tasks → ¬ Bad T s0 reqs0 j.out → JobFresh tc TL s.fs j) :
      CfgInv tc L c n T TL s0 reqs0 (.validating todo tasks rest s)
  | pooling {tasks rest p} (done : List Req) (jobs : List CJob) (hreq : reqs0 = done ++ .compile jobs :: rest)
      (hsub : ∀ j ∈ tasks, j ∈ jobs) (hnd : (tasks.map (·.out)).Nodup)
      (inv : PoolInv p) (hdone : PoolDone tasks.length p) (hout : PoolOut n p)
      (assert : PoolAssert (taskProg tc c tasks) (PoolI tc L T TL s0 done jobs rest tasks) (PoolA tc tasks) p) :
      CfgInv tc L c n T TL s0 reqs0 (.pooling tasks rest p)
  | linking {j rest s} (done : List Req) (hreq : reqs0 = done ++ .link j :: rest)
      (run : RunInv tc L T TL s0 reqs0 (done ++ [.link j]) s) (fresh : ∀ r ∈ done, ReqFreshT tc (Bad T s0 reqs0) TL s.fs r)
      (recorded : Recorded s.fs j.out j.flags) : CfgInv tc L c n T TL s0 reqs0 (.linking j rest s)
  | linkRan {ok j rest s} (done : List Req) (hreq : reqs0 = done ++ .link j :: rest)
      (run : RunInv tc L T TL s0 reqs0 (done ++ [.link j]) s) (fresh : ∀ r ∈ done, ReqFreshT tc (Bad T s0 reqs0) TL s.fs r)
      (made : ok = true → LFresh tc s.fs j ∧ s.buf j.out = tc.linkDiag j.archive s.fs j.srcs j.flags) :
      CfgInv tc L c n T TL s0 reqs0 (.linkRan ok j rest s)
  | linked {j rest s} (done : List Req) (hreq : reqs0 = done ++ .link j :: rest)
      (run : RunInv tc L T TL s0 reqs0 (done ++ [.link j]) s)
      (fresh : ∀ r ∈ done ++ [.link j], ReqFreshT tc (Bad T s0 reqs0) TL s.fs r) : CfgInv tc L c n T TL s0 reqs0 (.linked j rest s)
  | finished {ok s} (run : RunInv tc L T TL s0 reqs0 reqs0 s) (fresh : ok = true → ∀ r ∈ reqs0, ReqFreshT tc (Bad T s0 reqs0) TL s.fs r) :
      CfgInv tc L c n T TL s0 reqs0 (.finished ok s)

theorem CfgInv.run {n : Nat} {cfg : Cfg} (h : CfgInv tc L c n T TL s0 reqs0 cfg) : RunInv tc L T TL s0 reqs0 reqs0 cfg.store := by
  have sub1 : ∀ (done rest : List Req) o, o ∈ outsOf done → o ∈ outsOf (done ++ rest) := by
    intro done rest o ho; rw [outsOf_append]; simp [ho]
  cases h with
  | idle done hreq run _ => subst hreq; exact run.more (sub1 _ _)
  | validating done procd hreq run =>
    subst hreq
    refine run.more ?_
    intro o ho
    rw [outsOf_append] at ho ⊢
    simp only [outsOf_cons, outsOf_nil, Req.outs, List.append_nil, List.mem_append, List.map_append] at ho ⊢
    rcases ho with h | h
    · exact Or.inl h
    · exact Or.inr (Or.inl (Or.inl h))
  | pooling done jobs hreq _ _ _ _ _ assert =>
    subst hreq
    refine assert.inv.run.more ?_
    intro o ho
    rw [outsOf_append] at ho ⊢
    simp only [outsOf_cons, outsOf_nil, List.append_nil, List.mem_append] at ho ⊢
    rcases ho with h | h
    · exact Or.inl h
    · exact Or.inr (Or.inl h)
  | linking done hreq run =>
    subst hreq
    refine run.more ?_
    intro o ho
    rw [outsOf_append] at ho ⊢
    simp only [outsOf_cons, outsOf_nil, List.append_nil, List.mem_append] at ho ⊢
    rcases ho with h | h
    · exact Or.inl h
    · exact Or.inr (Or.inl h)
  | linkRan done hreq run =>
    subst hreq
    refine run.more ?_
    intro o ho
    rw [outsOf_append] at ho ⊢
    simp only [outsOf_cons, outsOf_nil, List.append_nil, List.mem_append] at ho ⊢
    rcases ho with h | h
    · exact Or.inl h
    · exact Or.inr (Or.inl h)
  | linked done hreq run =>
    subst hreq
    refine run.more ?_
    intro o ho
    rw [outsOf_append] at ho ⊢
    simp only [outsOf_cons, outsOf_nil, List.append_nil, List.mem_append] at ho ⊢
    rcases ho with h | h
    · exact Or.inl h
    · exact Or.inr (Or.inl h)
  | finished run _ => exact run

/-- After a step that was done, go on or stop. -/
theorem afterStep_inv {n : Nat} {done rest : List Req} {r : Req} {s : Store} {b : Bool} (hreq : reqs0 = done ++ r :: rest)
    (hrun : RunInv tc L T TL s0 reqs0 (done ++ [r]) s) (hfresh : b = true → ∀ x ∈ done ++ [r], ReqFreshT tc (Bad T s0 reqs0) TL s.fs x) :
    CfgInv tc L c n T TL s0 reqs0 (afterStep rest (s, b)) := by
  unfold afterStep
  cases b with
  | true => exact .idle (done ++ [r]) (by simp [hreq]) hrun (hfresh rfl)
  | false =>
    refine .finished (hrun.more ?_) (by intro h; cases h)
    intro o ho
    subst hreq
    rw [outsOf_append] at ho ⊢
    simp only [outsOf_cons, outsOf_nil, List.append_nil, List.mem_append] at ho ⊢
    rcases ho with h | h
    · exact Or.inl h
    · exact Or.inr (Or.inl h)

theorem CfgInv.step (hL : LayoutOk L c) (hT : ToolOk tc L) (hS : StartOk tc L T TL s0) (hR : ReqsOk L reqs0) {n : Nat} (hn : 0 < n)
    {a b : Cfg} (h : CfgInv tc L c n T TL s0 reqs0 a) (hs : BuildNext tc c n a b) : CfgInv tc L c n T TL s0 reqs0 b := by
  cases hs with
  | tick t ht =>
    have htick : ∀ s : Store, s.now ≤ t → Tick s { s with now := t } := fun s h => ⟨t, h, rfl⟩
    cases h with
    | idle done hreq run fresh => exact .idle done hreq (run.tick (htick _ ht)) fresh
    | validating done procd hreq run fresh hsub hnd ready skipped =>
      exact .validating done procd hreq (run.tick (htick _ ht)) fresh hsub hnd ready skipped
    | pooling done jobs hreq hsub hnd inv hdone hout assert =>
      rename_i tasks rest p
      have hR' := hR
      rw [hreq] at hR'
      have hstep : PoolStep (taskProg tc c tasks) n Tick p { p with store := { p.store with now := t } } :=
        .env _ (htick _ ht)
      refine .pooling done jobs hreq hsub hnd (poolInv_step inv hstep) (poolDone_step hdone hstep) (poolOut_step hout hstep) ?_
      exact poolAssert_step (env := Tick) (task_step hL hT hS hR' hsub hnd)
        (fun s s' hss hI => ⟨hI.tick hss, fun i _ k f hA j hj => (hA j hj).tick hss⟩) inv hdone.len assert hstep
    | linking done hreq run fresh recorded => exact .linking done hreq (run.tick (htick _ ht)) fresh recorded
    | linkRan done hreq run fresh made => exact .linkRan done hreq (run.tick (htick _ ht)) fresh made
    | linked done hreq run fresh => exact .linked done hreq (run.tick (htick _ ht)) fresh
    | finished run fresh => exact .finished (run.tick (htick _ ht)) fresh
  | pool hp =>
    cases h with
    | pooling done jobs hreq hsub hnd inv hdone hout assert =>
      have hR' := hR
      rw [hreq] at hR'
      refine .pooling done jobs hreq hsub hnd (poolInv_step inv hp) (poolDone_step hdone hp) (poolOut_step hout hp) ?_
      exact poolAssert_step (task_step hL hT hS hR' hsub hnd) (fun s s' hss => hss.elim) inv hdone.len assert hp
  | join hj =>
    cases h with
    | pooling done jobs hreq hsub hnd inv hdone hout assert =>
      rename_i tasks rest p
      refine afterStep_inv hreq (by rw [hreq]; exact assert.inv.run) ?_
      intro hok x hx
      rcases List.mem_append.mp hx with hx | hx
      · have := assert.inv.done x hx
        rw [← hreq] at this
        exact this
      · rw [List.mem_singleton.mp hx]
        intro j hjj hTj
        by_cases hjt : j ∈ tasks
        · obtain ⟨i, hi⟩ := List.mem_iff_getElem?.mp hjt
          have hil := (List.getElem?_eq_some_iff.mp hi).1
          obtain ⟨⟨w, _, hfin⟩, _⟩ := pool_all_finished inv hdone hout hn hj hok i hil
          have := (assert.finished w i false hfin).1 j hi
          have hlen : (taskProg tc c tasks i).length = 4 := by simp [taskProg, hi, compileTask]
          rw [hlen] at this
          exact ⟨this.fresh (by omega) rfl, fun _ => this.log (by omega) rfl⟩
        · have := assert.inv.skipped j hjj hjt
          rw [← hreq] at this
          exact this hTj
  | seq hq =>
    cases h with
    | idle done hreq run fresh =>
      rename_i rest s
      cases rest with
      | nil =>
        simp only [seqNext, Option.some.injEq] at hq
        subst hq
        rw [List.append_nil] at hreq
        subst hreq
        exact .finished run (fun _ => fresh)
      | cons r rest =>
        cases r with
        | compile jobs =>
          simp only [seqNext, Option.some.injEq] at hq
          subst hq
          exact .validating done [] (by simpa using hreq) (run.more (by intro o ho; rw [outsOf_append]; simp [ho])) fresh
            (by simp) (by simp) (by simp) (by simp)
        | link j =>
          subst hreq
          simp only [seqNext] at hq
          rcases hc : linkCheck j s with ⟨s1, b1⟩
          rw [hc] at hq
          obtain ⟨h1, h2, h3, h4⟩ := linkCheck_inv hL hT hS hR run hc
          have hj := ljob_ok hR
          have hfr := fresh_done_touch hL hT hR hj.isOut (by simp [Req.outs]) h2 fresh
          cases b1 with
          | true =>
            simp only [Option.some.injEq] at hq
            subst hq
            exact .linking done rfl h1 hfr h3
          | false =>
            simp only [Option.some.injEq] at hq
            subst hq
            have hti : Touch (IsDest c) s1 (installCookie c j.out (s1.emit (.already j.out (s1.fs.content (logPath j.out))))).1 :=
              (touch_emit s1 _).trans (touch_install c j.out _)
            have hok : ∀ r ∈ done ++ [Req.link j], ReqOk L r := by
              intro r hr
              rcases List.mem_append.mp hr with hr | hr
              · exact done_ok hR r hr
              · rw [List.mem_singleton.mp hr]; exact hj
            refine afterStep_inv rfl (h1.dest hL hS hok hti) ?_
            intro _ x hx
            refine fresh_dest hL hT hti (hok x hx) ?_
            rcases List.mem_append.mp hx with hx | hx
            · exact hfr x hx
            · rw [List.mem_singleton.mp hx]; exact h4 rfl
    | validating done procd hreq run fresh hsub hnd ready skipped =>
      rename_i todo tasks rest s
      subst hreq
      cases todo with
      | nil =>
        simp only [seqNext, Option.some.injEq] at hq
        subst hq
        rw [List.append_nil] at run hR fresh skipped ⊢
        refine .pooling done procd rfl hsub hnd (poolInv_init _ _) (poolDone_init _ _) (fun _ _ => rfl) ?_
        refine poolAssert_init ⟨run, fresh, skipped⟩ ?_
        intro i hi j hj
        exact ⟨ready j (List.mem_of_getElem? hj), fun _ => rfl, by omega, by omega, by omega, by omega⟩
      | cons j todo =>
        simp only [seqNext] at hq
        rcases hv : validate j s with ⟨s1, v⟩
        rw [hv] at hq
        obtain ⟨h1, h2, h3, h4⟩ := validate_inv hL hT hS hR run hv
        have hj : CJobOk L j := job_ok hR (by simp)
        have houts : j.out ∈ (Req.compile (procd ++ j :: todo)).outs := by simp [Req.outs]
        have hfr := fresh_done_touch hL hT hR hj.isOut houts h2 fresh
        have hreq' : done ++ Req.compile (procd ++ j :: todo) :: rest = done ++ .compile ((procd ++ [j]) ++ todo) :: rest := by simp
        have hnp := not_processed hR
        have hpo : ∀ x ∈ procd, CJobOk L x := fun x hx => job_ok hR (by simp [hx])
        have hne : ∀ x ∈ procd, x.out ≠ j.out := fun x hx e => hnp (by rw [← e]; exact List.mem_map_of_mem hx)
        have hready : ∀ x ∈ tasks, Recorded s1.fs x.out x.flags := by
          intro x hx
          unfold Recorded
          rw [touch_managed hL hj.isOut (hpo x (hsub x hx)).isOut (hne x (hsub x hx)) h2 _ (Or.inr (Or.inr (Or.inl rfl)))]
          exact ready x hx
        have hskip : ∀ x ∈ procd, x ∉ tasks → ¬ Bad T s0 (done ++ .compile (procd ++ j :: todo) :: rest) x.out →
            JobFresh tc TL s1.fs x := by
          intro x hx hnt hTx
          exact (skipped x hx hnt hTx).congr hT (hpo x hx) (touch_managed hL hj.isOut (hpo x hx).isOut (hne x hx) h2)
            (touch_user hL hj.isOut h2)
        have hfin : ∀ s2, RunInv tc L T TL s0 (done ++ .compile (procd ++ j :: todo) :: rest) (done ++ [.compile (procd ++ [j])]) s2 →
            RunInv tc L T TL s0 (done ++ .compile (procd ++ j :: todo) :: rest) (done ++ .compile (procd ++ j :: todo) :: rest) s2 := by
          intro s2 h
          refine h.more ?_
          intro o ho
          rw [outsOf_append] at ho ⊢
          simp only [outsOf_cons, outsOf_nil, Req.outs, List.append_nil, List.mem_append, List.map_append, List.map_cons, List.map_nil,
            List.mem_cons, List.not_mem_nil, or_false] at ho ⊢
          rcases ho with h | h | h
          · exact Or.inl h
          · exact Or.inr (Or.inl (Or.inl h))
          · exact Or.inr (Or.inl (Or.inr (Or.inl h)))
        cases v with
        | err =>
          simp only [Option.some.injEq] at hq
          subst hq
          exact .finished (hfin _ h1) (by intro h; cases h)
        | compile =>
          simp only [Option.some.injEq] at hq
          subst hq
          refine .validating done (procd ++ [j]) hreq' h1 hfr ?_ ?_ ?_ ?_
          · intro x hx
            simp only [List.mem_append, List.mem_singleton] at hx ⊢
            exact hx.imp (hsub x) id
          · rw [List.map_append, List.nodup_append]
            refine ⟨hnd, by simp, ?_⟩
            intro o ho o' ho'
            simp only [List.map_cons, List.map_nil, List.mem_singleton] at ho'
            subst ho'
            obtain ⟨x, hx, rfl⟩ := List.mem_map.mp ho
            exact hne x (hsub x hx)
          · intro x hx
            rcases List.mem_append.mp hx with hx | hx
            · exact hready x hx
            · rw [List.mem_singleton.mp hx]; exact h3 rfl
          · intro x hx hnx
            simp only [List.mem_append, List.mem_singleton, not_or] at hx hnx
            rcases hx with hx | hx
            · exact hskip x hx hnx.1
            · exact absurd hx hnx.2
        | skip =>
          have hti : Touch (IsDest c) s1 (installCookie c j.out (s1.emit (.already j.out (s1.fs.content (logPath j.out))))).1 :=
            (touch_emit s1 _).trans (touch_install c j.out _)
          have hok : ∀ r ∈ done ++ [Req.compile (procd ++ [j])], ReqOk L r := by
            intro r hr
            rcases List.mem_append.mp hr with hr | hr
            · exact done_ok hR r hr
            · rw [List.mem_singleton.mp hr]
              intro x hx
              rcases List.mem_append.mp hx with hx | hx
              · exact hpo x hx
              · rw [List.mem_singleton.mp hx]; exact hj
          have h1' := h1.dest hL hS hok hti
          have hfr' : ∀ x ∈ done, ReqFreshT tc (Bad T s0 (done ++ .compile (procd ++ j :: todo) :: rest)) TL _ x := fun x hx => fresh_dest hL hT hti (done_ok hR x hx) (hfr x hx)
          rcases hic : installCookie c j.out (s1.emit (.already j.out (s1.fs.content (logPath j.out)))) with ⟨s2, b2⟩
          rw [hic] at hti h1' hfr'
          simp only [hic] at hq
          cases b2 with
          | false =>
            simp only [Option.some.injEq] at hq
            subst hq
            exact .finished (hfin _ h1') (by intro h; cases h)
          | true =>
            simp only [Option.some.injEq] at hq
            subst hq
            refine .validating done (procd ++ [j]) hreq' h1' hfr' ?_ hnd ?_ ?_
            · intro x hx
              exact List.mem_append.mpr (Or.inl (hsub x hx))
            · intro x hx
              unfold Recorded
              rw [hti.same _ (not_dest_managed hL (hpo x (hsub x hx)).isOut (Or.inr (Or.inr (Or.inl rfl))))]
              exact hready x hx
            · intro x hx hnx hTx
              rcases List.mem_append.mp hx with hx | hx
              · exact (hskip x hx hnx hTx).dest hL hT hti (hpo x hx)
              · have := List.mem_singleton.mp hx
                subst this
                exact (h4 rfl hTx).dest hL hT hti hj
    | pooling => simp [seqNext] at hq
    | linking done hreq run fresh recorded =>
      rename_i j rest s
      subst hreq
      have hj := ljob_ok hR
      have hself := sep_self hR
      have ht : Touch (fun p => Managed j.out p ∨ IsDest c p) s (linkOp tc j s).1 := touch_linkOp j s
      have hok : ∀ r ∈ done ++ [Req.link j], ReqOk L r := by
        intro r hr
        rcases List.mem_append.mp hr with hr | hr
        · exact done_ok hR r hr
        · rw [List.mem_singleton.mp hr]; exact hj
      have hod : j.out ∈ outsOf (done ++ [Req.link j]) := by simp [Req.outs]
      have hsep : ∀ lj, .link lj ∈ done ++ [Req.link j] → j.out ∉ lj.srcs := by
        intro lj hlj
        rcases List.mem_append.mp hlj with hlj | hlj
        · exact sep_before hR (by simp [Req.outs]) lj hlj
        · have : lj = j := by simpa using hlj
          subst this; exact hself
      have hrun : RunInv tc L T TL s0 (done ++ .link j :: rest) (done ++ [.link j]) (linkOp tc j s).1 := by
        refine run.touch hL hS hok hj.isOut hod hsep ht ?_
          (Or.inr ⟨.link j, by simp, j.flags, ⟨rfl, rfl⟩, linkOp_recorded recorded⟩)
        intro h1 h2
        have hold := run.outs j.out hj.isOut h1 h2
        unfold OutInv at hold ⊢
        rw [hj.kind] at hold ⊢
        exact linkOp_inv hT hL hj hself (Or.inr hod) run.future recorded hold
      have hfr := fresh_done_touch hL hT hR hj.isOut (by simp [Req.outs]) ht fresh
      simp only [seqNext, Option.some.injEq] at hq
      subst hq
      exact .linkRan done rfl hrun hfr (linkOp_fresh hT hL hj hself run.future recorded)
    | linkRan done hreq run fresh made =>
      rename_i ok j rest s
      subst hreq
      have hj := ljob_ok hR
      have hself := sep_self hR
      have ht : Touch (fun p => Managed j.out p ∨ IsDest c p) s (writeLog j.out (s.buf j.out) s) :=
        touch_writeLog _ _ _ (Or.inl (managed_log _))
      have hok : ∀ r ∈ done ++ [Req.link j], ReqOk L r := by
        intro r hr
        rcases List.mem_append.mp hr with hr | hr
        · exact done_ok hR r hr
        · rw [List.mem_singleton.mp hr]; exact hj
      have hod : j.out ∈ outsOf (done ++ [Req.link j]) := by simp [Req.outs]
      have hsep : ∀ lj, .link lj ∈ done ++ [Req.link j] → j.out ∉ lj.srcs := by
        intro lj hlj
        rcases List.mem_append.mp hlj with hlj | hlj
        · exact sep_before hR (by simp [Req.outs]) lj hlj
        · have : lj = j := by simpa using hlj
          subst this; exact hself
      have hsrc := srcs_touch hL hj hself ht
      have hm : ∀ p, p = j.out ∨ p = depsPath j.out ∨ p = flagsPath j.out → (writeLog j.out (s.buf j.out) s).fs p = s.fs p := by
        intro p hp
        refine writeLog_other _ _ _ ?_
        rcases hp with rfl | rfl | rfl
        · exact (logPath_ne _).symm
        · exact depsPath_ne_logPath _
        · exact flagsPath_ne_logPath _
      have hrun : RunInv tc L T TL s0 (done ++ .link j :: rest) (done ++ [.link j]) (writeLog j.out (s.buf j.out) s) := by
        refine run.touch hL hS hok hj.isOut hod hsep ht ?_ (Or.inl ⟨hm _ (Or.inl rfl), hm _ (Or.inr (Or.inr rfl))⟩)
        intro h1 h2
        have hold := run.outs j.out hj.isOut h1 h2
        unfold OutInv at hold ⊢
        rw [hj.kind] at hold ⊢
        exact hold.congr (fun p hp => Or.inl (hm p hp)) (fun hn => absurd (Or.inr hod) hn)
          (fun x _ p hp g hg _ => by rw [← hsrc p hp]; exact hg)
      have hfr := fresh_done_touch hL hT hR hj.isOut (by simp [Req.outs]) ht fresh
      cases ok with
      | true =>
        simp only [seqNext, Option.some.injEq] at hq
        subst hq
        refine .linked done rfl hrun ?_
        intro x hx
        rcases List.mem_append.mp hx with hx | hx
        · exact hfr x hx
        · rw [List.mem_singleton.mp hx]
          intro _
          obtain ⟨h1, h2⟩ := made rfl
          have h3 := h1.congr hT (fun p hp => hm p (hp.elim Or.inl (fun h => Or.inr (Or.inr h)))) hsrc
          refine ⟨h3.1, fun _ => ?_⟩
          rw [h3.2, ← h2]
          exact writeLog_content _ _ _
      | false =>
        simp only [seqNext, Option.some.injEq] at hq
        subst hq
        refine .finished (hrun.more ?_) (by intro h; cases h)
        intro o ho
        rw [outsOf_append] at ho ⊢
        simp only [outsOf_cons, outsOf_nil, List.append_nil, List.mem_append] at ho ⊢
        rcases ho with h | h
        · exact Or.inl h
        · exact Or.inr (Or.inl h)
    | linked done hreq run fresh =>
      rename_i j rest s
      subst hreq
      have hok : ∀ r ∈ done ++ [Req.link j], ReqOk L r := by
        intro r hr
        rcases List.mem_append.mp hr with hr | hr
        · exact done_ok hR r hr
        · rw [List.mem_singleton.mp hr]; exact ljob_ok hR
      simp only [seqNext, Option.some.injEq] at hq
      subst hq
      have hti := touch_install c j.out s
      exact afterStep_inv rfl (run.dest hL hS hok hti) (fun _ x hx => fresh_dest hL hT hti (hok x hx) (fresh x hx))
    | finished => simp [seqNext] at hq

theorem CfgInv.reach (hL : LayoutOk L c) (hT : ToolOk tc L) (hS : StartOk tc L T TL s0) (hR : ReqsOk L reqs0) {n : Nat} (hn : 0 < n)
    {cfg : Cfg} (h : BuildReaches tc c n reqs0 s0 cfg) : CfgInv tc L c n T TL s0 reqs0 cfg :=
  steps_inv (P := CfgInv tc L c n T TL s0 reqs0) (fun _ _ ha hs => ha.step hL hT hS hR hn hs) h
    (.idle [] rfl (RunInv.init hS) (by simp))

end Bob
