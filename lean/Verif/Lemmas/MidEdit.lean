import Verif.Lemmas.CrowdFlow
import Verif.Lemmas.BuildDest
import Verif.Spec.MidEdit
/-!
# Products while the user edits
-/

namespace Bob

variable {tc : Toolchain} {L : Layout} {flags : Bytes → List Bytes} {c : InstCfg} {n : Nat} {reqs0 : List Req} {t0 : Nat}

/-- What is known of a configuration that is not the last one after the files have changed, if it is known of the stages products can be at. -/
theorem FlowInv.edit {G G' : Store → Prop} {Q Q' : Prod → PStat → Store → Prop} {a : Cfg} {fs : FS} {t : Nat}
    (h : FlowInv tc c n reqs0 G Q a) (hr : a.result = none) (hG : G a.store → G' { a.store with fs := fs, now := t })
    (hQ : ∀ P st, (∀ j f, P = .c j → st = .task 1 f → a.compiling j) → Q P st a.store → Q' P st { a.store with fs := fs, now := t }) :
    FlowInv tc c n reqs0 G' Q' (a.onDisk fs t) := by
  have hQ' : ∀ P st, (∀ f, st ≠ .task 1 f) → Q P st a.store → Q' P st { a.store with fs := fs, now := t } :=
    fun P st hne h => hQ P st (fun j f _ e => absurd e (hne f)) h
  have nt : ∀ f, PStat.todo ≠ .task 1 f := fun _ h => by cases h
  have nd : ∀ f, PStat.done ≠ .task 1 f := fun _ h => by cases h
  have n0 : ∀ f, PStat.task 0 false ≠ .task 1 f := fun _ h => by cases h
  cases h with
  | idle dn hreq glob hd hl => exact .idle dn hreq (hG glob) (fun P hP => hQ' _ _ nd (hd P hP)) (fun P hP => hQ' _ _ nt (hl P hP))
  | validating dn procd hreq glob hd hl htd hsub hnd ready skipped =>
    exact .validating dn procd hreq (hG glob) (fun P hP => hQ' _ _ nd (hd P hP)) (fun P hP => hQ' _ _ nt (hl P hP))
      (fun j hj => hQ' _ _ nt (htd j hj)) hsub hnd (fun j hj => hQ' _ _ n0 (ready j hj)) (fun j hj hn => hQ' _ _ nd (skipped j hj hn))
  | pooling dn jobs hreq hsub hnd inv herr hdone hout assert =>
    rename_i tasks rest p
    have hstep : PoolStep (taskProg tc c tasks) n (fun _ _ => True) p { p with store := { p.store with fs := fs, now := t } } := .env _ trivial
    refine .pooling dn jobs hreq hsub hnd (poolInv_step inv hstep) (poolErr_step herr (.step hstep)) (poolDone_step hdone hstep) (poolOut_step hout hstep) ?_
    have hA : ∀ {i k f}, (∀ j, tasks[i]? = some j → k = 1 → (Cfg.pooling tasks rest p).compiling j) → FlowTask Q tasks i k f p.store →
        FlowTask Q' tasks i k f { p.store with fs := fs, now := t } := by
      intro i k f hk h j hj
      exact hQ _ _ (fun j' f' e e' => by cases e; cases e'; exact hk j hj rfl) (h j hj)
    refine ⟨⟨hG assert.inv.glob, fun P hP => hQ' _ _ nd (assert.inv.done P hP), fun P hP => hQ' _ _ nt (assert.inv.later P hP),
      fun j hj hn => hQ' _ _ nd (assert.inv.skipped j hj hn)⟩, fun i hi hs => ⟨hA (fun _ _ e => by cases e) (assert.pending i hi hs).1, (assert.pending i hi hs).2⟩,
      fun w i h => ⟨hA (fun _ _ e => by cases e) (assert.committed w i h).1, (assert.committed w i h).2⟩,
      fun w i k f h => ⟨hA (fun j hj e => ⟨tasks, rest, p, w, i, f, rfl, e ▸ h, hj⟩) (assert.running w i k f h).1, (assert.running w i k f h).2⟩,
      fun w i f h => ⟨hA (fun j hj e => ?_) (assert.finished w i f h).1, (assert.finished w i f h).2⟩⟩
    unfold taskProg at e
    rw [hj] at e
    cases e
  | linking dn hreq glob hd hl hj =>
    exact .linking dn hreq (hG glob) (fun P hP => hQ' _ _ nd (hd P hP)) (fun P hP => hQ' _ _ nt (hl P hP)) (hQ' _ _ (fun _ h => by cases h) hj)
  | linkRan dn hreq glob hd hl hj =>
    exact .linkRan dn hreq (hG glob) (fun P hP => hQ' _ _ nd (hd P hP)) (fun P hP => hQ' _ _ nt (hl P hP)) (hQ' _ _ (fun _ h => by cases h) hj)
  | linked dn hreq glob hd hl hj =>
    exact .linked dn hreq (hG glob) (fun P hP => hQ' _ _ nd (hd P hP)) (fun P hP => hQ' _ _ nt (hl P hP)) (hQ' _ _ (fun _ h => by cases h) hj)
  | finished => cases hr

/-- What holds all the time: nothing is from the future, and products nobody asks for are as they were. -/
structure EditG (tc : Toolchain) (L : Layout) (flags : Bytes → List Bytes) (reqs0 : List Req) (t0 : Nat) (s : Store) : Prop where
  future : ∀ p, L.isOut p → ∀ f, s.fs p = some f → f.mtime ≤ s.now
  clock : t0 ≤ s.now
  outs : ∀ o, L.isOut o → o ∉ outsOf reqs0 → CrowdMade tc L flags s.fs o ∧ ∀ x, s.fs o = some x → x.mtime < t0

/-- What is known of a product. -/
structure EditQ (tc : Toolchain) (L : Layout) (flags : Bytes → List Bytes) (t0 : Nat) (P : Prod) (st : PStat) (s : Store) : Prop where
  made : CrowdMade tc L flags s.fs P.out
  deps : ∀ f, st = .task 1 f → DepsNow tc L flags s.fs P.out
  old : st = .todo → ∀ x, s.fs P.out = some x → x.mtime < t0

/-- An action on the files of another product leaves a product as it is, if it is old or not made from the other. -/
theorem CrowdMade.touch (hL : LayoutOk L c) {o o' : Bytes} (ho : L.isOut o) (ho' : L.isOut o') (hne : o' ≠ o) {s s' : Store} (hc : t0 ≤ s.now)
    (ht : Touch (fun p => Managed o p ∨ IsDest c p) s s')
    (hold : (∀ a srcs, L.kind o' = .link a srcs → o ∉ srcs) ∨ ∀ x, s.fs o' = some x → x.mtime < t0)
    (h : CrowdMade tc L flags s.fs o') : CrowdMade tc L flags s'.fs o' := by
  have hu := touch_user hL ho ht
  have hm := touch_managed hL ho ho' hne ht
  unfold CrowdMade at h ⊢
  cases hk : L.kind o' with
  | compile src =>
    rw [hk] at h
    exact CMade.congr h (hm _ (Or.inl rfl)) (hm _ (Or.inr (Or.inl rfl))) hu
  | link a srcs =>
    rw [hk] at h
    intro x hx
    rw [hm _ (Or.inl rfl)] at hx
    obtain ⟨g, h1, h2⟩ := h x hx
    refine ⟨g, h1, h2.mono fun p hp f hf hle => ?_⟩
    rcases hL.linkSrcs o' a srcs ho' hk p hp with hpu | hpo
    · rw [← hu p hpu]; exact hf
    · by_cases e : p = o
      · subst e
        rcases hold with hold | hold
        · exact absurd hp (hold a srcs hk)
        · have hxt := hold x hx
          rcases ht.new p with h4 | h4 | ⟨f', h4, h5⟩
          · rw [← h4]; exact hf
          · rw [h4] at hf; cases hf
          · rw [h4] at hf; cases hf; omega
      · rw [← touch_managed hL ho hpo e ht p (Or.inl rfl)]; exact hf

/-- An action that leaves the product and the record of what it is made from alone. -/
theorem CrowdMade.quiet (hL : LayoutOk L c) {o : Bytes} (ho : L.isOut o) (hself : ∀ a srcs, L.kind o = .link a srcs → o ∉ srcs) {s s' : Store}
    (ht : Touch (fun p => Managed o p ∨ IsDest c p) s s') (h1 : s'.fs o = s.fs o) (h2 : s'.fs (depsPath o) = s.fs (depsPath o))
    (h : CrowdMade tc L flags s.fs o) : CrowdMade tc L flags s'.fs o := by
  have hu := touch_user hL ho ht
  unfold CrowdMade at h ⊢
  cases hk : L.kind o with
  | compile src => rw [hk] at h; exact CMade.congr h h1 h2 hu
  | link a srcs =>
    rw [hk] at h
    intro x hx
    rw [h1] at hx
    obtain ⟨g, h3, h4⟩ := h x hx
    refine ⟨g, h3, snap_congr (fun p hp => ?_) h4⟩
    rcases hL.linkSrcs o a srcs ho hk p hp with hpu | hpo
    · exact hu p hpu
    · exact touch_managed hL ho hpo (fun e => hself a srcs hk (e ▸ hp)) ht p (Or.inl rfl)

theorem own_touch {o : Bytes} {s s' : Store} (h : Touch (Own c o) s s') : Touch (fun p => Managed o p ∨ IsDest c p) s s' :=
  h.mono fun _ h => h.imp_right fun h => ⟨o, h⟩

/-- Neither the product nor the record of what it is made from changes. -/
def LeftAlone (o : Bytes) (s s' : Store) : Prop := s'.fs o = s.fs o ∧ s'.fs (depsPath o) = s.fs (depsPath o)

theorem LeftAlone.trans {o : Bytes} {a b d : Store} (h1 : LeftAlone o a b) (h2 : LeftAlone o b d) : LeftAlone o a d := ⟨h2.1.trans h1.1, h2.2.trans h1.2⟩

theorem flags_quiet {o : Bytes} {F : List Bytes} {s s' : Store} {b : Bool} (h : checkFlags o F s = (s', b)) : LeftAlone o s s' := by
  cases b with
  | false => rw [(checkFlags_false h).1]; exact ⟨rfl, rfl⟩
  | true =>
    rw [(checkFlags_true h).1]
    exact ⟨write_other s _ (flagsPath_ne o).symm, write_other s _ (flagsPath_ne_depsPath o).symm⟩

theorem validate_quiet {j : CJob} {s s' : Store} {v : Validation} (h : validate j s = (s', v)) : LeftAlone j.out s s' := by
  unfold validate at h
  rcases hc : checkFlags j.out j.flags s with ⟨s1, b⟩
  rw [hc] at h
  have key := flags_quiet hc
  have : s' = s1 := by
    cases b with
    | true => exact (Prod.mk.inj h).1.symm
    | false =>
      simp only at h
      split at h
      · exact (Prod.mk.inj h).1.symm
      · split at h <;> exact (Prod.mk.inj h).1.symm
  rw [this]; exact key

theorem linkCheck_quiet {j : LJob} {s s' : Store} {b : Bool} (h : linkCheck j s = (s', b)) : LeftAlone j.out s s' := by
  unfold linkCheck at h
  rcases hc : checkFlags j.out j.flags s with ⟨s1, b'⟩
  rw [hc] at h
  have key := flags_quiet hc
  have : s' = s1 := by
    cases b' with
    | true => exact (Prod.mk.inj h).1.symm
    | false =>
      simp only at h
      split at h <;> exact (Prod.mk.inj h).1.symm
  rw [this]; exact key

theorem log_quiet (o output : Bytes) (s : Store) : LeftAlone o s (writeLog o output s) :=
  ⟨writeLog_other o output s (logPath_ne o).symm, writeLog_other o output s (depsPath_ne_logPath o)⟩

theorem dest_quiet (hL : LayoutOk L c) {o : Bytes} (ho : L.isOut o) {s s' : Store} (ht : Touch (IsDest c) s s') : LeftAlone o s s' :=
  ⟨ht.same o (not_dest_managed hL ho (Or.inl rfl)), ht.same _ (not_dest_managed hL ho (Or.inr (Or.inl rfl)))⟩

theorem inst_quiet (hL : LayoutOk L c) {o : Bytes} (ho : L.isOut o) {s s' : Store} {ok : Bool} (h : installCookie c o s = (s', ok)) : LeftAlone o s s' := by
  have := touch_install c o s
  rw [h] at this
  exact dest_quiet hL ho this

/-- What the actions for a product do to it. -/
theorem act_made (hT : ToolOk tc L) {p : Proc} (hp : ProcOk L flags p) {P : Prod} (hP : P ∈ prodsOf p.reqs) {st st' : PStat} {s s' : Store}
    (ha : Act tc p.c P st s st' s') (hQ : EditQ tc L flags t0 P st s) : EditQ tc L flags t0 P st' s' := by
  have hk := hp.prod hP
  have hL := hp.layout
  have ht := own_touch (act_touch ha)
  have hself : ∀ a srcs, L.kind P.out = .link a srcs → P.out ∉ srcs := by
    intro a srcs e
    cases P with
    | c j => rw [Prod.out, (hk.c j rfl).1.kind] at e; cases e
    | l j =>
      obtain ⟨hj, _, hs, _⟩ := hk.l j rfl
      rw [Prod.out, hj.kind] at e; cases e
      exact hs
  have quiet : LeftAlone P.out s s' → CrowdMade tc L flags s'.fs P.out := fun h => hQ.made.quiet hL hk.isOut hself ht h.1 h.2
  have of : (∀ f, st' ≠ .task 1 f) → st' ≠ .todo → CrowdMade tc L flags s'.fs P.out → EditQ tc L flags t0 P st' s' :=
    fun h1 h2 h3 => ⟨h3, fun f e => absurd e (h1 f), fun e => absurd e h2⟩
  have okn : ∀ ok f, okStat ok ≠ .task 1 f := fun ok f => by cases ok <;> exact fun h => by cases h
  have okt : ∀ ok, okStat ok ≠ .todo := fun ok => by cases ok <;> exact fun h => by cases h
  have hu := touch_user hL hk.isOut ht
  cases ha with
  | compile h => exact of (fun _ h => by cases h) (fun h => by cases h) (quiet (validate_quiet h))
  | err h => exact of (fun _ h => by cases h) (fun h => by cases h) (quiet (validate_quiet h))
  | @skip j s s1 s2 ok h hi =>
    exact of (okn _) (okt _) (quiet ((validate_quiet h).trans (LeftAlone.trans (b := s1.emit (.already j.out (s1.fs.content (logPath j.out)))) ⟨rfl, rfl⟩
      (inst_quiet hL hk.isOut hi))))
  | @task j k f op s hop =>
    obtain ⟨hj, hF⟩ := hk.c j rfl
    match k, hop with
    | 0, hop =>
      simp only [compileTask, List.getElem?_cons_zero, Option.some.injEq] at hop
      subst hop
      have ho : (depsOp tc j f s).1.fs j.out = s.fs j.out := by
        unfold depsOp
        split
        · rfl
        · exact write_other s _ (depsPath_ne _).symm
      refine ⟨?_, fun _ _ => ?_, fun e => by cases e⟩
      · have hold := hQ.made
        unfold CrowdMade at hold ⊢
        simp only [Prod.out] at hold ⊢
        rw [hj.kind] at hold ⊢
        intro x hx
        rw [ho] at hx
        obtain ⟨⟨g, h1, h2⟩, h3⟩ := hold x hx
        refine ⟨⟨g, h1, snap_congr hu h2⟩, fun d hd => ?_⟩
        cases hi : tc.deps s.fs j.src j.flags with
        | none =>
          have e : (depsOp tc j f s).1 = s := by unfold depsOp; rw [hi]
          rw [e] at hd ⊢
          exact h3 d hd
        | some items =>
          have e : (depsOp tc j f s).1 = s.write (depsPath j.out) (depsText (ruleText items)) := by unfold depsOp; rw [hi]
          refine ⟨s.fs, items, by rw [← hF]; exact hi, ?_, snap_now hu⟩
          rw [e, write_same] at hd
          cases hd; rfl
      · intro src hk hsrc items hi
        simp only [Prod.out] at hk hi ⊢
        rw [hj.kind] at hk; cases hk
        have := deps_user hT hsrc hu hi
        rw [← hF] at this
        refine ⟨⟨depsText (ruleText items), s.now⟩, ?_, rfl⟩
        unfold depsOp; rw [this]; exact write_same _ _ _
    | 1, hop =>
      simp only [compileTask, List.getElem?_cons_succ, List.getElem?_cons_zero, Option.some.injEq] at hop
      subst hop
      refine of (fun _ h => by cases h) (fun h => by cases h) ?_
      have hd := hQ.deps _ rfl
      have hdp : (objOp tc j f s).1.fs (depsPath j.out) = s.fs (depsPath j.out) := by
        unfold objOp
        simp only
        split
        · exact write_other _ _ (depsPath_ne _)
        · split
          · exact remove_other _ (depsPath_ne _)
          · rfl
      have hold := hQ.made
      unfold CrowdMade at hold ⊢
      simp only [Prod.out] at hold hd ⊢
      rw [hj.kind] at hold ⊢
      cases hx : tc.obj s.fs j.src j.flags with
      | some x =>
        have hout : (objOp tc j f s).1.fs j.out = some ⟨x, s.now⟩ := by
          unfold objOp; rw [hx]; exact write_same _ _ _
        intro y hy
        rw [hout] at hy; cases hy
        refine ⟨⟨s.fs, by rw [← hF]; exact hx, snap_now hu⟩, fun d hd' => ?_⟩
        rw [hdp] at hd'
        obtain ⟨items, hi⟩ := hT.objDeps _ _ _ _ hx
        obtain ⟨d', h1, h2⟩ := hd _ hj.kind hj.user items (by rw [← hF]; exact hi)
        rw [h1] at hd'; cases hd'
        exact ⟨s.fs, items, by rw [← hF]; exact hi, h2, snap_now hu⟩
      | none =>
        by_cases hrm : tc.objFailRemoves s.fs j.src j.flags = true
        · have : (objOp tc j f s).1.fs j.out = none := by
            unfold objOp; rw [hx]; simp only; rw [if_pos hrm]; exact remove_same _ _
          intro y hy; rw [this] at hy; cases hy
        · have : (objOp tc j f s).1.fs = s.fs := by
            unfold objOp; rw [hx]; simp only; rw [if_neg hrm]; rfl
          rw [this]; exact hold
    | 2, hop =>
      simp only [compileTask, List.getElem?_cons_succ, List.getElem?_cons_zero, Option.some.injEq] at hop
      subst hop
      exact of (fun _ h => by cases h) (fun h => by cases h) (quiet (log_quiet _ _ _))
    | 3, hop =>
      simp only [compileTask, List.getElem?_cons_succ, List.getElem?_cons_zero, Option.some.injEq] at hop
      subst hop
      exact of (fun _ h => by cases h) (fun h => by cases h) (quiet (dest_quiet hL hj.isOut (touch_instOp j f s)))
    | k + 4, hop => simp [compileTask] at hop
  | taskOk => exact of (fun _ h => by cases h) (fun h => by cases h) hQ.made
  | linkYes h => exact of (fun _ h => by cases h) (fun h => by cases h) (quiet (linkCheck_quiet h))
  | @linkSkip j s s1 s2 ok h hi =>
    exact of (okn _) (okt _) (quiet ((linkCheck_quiet h).trans (LeftAlone.trans (b := s1.emit (.already j.out (s1.fs.content (logPath j.out)))) ⟨rfl, rfl⟩
      (inst_quiet hL hk.isOut hi))))
  | @linkRun j s s' ok h =>
    obtain ⟨hj, hF, hs, _⟩ := hk.l j rfl
    refine of (fun _ h => by cases h) (fun h => by cases h) ?_
    have hs' : (linkOp tc j s).1 = s' := by rw [h]
    have hold := hQ.made
    unfold CrowdMade at hold ⊢
    simp only [Prod.out] at hold ⊢
    rw [hj.kind] at hold ⊢
    have hsrcs := srcs_touch hL hj hs ht
    cases hx : tc.link j.archive s.fs j.srcs j.flags with
    | some x =>
      have hout : s'.fs j.out = some ⟨x, s.now⟩ := by
        rw [← hs']; unfold linkOp; rw [hx]; exact write_same _ _ _
      intro y hy
      rw [hout] at hy; cases hy
      exact ⟨s.fs, by rw [← hF]; exact hx, snap_now hsrcs⟩
    | none =>
      by_cases hrm : tc.linkFailRemoves j.archive s.fs j.srcs j.flags = true
      · have : s'.fs j.out = none := by
          rw [← hs']; unfold linkOp; rw [hx]; simp only; rw [if_pos hrm]; exact remove_same _ _
        intro y hy; rw [this] at hy; cases hy
      · have : s'.fs = s.fs := by
          rw [← hs']; unfold linkOp; rw [hx]; simp only; rw [if_neg hrm]; rfl
        rw [this]; exact hold
  | linkLog => exact of (fun _ h => by cases h) (fun h => by cases h) (quiet (log_quiet _ _ _))
  | linkFail => exact of (fun _ h => by cases h) (fun h => by cases h) (quiet (log_quiet _ _ _))
  | linkInst h => exact of (okn _) (okt _) (quiet (inst_quiet hL hk.isOut h))

theorem mem_outs_of_prod {reqs : List Req} {P : Prod} (h : P ∈ prodsOf reqs) : P.out ∈ outsOf reqs := by
  rw [← prodsOf_out]; exact List.mem_map_of_mem h

/-- Following the products of a build while the user edits. -/
theorem edit_flow (hT : ToolOk tc L) {p : Proc} (hp : ProcOk L flags p) :
    Flow tc p.c p.reqs (EditG tc L flags p.reqs t0) (EditQ tc L flags t0) where
  tickG s s' ht h := by
    obtain ⟨t, ht, rfl⟩ := ht
    exact ⟨fun p hp f hf => Nat.le_trans (h.future p hp f hf) ht, Nat.le_trans h.clock ht, h.outs⟩
  tick P st s s' ht h hQ := by
    obtain ⟨t, ht, rfl⟩ := ht
    exact ⟨hQ.made, hQ.deps, hQ.old⟩
  own P hP st s st' s' ha hG hQ := by
    refine ⟨?_, act_made hT hp hP ha hQ⟩
    have hk := hp.prod hP
    have ht := own_touch (act_touch ha)
    refine ⟨fun q hq f hf => ?_, by rw [ht.now]; exact hG.clock, fun o ho hn => ?_⟩
    · rw [ht.now]
      rcases ht.new q with h1 | h1 | ⟨g, h1, h2⟩
      · rw [h1] at hf; exact hG.future q hq f hf
      · rw [h1] at hf; cases hf
      · rw [h1] at hf; cases hf; omega
    · have hne : o ≠ P.out := fun e => hn (e ▸ mem_outs_of_prod hP)
      obtain ⟨h1, h2⟩ := hG.outs o ho hn
      refine ⟨h1.touch hp.layout hk.isOut ho hne hG.clock ht (Or.inr h2), fun x hx => h2 x ?_⟩
      rw [touch_managed hp.layout hk.isOut ho hne ht o (Or.inl rfl)] at hx
      exact hx
  frame P hP P' hP' hne st s st' s' ha hG hQ q hq hQ' := by
    have hk := hp.prod hP
    have hk' := hp.prod hP'
    have ht := own_touch (act_touch ha)
    have hm := touch_managed hp.layout hk.isOut hk'.isOut hne ht
    refine ⟨hQ'.made.touch hp.layout hk.isOut hk'.isOut hne hG.clock ht ?_, fun f e => ?_, fun e x hx => ?_⟩
    · by_cases e : q = .todo
      · exact Or.inr (hQ'.old e)
      · refine Or.inl fun a srcs hkd => ?_
        cases P' with
        | c j => rw [Prod.out, (hk'.c j rfl).1.kind] at hkd; cases hkd
        | l j =>
          rw [Prod.out, (hk'.l j rfl).1.kind] at hkd; cases hkd
          exact hq j rfl e
    · intro src hkd hsrc items hi
      rw [hm _ (Or.inr (Or.inl rfl))]
      exact hQ'.deps f e src hkd hsrc items (deps_user hT hsrc (touch_user hp.layout hk.isOut ht) hi)
    · rw [hm _ (Or.inl rfl)] at hx
      exact hQ'.old e x hx

/-! ## Edits -/

theorem CrowdMade.edited (hL : LayoutOk L c) {o : Bytes} (ho : L.isOut o) {a : Cfg} {fs : FS} (he : MidEdit tc L a fs)
    (h : CrowdMade tc L flags a.store.fs o) : CrowdMade tc L flags fs o := by
  have hso : ∀ q, L.isOut q → fs q = a.store.fs q := fun q hq => he.rest q (hL.outNotUser q q hq (Or.inl rfl))
  have hd : fs (depsPath o) = a.store.fs (depsPath o) := he.rest _ (hL.outNotUser o _ ho (Or.inr (Or.inl rfl)))
  have hu : ∀ x, a.store.fs o = some x → ∀ q, L.user q → ∀ f, fs q = some f → f.mtime ≤ x.mtime → a.store.fs q = some f := by
    intro x hx q hq f hf hle
    rcases he.user q hq with h1 | h1 | ⟨g, h1, h2⟩
    · rw [← h1]; exact hf
    · rw [h1] at hf; cases hf
    · rw [h1] at hf; cases hf
      have := h2 o ho x hx
      omega
  unfold CrowdMade at h ⊢
  cases hk : L.kind o with
  | compile src =>
    rw [hk] at h
    intro x hx
    rw [hso o ho] at hx
    obtain ⟨⟨g, h1, h2⟩, h3⟩ := h x hx
    refine ⟨⟨g, h1, h2.mono (hu x hx)⟩, fun d hd' => ?_⟩
    rw [hd] at hd'
    obtain ⟨g', items, h4, h5, h6⟩ := h3 d hd'
    exact ⟨g', items, h4, h5, h6.mono (hu x hx)⟩
  | link b srcs =>
    rw [hk] at h
    intro x hx
    rw [hso o ho] at hx
    obtain ⟨g, h1, h2⟩ := h x hx
    refine ⟨g, h1, h2.mono fun q hq f hf hle => ?_⟩
    rcases hL.linkSrcs o b srcs ho hk q hq with hqu | hqo
    · exact hu x hx q hqu f hf hle
    · rw [← hso q hqo]; exact hf

theorem edit_step (hT : ToolOk tc L) {p : Proc} (hp : ProcOk L flags p) {a b : Cfg}
    (h : FlowInv tc p.c p.n p.reqs (EditG tc L flags p.reqs t0) (fun P st s => P ∈ prodsOf p.reqs → EditQ tc L flags t0 P st s) a)
    (hs : EditNext tc (MidEdit tc L) p.c p.n a b) :
    FlowInv tc p.c p.n p.reqs (EditG tc L flags p.reqs t0) (fun P st s => P ∈ prodsOf p.reqs → EditQ tc L flags t0 P st s) b := by
  have hF := edit_flow (t0 := t0) hT hp
  have hL := hp.layout
  cases hs with
  | build hn =>
    refine h.step (Flow.toP (Q := fun P st s => P ∈ prodsOf p.reqs → EditQ tc L flags t0 P st s)
      ⟨hF.tickG, fun P st s s' ht hG hQ hP => hF.tick P st s s' ht hG (hQ hP), ?_, ?_⟩) hp.reqs.ord hp.workers hn
    · intro P hP st s st' s' ha hG hQ
      have := hF.own P hP st s st' s' ha hG (hQ hP)
      exact ⟨this.1, fun _ => this.2⟩
    · intro P hP P' hP' hne st s st' s' ha hG hQ q hq hQ' _
      exact hF.frame P hP P' hP' hne st s st' s' ha hG (hQ hP) q hq (hQ' hP')
  | @edit fs hr he =>
    refine h.edit hr (fun hG => ⟨?_, hG.clock, ?_⟩) (fun P st hc hQ hP => ?_)
    · intro q hq f hf
      exact hG.future q hq f ((he.rest q (hL.outNotUser q q hq (Or.inl rfl))) ▸ hf)
    · intro o ho hn
      obtain ⟨h1, h2⟩ := hG.outs o ho hn
      refine ⟨h1.edited hL ho he, fun x hx => h2 x ?_⟩
      rw [← he.rest o (hL.outNotUser o o ho (Or.inl rfl))]
      exact hx
    · have hk := hp.prod hP
      have hQ := hQ hP
      refine ⟨hQ.made.edited hL hk.isOut he, fun f e => ?_, fun e x hx => hQ.old e x ?_⟩
      · intro src hkd hsrc items hi
        cases P with
        | l j => rw [Prod.out, (hk.l j rfl).1.kind] at hkd; cases hkd
        | c j =>
          obtain ⟨hj, hF⟩ := hk.c j rfl
          have hkd' := hkd
          rw [Prod.out, hj.kind] at hkd; cases hkd
          have := he.deps j (hc j f rfl e) items (by rw [hF]; exact hi)
          show ∃ d, fs (depsPath j.out) = some d ∧ _
          rw [he.rest _ (hL.outNotUser j.out _ hj.isOut (Or.inr (Or.inl rfl)))]
          exact hQ.deps f e _ hkd' hsrc items (by rw [hF] at this; exact this)
      · rw [← he.rest P.out (hL.outNotUser _ _ hk.isOut (Or.inl rfl))]
        exact hx

/-- Where a build may be that is run while the user edits. -/
theorem edit_reach (hT : ToolOk tc L) (hS : SrcsKnown L) {s s1 : Store} (h : CrowdS tc L flags s) (he : Change L s s1) {p : Proc} (hp : ProcOk L flags p) {cfg : Cfg}
    (hr : Steps (EditNext tc (MidEdit tc L) p.c p.n) (.idle p.reqs s1) cfg) :
    FlowInv tc p.c p.n p.reqs (EditG tc L flags p.reqs s1.now) (fun P st s => P ∈ prodsOf p.reqs → EditQ tc L flags s1.now P st s) cfg := by
  have h0 : CrowdS tc L flags s1 := (h.change hS he).settle
  have hold : ∀ o, L.isOut o → ∀ x, s1.fs o = some x → x.mtime < s1.now := by
    intro o ho x hx
    have hx' : s.fs o = some x := by
      rcases he.managed o ho o (Or.inl rfl) with h1 | h1
      · rw [← h1]; exact hx
      · rw [h1] at hx; cases hx
    have := h.future o ho x hx'
    have := he.later
    omega
  have hinv := steps_inv (fun a b h1 h2 => edit_step (t0 := s1.now) hT hp h1 h2) hr
    (.idle [] rfl ⟨h0.future, Nat.le_refl _, fun o ho _ => ⟨h0.outs o ho, hold o ho⟩⟩ (fun P hP => by cases hP)
      (fun P _ hP => ⟨h0.outs _ (hp.prod hP).isOut, fun _ e => (by cases e), fun _ => hold _ (hp.prod hP).isOut⟩))
  exact hinv

theorem edit_settled {p : Proc} {cfg : Cfg}
    (hinv : FlowInv tc p.c p.n p.reqs (EditG tc L flags p.reqs t0) (fun P st s => P ∈ prodsOf p.reqs → EditQ tc L flags t0 P st s) cfg) :
    CrowdS tc L flags cfg.store := by
  obtain ⟨hG', hall⟩ := hinv.any
  refine ⟨hG'.future, fun o ho => ?_⟩
  by_cases hin : o ∈ outsOf p.reqs
  · rw [← prodsOf_out] at hin
    obtain ⟨P, hP, rfl⟩ := List.mem_map.mp hin
    obtain ⟨st, hQ⟩ := hall P hP
    exact (hQ hP).made
  · exact (hG'.outs o ho hin).1

theorem worked_settled (hT : ToolOk tc L) (hS : SrcsKnown L) {s : Store} (h : Worked tc L flags s) : CrowdS tc L flags s := by
  induction h with
  | start h => exact crowded_settled hT hS (.start h)
  | built _ he hp hr ih => exact edit_settled (edit_reach hT hS ih (ih.edits he) hp hr)
  | crowd _ he hps hr ih => exact (CrowdInv.reach hT hps (ih.edit hS he) hr).glob.settle

end Bob
