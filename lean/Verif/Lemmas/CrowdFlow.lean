import Verif.Lemmas.Crowd
/-!
# Several bobs, each followed through its build
-/

namespace Bob

variable {tc : Toolchain} {L : Layout} {flags : Bytes → List Bytes} {c : InstCfg} {s0 : Store}

theorem validate_skip (hT : ToolOk tc L) {j : CJob} (hj : CJobOk L j) (hF : j.flags = flags j.out) {s s' : Store}
    (hG : CrowdG tc L flags s0 s) (h : validate j s = (s', .skip)) : s' = s ∧ RightNow tc L flags s.fs j.out := by
  unfold validate at h
  rcases hc : checkFlags j.out j.flags s with ⟨s1, b⟩
  rw [hc] at h
  cases b with
  | true => cases h
  | false =>
    obtain ⟨rfl, hrec⟩ := checkFlags_false hc
    simp only at h
    cases hd : s1.fs (depsPath j.out) with
    | none => simp [FS.content, hd] at h
    | some d =>
      simp only [FS.content, hd, Option.map_some] at h
      cases hm : frugalMtime s1.fs.stat (j.src :: readDeps d.content) j.out with
      | none => simp [hm] at h
      | some b =>
        cases b with
        | true => simp [hm] at h
        | false =>
          rw [hm] at h
          refine ⟨(Prod.mk.inj h).1.symm, ?_⟩
          have hold := hG.outs _ hj.isOut
          unfold MadeSince at hold
          rw [hj.kind] at hold
          have hinv : CInv tc L.user True s1.fs j.out j.src := by
            intro x hx
            obtain ⟨⟨g, h1, h2⟩, h3⟩ := hold x hx
            refine ⟨j.flags, g, hj.clean, by rw [hF]; exact h1, h2, ?_, fun hn => absurd trivial hn, ?_⟩
            · intro d hd
              obtain ⟨g', items, h4, h5, h6⟩ := h3 d hd
              exact ⟨g', items, by rw [hF]; exact h4, h5, h6⟩
            · intro r hr
              obtain ⟨r', h4, h5⟩ := hrec
              rw [hr] at h4; cases h4; exact h5
          obtain ⟨o, h1, h2, _⟩ := (skip_fresh hT hj hinv hrec hd hm).1.obj
          exact .c hj.isOut hj.kind hj.user (by rw [← hF]; exact h2) (by simp [FS.content, h1])

theorem linkCheck_skip (hT : ToolOk tc L) {j : LJob} (hj : LJobOk L j) (hF : j.flags = flags j.out) {s s' : Store}
    (hG : CrowdG tc L flags s0 s) (hs : ∀ p ∈ j.srcs, ¬ L.user p → RightNow tc L flags s.fs p) (h : linkCheck j s = (s', false)) :
    s' = s ∧ RightNow tc L flags s.fs j.out := by
  unfold linkCheck at h
  rcases hc : checkFlags j.out j.flags s with ⟨s1, b⟩
  rw [hc] at h
  cases b with
  | true => cases h
  | false =>
    obtain ⟨rfl, hrec⟩ := checkFlags_false hc
    simp only at h
    have hm : frugalMtime s1.fs.stat j.srcs j.out = some false := by
      split at h
      · assumption
      · cases h
    rw [hm] at h
    refine ⟨(Prod.mk.inj h).1.symm, ?_⟩
    have hold := hG.outs _ hj.isOut
    unfold MadeSince at hold
    rw [hj.kind] at hold
    by_cases hR : RightNow tc L flags s1.fs j.out
    · exact hR
    have hinv : LInv tc True s1.fs j.archive j.out j.srcs := by
      intro x hx
      rcases hold x hx with ⟨_, g, h1, h2⟩ | h1
      · refine ⟨j.flags, g, hj.clean, by rw [hF]; exact h1, h2, fun hn => absurd trivial hn, ?_⟩
        intro r hr
        obtain ⟨r', h4, h5⟩ := hrec
        rw [hr] at h4; cases h4; exact h5
      · exact absurd h1 hR
    obtain ⟨o, h1, h2, _⟩ := (link_skip_fresh hT hj hinv hrec hm).1.out
    exact .l hj.isOut hj.kind hs (by rw [← hF]; exact h2) (by simp [FS.content, h1])

/-! ## One bob -/

/-- What is needed about a product of a bob. -/
structure ProdOk (L : Layout) (flags : Bytes → List Bytes) (p : Proc) (P : Prod) : Prop where
  isOut : L.isOut P.out
  c : ∀ j, P = .c j → CJobOk L j ∧ j.flags = flags j.out
  l : ∀ j, P = .l j → LJobOk L j ∧ j.flags = flags j.out ∧ j.out ∉ j.srcs ∧ ∀ q ∈ j.srcs, ¬ L.user q → q ∈ outsOf p.reqs

theorem ProcOk.prod {p : Proc} (h : ProcOk L flags p) {P : Prod} (hP : P ∈ prodsOf p.reqs) : ProdOk L flags p P := by
  obtain ⟨r, hr, hPr⟩ := List.mem_flatMap.mp hP
  have hok := h.reqs.jobs r hr
  cases r with
  | compile jobs =>
    simp only [Req.prods, List.mem_map] at hPr
    obtain ⟨j, hj, rfl⟩ := hPr
    refine ⟨(hok j hj).isOut, ?_, fun _ e => by cases e⟩
    intro j' e; cases e
    exact ⟨hok j hj, h.flags _ hr _ _ ⟨j, hj, rfl, rfl⟩⟩
  | link j =>
    simp only [Req.prods, List.mem_singleton] at hPr
    subst hPr
    refine ⟨LJobOk.isOut hok, fun _ e => (by cases e), ?_⟩
    intro j' e; cases e
    obtain ⟨pre, post, e⟩ := List.append_of_mem hr
    exact ⟨hok, h.flags _ hr _ _ ⟨rfl, rfl⟩, sep_self (e ▸ h.reqs), fun q hq hn => (h.closed j hr q hq).resolve_left hn⟩

theorem act_keep (hT : ToolOk tc L) {p : Proc} (hp : ProcOk L flags p) {P : Prod} (hP : P ∈ prodsOf p.reqs) {st st' : PStat} {s s' : Store}
    (ha : Act tc p.c P st s st' s') (hG : CrowdG tc L flags s0 s) (hQ : CrowdQ tc L flags P st s) :
    CrowdG tc L flags s0 s' ∧ CrowdE tc L flags s s' := by
  have hk := hp.prod hP
  have hL := hp.layout
  have inst : ∀ {o : Bytes} {a b : Store} {ok : Bool}, L.isOut o → installCookie p.c o a = (b, ok) → CrowdG tc L flags s0 a →
      CrowdG tc L flags s0 b ∧ CrowdE tc L flags a b := by
    intro o a b ok ho h hGa
    have := touch_install p.c o a
    rw [h] at this
    exact dest_keep hT hL ho hGa this
  have emit : ∀ (a : Store) e, CrowdG tc L flags s0 a → CrowdG tc L flags s0 (a.emit e) ∧ CrowdE tc L flags a (a.emit e) :=
    fun a e h => ⟨⟨h.user, h.future, h.clock, h.outs⟩, ⟨fun _ h => h, fun _ _ h => h⟩⟩
  cases ha with
  | compile h => exact validate_keep hT hL hk.isOut hG h
  | err h => exact validate_keep hT hL hk.isOut hG h
  | skip h hi =>
    have h1 := validate_keep hT hL hk.isOut hG h
    have h3 := inst hk.isOut hi (emit _ _ h1.1).1
    exact ⟨h3.1, h1.2.trans (CrowdE.trans (emit _ _ h1.1).2 h3.2)⟩
  | @task j k f op s hop =>
    obtain ⟨hj, hF⟩ := hk.c j rfl
    match k, hop with
    | 0, hop =>
      simp only [compileTask, List.getElem?_cons_zero, Option.some.injEq] at hop
      subst hop
      exact (depsOp_keep hT hL hj hF hG).1
    | 1, hop =>
      simp only [compileTask, List.getElem?_cons_succ, List.getElem?_cons_zero, Option.some.injEq] at hop
      subst hop
      exact (objOp_keep hT hL hj hF hG (hQ.1 (Nat.le_refl 1))).1
    | 2, hop =>
      simp only [compileTask, List.getElem?_cons_succ, List.getElem?_cons_zero, Option.some.injEq] at hop
      subst hop
      exact log_keep hT hL hj.isOut hG
    | 3, hop =>
      simp only [compileTask, List.getElem?_cons_succ, List.getElem?_cons_zero, Option.some.injEq] at hop
      subst hop
      exact dest_keep hT hL hj.isOut hG (touch_instOp j f s)
    | k + 4, hop => simp [compileTask] at hop
  | taskOk => exact ⟨hG, .refl _⟩
  | linkYes h => exact linkCheck_keep hT hL hk.isOut hG h
  | linkSkip h hi =>
    have h1 := linkCheck_keep hT hL hk.isOut hG h
    have h3 := inst hk.isOut hi (emit _ _ h1.1).1
    exact ⟨h3.1, h1.2.trans (CrowdE.trans (emit _ _ h1.1).2 h3.2)⟩
  | @linkRun j s s' ok h =>
    obtain ⟨hj, hF, hself, _⟩ := hk.l j rfl
    have := (linkOp_keep hT hL hj hself hF hG (hQ j rfl)).1
    rw [h] at this
    exact this
  | linkLog => exact log_keep hT hL hk.isOut hG
  | linkFail => exact log_keep hT hL hk.isOut hG
  | linkInst h => exact inst hk.isOut h hG

theorem okStat_q {P : Prod} {ok : Bool} {s : Store} (h : RightNow tc L flags s.fs P.out) : CrowdQ tc L flags P (okStat ok) s := by
  cases ok
  · exact trivial
  · exact h

theorem act_own (hT : ToolOk tc L) {p : Proc} (hp : ProcOk L flags p) {P : Prod} (hP : P ∈ prodsOf p.reqs) {st st' : PStat} {s s' : Store}
    (ha : Act tc p.c P st s st' s')
    (hpre : ∀ j, P = .l j → ∀ P' ∈ prodsOf p.reqs, P'.out ∈ j.srcs → CrowdQ tc L flags P' .done s)
    (hG : CrowdG tc L flags s0 s) (hQ : CrowdQ tc L flags P st s) : CrowdQ tc L flags P st' s' := by
  have hk := hp.prod hP
  have hL := hp.layout
  have hE := (act_keep hT hp hP ha hG hQ).2
  have srcs : ∀ j, P = .l j → ∀ q ∈ j.srcs, ¬ L.user q → RightNow tc L flags s.fs q := by
    intro j e q hq hn
    have := (hk.l j e).2.2.2 q hq hn
    rw [← prodsOf_out] at this
    obtain ⟨P', hP', rfl⟩ := List.mem_map.mp this
    exact hpre j e P' hP' hq
  cases ha with
  | compile h => exact ⟨fun h => by omega, fun h => by omega⟩
  | err h => trivial
  | @skip j s s1 s2 ok h hi => exact okStat_q (hE.right _ (validate_skip hT (hk.c _ rfl).1 (hk.c _ rfl).2 hG h).2)
  | @task j k f op s hop =>
    obtain ⟨hj, hF⟩ := hk.c j rfl
    match k, hop with
    | 0, hop =>
      simp only [compileTask, List.getElem?_cons_zero, Option.some.injEq] at hop
      subst hop
      exact ⟨fun _ => (depsOp_keep hT hL hj hF hG).2, fun h => by omega⟩
    | 1, hop =>
      simp only [compileTask, List.getElem?_cons_succ, List.getElem?_cons_zero, Option.some.injEq] at hop
      subst hop
      exact ⟨fun _ => hE.deps _ hj.isOut (hQ.1 (Nat.le_refl 1)), fun _ => (objOp_keep hT hL hj hF hG (hQ.1 (Nat.le_refl 1))).2⟩
    | 2, hop =>
      simp only [compileTask, List.getElem?_cons_succ, List.getElem?_cons_zero, Option.some.injEq] at hop
      subst hop
      exact ⟨fun _ => hE.deps _ hj.isOut (hQ.1 (by omega)), fun _ hf => hE.right _ (hQ.2 (by omega) hf)⟩
    | 3, hop =>
      simp only [compileTask, List.getElem?_cons_succ, List.getElem?_cons_zero, Option.some.injEq] at hop
      subst hop
      refine ⟨fun _ => hE.deps _ hj.isOut (hQ.1 (by omega)), fun _ hf => hE.right _ (hQ.2 (by omega) ?_)⟩
      cases f with
      | false => rfl
      | true => simp [instOp] at hf
    | k + 4, hop => simp [compileTask] at hop
  | taskOk => exact hQ.2 (by omega) rfl
  | @linkYes j s s' h => exact fun j' e q hq hn => hE.right _ (srcs j' e q hq hn)
  | @linkSkip j s s1 s2 ok h hi =>
    exact okStat_q (hE.right _ (linkCheck_skip hT (hk.l _ rfl).1 (hk.l _ rfl).2.1 hG (srcs _ rfl) h).2)
  | @linkRun j s s' ok h =>
    obtain ⟨hj, hF, hself, _⟩ := hk.l j rfl
    have := (linkOp_keep hT hL hj hself hF hG (hQ j rfl)).2
    rw [h] at this
    exact this
  | linkLog => exact hE.right _ (hQ rfl)
  | linkFail => trivial
  | linkInst h => exact okStat_q (hE.right _ hQ)

/-- Following the products of one bob, from the point of view of the others at `σ`. -/
theorem crowd_flow (hT : ToolOk tc L) {p : Proc} (hp : ProcOk L flags p) (σ : Store) :
    FlowP tc p.c p.reqs (fun s => CrowdG tc L flags s0 s ∧ CrowdE tc L flags σ s)
      (fun P st s => P ∈ prodsOf p.reqs → CrowdQ tc L flags P st s) where
  tickG s s' ht h := by
    have := tick_keep h.1 ht
    exact ⟨this.1, h.2.trans this.2⟩
  tick P st s s' ht h hQ hP := (hQ hP).mono (hp.prod hP).isOut (tick_keep h.1 ht).2
  own P hP st s st' s' ha hpre h hQ := by
    have := act_keep hT hp hP ha h.1 (hQ hP)
    exact ⟨⟨this.1, h.2.trans this.2⟩, fun _ => act_own hT hp hP ha (fun j e P' hP' hin => hpre j e P' hP' hin hP') h.1 (hQ hP)⟩
  frame P hP P' hP' _ st s st' s' ha h hQ q _ hQ' := fun _ => (hQ' hP').mono (hp.prod hP').isOut (act_keep hT hp hP ha h.1 (hQ hP)).2

/-! ## All bobs -/

theorem onDisk_store (a : Cfg) (fs : FS) (t : Nat) : (a.onDisk fs t).store = { a.store with fs := fs, now := t } := by
  cases a <;> rfl

/-- What is known may be replaced by other knowledge when others have changed the files. -/
theorem FlowInv.onDisk {n : Nat} {reqs0 : List Req} {G G' : Store → Prop} {Q Q' : Prod → PStat → Store → Prop} {a : Cfg} {fs : FS} {t : Nat}
    (h : FlowInv tc c n reqs0 G Q a) (hG : G a.store → G' { a.store with fs := fs, now := t })
    (hQ : ∀ P st, Q P st a.store → Q' P st { a.store with fs := fs, now := t }) : FlowInv tc c n reqs0 G' Q' (a.onDisk fs t) := by
  cases h with
  | idle dn hreq glob hd hl => exact .idle dn hreq (hG glob) (fun P hP => hQ _ _ (hd P hP)) (fun P hP => hQ _ _ (hl P hP))
  | validating dn procd hreq glob hd hl htd hsub hnd ready skipped =>
    exact .validating dn procd hreq (hG glob) (fun P hP => hQ _ _ (hd P hP)) (fun P hP => hQ _ _ (hl P hP)) (fun j hj => hQ _ _ (htd j hj))
      hsub hnd (fun j hj => hQ _ _ (ready j hj)) (fun j hj hn => hQ _ _ (skipped j hj hn))
  | pooling dn jobs hreq hsub hnd inv herr hdone hout assert =>
    rename_i tasks rest p
    have hstep : PoolStep (taskProg tc c tasks) n (fun _ _ => True) p { p with store := { p.store with fs := fs, now := t } } := .env _ trivial
    refine .pooling dn jobs hreq hsub hnd (poolInv_step inv hstep) (poolErr_step herr (.step hstep)) (poolDone_step hdone hstep) (poolOut_step hout hstep) ?_
    have hA : ∀ {i k f}, FlowTask Q tasks i k f p.store → FlowTask Q' tasks i k f { p.store with fs := fs, now := t } :=
      fun h j hj => hQ _ _ (h j hj)
    exact ⟨⟨hG assert.inv.glob, fun P hP => hQ _ _ (assert.inv.done P hP), fun P hP => hQ _ _ (assert.inv.later P hP),
      fun j hj hn => hQ _ _ (assert.inv.skipped j hj hn)⟩, fun i hi hs => ⟨hA (assert.pending i hi hs).1, (assert.pending i hi hs).2⟩,
      fun w i h => ⟨hA (assert.committed w i h).1, (assert.committed w i h).2⟩,
      fun w i k f h => ⟨hA (assert.running w i k f h).1, (assert.running w i k f h).2⟩,
      fun w i f h => ⟨hA (assert.finished w i f h).1, (assert.finished w i f h).2⟩⟩
  | linking dn hreq glob hd hl hj => exact .linking dn hreq (hG glob) (fun P hP => hQ _ _ (hd P hP)) (fun P hP => hQ _ _ (hl P hP)) (hQ _ _ hj)
  | linkRan dn hreq glob hd hl hj => exact .linkRan dn hreq (hG glob) (fun P hP => hQ _ _ (hd P hP)) (fun P hP => hQ _ _ (hl P hP)) (hQ _ _ hj)
  | linked dn hreq glob hd hl hj => exact .linked dn hreq (hG glob) (fun P hP => hQ _ _ (hd P hP)) (fun P hP => hQ _ _ (hl P hP)) (hQ _ _ hj)
  | finished glob ha hok hno =>
    exact .finished (hG glob) (fun P hP => (ha P hP).imp fun q hq => hQ _ _ hq) (fun h P hP => hQ _ _ (hok h P hP))
      (fun h => (hno h).imp fun P hP => ⟨hP.1, hP.2.imp fun q hq => ⟨hq.1, hQ _ _ hq.2⟩⟩)

/-- `CrowdQ` speaks about files only. -/
theorem crowdQ_fs {P : Prod} {st : PStat} {s s' : Store} (h : s'.fs = s.fs) (hQ : CrowdQ tc L flags P st s) : CrowdQ tc L flags P st s' := by
  unfold CrowdQ at hQ ⊢
  rw [h]
  exact hQ

theorem crowdG_disk {s s' : Store} (h : s'.fs = s.fs) (ht : s'.now = s.now) (hG : CrowdG tc L flags s0 s) : CrowdG tc L flags s0 s' :=
  ⟨by rw [h]; exact hG.user, by rw [h, ht]; exact hG.future, by rw [ht]; exact hG.clock, by rw [h]; exact hG.outs⟩

theorem crowdE_fs {a b b' : Store} (h : b'.fs = b.fs) (hE : CrowdE tc L flags a b) : CrowdE tc L flags a b' :=
  ⟨by rw [h]; exact hE.right, by rw [h]; exact hE.deps⟩

/-- What is known while several bobs are at work. -/
structure CrowdInv (tc : Toolchain) (L : Layout) (flags : Bytes → List Bytes) (s0 : Store) (ps : List Proc) (m : Crowd) : Prop where
  glob : CrowdG tc L flags s0 m.store
  procs : ∀ (i : Nat) (p : Proc) (a : Cfg), ps[i]? = some p → m.procs[i]? = some a → FlowInv tc p.c p.n p.reqs (fun _ => True)
    (fun P st s => P ∈ prodsOf p.reqs → CrowdQ tc L flags P st s) (a.onDisk m.fs m.now)

theorem CrowdInv.step (hT : ToolOk tc L) {ps : List Proc} (hps : ∀ p ∈ ps, ProcOk L flags p) {m m' : Crowd} (h : CrowdInv tc L flags s0 ps m)
    (hs : CrowdNext tc ps m m') : CrowdInv tc L flags s0 ps m' := by
  cases hs with
  | @act i p a b hp ha hn =>
    have hpk := hps p (List.mem_of_getElem? hp)
    have h1 : FlowInv tc p.c p.n p.reqs (fun s => CrowdG tc L flags s0 s ∧ CrowdE tc L flags m.store s)
        (fun P st s => P ∈ prodsOf p.reqs → CrowdQ tc L flags P st s) (a.onDisk m.fs m.now) := by
      have := (h.procs i p a hp ha).onDisk (fs := m.fs) (t := m.now)
        (G' := fun s => CrowdG tc L flags s0 s ∧ CrowdE tc L flags m.store s)
        (Q' := fun P st s => P ∈ prodsOf p.reqs → CrowdQ tc L flags P st s)
        (fun _ => ⟨crowdG_disk (s := m.store) rfl rfl h.glob, crowdE_fs (b := m.store) rfl (.refl m.store)⟩)
        (fun P st hQ hP => crowdQ_fs (by rw [onDisk_store]) (hQ hP))
      have e : (a.onDisk m.fs m.now).onDisk m.fs m.now = a.onDisk m.fs m.now := by cases a <;> rfl
      rw [e] at this
      exact this
    have h2 := h1.step (crowd_flow hT hpk m.store) hpk.reqs.ord hpk.workers hn
    obtain ⟨hG, hE⟩ := h2.any.1
    refine ⟨crowdG_disk (s := b.store) rfl rfl hG, ?_⟩
    intro k q d hq hd
    simp only at hd ⊢
    by_cases hik : i = k
    · subst hik
      rw [hp] at hq; cases hq
      have hlt : i < m.procs.length := (List.getElem?_eq_some_iff.mp ha).1
      rw [List.getElem?_set_self hlt] at hd; cases hd
      exact h2.onDisk (fun _ => trivial) (fun P st hQ hP => crowdQ_fs rfl (hQ hP))
    · rw [List.getElem?_set_ne hik] at hd
      have hqk := hps q (List.mem_of_getElem? hq)
      have h3 := (h.procs k q d hq hd).onDisk (fs := b.store.fs) (t := b.store.now) (G' := fun _ => True)
        (Q' := fun P st s => P ∈ prodsOf q.reqs → CrowdQ tc L flags P st s) (fun _ => trivial)
        (fun P st hQ hP => by
          have h4 : CrowdQ tc L flags P st m.store := crowdQ_fs (by rw [onDisk_store]; rfl) (hQ hP)
          exact crowdQ_fs (s := b.store) rfl (h4.mono (hqk.prod hP).isOut hE))
      have e : (d.onDisk m.fs m.now).onDisk b.store.fs b.store.now = d.onDisk b.store.fs b.store.now := by cases d <;> rfl
      rw [e] at h3
      exact h3

theorem CrowdInv.reach (hT : ToolOk tc L) {ps : List Proc} (hps : ∀ p ∈ ps, ProcOk L flags p) (hG : CrowdG tc L flags s0 s0) {m : Crowd}
    (h : CrowdReaches tc ps s0 m) : CrowdInv tc L flags s0 ps m := by
  refine steps_inv (P := CrowdInv tc L flags s0 ps) (fun _ _ h1 h2 => h1.step hT hps h2) h ⟨crowdG_disk (s := s0) rfl rfl hG, ?_⟩
  intro i p a hp ha
  simp only [Crowd.start, List.getElem?_map, hp, Option.map_some, Option.some.injEq] at ha
  subst ha
  exact .idle [] rfl trivial (fun P hP => by cases hP) (fun P _ _ => trivial)

/-! ## Before and after -/

/-- What is known between the times at which bobs are at work. -/
structure CrowdS (tc : Toolchain) (L : Layout) (flags : Bytes → List Bytes) (s : Store) : Prop where
  future : ∀ p, L.isOut p → ∀ f, s.fs p = some f → f.mtime ≤ s.now
  outs : ∀ o, L.isOut o → CrowdMade tc L flags s.fs o

theorem CrowdG.settle {s : Store} (h : CrowdG tc L flags s0 s) : CrowdS tc L flags s := by
  refine ⟨h.future, fun o ho => ?_⟩
  have := h.outs o ho
  unfold MadeSince at this
  unfold CrowdMade
  cases hk : L.kind o with
  | compile src => rw [hk] at this; exact this
  | link a srcs =>
    rw [hk] at this
    intro x hx
    rcases this x hx with h1 | h1
    · exact h1.2
    · obtain ⟨y, h2, h3⟩ := h1.lval hk
      simp only [FS.content, hx, Option.map_some, Option.some.injEq] at h3
      exact ⟨s.fs, by rw [h2, h3], snap_self _ _ _⟩

theorem CrowdS.change (hS : SrcsKnown L) {s s1 : Store} (h : CrowdS tc L flags s) (he : Change L s s1) : CrowdG tc L flags s1 s1 := by
  have hout : ∀ o, L.isOut o → ∀ x, s1.fs o = some x → s.fs o = some x := by
    intro o ho x hx
    rcases he.managed o ho o (Or.inl rfl) with h1 | h1
    · rw [← h1]; exact hx
    · rw [h1] at hx; cases hx
  have huser : ∀ p, L.user p → ∀ f, s1.fs p = some f → ∀ o, L.isOut o → ∀ x, s1.fs o = some x → f.mtime ≤ x.mtime → s.fs p = some f := by
    intro p hp f hf o ho x hx hle
    rcases he.user p hp with h1 | h1 | ⟨g, h1, h2⟩
    · rw [← h1]; exact hf
    · rw [h1] at hf; cases hf
    · rw [h1] at hf; cases hf
      have := h2 o ho x hx
      omega
  have hlater := he.later
  refine ⟨fun _ _ => rfl, ?_, Nat.le_refl _, ?_⟩
  · intro p hp f hf
    have := h.future p hp f (hout p hp f hf); omega
  · intro o ho
    have hold := h.outs o ho
    unfold CrowdMade at hold
    unfold MadeSince
    cases hk : L.kind o with
    | compile src =>
      rw [hk] at hold
      intro x hx
      have hx' := hout o ho x hx
      have hle := h.future o ho x hx'
      obtain ⟨⟨g, h1, h2⟩, h3⟩ := hold x hx'
      refine ⟨⟨g, h1, h2.mono fun p hp f hf hm => huser p hp f hf o ho x hx (by omega)⟩, fun d hd => ?_⟩
      have hd' : s.fs (depsPath o) = some d := by
        rcases he.managed o ho _ (Or.inr (Or.inl rfl)) with h4 | h4
        · rw [← h4]; exact hd
        · rw [h4] at hd; cases hd
      obtain ⟨g', items, h4, h5, h6⟩ := h3 d hd'
      exact ⟨g', items, h4, h5, h6.mono fun p hp f hf hm => huser p hp f hf o ho x hx (by omega)⟩
    | link a srcs =>
      rw [hk] at hold
      intro x hx
      have hx' := hout o ho x hx
      have hle := h.future o ho x hx'
      obtain ⟨g, h1, h2⟩ := hold x hx'
      refine Or.inl ⟨by omega, g, h1, h2.mono fun p hp f hf hm => ?_⟩
      rcases hS o a srcs ho hk p hp with hu | hu
      · exact huser p hu f hf o ho x hx (by omega)
      · exact hout p hu f hf

theorem CrowdS.edits {s s1 : Store} (h : CrowdS tc L flags s) (he : Edit L s s1) : Change L s s1 := by
  refine ⟨he.later, fun p hp => ?_, he.managed⟩
  rcases he.user p hp with h1 | h1 | ⟨f, h1, h2, _⟩
  · exact Or.inl h1
  · exact Or.inr (Or.inl h1)
  · refine Or.inr (Or.inr ⟨f, h1, fun o ho x hx => ?_⟩)
    rcases he.managed o ho o (Or.inl rfl) with h3 | h3
    · rw [h3] at hx
      exact Nat.lt_of_le_of_lt (h.future o ho x hx) h2
    · rw [h3] at hx; cases hx

theorem CrowdS.edit (hS : SrcsKnown L) {s s1 : Store} (h : CrowdS tc L flags s) (he : Edit L s s1) : CrowdG tc L flags s1 s1 := h.change hS (h.edits he)

theorem crowded_settled (hT : ToolOk tc L) (hS : SrcsKnown L) {s : Store} (h : Crowded tc L flags s) : CrowdS tc L flags s := by
  induction h with
  | @start s h =>
    have hno : ∀ o, L.isOut o → ∀ x, s.fs o = some x → False := fun o ho x hx => by
      have := h.managed o ho o (Or.inl rfl)
      rw [this] at hx; cases hx
    refine ⟨fun p hp f hf => (hno p hp f hf).elim, fun o ho => ?_⟩
    unfold CrowdMade
    cases L.kind o with
    | compile src => exact fun x hx => (hno o ho x hx).elim
    | link a srcs => exact fun x hx => (hno o ho x hx).elim
  | built _ he hps hr ih => exact (CrowdInv.reach hT hps (ih.edit hS he) hr).glob.settle

end Bob
