import Verif.Lemmas.BuildCfg
/-!
# Following each product through a build

A proof rule for statements of the form "at each stage of its way through a build, this is known about a product".
-/

namespace Bob

/-- A product of a project. -/
inductive Prod where
  | c (j : CJob)
  | l (j : LJob)
deriving DecidableEq

def Prod.out : Prod → Bytes
  | .c j => j.out
  | .l j => j.out

def Req.prods : Req → List Prod
  | .compile jobs => jobs.map .c
  | .link j => [.l j]

def prodsOf (reqs : List Req) : List Prod := reqs.flatMap Req.prods

@[simp] theorem prodsOf_append (a b : List Req) : prodsOf (a ++ b) = prodsOf a ++ prodsOf b := by simp [prodsOf]
@[simp] theorem prodsOf_cons (a : Req) (b : List Req) : prodsOf (a :: b) = a.prods ++ prodsOf b := by simp [prodsOf]
@[simp] theorem prodsOf_nil : prodsOf [] = [] := rfl

theorem prodsOf_out (reqs : List Req) : (prodsOf reqs).map Prod.out = outsOf reqs := by
  induction reqs with
  | nil => rfl
  | cons r rest ih =>
    rw [prodsOf_cons, List.map_append, ih, outsOf_cons]
    congr 1
    cases r <;> simp [Req.prods, Req.outs, Prod.out, Function.comp_def]

/-- How far a product is. -/
inductive PStat where
  | todo
  /-- a compile task that has done `k` actions -/
  | task (k : Nat) (f : Bool)
  | linking
  | linkRan (ok : Bool)
  | linked
  | done
  | failed
deriving DecidableEq

def okStat (ok : Bool) : PStat := if ok then .done else .failed

/-- What bob does for a product. -/
inductive Act (tc : Toolchain) (c : InstCfg) : Prod → PStat → Store → PStat → Store → Prop where
  | compile {j s s'} (h : validate j s = (s', .compile)) : Act tc c (.c j) .todo s (.task 0 false) s'
  | err {j s s'} (h : validate j s = (s', .err)) : Act tc c (.c j) .todo s .failed s'
  | skip {j s s1 s2 ok} (h : validate j s = (s1, .skip))
      (hi : installCookie c j.out (s1.emit (.already j.out (s1.fs.content (logPath j.out)))) = (s2, ok)) :
      Act tc c (.c j) .todo s (okStat ok) s2
  | task {j k f op s} (h : (compileTask tc c j)[k]? = some op) : Act tc c (.c j) (.task k f) s (.task (k + 1) (op f s).2) (op f s).1
  | taskOk {j s} : Act tc c (.c j) (.task 4 false) s .done s
  | linkYes {j s s'} (h : linkCheck j s = (s', true)) : Act tc c (.l j) .todo s .linking s'
  | linkSkip {j s s1 s2 ok} (h : linkCheck j s = (s1, false))
      (hi : installCookie c j.out (s1.emit (.already j.out (s1.fs.content (logPath j.out)))) = (s2, ok)) :
      Act tc c (.l j) .todo s (okStat ok) s2
  | linkRun {j s s' ok} (h : linkOp tc j s = (s', ok)) : Act tc c (.l j) .linking s (.linkRan ok) s'
  | linkLog {j s} : Act tc c (.l j) (.linkRan true) s .linked (writeLog j.out (s.buf j.out) s)
  | linkFail {j s} : Act tc c (.l j) (.linkRan false) s .failed (writeLog j.out (s.buf j.out) s)
  | linkInst {j s s' ok} (h : installCookie c j.out s = (s', ok)) : Act tc c (.l j) .linked s (okStat ok) s'

/-- The product could not be made or installed. -/
def PStat.bad : PStat → Bool
  | .failed | .task 4 true => true
  | _ => false

/-- The products are all different, and nothing is linked before it is made. -/
structure Ord (reqs : List Req) : Prop where
  nodup : (outsOf reqs).Nodup
  ordered : ∀ pre j post, reqs = pre ++ .link j :: post → ∀ p ∈ j.srcs, p ∉ outsOf (.link j :: post)

theorem ReqsOk.ord {L : Layout} {reqs : List Req} (h : ReqsOk L reqs) : Ord reqs := ⟨h.nodup, h.ordered⟩

/-- `G` holds throughout, and `Q` describes each product. -/
structure Flow (tc : Toolchain) (c : InstCfg) (reqs0 : List Req) (G : Store → Prop) (Q : Prod → PStat → Store → Prop) : Prop where
  tickG : ∀ s s', Tick s s' → G s → G s'
  tick : ∀ P st s s', Tick s s' → G s → Q P st s → Q P st s'
  own : ∀ P ∈ prodsOf reqs0, ∀ st s st' s', Act tc c P st s st' s' → G s → Q P st s → G s' ∧ Q P st' s'
  frame : ∀ P ∈ prodsOf reqs0, ∀ P' ∈ prodsOf reqs0, P'.out ≠ P.out → ∀ st s st' s', Act tc c P st s st' s' → G s → Q P st s →
    ∀ q, (∀ j, P' = .l j → q ≠ .todo → P.out ∉ j.srcs) → Q P' q s → Q P' q s'

/-- The same, where the actions for a link product may rely on what it is made from being done. -/
structure FlowP (tc : Toolchain) (c : InstCfg) (reqs0 : List Req) (G : Store → Prop) (Q : Prod → PStat → Store → Prop) : Prop where
  tickG : ∀ s s', Tick s s' → G s → G s'
  tick : ∀ P st s s', Tick s s' → G s → Q P st s → Q P st s'
  own : ∀ P ∈ prodsOf reqs0, ∀ st s st' s', Act tc c P st s st' s' →
    (∀ j, P = .l j → ∀ P' ∈ prodsOf reqs0, P'.out ∈ j.srcs → Q P' .done s) → G s → Q P st s → G s' ∧ Q P st' s'
  frame : ∀ P ∈ prodsOf reqs0, ∀ P' ∈ prodsOf reqs0, P'.out ≠ P.out → ∀ st s st' s', Act tc c P st s st' s' → G s → Q P st s →
    ∀ q, (∀ j, P' = .l j → q ≠ .todo → P.out ∉ j.srcs) → Q P' q s → Q P' q s'

variable {tc : Toolchain} {c : InstCfg} {n : Nat} {reqs0 : List Req} {G : Store → Prop} {Q : Prod → PStat → Store → Prop}

theorem Flow.toP (h : Flow tc c reqs0 G Q) : FlowP tc c reqs0 G Q :=
  ⟨h.tickG, h.tick, fun P hP st s st' s' ha _ => h.own P hP st s st' s' ha, h.frame⟩

def All (Q : Prod → PStat → Store → Prop) (st : PStat) (l : List Prod) (s : Store) : Prop := ∀ P ∈ l, Q P st s

structure FlowPool (G : Store → Prop) (Q : Prod → PStat → Store → Prop) (dn : List Req) (jobs : List CJob) (rest : List Req) (tasks : List CJob)
    (s : Store) : Prop where
  glob : G s
  done : All Q .done (prodsOf dn) s
  later : All Q .todo (prodsOf rest) s
  skipped : ∀ j ∈ jobs, j ∉ tasks → Q (.c j) .done s

def FlowTask (Q : Prod → PStat → Store → Prop) (tasks : List CJob) (i k : Nat) (f : Bool) (s : Store) : Prop :=
  ∀ j, tasks[i]? = some j → Q (.c j) (.task k f) s

/-- Everything is known about every configuration. -/
inductive FlowInv (tc : Toolchain) (c : InstCfg) (n : Nat) (reqs0 : List Req) (G : Store → Prop) (Q : Prod → PStat → Store → Prop) : Cfg → Prop where
  | idle {rest s} (dn : List Req) (hreq : reqs0 = dn ++ rest) (glob : G s) (hd : All Q .done (prodsOf dn) s)
      (hl : All Q .todo (prodsOf rest) s) : FlowInv tc c n reqs0 G Q (.idle rest s)
  | validating {todo tasks rest s} (dn : List Req) (procd : List CJob) (hreq : reqs0 = dn ++ .compile (procd ++ todo) :: rest)
      (glob : G s) (hd : All Q .done (prodsOf dn) s) (hl : All Q .todo (prodsOf rest) s)
      (ht : ∀ j ∈ todo, Q (.c j) .todo s)
      (hsub : ∀ j ∈ tasks, j ∈ procd) (hnd : (tasks.map (·.out)).Nodup)
      (ready : ∀ j ∈ tasks, Q (.c j) (.task 0 false) s) (skipped : ∀ j ∈ procd, j ∉ tasks → Q (.c j) .done s) :
      FlowInv tc c n reqs0 G Q (.validating todo tasks rest s)
  | pooling {tasks rest p} (dn : List Req) (jobs : List CJob) (hreq : reqs0 = dn ++ .compile jobs :: rest)
      (hsub : ∀ j ∈ tasks, j ∈ jobs) (hnd : (tasks.map (·.out)).Nodup)
      (inv : PoolInv p) (herr : PoolErr p) (hdone : PoolDone tasks.length p) (hout : PoolOut n p)
      (assert : PoolAssert (taskProg tc c tasks) (FlowPool G Q dn jobs rest tasks) (FlowTask Q tasks) p) :
      FlowInv tc c n reqs0 G Q (.pooling tasks rest p)
  | linking {j rest s} (dn : List Req) (hreq : reqs0 = dn ++ .link j :: rest) (glob : G s) (hd : All Q .done (prodsOf dn) s)
      (hl : All Q .todo (prodsOf rest) s) (hj : Q (.l j) .linking s) : FlowInv tc c n reqs0 G Q (.linking j rest s)
  | linkRan {ok j rest s} (dn : List Req) (hreq : reqs0 = dn ++ .link j :: rest) (glob : G s) (hd : All Q .done (prodsOf dn) s)
      (hl : All Q .todo (prodsOf rest) s) (hj : Q (.l j) (.linkRan ok) s) : FlowInv tc c n reqs0 G Q (.linkRan ok j rest s)
  | linked {j rest s} (dn : List Req) (hreq : reqs0 = dn ++ .link j :: rest) (glob : G s) (hd : All Q .done (prodsOf dn) s)
      (hl : All Q .todo (prodsOf rest) s) (hj : Q (.l j) .linked s) : FlowInv tc c n reqs0 G Q (.linked j rest s)
  | finished {ok s} (glob : G s) (hall : ∀ P ∈ prodsOf reqs0, ∃ st, Q P st s) (hok : ok = true → All Q .done (prodsOf reqs0) s)
      (hno : ok = false → ∃ P ∈ prodsOf reqs0, ∃ st, st.bad = true ∧ Q P st s) :
      FlowInv tc c n reqs0 G Q (.finished ok s)

theorem mem_prods_out {reqs : List Req} (hnd : (outsOf reqs).Nodup) {P P' : Prod} (h : P ∈ prodsOf reqs) (h' : P' ∈ prodsOf reqs)
    (ho : P'.out = P.out) : P' = P := by
  rw [← prodsOf_out] at hnd
  obtain ⟨i, hi⟩ := List.mem_iff_getElem?.mp h
  obtain ⟨k, hk⟩ := List.mem_iff_getElem?.mp h'
  have hil : i < ((prodsOf reqs).map Prod.out).length := by
    have := (List.getElem?_eq_some_iff.mp hi).1
    simpa using this
  have : i = k := (List.getElem?_inj hil hnd).mp (by simp [hi, hk, ho])
  subst this
  rw [hi] at hk
  exact (Option.some.inj hk).symm

/-- The outs before, in, and after a request are different. -/
theorem outs_split {dn rest : List Req} {r : Req} (hnd : (outsOf (dn ++ r :: rest)).Nodup) {P : Prod} (hP : P ∈ r.prods) :
    (∀ P' ∈ prodsOf dn, P'.out ≠ P.out) ∧ (∀ P' ∈ prodsOf rest, P'.out ≠ P.out) := by
  have key : ∀ l : List Req, ∀ P ∈ prodsOf l, P.out ∈ outsOf l := by
    intro l P h; rw [← prodsOf_out]; exact List.mem_map_of_mem h
  have hPo : P.out ∈ r.outs := by
    have := key [r] P (by simpa using hP)
    simpa using this
  rw [outsOf_append, outsOf_cons, List.nodup_append, List.nodup_append] at hnd
  constructor
  · intro P' hP' e
    exact hnd.2.2 _ (key dn P' hP') _ (by simp [hPo]) e
  · intro P' hP' e
    exact hnd.2.1.2.2 _ hPo _ (key rest P' hP') e.symm

theorem ord_sep {dn rest : List Req} {r : Req} (hR : Ord (dn ++ r :: rest)) {P : Prod} (hP : P ∈ r.prods) (j : LJob) (hj : .l j ∈ prodsOf dn) :
    P.out ∉ j.srcs := by
  have hlink : .link j ∈ dn := by
    obtain ⟨r', hr', hj'⟩ := List.mem_flatMap.mp hj
    cases r' with
    | compile jobs => simp [Req.prods] at hj'
    | link j' => simp only [Req.prods, List.mem_singleton, Prod.l.injEq] at hj'; subst hj'; exact hr'
  obtain ⟨pre, mid, rfl⟩ := List.append_of_mem hlink
  intro hp
  refine hR.ordered pre j (mid ++ r :: rest) (by simp) _ hp ?_
  have hPo : P.out ∈ r.outs := by
    have : P.out ∈ (prodsOf [r]).map Prod.out := List.mem_map_of_mem (by simpa using hP)
    rw [prodsOf_out] at this
    simpa using this
  simp [hPo]

theorem FlowP.all (hF : FlowP tc c reqs0 G Q) {P : Prod} (hP : P ∈ prodsOf reqs0) {st st' : PStat} {s s' : Store} (ha : Act tc c P st s st' s')
    (hG : G s) (hQ : Q P st s) {q : PStat} {l : List Prod} (hl : ∀ P' ∈ l, P' ∈ prodsOf reqs0 ∧ P'.out ≠ P.out) (hs : q ≠ .todo → ∀ j, .l j ∈ l → P.out ∉ j.srcs) (h : All Q q l s) : All Q q l s' :=
  fun P' hP' => hF.frame P hP P' (hl P' hP').1 (hl P' hP').2 _ _ _ _ ha hG hQ q (fun j e hq => hs hq j (e ▸ hP')) (h P' hP')

theorem flow_task_step (hF : FlowP tc c reqs0 G Q) (hR : Ord reqs0) {dn rest : List Req} {jobs tasks : List CJob}
    (hreq : reqs0 = dn ++ .compile jobs :: rest) (hsub : ∀ j ∈ tasks, j ∈ jobs) (hnd : (tasks.map (·.out)).Nodup)
    (i : Nat) (hi : i < tasks.length) (k : Nat) (f : Bool) (op : TaskOp Store) (s : Store)
    (hop : (taskProg tc c tasks i)[k]? = some op)
    (hI : FlowPool G Q dn jobs rest tasks s) (hA : FlowTask Q tasks i k f s) :
    FlowPool G Q dn jobs rest tasks (op f s).1 ∧ FlowTask Q tasks i (k + 1) (op f s).2 (op f s).1 ∧
      ∀ j, j < tasks.length → j ≠ i → ∀ k' f', FlowTask Q tasks j k' f' s → FlowTask Q tasks j k' f' (op f s).1 := by
  obtain ⟨j, hj⟩ : ∃ j, tasks[i]? = some j := ⟨tasks[i], List.getElem?_eq_getElem hi⟩
  have hjm : j ∈ tasks := List.mem_of_getElem? hj
  have hjj := hsub j hjm
  have hQ := hA j hj
  unfold taskProg at hop
  rw [hj] at hop
  have hact : Act tc c (.c j) (.task k f) s (.task (k + 1) (op f s).2) (op f s).1 := .task hop
  have hin : ∀ x ∈ jobs, Prod.c x ∈ prodsOf reqs0 := by
    intro x hx; rw [hreq]; simp [Req.prods, hx]
  have hP := hin j hjj
  have hsp := outs_split (hreq ▸ hR.nodup) (P := .c j) (show _ ∈ (Req.compile jobs).prods by simp [Req.prods, hjj])
  have hse := ord_sep (hreq ▸ hR) (P := .c j) (show _ ∈ (Req.compile jobs).prods by simp [Req.prods, hjj])
  have hne : ∀ x ∈ jobs, x ≠ j → x.out ≠ j.out := by
    intro x hx hxj e
    have := mem_prods_out hR.nodup hP (hin x hx) e
    injection this with e; exact hxj e
  have hown := hF.own _ hP _ _ _ _ hact (fun _ e => by cases e) hI.glob hQ
  refine ⟨⟨hown.1, ?_, ?_, ?_⟩, ?_, ?_⟩
  · exact hF.all hP hact hI.glob hQ (fun P' hP' => ⟨by rw [hreq]; simp [hP'], hsp.1 P' hP'⟩) (fun _ => hse) hI.done
  · exact hF.all hP hact hI.glob hQ (fun P' hP' => ⟨by rw [hreq]; simp [hP'], hsp.2 P' hP'⟩) (fun h => (h rfl).elim) hI.later
  · intro x hx hxt
    exact hF.frame _ hP _ (hin x hx) (hne x hx (fun e => hxt (e ▸ hjm))) _ _ _ _ hact hI.glob hQ _ (fun _ e => by cases e) (hI.skipped x hx hxt)
  · intro j' hj'
    rw [hj] at hj'; injection hj' with e; subst e
    exact hown.2
  · intro i' _ hni k' f' hA' x hx
    have hxm := hsub x (List.mem_of_getElem? hx)
    refine hF.frame _ hP _ (hin x hxm) (hne x hxm ?_) _ _ _ _ hact hI.glob hQ _ (fun _ e => by cases e) (hA' x hx)
    rintro rfl
    exact hni (nodup_out_inj hnd hx hj rfl)

theorem FlowInv.tick (hF : FlowP tc c reqs0 G Q) (hR : Ord reqs0) {a : Cfg} (h : FlowInv tc c n reqs0 G Q a) {t : Nat} (ht : a.store.now ≤ t) :
    FlowInv tc c n reqs0 G Q (a.withNow t) := by
  have htick : ∀ s : Store, s.now ≤ t → Tick s { s with now := t } := fun s h => ⟨t, h, rfl⟩
  have hall : ∀ s : Store, s.now ≤ t → G s → ∀ q l, All Q q l s → All Q q l { s with now := t } :=
    fun s hs hG q l h P hP => hF.tick P q _ _ (htick s hs) hG (h P hP)
  cases h with
  | idle dn hreq glob hd hl => exact .idle dn hreq (hF.tickG _ _ (htick _ ht) glob) (hall _ ht glob _ _ hd) (hall _ ht glob _ _ hl)
  | validating dn procd hreq glob hd hl htd hsub hnd ready skipped =>
    exact .validating dn procd hreq (hF.tickG _ _ (htick _ ht) glob) (hall _ ht glob _ _ hd) (hall _ ht glob _ _ hl)
      (fun j hj => hF.tick _ _ _ _ (htick _ ht) glob (htd j hj)) hsub hnd (fun j hj => hF.tick _ _ _ _ (htick _ ht) glob (ready j hj))
      (fun j hj hn => hF.tick _ _ _ _ (htick _ ht) glob (skipped j hj hn))
  | pooling dn jobs hreq hsub hnd inv herr hdone hout assert =>
    rename_i tasks rest p
    have hstep : PoolStep (taskProg tc c tasks) n Tick p { p with store := { p.store with now := t } } := .env _ (htick _ ht)
    refine .pooling dn jobs hreq hsub hnd (poolInv_step inv hstep) (poolErr_step herr (.step hstep)) (poolDone_step hdone hstep) (poolOut_step hout hstep) ?_
    refine poolAssert_step (env := Tick) (flow_task_step hF hR hreq hsub hnd) ?_ inv hdone.len assert hstep
    intro s s' hss hI
    have := fun P q => hF.tick P q s s' hss hI.glob
    exact ⟨⟨hF.tickG _ _ hss hI.glob, fun P hP => this _ _ (hI.done P hP), fun P hP => this _ _ (hI.later P hP),
      fun j hj hn => this _ _ (hI.skipped j hj hn)⟩, fun i _ k f hA j hj => this _ _ (hA j hj)⟩
  | linking dn hreq glob hd hl hj =>
    exact .linking dn hreq (hF.tickG _ _ (htick _ ht) glob) (hall _ ht glob _ _ hd) (hall _ ht glob _ _ hl) (hF.tick _ _ _ _ (htick _ ht) glob hj)
  | linkRan dn hreq glob hd hl hj =>
    exact .linkRan dn hreq (hF.tickG _ _ (htick _ ht) glob) (hall _ ht glob _ _ hd) (hall _ ht glob _ _ hl) (hF.tick _ _ _ _ (htick _ ht) glob hj)
  | linked dn hreq glob hd hl hj =>
    exact .linked dn hreq (hF.tickG _ _ (htick _ ht) glob) (hall _ ht glob _ _ hd) (hall _ ht glob _ _ hl) (hF.tick _ _ _ _ (htick _ ht) glob hj)
  | finished glob ha hok hno =>
    exact .finished (hF.tickG _ _ (htick _ ht) glob) (fun P hP => (ha P hP).imp fun q hq => hF.tick _ _ _ _ (htick _ ht) glob hq)
      (fun h => hall _ ht glob _ _ (hok h))
      (fun h => (hno h).imp fun P hP => ⟨hP.1, hP.2.imp fun q hq => ⟨hq.1, hF.tick _ _ _ _ (htick _ ht) glob hq.2⟩⟩)

/-- In every configuration something is known about each product. -/
theorem FlowInv.any {a : Cfg} (h : FlowInv tc c n reqs0 G Q a) : G a.store ∧ ∀ P ∈ prodsOf reqs0, ∃ st, Q P st a.store := by
  cases h with
  | idle dn hreq glob hd hl =>
    refine ⟨glob, fun P hP => ?_⟩
    rw [hreq, prodsOf_append] at hP
    rcases List.mem_append.mp hP with h | h
    · exact ⟨_, hd P h⟩
    · exact ⟨_, hl P h⟩
  | validating dn procd hreq glob hd hl ht hsub hnd ready skipped =>
    rename_i todo tasks rest s
    refine ⟨glob, fun P hP => ?_⟩
    rw [hreq, prodsOf_append, prodsOf_cons] at hP
    rcases List.mem_append.mp hP with h | h
    · exact ⟨_, hd P h⟩
    · rcases List.mem_append.mp h with h | h
      · simp only [Req.prods, List.mem_map, List.mem_append] at h
        obtain ⟨j, hj | hj, rfl⟩ := h
        · by_cases hjt : j ∈ tasks
          · exact ⟨_, ready j hjt⟩
          · exact ⟨_, skipped j hj hjt⟩
        · exact ⟨_, ht j hj⟩
      · exact ⟨_, hl P h⟩
  | pooling dn jobs hreq hsub hnd inv herr hdone hout assert =>
    rename_i tasks rest p
    refine ⟨assert.inv.glob, fun P hP => ?_⟩
    rw [hreq, prodsOf_append, prodsOf_cons] at hP
    rcases List.mem_append.mp hP with h | h
    · exact ⟨_, assert.inv.done P h⟩
    · rcases List.mem_append.mp h with h | h
      · simp only [Req.prods, List.mem_map] at h
        obtain ⟨j, hj, rfl⟩ := h
        by_cases hjt : j ∈ tasks
        · obtain ⟨i, hi⟩ := List.mem_iff_getElem?.mp hjt
          have hil : i < p.started.length := by rw [hdone.len]; exact (List.getElem?_eq_some_iff.mp hi).1
          by_cases hst : p.started[i]? = some true
          · have hcnt := inv.cnt i
            rw [if_pos hst] at hcnt
            obtain ⟨e, he, hes⟩ := List.countP_pos_iff.mp (show 0 < p.hist.countP (·.isStart i) by omega)
            obtain ⟨w, rfl⟩ : ∃ w, e = .start w i := by
              cases e <;> simp only [PoolEvent.isStart, beq_iff_eq, Bool.false_eq_true] at hes
              subst hes; exact ⟨_, rfl⟩
            rcases inv.startedCases w i he with hw | ⟨f, hf⟩
            · cases hpc : p.pc w <;> rw [hpc] at hw <;> simp only [PC.onTask, beq_iff_eq, Bool.false_eq_true] at hw
              · subst hw; exact ⟨_, (assert.committed w _ hpc).1 j hi⟩
              · subst hw; exact ⟨_, (assert.running w _ _ _ hpc).1 j hi⟩
            · exact ⟨_, (assert.finished w i f hf).1 j hi⟩
          · exact ⟨_, (assert.pending i hil hst).1 j hi⟩
        · exact ⟨_, assert.inv.skipped j hj hjt⟩
      · exact ⟨_, assert.inv.later P h⟩
  | linking dn hreq glob hd hl hj =>
    refine ⟨glob, fun P hP => ?_⟩
    rw [hreq, prodsOf_append, prodsOf_cons] at hP
    rcases List.mem_append.mp hP with h | h
    · exact ⟨_, hd P h⟩
    · rcases List.mem_append.mp h with h | h
      · simp only [Req.prods, List.mem_singleton] at h; subst h; exact ⟨_, hj⟩
      · exact ⟨_, hl P h⟩
  | linkRan dn hreq glob hd hl hj =>
    refine ⟨glob, fun P hP => ?_⟩
    rw [hreq, prodsOf_append, prodsOf_cons] at hP
    rcases List.mem_append.mp hP with h | h
    · exact ⟨_, hd P h⟩
    · rcases List.mem_append.mp h with h | h
      · simp only [Req.prods, List.mem_singleton] at h; subst h; exact ⟨_, hj⟩
      · exact ⟨_, hl P h⟩
  | linked dn hreq glob hd hl hj =>
    refine ⟨glob, fun P hP => ?_⟩
    rw [hreq, prodsOf_append, prodsOf_cons] at hP
    rcases List.mem_append.mp hP with h | h
    · exact ⟨_, hd P h⟩
    · rcases List.mem_append.mp h with h | h
      · simp only [Req.prods, List.mem_singleton] at h; subst h; exact ⟨_, hj⟩
      · exact ⟨_, hl P h⟩
  | finished glob ha _ _ => exact ⟨glob, ha⟩

theorem linkRule (hF : FlowP tc c reqs0 G Q) (hR : Ord reqs0) {dn rest : List Req} {j : LJob} (hreq : reqs0 = dn ++ .link j :: rest)
    {st st' : PStat} {s s' : Store} (ha : Act tc c (.l j) st s st' s') (hG : G s) (hd : All Q .done (prodsOf dn) s)
    (hl : All Q .todo (prodsOf rest) s) (hj : Q (.l j) st s) :
    G s' ∧ All Q .done (prodsOf dn) s' ∧ All Q .todo (prodsOf rest) s' ∧ Q (.l j) st' s' := by
  have hP : Prod.l j ∈ prodsOf reqs0 := by rw [hreq]; simp [Req.prods]
  have hsp := outs_split (hreq ▸ hR.nodup) (P := .l j) (show _ ∈ (Req.link j).prods by simp [Req.prods])
  have hse := ord_sep (hreq ▸ hR) (P := .l j) (show _ ∈ (Req.link j).prods by simp [Req.prods])
  have hown := hF.own _ hP _ _ _ _ ha (by
    intro j' e P' hP' hin
    cases e
    rw [hreq, prodsOf_append] at hP'
    rcases List.mem_append.mp hP' with h | h
    · exact hd P' h
    · refine absurd ?_ (hR.ordered dn j rest hreq _ hin)
      rw [← prodsOf_out]
      exact List.mem_map_of_mem h) hG hj
  exact ⟨hown.1, hF.all hP ha hG hj (fun P' hP' => ⟨by rw [hreq]; simp [hP'], hsp.1 P' hP'⟩) (fun _ => hse) hd,
    hF.all hP ha hG hj (fun P' hP' => ⟨by rw [hreq]; simp [hP'], hsp.2 P' hP'⟩) (fun h => (h rfl).elim) hl, hown.2⟩

theorem flow_linkEnd {dn rest : List Req} {j : LJob} (hreq : reqs0 = dn ++ .link j :: rest) {s : Store} {ok : Bool} (hG : G s)
    (hd : All Q .done (prodsOf dn) s) (hl : All Q .todo (prodsOf rest) s) (hj : Q (.l j) (okStat ok) s) :
    FlowInv tc c n reqs0 G Q (afterStep rest (s, ok)) := by
  unfold afterStep
  cases ok with
  | true =>
    refine .idle (dn ++ [.link j]) (by simp [hreq]) hG ?_ hl
    intro P hP
    rw [prodsOf_append] at hP
    rcases List.mem_append.mp hP with h | h
    · exact hd P h
    · simp only [prodsOf_cons, prodsOf_nil, Req.prods, List.append_nil, List.mem_singleton] at h; subst h; exact hj
  | false =>
    refine .finished hG ?_ (by intro h; cases h) (fun _ => ⟨.l j, by rw [hreq]; simp [Req.prods], .failed, rfl, hj⟩)
    intro P hP
    rw [hreq, prodsOf_append, prodsOf_cons] at hP
    rcases List.mem_append.mp hP with h | h
    · exact ⟨_, hd P h⟩
    · rcases List.mem_append.mp h with h | h
      · simp only [Req.prods, List.mem_singleton] at h; subst h; exact ⟨_, hj⟩
      · exact ⟨_, hl P h⟩

theorem FlowInv.step (hF : FlowP tc c reqs0 G Q) (hR : Ord reqs0) (hn : 0 < n) {a b : Cfg} (h : FlowInv tc c n reqs0 G Q a)
    (hs : BuildNext tc c n a b) : FlowInv tc c n reqs0 G Q b := by
  cases hs with
  | tick t ht => exact h.tick hF hR ht
  | pool hp =>
    cases h with
    | pooling dn jobs hreq hsub hnd inv herr hdone hout assert =>
      refine .pooling dn jobs hreq hsub hnd (poolInv_step inv hp) (poolErr_step herr (.step hp)) (poolDone_step hdone hp) (poolOut_step hout hp) ?_
      exact poolAssert_step (flow_task_step hF hR hreq hsub hnd) (fun s s' hss => hss.elim) inv hdone.len assert hp
  | join hj =>
    have hany := h.any
    cases h with
    | pooling dn jobs hreq hsub hnd inv herr hdone hout assert =>
      rename_i tasks rest p
      unfold afterStep
      cases hok : p.waitOk with
      | false =>
        refine .finished hany.1 hany.2 (by intro h; cases h) (fun _ => ?_)
        obtain ⟨w, i, hf⟩ := herr.1 (by simpa [Pool.waitOk] using hok)
        have hil := (List.getElem?_eq_some_iff.mp (inv.finStarted w i true hf)).1
        rw [hdone.len] at hil
        have hi : tasks[i]? = some tasks[i] := List.getElem?_eq_getElem hil
        have hQ := (assert.finished w i true hf).1 _ hi
        have hlen : (taskProg tc c tasks i).length = 4 := by simp [taskProg, hi, compileTask]
        rw [hlen] at hQ
        exact ⟨.c tasks[i], by rw [hreq]; simp [Req.prods, hsub _ (List.getElem_mem hil)], _, rfl, hQ⟩
      | true =>
        refine .idle (dn ++ [.compile jobs]) (by simp [hreq]) hany.1 ?_ assert.inv.later
        intro P hP
        rw [prodsOf_append] at hP
        rcases List.mem_append.mp hP with h | h
        · exact assert.inv.done P h
        · simp only [prodsOf_cons, prodsOf_nil, Req.prods, List.append_nil, List.mem_map] at h
          obtain ⟨j, hjj, rfl⟩ := h
          by_cases hjt : j ∈ tasks
          · obtain ⟨i, hi⟩ := List.mem_iff_getElem?.mp hjt
            have hil := (List.getElem?_eq_some_iff.mp hi).1
            obtain ⟨⟨w, _, hfin⟩, _⟩ := pool_all_finished inv hdone hout hn hj hok i hil
            have hQ := (assert.finished w i false hfin).1 j hi
            have hlen : (taskProg tc c tasks i).length = 4 := by simp [taskProg, hi, compileTask]
            rw [hlen] at hQ
            exact (hF.own _ (by rw [hreq]; simp [Req.prods, hjj]) _ _ _ _ .taskOk (fun _ e => by cases e) hany.1 hQ).2
          · exact assert.inv.skipped j hjj hjt
  | seq hq =>
    cases h with
    | idle dn hreq glob hd hl =>
      rename_i rest s
      cases rest with
      | nil =>
        simp only [seqNext, Option.some.injEq] at hq
        subst hq
        rw [List.append_nil] at hreq
        subst hreq
        exact .finished glob (fun P hP => ⟨_, hd P hP⟩) (fun _ => hd) (by intro h; cases h)
      | cons r rest =>
        cases r with
        | compile jobs =>
          simp only [seqNext, Option.some.injEq] at hq
          subst hq
          refine .validating dn [] (by simpa using hreq) glob hd ?_ ?_ (by simp) (by simp) (by simp) (by simp)
          · intro P hP; exact hl P (by simp [hP])
          · intro j hj; exact hl _ (by simp [Req.prods, hj])
        | link j =>
          simp only [seqNext] at hq
          rcases hc : linkCheck j s with ⟨s1, b1⟩
          rw [hc] at hq
          have hj : Q (.l j) .todo s := hl _ (by simp [Req.prods])
          have hl' : All Q .todo (prodsOf rest) s := fun P hP => hl P (by simp [hP])
          cases b1 with
          | true =>
            simp only [Option.some.injEq] at hq
            subst hq
            obtain ⟨h1, h2, h3, h4⟩ := linkRule hF hR hreq (.linkYes hc) glob hd hl' hj
            exact .linking dn hreq h1 h2 h3 h4
          | false =>
            simp only [Option.some.injEq] at hq
            subst hq
            obtain ⟨h1, h2, h3, h4⟩ := linkRule hF hR hreq (.linkSkip hc rfl) glob hd hl' hj
            exact flow_linkEnd hreq h1 h2 h3 h4
    | validating dn procd hreq glob hd hl ht hsub hnd ready skipped =>
      rename_i todo tasks rest s
      cases todo with
      | nil =>
        simp only [seqNext, Option.some.injEq] at hq
        subst hq
        rw [List.append_nil] at hreq
        refine .pooling dn procd hreq hsub hnd (poolInv_init _ _) (poolErr_init _ _) (poolDone_init _ _) (fun _ _ => rfl) ?_
        refine poolAssert_init ⟨glob, hd, hl, skipped⟩ ?_
        intro i hi j hj
        exact ready j (List.mem_of_getElem? hj)
      | cons j todo =>
        simp only [seqNext] at hq
        rcases hv : validate j s with ⟨s1, v⟩
        rw [hv] at hq
        have hreq' : reqs0 = dn ++ .compile ((procd ++ [j]) ++ todo) :: rest := by rw [hreq]; simp
        have hin : ∀ x ∈ procd ++ j :: todo, Prod.c x ∈ prodsOf reqs0 := by
          intro x hx; rw [hreq]; simp only [prodsOf_append, prodsOf_cons, Req.prods, List.mem_append, List.mem_map]
          exact Or.inr (Or.inl ⟨x, List.mem_append.mp hx, rfl⟩)
        have hP := hin j (by simp)
        have hsp := outs_split (hreq ▸ hR.nodup) (P := .c j) (show _ ∈ (Req.compile (procd ++ j :: todo)).prods by simp [Req.prods])
        have hse := ord_sep (hreq ▸ hR) (P := .c j) (show _ ∈ (Req.compile (procd ++ j :: todo)).prods by simp [Req.prods])
        have hjn : ((procd ++ j :: todo).map (·.out)).Nodup := by
          have := hR.nodup
          rw [hreq, outsOf_append, outsOf_cons, List.nodup_append, List.nodup_append] at this
          exact this.2.1.1
        rw [List.map_append, List.map_cons, List.nodup_append, List.nodup_cons] at hjn
        have hne1 : ∀ x ∈ procd, x.out ≠ j.out := fun x hx e => hjn.2.2 _ (List.mem_map_of_mem hx) _ (by simp) e
        have hne2 : ∀ x ∈ todo, x.out ≠ j.out := fun x hx e => hjn.2.1.1 (by rw [← e]; exact List.mem_map_of_mem hx)
        have hQj := ht j (by simp)
        -- what any action for `j` does to the rest
        have rule : ∀ st' s', Act tc c (.c j) .todo s st' s' → G s' ∧ All Q .done (prodsOf dn) s' ∧ All Q .todo (prodsOf rest) s' ∧
            (∀ x ∈ todo, Q (.c x) .todo s') ∧ (∀ x ∈ tasks, Q (.c x) (.task 0 false) s') ∧ (∀ x ∈ procd, x ∉ tasks → Q (.c x) .done s') ∧
            Q (.c j) st' s' := by
          intro st' s' ha
          have hown := hF.own _ hP _ _ _ _ ha (fun _ e => by cases e) glob hQj
          refine ⟨hown.1, ?_, ?_, ?_, ?_, ?_, hown.2⟩
          · exact hF.all hP ha glob hQj (fun P' hP' => ⟨by rw [hreq]; simp [hP'], hsp.1 P' hP'⟩) (fun _ => hse) hd
          · exact hF.all hP ha glob hQj (fun P' hP' => ⟨by rw [hreq]; simp [hP'], hsp.2 P' hP'⟩) (fun h => (h rfl).elim) hl
          · intro x hx
            exact hF.frame _ hP _ (hin x (by simp [hx])) (hne2 x hx) _ _ _ _ ha glob hQj _ (fun _ e => by cases e) (ht x (by simp [hx]))
          · intro x hx
            exact hF.frame _ hP _ (hin x (by simp [hsub x hx])) (hne1 x (hsub x hx)) _ _ _ _ ha glob hQj _ (fun _ e => by cases e) (ready x hx)
          · intro x hx hxt
            exact hF.frame _ hP _ (hin x (by simp [hx])) (hne1 x hx) _ _ _ _ ha glob hQj _ (fun _ e => by cases e) (skipped x hx hxt)
        have fin : ∀ st' s', st'.bad = true → Act tc c (.c j) .todo s st' s' → FlowInv tc c n reqs0 G Q (.finished false s') := by
          intro st' s' hb ha
          obtain ⟨h1, h2, h3, h4, h5, h6, h7⟩ := rule st' s' ha
          refine .finished h1 ?_ (by intro h; cases h) (fun _ => ⟨_, hP, _, hb, h7⟩)
          intro P hP
          rw [hreq, prodsOf_append, prodsOf_cons] at hP
          rcases List.mem_append.mp hP with h | h
          · exact ⟨_, h2 P h⟩
          · rcases List.mem_append.mp h with h | h
            · simp only [Req.prods, List.mem_map, List.mem_append, List.mem_cons] at h
              obtain ⟨x, hx | rfl | hx, rfl⟩ := h
              · by_cases hxt : x ∈ tasks
                · exact ⟨_, h5 x hxt⟩
                · exact ⟨_, h6 x hx hxt⟩
              · exact ⟨_, h7⟩
              · exact ⟨_, h4 x hx⟩
            · exact ⟨_, h3 P h⟩
        cases v with
        | err =>
          simp only [Option.some.injEq] at hq
          subst hq
          exact fin _ _ rfl (.err hv)
        | compile =>
          simp only [Option.some.injEq] at hq
          subst hq
          obtain ⟨h1, h2, h3, h4, h5, h6, h7⟩ := rule _ _ (.compile hv)
          refine .validating dn (procd ++ [j]) hreq' h1 h2 h3 h4 ?_ ?_ ?_ ?_
          · intro x hx
            simp only [List.mem_append, List.mem_singleton] at hx ⊢
            exact hx.imp (hsub x) id
          · rw [List.map_append, List.nodup_append]
            refine ⟨hnd, by simp, ?_⟩
            intro o ho o' ho'
            simp only [List.map_cons, List.map_nil, List.mem_singleton] at ho'
            subst ho'
            obtain ⟨x, hx, rfl⟩ := List.mem_map.mp ho
            exact hne1 x (hsub x hx)
          · intro x hx
            rcases List.mem_append.mp hx with hx | hx
            · exact h5 x hx
            · rw [List.mem_singleton.mp hx]; exact h7
          · intro x hx hnx
            simp only [List.mem_append, List.mem_singleton, not_or] at hx hnx
            rcases hx with hx | hx
            · exact h6 x hx hnx.1
            · exact absurd hx hnx.2
        | skip =>
          simp only at hq
          rcases hic : installCookie c j.out (s1.emit (.already j.out (s1.fs.content (logPath j.out)))) with ⟨s2, b2⟩
          rw [hic] at hq
          have ha : Act tc c (.c j) .todo s (okStat b2) s2 := .skip hv hic
          cases b2 with
          | false =>
            simp only [Option.some.injEq] at hq
            subst hq
            exact fin _ _ rfl ha
          | true =>
            simp only [Option.some.injEq] at hq
            subst hq
            obtain ⟨h1, h2, h3, h4, h5, h6, h7⟩ := rule _ _ ha
            refine .validating dn (procd ++ [j]) hreq' h1 h2 h3 h4 ?_ hnd h5 ?_
            · intro x hx; simp [hsub x hx]
            · intro x hx hnx
              simp only [List.mem_append, List.mem_singleton] at hx
              rcases hx with hx | hx
              · exact h6 x hx hnx
              · subst hx; exact h7
    | pooling => cases hq
    | linking dn hreq glob hd hl hj =>
      rename_i j rest s
      simp only [seqNext, Option.some.injEq] at hq
      subst hq
      obtain ⟨h1, h2, h3, h4⟩ := linkRule hF hR hreq (.linkRun rfl) glob hd hl hj
      exact .linkRan dn hreq h1 h2 h3 h4
    | linkRan dn hreq glob hd hl hj =>
      rename_i ok j rest s
      cases ok with
      | true =>
        simp only [seqNext, Option.some.injEq] at hq
        subst hq
        obtain ⟨h1, h2, h3, h4⟩ := linkRule hF hR hreq .linkLog glob hd hl hj
        exact .linked dn hreq h1 h2 h3 h4
      | false =>
        simp only [seqNext, Option.some.injEq] at hq
        subst hq
        obtain ⟨h1, h2, h3, h4⟩ := linkRule hF hR hreq .linkFail glob hd hl hj
        exact flow_linkEnd (n := n) (tc := tc) (c := c) (ok := false) hreq h1 h2 h3 h4
    | linked dn hreq glob hd hl hj =>
      rename_i j rest s
      simp only [seqNext, Option.some.injEq] at hq
      subst hq
      obtain ⟨h1, h2, h3, h4⟩ := linkRule hF hR hreq (.linkInst rfl) glob hd hl hj
      exact flow_linkEnd hreq h1 h2 h3 h4
    | finished => cases hq

theorem FlowInv.reachP (hF : FlowP tc c reqs0 G Q) (hR : Ord reqs0) (hn : 0 < n) {s : Store} (hG : G s)
    (hQ : All Q .todo (prodsOf reqs0) s) {cfg : Cfg} (h : BuildReaches tc c n reqs0 s cfg) : FlowInv tc c n reqs0 G Q cfg :=
  steps_inv (P := FlowInv tc c n reqs0 G Q) (fun _ _ h1 h2 => h1.step hF hR hn h2) h (.idle [] rfl hG (by intro P hP; cases hP) hQ)

theorem FlowInv.reach (hF : Flow tc c reqs0 G Q) (hR : Ord reqs0) (hn : 0 < n) {s : Store} (hG : G s)
    (hQ : All Q .todo (prodsOf reqs0) s) {cfg : Cfg} (h : BuildReaches tc c n reqs0 s cfg) : FlowInv tc c n reqs0 G Q cfg :=
  FlowInv.reachP hF.toP hR hn hG hQ h

theorem flow_success (hF : Flow tc c reqs0 G Q) (hR : Ord reqs0) (hn : 0 < n) {s s' : Store} (hG : G s)
    (hQ : All Q .todo (prodsOf reqs0) s) (h : BuildReaches tc c n reqs0 s (.finished true s')) :
    G s' ∧ ∀ P ∈ prodsOf reqs0, Q P .done s' := by
  cases FlowInv.reach hF hR hn hG hQ h with
  | finished glob _ hok _ => exact ⟨glob, hok rfl⟩

end Bob
