import Verif.Lemmas.FlMeanInst
/-!
# Compiling and linking ask for what the description says
-/

namespace Bob.Fl

section
variable {L : Discipline} {C P T : List Nat} {s s0 s1 s' : St} {w : World} {X : List Nat} {r : List Ask} {st : List Nat} {ρ : Names}

/-! ## Build steps -/

/-- Nothing was asked for on behalf of this compiler. -/
def NotYet (s : St) (k : Nat) : Prop := ∀ st ∈ s.host.steps, st.unique ≠ .state (some k)

theorem Amb.state (h : Amb w L X r s) {st : BuildStep Uniq StepKind ReqData} (hst : st ∈ s.host.steps) {k : Nat} (hk : st.unique = .state (some k)) : k < s.host.states.length := by
  unfold Amb at h
  generalize s.host.steps = l at h hst
  induction h with
  | nil => cases hst
  | cons h1 _ ih =>
    rcases List.mem_cons.1 hst with rfl | hst
    · exact h1.state hk
    · exact ih hst

/-- One thing was asked for. -/
structure Adds (s s' : St) (new : BuildStep Uniq StepKind ReqData) : Prop extends Past s s' where
  scopes : ScopesKept s.scopes s'.scopes
  out : s'.out = s.out
  steps : s'.host.steps = s.host.steps ++ [new]

theorem Adds.stays {new : BuildStep Uniq StepKind ReqData} (h : Adds s0 s1 new) (h0 : Stays s s0) (hn : ∀ k, new.unique = .state (some k) → s.host.states.length ≤ k) : Stays s s1 := by
  refine ⟨h0.toPast.trans h.toPast, h0.scopes.trans h.scopes, h.out.trans h0.out, fun st hst => ?_⟩
  rw [h.steps] at hst
  rcases List.mem_append.1 hst with hst | hst
  · exact h0.fresh st hst
  · cases List.mem_singleton.1 hst
    exact .inr hn

theorem Adds.amb {new : BuildStep Uniq StepKind ReqData} {X' : List Nat} {a : Ask} (h : Adds s0 s1 new) (h0 : Amb w L X r s0) (hx : ∀ c ∈ X, c ∈ X') (hn : StepFor w L X' s1 new a) : Amb w L X' (r ++ [a]) s1 := by
  unfold Amb
  rw [h.steps]
  refine List.rel_append (List.Forall₂.imp (fun _ _ h' => h'.past h.toPast fun c hc => ?_) h0) (.cons hn .nil)
  rcases hc.past h.toPast h.scopes with hc | hc
  · exact .inl (hx c hc)
  · exact .inr hc

theorem addStep_new {u : Uniq} {k : StepKind} {d : ReqData} (h : ∀ st ∈ s.host.steps, st.unique ≠ u) :
    addStep u k d s = .ok () { s with host := { s.host with steps := s.host.steps ++ [⟨u, k, [d]⟩], nbss := s.host.nbss + 1 } } := by
  unfold addStep
  rw [bind_of_ok (get_apply s)]
  have he : addBuildStep s.host.steps u k d = some (s.host.steps ++ [⟨u, k, [d]⟩]) := by
    unfold addBuildStep
    cases hl : s.host.steps.getLast? with
    | none => rfl
    | some last =>
      dsimp only
      rw [if_neg (h last (List.mem_of_getLast? hl))]
  rw [he]
  rfl

theorem addStep_adds {u : Uniq} {k : StepKind} {d : ReqData} : Adds s { s with host := { s.host with steps := s.host.steps ++ [⟨u, k, [d]⟩], nbss := s.host.nbss + 1 } } ⟨u, k, [d]⟩ :=
  ⟨⟨CellsKept.refl _, SlotsKept.refl _, SlotsKept.refl _, fun _ h hk => ⟨h, hk, rfl⟩, rfl, rfl, rfl, rfl⟩, ScopesKept.refl _, rfl, rfl⟩

theorem Adds.after {new : BuildStep Uniq StepKind ReqData} (h : Adds s0 s1 new) (h0 : Idle s s0) : Adds s s1 new :=
  ⟨h0.toPast.trans h.toPast, h0.scopes.trans h.scopes, h.out.trans h0.out, by rw [h.steps, h0.steps]⟩

theorem Adds.then {new : BuildStep Uniq StepKind ReqData} (h : Adds s s0 new) (h0 : Idle s0 s1) : Adds s s1 new :=
  ⟨h.toPast.trans h0.toPast, h.scopes.trans h0.scopes, h0.out.trans h.out, by rw [h0.steps, h.steps]⟩

theorem conv_objPaths : ∀ {ps : List Bytes} {es : List Nat} {s : St}, (∀ p ∈ ps, NUL ∉ p) → s.ShowsAll (ps.map .str) es →
    Conv (fun _ => each (objPath w) es) s fun cs s' => s'.WasAll ((ps.map w.object).map .str) cs ∧ Idle s s'
  | [], [], s, _, _ => Conv.pure ⟨trivial, Idle.refl s⟩
  | p :: ps, e :: es, s, hps, h => by
    obtain ⟨⟨buf, full, ⟨y, hy, hyd⟩, h2, h3⟩, htl⟩ := h
    unfold each
    have hp : Conv (fun _ => objPath w e) s fun c s' => s'.Was (.str (w.object p)) c ∧ Idle s s' ∧ Grew s s' := by
      unfold objPath
      refine Conv.bind_ok (m := fun _ => getCell e) (fun _ => (getCell_ok_iff ..).2 ⟨hy, rfl⟩) ?_
      rw [hyd]
      dsimp only
      refine Conv.bind_ok (m := fun _ => readBuf buf p.length) (fun _ => readBuf_some h2 h3) ?_
      rw [if_neg (by simpa using hps p List.mem_cons_self)]
      obtain ⟨N, c, s1, g1, g2, g3⟩ := conv_allocStr (s := s) (w.object p)
      refine ⟨N, c, s1, g1, g2, g3, ?_⟩
      cases g1 N (Nat.le_refl _)
      exact ⟨⟨_, rfl⟩, ⟨_, rfl⟩⟩
    refine Conv.bind (m := fun _ => objPath w e) (hp.mono fun c s1 ⟨g1, g2, g3⟩ => ?_)
    refine Conv.bind (m := fun _ => each (objPath w) es) ((conv_objPaths (fun p hp => hps p (List.mem_cons_of_mem _ hp)) (g3.showsAll htl)).mono fun cs s2 ⟨h3, h4⟩ => Conv.pure ⟨⟨h4.toPast.was g1, h3⟩, g2.trans h4⟩)
  | [], _ :: _, _, _, h => h.elim
  | _ :: _, [], _, _, h => h.elim

theorem conv_prepCompile {k sc : Nat} {ps : List Bytes} (hps : ∀ p ∈ ps, NUL ∉ p) (h : s.Shows (.strs ps) sc) (hk : NotYet s k) :
    Conv (fun _ => prepCompile w (some k) [sc]) s fun v s' => s'.Was (.strs (ps.map w.object)) v ∧ Adds s s' { unique := .state (some k), kind := .compile, data := [{ state := some k, srcs := sc, out := v }] } := by
  obtain ⟨xs, ⟨x, hx, hd⟩, hall⟩ := h
  unfold prepCompile
  dsimp only
  refine Conv.bind_ok (m := fun _ => getCell sc) (fun _ => (getCell_ok_iff ..).2 ⟨hx, rfl⟩) ?_
  rw [hd]
  dsimp only
  refine Conv.bind (m := fun _ => each (objPath w) xs) ((conv_objPaths hps hall).mono fun es s1 ⟨g1, g2⟩ => ?_)
  refine Conv.bind (m := fun _ => alloc (.vec es)) ((conv_alloc (v := .strs (ps.map w.object)) (.vec es) fun hi hh => ⟨es, hh, hi.toPast.wasAll g1⟩).mono fun v s2 ⟨k1, k2⟩ => ?_)
  have hi := g2.trans k2
  refine Conv.bind_ok (m := fun _ => addStep _ _ _) (fun _ => addStep_new fun st hst => hk st (by rw [hi.steps] at hst; exact hst)) (Conv.pure ⟨?_, addStep_adds.after hi⟩)
  exact addStep_adds.toPast.was k1

theorem conv_prepLink {k sc : Nat} {ps : List Bytes} {ar : Bool} (h : s.Shows (.strs ps) sc) (hk : StepsOk s.host) :
    Conv (fun _ => prepLink w (some k) [sc] ar) s fun v s' => s'.Was (.str (linkCookie w.signed w.outPath ar ps)) v ∧
      Adds s s' { unique := .bss s.host.nbss, kind := if ar then .archive else .link, data := [{ state := some k, srcs := sc, out := v }] } := by
  unfold prepLink
  dsimp only
  refine Conv.bind_ok (m := fun _ => strElems sc) (fun _ => strElems_shows h) ?_
  have ha : allocStr (linkCookie w.signed w.outPath ar ps) s =
      .ok s.cells.length { s with bufs := s.bufs ++ [some (linkCookie w.signed w.outPath ar ps)], cells := s.cells ++ [{ data := .str s.bufs.length (linkCookie w.signed w.outPath ar ps).length }] } := rfl
  refine Conv.bind_ok (m := fun _ => allocStr _) (fun _ => ha) ?_
  refine Conv.bind_ok (m := fun _ => M.get) (fun _ => get_apply _) ?_
  refine Conv.bind_ok (m := fun _ => addStep _ _ _) (fun _ => addStep_new fun st hst => ?_) (Conv.pure ⟨?_, addStep_adds.after ((i_allocStr _).out ha)⟩)
  · rcases hk st hst with ⟨o, h1, _⟩ | ⟨n, h1, h2, -⟩
    · rw [h1]
      exact fun h => nomatch h
    · rw [h1]
      intro he
      cases he
      exact Nat.lt_irrefl _ h2
  · exact was_str ⟨_, List.getElem?_concat_length, rfl⟩ List.getElem?_concat_length (List.prefix_refl _)

/-! ## Asking -/

theorem findOwner_inst (h : Wf L C P T s) {l a c k fl j : Nat} {y : Cell} (hl : s.cells[l]? = some y) (ho : y.owner = some j) (hi : InstOf s a c k fl j) : findOwner l s = .ok (.inst { cls := c, scope := j, data := some k }) s := by
  obtain ⟨x, hx, hxo⟩ := hi.scope
  obtain ⟨z, hz, hzd⟩ := hi.inst
  unfold findOwner
  rw [bind_of_ok ((getCell_ok_iff ..).2 ⟨hl, rfl⟩), bind_of_ok ((deref_ok_iff ..).2 ⟨ho, rfl⟩), bind_of_ok (getScope_alive ⟨hx, (h.shape.scopes j x hx).freed⟩), hxo]
  dsimp only
  rw [bind_of_ok ((getCell_ok_iff ..).2 ⟨hz, rfl⟩), hzd]
  rfl

theorem askClass_skip {o : Owner} {c : Option Nat} {m : M (Option Nat)} (h : o.skip c = true) : askClass o c m = pure none := by
  unfold askClass
  rw [if_pos h]

theorem askClass_call {o : Owner} {c : Option Nat} {m : M (Option Nat)} (h : o.skip c = false) : askClass o c m = m := by
  unfold askClass
  rw [if_neg (by rw [h]; exact fun h => nomatch h)]

theorem skip_made {c j d k : Nat} : (Owner.inst { cls := c, scope := j, data := some k }).skip (some d) = decide (c ≠ d) := by
  unfold Owner.skip
  by_cases h : c = d <;> simp [h]

theorem conv_externCc (h : Wf L C P T s) {fs cc lk l a k fl j sc : Nat} {g : FnData} {ps : List Bytes} (hB : BobIs s fs cc lk) (hi : InstOf s a cc k fl j) (ho : Offers s j b!"compile" l g) (hps : ∀ p ∈ ps, NUL ∉ p)
    (hsc : s.Shows (.strs ps) sc) (hk : NotYet s k) :
    Conv (fun _ => externFn w l [sc]) s fun v s' => s'.Was (.strs (ps.map w.object)) v ∧ Adds s s' { unique := .state (some k), kind := .compile, data := [{ state := some k, srcs := sc, out := v }] } := by
  obtain ⟨x, _, v, y, h1, h2, h3, h4, h5, h6, h7, h8, _⟩ := ho
  unfold externFn
  refine Conv.bind_ok (m := fun _ => getCell l) (fun _ => (getCell_ok_iff ..).2 ⟨h6, rfl⟩) ?_
  refine Conv.bind_ok (m := fun _ => findOwner l) (fun _ => findOwner_inst h h6 h8 hi) ?_
  refine Conv.bind_ok (m := fun _ => M.get) (fun _ => get_apply s) ?_
  rw [hB.isFs.cls, hB.ccCls, hB.lkCls, askClass_skip (by rw [skip_made]; exact decide_eq_true hB.ne1)]
  refine Conv.bind_ok (m := fun _ => pure none) (fun _ => rfl) ?_
  dsimp only
  refine Conv.bind_ok (m := fun _ => readName y) (fun _ => readName_kept (h.nameKept y)) ?_
  rw [askClass_call (c := some cc) (by rw [skip_made]; simp)]
  unfold ccCall
  refine Conv.bind (Conv.bind_ok (m := fun _ => Owner.data _) (fun _ => rfl) (Conv.then h7 (Conv.bind_ok (m := fun _ => M.deref (some (some k)) .host) (fun _ => rfl) ?_)))
  exact Conv.bind (m := fun _ => prepCompile w (some k) [sc]) ((conv_prepCompile hps hsc hk).mono fun v s1 hq => Conv.pure (Conv.pure hq))

theorem conv_externLk (h : Wf L C P T s) {fs cc lk l a k fl j sc : Nat} {g : FnData} {ps : List Bytes} (ar : Bool) (hB : BobIs s fs cc lk) (hi : InstOf s a lk k fl j) (ho : Offers s j (if ar then b!"archive" else b!"link") l g)
    (hsc : s.Shows (.strs ps) sc) :
    Conv (fun _ => externFn w l [sc]) s fun v s' => s'.Was (.str (linkCookie w.signed w.outPath ar ps)) v ∧
      Adds s s' { unique := .bss s.host.nbss, kind := if ar then .archive else .link, data := [{ state := some k, srcs := sc, out := v }] } := by
  obtain ⟨x, _, v, y, h1, h2, h3, h4, h5, h6, h7, h8, _⟩ := ho
  unfold externFn
  refine Conv.bind_ok (m := fun _ => getCell l) (fun _ => (getCell_ok_iff ..).2 ⟨h6, rfl⟩) ?_
  refine Conv.bind_ok (m := fun _ => findOwner l) (fun _ => findOwner_inst h h6 h8 hi) ?_
  refine Conv.bind_ok (m := fun _ => M.get) (fun _ => get_apply s) ?_
  rw [hB.isFs.cls, hB.ccCls, hB.lkCls, askClass_skip (by rw [skip_made]; exact decide_eq_true hB.ne2)]
  refine Conv.bind_ok (m := fun _ => pure none) (fun _ => rfl) ?_
  dsimp only
  refine Conv.bind_ok (m := fun _ => readName y) (fun _ => readName_kept (h.nameKept y)) ?_
  rw [askClass_skip (c := some cc) (by rw [skip_made]; exact decide_eq_true hB.ne3), askClass_call (c := some lk) (by rw [skip_made]; simp)]
  refine Conv.bind_ok (m := fun _ => pure none) (fun _ => rfl) ?_
  dsimp only
  unfold linkerCall
  refine Conv.bind (Conv.bind_ok (m := fun _ => Owner.data _) (fun _ => rfl) ?_)
  have hgo := (conv_prepLink (w := w) (k := k) (ar := ar) hsc h.shape.host.steps)
  cases ar with
  | false =>
    refine Conv.then h7 (Conv.bind_ok (m := fun _ => M.deref (some (some k)) .host) (fun _ => rfl) ?_)
    exact Conv.bind (m := fun _ => prepLink w (some k) [sc] false) (hgo.mono fun v s1 hq => Conv.pure (Conv.pure hq))
  | true =>
    refine Conv.else (by rw [h7]; decide) (Conv.then h7 (Conv.bind_ok (m := fun _ => M.deref (some (some k)) .host) (fun _ => rfl) ?_))
    exact Conv.bind (m := fun _ => prepLink w (some k) [sc] true) (hgo.mono fun v s1 hq => Conv.pure (Conv.pure hq))

/-! ## `Cc(…)` and `Linker(…)` -/

theorem conv_identCls {name : Bytes} {c : Nat} (h : Wf L C P T s) (hst : s.Stack st) (hf : Finds s.scopes name st c) : Conv (fun n => (interp w n).eval .keep (.ident name)) s fun r s1 => r.val = some c ∧ r.acc = none ∧ Idle s s1 := by
  refine Conv.succ (m' := fun n => stepEval w (interp w n) .keep (.ident name)) (fun _ => rfl) ?_
  refine Conv.bind (m := fun _ => evalIdent name) ((conv_ident h hst hf).mono fun c' s1 ⟨hc', _, hi⟩ => Conv.pure ⟨by rw [hc'], rfl, hi⟩)

/-- A new instance, and what it was given. -/
def MadeOf (w : World) (L : Discipline) (X : List Nat) (r : List Ask) (c : Nat) (ns : List (Bytes × Bytes)) (fs : List Bytes) (s : St) (a : Nat) (s' : St) : Prop :=
  ∃ j k fl, InstOf s' a c k fl j ∧ (∀ n ∈ ns, ∃ l g, Offers s' j n.1 l g) ∧ s.host.states.length ≤ k ∧ NotYet s' k ∧ s'.Was (.strs fs) fl ∧ Stays s s' ∧ Amb w L X r s'

theorem conv_made (hW : w.Ok L) {cname : Bytes} {ns : List (Bytes × Bytes)} {fl : Expr} {c : Nat} {fs : List Bytes} {q r0 : List Ask} (hok : (Expr.call (.ident cname) [fl]).ok L false = true) (hfl : Ev w L ρ fl (.strs fs) q)
    (hs : Scene w L C P T X r0 st ρ s) (hst : s.Stack st) (hF : Finds s.scopes cname st c) (hcl : ClassIs s c cname (protos ns)) (hn : cname = b!"Cc" ∨ cname = b!"Linker") (hns : (ns.map Prod.fst).Nodup) :
    Conv (fun n => (interp w n).value (.call (.ident cname) [fl])) s fun a s' => MadeOf w L X (r0 ++ q) c ns fs s a s' := by
  obtain ⟨x, f, b, h1, h2, h3, h4, h5, h6, h7⟩ := hcl.cell
  refine conv_evalCall hW hok hs.wf hs.rv (K := fun acc c' fd s1 => acc = none ∧ c' = c ∧ Idle s s1) (A := fun acc c' fd cs s2 => acc = none ∧ c' = c ∧ (∃ a, cs = [a] ∧ s2.Was (.strs fs) a) ∧ Stays s s2 ∧ Amb w L X (r0 ++ q) s2) ?_ ?_ ?_
  · exact (conv_identCls hs.wf hst hF).mono fun r s1 ⟨g1, g2, g3⟩ => ⟨c, f, g1, g3.toPast.holds ⟨x, h1, h3⟩, g2, rfl, g3⟩
  · intro acc c' fd s1 ⟨e1, e2, hi⟩ hw hq
    exact (conv_arg hfl (hs.idle hi hw hq.2) (hq.stack hst)).mono fun cs s2 ⟨g1, _, g3, g4⟩ => ⟨e1, e2, g1, hi.toStays.trans g3, g4⟩
  · intro acc c' fd cs s2 ⟨e1, e2, ⟨a, e4, ha⟩, hsy, hamb⟩ hc hw hq
    subst e1 e2 e4
    refine (conv_inst hW hw hq.2 hc (hcl.kept hsy.toPast) hn hns ha).mono fun o s3 ⟨a', j, k, g1, g2, g3, g4, g5⟩ => ⟨a', g1, j, k, a, g2, g3, hsy.toPast.count.trans g4, fun st' hst' he => ?_, g5.toPast.was ha, hsy.trans g5.toStays, hamb.idle g5⟩
    rw [g5.steps] at hst'
    exact absurd (hamb.state hst' he) (Nat.not_lt.2 g4)

/-- A function of a new instance. -/
theorem conv_bound (hW : w.Ok L) {cname member : Bytes} {ns : List (Bytes × Bytes)} {fl : Expr} {c : Nat} {fs : List Bytes} {q r0 : List Ask} (hok : (Expr.call (.ident cname) [fl]).ok L false = true) (hfl : Ev w L ρ fl (.strs fs) q)
    (hs : Scene w L C P T X r0 st ρ s) (hst : s.Stack st) (hF : Finds s.scopes cname st c) (hcl : ClassIs s c cname (protos ns)) (hn : cname = b!"Cc" ∨ cname = b!"Linker") (hns : (ns.map Prod.fst).Nodup) (hm : member ∈ ns.map Prod.fst) :
    Conv (fun n => (interp w n).eval .keep (.access (.call (.ident cname) [fl]) member)) s fun r s1 => ∃ l g, r.val = some l ∧ s1.Holds l (.fn g) ∧
      ∃ a j k fl, r.acc = some a ∧ InstOf s1 a c k fl j ∧ Offers s1 j member l g ∧ s.host.states.length ≤ k ∧ NotYet s1 k ∧ s1.Was (.strs fs) fl ∧ Stays s s1 ∧ Amb w L X (r0 ++ q) s1 := by
  refine Conv.succ (m' := fun n => evalAccess (interp w n) .keep (.call (.ident cname) [fl]) member) (fun _ => rfl) ?_
  unfold evalAccess accessFind
  refine Conv.bind (Conv.bind (((conv_made hW hok hfl hs hst hF hcl hn hns).safe fun n => safe_kept (safeX hW n).toSafeE hok hs.wf hs.rv).mono fun a s1 ⟨⟨j, k, flc, g1, g2, g3, g4, g5, g6, g7⟩, hw1, _⟩ => ?_))
  obtain ⟨y, hy, hyd⟩ := g1.inst
  refine Conv.bind_ok (m := fun _ => getCell a) (fun _ => (getCell_ok_iff ..).2 ⟨hy, rfl⟩) ?_
  rw [hyd]
  dsimp only
  obtain ⟨n, hnm, rfl⟩ := List.mem_map.1 hm
  obtain ⟨l, g, ho⟩ := g2 n hnm
  have ho' := ho
  obtain ⟨x, i, v, z, h1, h2, h3, h4, h5, h6, h7, h8, h9, _⟩ := ho'
  refine Conv.bind_ok (m := fun _ => shallowFind j n.1) (fun _ => shallowFind_alive ⟨h1, (hw1.shape.scopes j x h1).freed⟩ n.1) ?_
  rw [h2]
  dsimp only
  obtain ⟨v', e1, e2, _⟩ := findKeyIdx_some h2
  cases h3.symm.trans e1
  have hiv : IsVar s1 n.1 (j, i) v := ⟨x, h1, h3, e2⟩
  refine Conv.bind_ok (m := fun _ => getVar (j, i)) (fun _ => getVar_isVar hw1 hiv) (Conv.else (by rw [h4]; exact fun h => nomatch h) (Conv.pure ?_))
  dsimp only
  refine Conv.else (fun h => nomatch h) (Conv.bind_ok (m := fun _ => checkDest .keep) (fun _ => rfl) ?_)
  refine Conv.bind_ok (m := fun _ => M.deref v.val .uninit) (fun _ => (deref_ok_iff ..).2 ⟨h5, rfl⟩) ?_
  refine Conv.bind (m := fun _ => incref l) ((conv_incref hw1 (hiv.val hw1 h5).1).mono fun _ s2 ⟨_, k2⟩ => Conv.pure ⟨l, g, rfl, k2.toPast.holds ⟨z, h6, h9⟩, a, j, k, flc, rfl, g1.kept k2.toStays, ho.kept k2.toStays, g3, fun st' hst' => ?_,
    k2.toPast.was g5, g6.trans k2.toStays, g7.idle k2⟩)
  rw [k2.steps] at hst'
  exact g4 st' hst'

/-- `Cc(…).…(e)` or `Linker(…).…(e)`. -/
theorem conv_request (hW : w.Ok L) {cname member : Bytes} {ns : List (Bytes × Bytes)} {fl e : Expr} {c : Nat} {fs ps : List Bytes} {q q' r0 : List Ask} {u : Val} {ask : Ask} {F : Nat → List Nat}
    (hok : (Expr.call (.access (.call (.ident cname) [fl]) member) [e]).ok L false = true) (hfl : Ev w L ρ fl (.strs fs) q) (he : Ev w L ρ e (.strs ps) q')
    (hs : Scene w L C P T X r0 st ρ s) (hst : s.Stack st) (hF : Finds s.scopes cname st c) (hcl : ClassIs s c cname (protos ns)) (hn : cname = b!"Cc" ∨ cname = b!"Linker") (hns : (ns.map Prod.fst).Nodup) (hm : member ∈ ns.map Prod.fst)
    (hX : ∀ v, ∀ c ∈ X, c ∈ F v)
    (hrun : ∀ ⦃C P T : List Nat⦄ ⦃s0 : St⦄ ⦃a j k flc l sc : Nat⦄ ⦃g : FnData⦄, Wf L C P T s0 → Stays s s0 → InstOf s0 a c k flc j → Offers s0 j member l g → (∀ p ∈ ps, NUL ∉ p) → s0.Shows (.strs ps) sc → NotYet s0 k → s0.Was (.strs fs) flc →
      Conv (fun _ => externFn w l [sc]) s0 fun v s1 => ∃ new, s1.Was u v ∧ Adds s0 s1 new ∧ (∀ k', new.unique = .state (some k') → k' = k) ∧ StepFor w L (F v) s1 new ask) :
    Conv (fun n => (interp w n).value (.call (.access (.call (.ident cname) [fl]) member) [e])) s fun v s' => s'.Was u v ∧ Stays s s' ∧ Amb w L (F v) (r0 ++ (q ++ q' ++ [ask])) s' := by
  have hok' := hok
  unfold Expr.ok at hok'
  simp only [ok_and] at hok'
  have hcok := hok'.1.1
  unfold Expr.ok at hcok
  simp only [ok_and] at hcok
  refine conv_evalCall hW hok hs.wf hs.rv
    (K := fun acc l g s1 => ∃ a j k fl, acc = some a ∧ InstOf s1 a c k fl j ∧ Offers s1 j member l g ∧ s.host.states.length ≤ k ∧ NotYet s1 k ∧ s1.Was (.strs fs) fl ∧ Stays s s1 ∧ Amb w L X (r0 ++ q) s1)
    (A := fun acc l g cs s1 => ∃ a j k fl sc, acc = some a ∧ InstOf s1 a c k fl j ∧ Offers s1 j member l g ∧ s.host.states.length ≤ k ∧ NotYet s1 k ∧ s1.Was (.strs fs) fl ∧ Stays s s1 ∧ Amb w L X (r0 ++ q ++ q') s1 ∧ cs = [sc] ∧ s1.Was (.strs ps) sc)
    (conv_bound hW hcok.1 hfl hs hst hF hcl hn hns hm) ?_ ?_
  · intro acc l g s1 ⟨a, j, k, flc, e1, g1, g2, g3, g4, g5, g6, g7⟩ hw hq
    refine (conv_arg he (hs.stays g6 hw hq.2 g7) (hq.stack hst)).mono fun cs s2 ⟨⟨sc, k1, k2⟩, _, k3, k4⟩ => ⟨a, j, k, flc, sc, e1, g1.kept k3, g2.kept k3, g3, fun st' hst' he' => ?_, k3.toPast.was g5, g6.trans k3, k4, k1, k2⟩
    rcases k3.fresh st' hst' with h | h
    · exact g4 st' h he'
    · obtain ⟨h', h1, _⟩ := g1.state
      exact absurd (lt_of_get h1) (Nat.not_lt.2 (h k he'))
  · intro acc l g cs s2 ⟨a, j, k, flc, sc, e1, g1, g2, g3, g4, g5, g6, g7, e2, g8⟩ hc hw hq
    subst e1 e2
    have g2' := g2
    obtain ⟨x, _, _, y, _, _, _, _, _, h6, h7, h8, h9, h10, h11⟩ := g2'
    have hinst : instScope (some a) s2 = .ok (some j) s2 := by
      obtain ⟨z, hz, hzd⟩ := g1.inst
      show (getCell a >>= fun y => match y.data with
        | .inst i => pure (some i.scope)
        | _ => pure none) s2 = _
      rw [bind_of_ok ((getCell_ok_iff ..).2 ⟨hz, rfl⟩), hzd]
      rfl
    obtain ⟨st', hst'⟩ := hw.envOf hc.fn
    obtain ⟨s0, hI⟩ := inside hW hw hc hinst (st := st') hst' (.inr ⟨fun p h => (nomatch h10.symm.trans h), rfl, h11⟩) fun c' hc' z hz => by
      cases List.mem_singleton.1 hc'
      obtain ⟨z', hz', _, _, hzn⟩ := Was.data g8
      cases hz'.symm.trans hz
      exact hzn
    have hs0 := g6.trans hI.idle.toStays
    have hsh := hI.wf.shows (hI.idle.toPast.was g8) fun _ => hI.wf.live_P (by simp)
    have hnul : ∀ p ∈ ps, NUL ∉ p := by
      obtain ⟨es, hes, hall⟩ := hsh
      have hlv : ∀ e ∈ es, Live s0 e := fun e he => hI.wf.live_parts hes he
      clear hes hrun he g8
      induction ps generalizing es with
      | nil => exact fun p hp => (nomatch hp)
      | cons p ps ih =>
        cases es with
        | nil => exact hall.elim
        | cons e es =>
          intro p' hp'
          rcases List.mem_cons.1 hp' with rfl | hp'
          · exact plain_of_shows hI.wf hall.1 (hlv e List.mem_cons_self)
          · exact ih es hall.2 (fun e he => hlv e (List.mem_cons_of_mem _ he)) p' hp'
    have hny : NotYet s0 k := fun st' hst' => g4 st' (by rw [hI.idle.steps] at hst'; exact hst')
    refine (hI.extern hq.2 h10 ((hrun hI.wf hs0 (g1.kept hI.idle.toStays) (g2.kept hI.idle.toStays) hnul hsh hny (hI.idle.toPast.was g5)).mono fun v s1 ⟨new, hq'⟩ => ⟨hq'.2.1.toPast, (⟨new, hq'⟩ : ∃ new, s1.Was u v ∧ Adds s0 s1 new ∧ (∀ k', new.unique = .state (some k') → k' = k) ∧ StepFor w L (F v) s1 new ask)⟩)).mono
      fun o s4 ⟨v, s3, k1, ⟨new, k2, k3, k4, k5⟩, k6⟩ => ⟨v, k1, k6.toPast.was k2, (k3.stays hs0 fun k' hk' => k4 k' hk' ▸ g3).trans k6.toStays, ?_⟩
    rw [← List.append_assoc, ← List.append_assoc]
    exact (k3.amb (g7.idle hI.idle) (hX v) k5).idle k6

theorem ev_compile (hW : w.Ok L) {fl e : Expr} {fs ps : List Bytes} {q q' : List Ask} (hok : (Expr.call (.access (.call (.ident b!"Cc") [fl]) b!"compile") [e]).ok L false = true) (hfl : Ev w L ρ fl (.strs fs) q)
    (he : Ev w L ρ e (.strs ps) q') : Ev w L ρ (.call (.access (.call (.ident b!"Cc") [fl]) b!"compile") [e]) (.strs (ps.map w.object)) (q ++ q' ++ [.compile fs ps]) := by
  intro C P T X r0 st s hs hst
  obtain ⟨fs', cc, lk, hB, _, hF, _⟩ := hs.bob
  refine conv_request hW hok hfl he hs hst hF (ns := [(b!"compile", b!"src")]) hB.isCc (.inl rfl) (by decide) (by decide) (F := fun _ => X) (fun _ _ h => h) ?_
  intro C P T s0 a j k flc l sc g hw hsy hi ho hps hsc hny hfw
  refine (conv_externCc hw (hB.kept hsy.toPast hsy.scopes) hi ho hps hsc hny).mono fun v s1 ⟨h1, h2⟩ => ⟨_, h1, h2, fun k' hk' => ?_, ?_⟩
  · cases hk'
    rfl
  · obtain ⟨h, e1, e2⟩ := hi.state
    obtain ⟨h', e3, e4⟩ := h2.states k h e1
    exact ⟨k, h', sc, v, rfl, e3, by rw [e4, e2]; exact h2.toPast.was hfw, h2.toPast.was (Shows.was hsc), h1⟩

theorem evHeld_link (hW : w.Ok L) (ar : Bool) {fl e : Expr} {fs ps : List Bytes} {q q' : List Ask} (hok : (Expr.call (.access (.call (.ident b!"Linker") [fl]) (if ar then b!"archive" else b!"link")) [e]).ok L false = true)
    (hfl : Ev w L ρ fl (.strs fs) q) (he : Ev w L ρ e (.strs ps) q') :
    EvHeld w L ρ (.call (.access (.call (.ident b!"Linker") [fl]) (if ar then b!"archive" else b!"link")) [e]) (.str (linkCookie w.signed w.outPath ar ps)) (q ++ q' ++ [.link ar fs ps]) := by
  intro C P T X r0 st s hs hst
  obtain ⟨fs', cc, lk, hB, _, _, hF⟩ := hs.bob
  refine conv_request hW hok hfl he hs hst hF (ns := [(b!"link", b!"obj"), (b!"archive", b!"obj")]) hB.isLk (.inr rfl) (by decide) (by cases ar <;> decide) (F := fun v => v :: X) (fun _ _ h => List.mem_cons_of_mem _ h) ?_
  intro C P T s0 a j k flc l sc g hw hsy hi ho hps hsc hny hfw
  refine (conv_externLk hw ar (hB.kept hsy.toPast hsy.scopes) hi ho hsc).mono fun v s1 ⟨h1, h2⟩ => ⟨_, h1, h2, fun k' hk' => (nomatch hk'), ?_⟩
  obtain ⟨h, e1, e2⟩ := hi.state
  obtain ⟨h', e3, e4⟩ := h2.states k h e1
  exact ⟨_, k, h', sc, v, rfl, e3, by rw [e4, e2]; exact h2.toPast.was hfw, h2.toPast.was (Shows.was hsc), h1, .inl List.mem_cons_self⟩

end

end Bob.Fl
