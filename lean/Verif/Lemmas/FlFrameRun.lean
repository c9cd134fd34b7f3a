import Verif.Lemmas.FlFrame
/-!
# What running a script leaves as it was
-/

namespace Bob.Fl

/-- The recursive functions leave everything as it was. -/
structure RecFr (R : Rec) : Prop where
  eval : ∀ d e, Keeps FrE (R.eval d e)
  exec : ∀ s, Keeps FrX (R.exec s)
  member : ∀ s, Keeps FrX (R.member s)
  call : ∀ c a d args, Keeps FrE (R.call c a d args)
  filter : ∀ c f i, Keeps FrE (R.filter c f i)
  eq : ∀ x y, Keeps FrE (R.eq x y)
  dec : ∀ c, Keeps FrE (R.dec c)
  repr : ∀ c, Keeps FrE (R.repr c)

section
variable {R : Rec} (hR : RecFr R)
include hR

theorem kE_value (e : Expr) : Keeps FrE (R.value e) :=
  keeps_bind trnE (hR.eval _ _) fun _ => keeps_deref trnE _

theorem kE_anyKey (k : Nat) : ∀ es, Keeps FrE (anyKey R.eq k es)
  | [] => keeps_pure trnE _
  | (k', v) :: es => by
    have ih := kE_anyKey k es
    unfold anyKey
    refine keeps_bind trnE (hR.eq _ _) fun b => ?_
    keepsE

theorem kE_lookupKey (k : Nat) : ∀ es, Keeps FrE (lookupKey R.eq k es)
  | [] => keeps_pure trnE _
  | (k', v) :: es => by
    have ih := kE_lookupKey k es
    unfold lookupKey
    refine keeps_bind trnE (hR.eq _ _) fun b => ?_
    keepsE

theorem kE_evalItems : ∀ items done, Keeps FrE (evalItems R items done)
  | [], _ => keeps_pure trnE _
  | (ke, ve) :: rest, done => by
    have ih := kE_evalItems rest
    unfold evalItems
    refine keeps_bind trnE (kE_value hR _) fun k => keeps_bind trnE (kE_anyKey hR _ _) fun b => ?_
    split
    · exact keeps_raise _
    · exact keeps_bind trnE (kE_value hR _) fun v => ih _

theorem kE_applyBin (w : World) (op : BinOp) (l r : Nat) (dl dr : Data) : Keeps FrE (applyBin w R op l r dl dr) := by
  have heq : ∀ d, Keeps FrE (equality R op d l r) := by
    intro d
    unfold equality
    split
    · exact keeps_bind trnE (hR.eq _ _) fun _ => kE_alloc _
    · exact keeps_bind trnE (hR.eq _ _) fun _ => kE_alloc _
    · exact keeps_raise _
  have hop : ∀ d o, Keeps FrE (opResult op d o) := by
    intro d o
    unfold opResult
    keepsE
  have hcp : ∀ e, Keeps FrE (copyEntry e) := fun e =>
    keeps_bind trnE (kE_valCopy _) fun _ => keeps_bind trnE (kE_valCopy _) fun _ => keeps_pure trnE _
  unfold applyBin
  split
  · keepsE
  · split
    · exact hop _ _
    · exact hop _ _
    · split
      · exact keeps_bind trnE (keeps_readBuf trnE _ _) fun _ => keeps_bind trnE (keeps_readBuf trnE _ _) fun _ => kE_allocStr _
      · exact heq _
    · split
      · exact keeps_bind trnE (keeps_each trnE kE_valCopy _) fun _ =>
          keeps_bind trnE (keeps_each trnE kE_valCopy _) fun _ => kE_alloc _
      · exact heq _
    · split
      · exact keeps_bind trnE (keeps_each trnE hcp _) fun _ => keeps_bind trnE (keeps_each trnE hcp _) fun _ => kE_alloc _
      · exact heq _
    · exact keeps_raise _

theorem kE_evalBin (w : World) (d : Dest) (op : BinOp) (l r : Expr) : Keeps FrE (evalBin w R d op l r) := by
  have hv := kE_value hR
  have ha := kE_applyBin hR w op
  have hd := hR.dec
  unfold evalBin
  refine keeps_bind trnE (hv _) fun _ => keeps_bind trnE (hv _) fun _ => keeps_bind trnE (keeps_getCell trnE _) fun _ =>
    keeps_bind trnE (keeps_getCell trnE _) fun _ => ?_
  split
  · exact keeps_raise _
  · split
    · exact keeps_pure trnE _
    · exact keeps_bind trnE (keeps_checkDest trnE _) fun _ => keeps_bind trnE (ha _ _ _ _) fun _ =>
        keeps_bind trnE (hd _) fun _ => keeps_bind trnE (hd _) fun _ => keeps_pure trnE _

theorem kE_evalUn (d : Dest) (op : UnOp) (e : Expr) : Keeps FrE (evalUn R d op e) := by
  have hu : ∀ x, Keeps FrE (applyUn op x) := by
    intro x
    unfold applyUn
    split
    · split
      · exact kE_alloc _
      · exact keeps_ub
    · exact kE_alloc _
    · exact keeps_raise _
  unfold evalUn
  refine keeps_bind trnE (kE_value hR _) fun _ => keeps_bind trnE (keeps_getCell trnE _) fun _ => ?_
  split
  · exact keeps_pure trnE _
  · exact keeps_bind trnE (keeps_checkDest trnE _) fun _ => keeps_bind trnE (hu _) fun _ =>
      keeps_bind trnE (hR.dec _) fun _ => keeps_pure trnE _

theorem kE_accessFind (e : Expr) (name : Bytes) : Keeps FrE (accessFind R e name) := by
  unfold accessFind
  refine keeps_bind trnE (kE_value hR _) fun _ => keeps_bind trnE (keeps_getCell trnE _) fun _ => ?_
  split
  · refine keeps_bind trnE (keeps_shallowFind trnE _ _) fun _ => ?_
    split
    · exact keeps_raise _
    · refine keeps_bind trnE (keeps_getVar trnE _) fun _ => ?_
      split
      · exact keeps_raise _
      · exact keeps_pure trnE _
  · refine keeps_ite ?_ ?_
    · refine keeps_bind trnE (keeps_deref trnE _) fun _ => keeps_bind trnE (keeps_shallowFind trnE _ _) fun _ => ?_
      split
      · exact keeps_raise _
      · exact keeps_bind trnE (keeps_getVar trnE _) fun _ => keeps_pure trnE _
    · split
      · exact keeps_raise _
      · exact keeps_bind trnE (keeps_get trnE) fun _ => keeps_pure trnE _

theorem kE_evalAccess (d : Dest) (e : Expr) (name : Bytes) : Keeps FrE (evalAccess R d e name) := by
  unfold evalAccess
  refine keeps_bind trnE (kE_accessFind hR _ _) fun _ => ?_
  split
  split
  · exact keeps_pure trnE _
  · exact keeps_bind trnE (keeps_checkDest trnE _) fun _ => keeps_bind trnE (keeps_deref trnE _) fun _ =>
      keeps_bind trnE (kE_incref _) fun _ => keeps_pure trnE _

theorem kE_evalIndex (d : Dest) (e i : Expr) : Keeps FrE (evalIndex R d e i) := by
  unfold evalIndex
  refine keeps_bind trnE (kE_value hR _) fun _ => keeps_bind trnE (keeps_getCell trnE _) fun _ => ?_
  split
  · exact keeps_raise _
  · refine keeps_bind trnE (kE_value hR _) fun _ => keeps_bind trnE (keeps_getCell trnE _) fun _ => ?_
    split
    · exact keeps_raise _
    · split
      · exact keeps_pure trnE _
      · refine keeps_bind trnE (keeps_checkDest trnE _) fun _ => keeps_bind trnE (keeps_getCell trnE _) fun _ =>
          keeps_bind trnE (keeps_deref trnE _) fun _ => ?_
        split
        · split
          · exact keeps_raise _
          · exact keeps_ub
          · exact keeps_bind trnE (keeps_deref trnE _) fun _ => keeps_bind trnE (kE_incref _) fun _ => keeps_pure trnE _
        · refine keeps_bind trnE (kE_lookupKey hR _ _) fun _ => ?_
          split
          · exact keeps_bind trnE (kE_incref _) fun _ => keeps_pure trnE _
          · exact keeps_bind trnE (kE_alloc _) fun _ => keeps_pure trnE _
        · exact keeps_ub

theorem kE_evalCall (d : Dest) (f : Expr) (args : List Expr) : Keeps FrE (evalCall R d f args) := by
  unfold evalCall
  refine keeps_bind trnE (hR.eval _ _) fun _ => keeps_bind trnE (keeps_deref trnE _) fun _ =>
    keeps_bind trnE (keeps_getCell trnE _) fun _ => ?_
  split
  · exact keeps_bind trnE (keeps_each trnE (kE_value hR) _) fun _ => keeps_bind trnE (hR.call _ _ _ _) fun _ => keeps_pure trnE _
  · exact keeps_raise _

omit hR in
theorem kE_evalLit (l : Lit) : Keeps FrE (evalLit l) := by
  unfold evalLit
  split
  · exact kE_alloc _
  · exact kE_alloc _
  · split
    · exact kE_alloc _
    · exact keeps_raise _
    · exact keeps_ub
  · exact kE_allocStr _

omit hR in
theorem kE_evalIdent (x : Bytes) : Keeps FrE (evalIdent x) := by
  unfold evalIdent
  refine keeps_bind trnE (keeps_findVar trnE _) fun _ => ?_
  split
  · exact keeps_raise _
  · exact keeps_bind trnE (keeps_getVar trnE _) fun _ => keeps_bind trnE (keeps_deref trnE _) fun _ =>
      keeps_bind trnE (kE_incref _) fun _ => keeps_pure trnE _

omit hR in
theorem kE_evalLambda (ps : List Bytes) (b : Body) : Keeps FrE (evalLambda ps b) := by
  unfold evalLambda
  exact keeps_bind trnE kE_closeOver fun _ => keeps_bind trnE (kE_allocBody _) fun _ => kE_alloc _

theorem kE_stepEval (w : World) (d : Dest) (e : Expr) : Keeps FrE (stepEval w R d e) := by
  unfold stepEval
  split
  · split
    · exact keeps_raise _
    · exact keeps_bind trnE (keeps_checkDest trnE _) fun _ => keeps_bind trnE (kE_evalLit _) fun _ => keeps_pure trnE _
  · split
    · exact keeps_raise _
    · exact keeps_bind trnE (kE_evalIdent _) fun _ => keeps_pure trnE _
  · split
    · exact keeps_raise _
    · exact keeps_bind trnE (keeps_checkDest trnE _) fun _ => keeps_bind trnE (kE_evalLambda _ _) fun _ => keeps_pure trnE _
  · refine keeps_bind trnE (keeps_each trnE (kE_value hR) _) fun _ => ?_
    split
    · exact keeps_pure trnE _
    · exact keeps_bind trnE (keeps_checkDest trnE _) fun _ => keeps_bind trnE (kE_alloc _) fun _ => keeps_pure trnE _
  · refine keeps_bind trnE (kE_evalItems hR _ _) fun _ => ?_
    split
    · exact keeps_pure trnE _
    · exact keeps_bind trnE (keeps_checkDest trnE _) fun _ => keeps_bind trnE (kE_alloc _) fun _ => keeps_pure trnE _
  · exact kE_evalCall hR _ _ _
  · exact hR.eval _ _
  · exact kE_evalUn hR _ _ _
  · exact kE_evalBin hR _ _ _ _ _
  · exact kE_evalAccess hR _ _ _
  · exact keeps_bind trnE (kE_evalIndex hR _ _ _) fun _ => keeps_pure trnE _

/-! ## Calls -/

theorem kE_mapLoop (c f : Nat) : ∀ n i, Keeps FrE (mapLoop R c f n i)
  | 0, _ => keeps_pure trnE _
  | n + 1, i => by
    have ih := kE_mapLoop c f n (i + 1)
    unfold mapLoop
    exact keeps_bind trnE (keeps_getVec trnE _) fun _ => keeps_bind trnE (keeps_deref trnE _) fun _ =>
      keeps_bind trnE (hR.call _ _ _ _) fun _ => keeps_bind trnE (keeps_deref trnE _) fun _ => keeps_bind trnE ih fun _ => keeps_pure trnE _

theorem kE_stepFilter (c f i : Nat) : Keeps FrE (stepFilter R c f i) := by
  unfold stepFilter
  refine keeps_bind trnE (keeps_getVec trnE _) fun _ => ?_
  split
  · exact keeps_pure trnE _
  · refine keeps_bind trnE (hR.call _ _ _ _) fun _ => keeps_bind trnE (keeps_deref trnE _) fun _ =>
      keeps_bind trnE (keeps_getCell trnE _) fun _ => ?_
    split
    · split
      · exact keeps_bind trnE (kE_valCopy _) fun _ => keeps_bind trnE (hR.filter _ _ _) fun _ => keeps_pure trnE _
      · exact hR.filter _ _ _
    · refine keeps_bind trnE ?_ fun _ => keeps_bind trnE (keeps_getCell trnE _) fun _ => keeps_raise _
      unfold freeResult
      split
      · exact keeps_blame (kE_freeVal hR.dec _)
      · exact kE_freeVal hR.dec _

theorem kE_runPtm (p : Ptm) (self : Option Nat) (args : List Nat) : Keeps FrE (runPtm R p self args) := by
  have hst : ∀ a b t n m c, Keeps FrE (strTest a b t n m c) := by
    intro a b t n m c
    unfold strTest
    refine keeps_bind trnE (keeps_getCell trnE _) fun _ => ?_
    split
    · exact keeps_bind trnE (keeps_strCompare trnE _ _ _ _ _) fun _ => kE_alloc _
    · exact keeps_raise _
  unfold runPtm
  refine keeps_bind trnE (keeps_deref trnE _) fun _ => keeps_bind trnE (keeps_getCell trnE _) fun _ => ?_
  split
  · split
    · exact kE_alloc _
    · exact keeps_raise _
  · split
    · exact hst _ _ _ _ _ _
    · exact keeps_raise _
  · split
    · exact hst _ _ _ _ _ _
    · exact keeps_raise _
  · split
    · exact kE_alloc _
    · exact keeps_raise _
  · exact keeps_bind trnE (keeps_fnArg trnE _ _) fun _ => keeps_bind trnE (kE_mapLoop hR _ _ _ _) fun _ => kE_alloc _
  · exact keeps_bind trnE (keeps_fnArg trnE _ _) fun _ => keeps_bind trnE (hR.filter _ _ _) fun _ => kE_alloc _
  · exact keeps_abort

omit hR in
theorem pushScope_ok {s s' : St} {i : Nat} (h : pushScope s = .ok i s') :
    ∃ st cls, s.envs[s.eng.env]? = some st ∧ i = s.scopes.length ∧
      s' = { s with scopes := s.scopes ++ [{ cls := cls }], envs := s.envs.set s.eng.env (i :: st) } := by
  simp only [pushScope, bind_ok_iff, allocScope_apply, Out.ok.injEq, attach_ok_iff, pure_apply] at h
  obtain ⟨cls, s1, h1, j, s2, ⟨rfl, rfl⟩, _, s3, ⟨st, hst, rfl⟩, rfl, rfl⟩ := h
  have : s1 = s := by
    simp only [topCls, bind_ok_iff, curStack_ok_iff] at h1
    obtain ⟨st', s2, ⟨_, rfl⟩, h1⟩ := h1
    cases st' with
    | nil => simp only [pure_apply, Out.ok.injEq] at h1; exact h1.2.symm
    | cons a b =>
      simp only [bind_ok_iff, getScope_ok_iff, pure_apply, Out.ok.injEq] at h1
      obtain ⟨_, _, ⟨_, _, rfl⟩, _, rfl⟩ := h1
      rfl
  subst this
  exact ⟨st, cls, hst, rfl, rfl⟩

omit hR in
/-- Entering a scope of its own, doing something there, and leaving it. -/
theorem frame_nested {s s1 s2 : St} {e : Nat} {st st' : List Nat} {G : Nat → Prop}
    (hst : s.envs[e]? = some st) (hst' : s2.envs[e]? = some st')
    (hs1 : ∀ (i : Nat) (x : Scope), s.scopes[i]? = some x → s1.scopes[i]? = some x)
    (he1 : ∀ (j : Nat) (t : List Nat), j ≠ e → s.envs[j]? = some t → s1.envs[j]? = some t)
    (hf : Frame G s1 s2) (hG : ∀ i, G i → s.scopes.length ≤ i) (eng : Eng) (hb : eng.body = s.eng.body) (he : eng.env = s.eng.env)
    (hp : eng.paths = s.eng.paths) (hpt : eng.ptm = s.eng.ptm) :
    FrE s { s2 with envs := s2.envs.set e st, eng := eng } where
  env := he
  body := hb
  paths := hp
  ptm := hpt
  envs := fun j t ht => by
    by_cases hj : j = e
    · subst hj
      rw [hst] at ht
      cases ht
      show (s2.envs.set j st)[j]? = some st
      rw [List.getElem?_set_self (List.getElem?_eq_some_iff.1 hst').1]
    · show (s2.envs.set e st)[j]? = some t
      rw [List.getElem?_set_ne (Ne.symm hj)]
      exact hf.envs _ _ (he1 _ _ hj ht)
  scopes := fun i x hx => by
    obtain ⟨x', h1, h2, h3⟩ := hf.scopes i x (hs1 _ _ hx)
    have hlt := (List.getElem?_eq_some_iff.1 hx).1
    exact ⟨x', h1, h2, fun _ => h3 fun hg => absurd (hG i hg) (by omega)⟩

theorem kE_execBlock_out {ss : List Stmt} {s s' : St} {i : Nat} (h : execBlock R ss s = .ok i s') :
    FrE s s' ∧ s.scopes.length ≤ i ∧ i < s'.scopes.length := by
  simp only [execBlock, bind_ok_iff] at h
  obtain ⟨k, s1, h1, _, s2, h2, h3⟩ := h
  obtain ⟨st, cls, hst, rfl, rfl⟩ := pushScope_ok h1
  have hlt := (List.getElem?_eq_some_iff.1 hst).1
  have hcur : (s.envs.set s.eng.env (s.scopes.length :: st))[s.eng.env]? = some (s.scopes.length :: st) :=
    List.getElem?_set_self hlt
  have hf := (keeps_forEach trnX hR.exec ss).out h2 ⟨_, hcur⟩
  have hst2 := hf.envs _ _ hcur
  obtain ⟨st', hst', rfl⟩ := (detach_ok_iff ..).1 h3
  rw [hf.env] at hst'
  have := hst2.symm.trans hst'
  simp only [Option.some.injEq, List.cons.injEq] at this
  obtain ⟨rfl, rfl⟩ := this
  have hsc : (s.scopes ++ [({ cls := cls } : Scope)])[s.scopes.length]? = some { cls := cls } := by simp
  obtain ⟨x', hx', _⟩ := hf.scopes _ _ hsc
  refine ⟨?_, Nat.le_refl _, (List.getElem?_eq_some_iff.1 hx').1⟩
  have h4 := frame_nested hst hst2 (s1 := { s with scopes := s.scopes ++ [{ cls := cls }], envs := s.envs.set s.eng.env (s.scopes.length :: st) })
    (fun i x hx => by
      show (s.scopes ++ [_])[i]? = some x
      rw [List.getElem?_append_left (List.getElem?_eq_some_iff.1 hx).1]; exact hx)
    (fun j t hj ht => by
      show (s.envs.set _ _)[j]? = some t
      rw [List.getElem?_set_ne (Ne.symm hj)]; exact ht) hf
    (fun i hi => by
      obtain ⟨t, ht⟩ := hi
      have := hcur.symm.trans ht
      simp only [Option.some.injEq, List.cons.injEq] at this
      omega) s2.eng hf.body hf.env hf.paths hf.ptm
  rw [hf.env]
  exact h4

theorem kE_execBlock (ss : List Stmt) : Keeps FrE (execBlock R ss) := ⟨fun h => (kE_execBlock_out hR h).1⟩

theorem kE_runBody (w : World) (c : Nat) (f : FnData) (acc : Option Nat) (d : Dest) (args : List Nat) :
    Keeps FrE (runBody w R c f acc d args) := by
  unfold runBody
  split
  · refine keeps_bind trnE (keeps_getRv trnE) fun _ => keeps_bind trnE (keeps_assert trnE _) fun _ =>
      keeps_bind trnE (kE_externFn _ _ _) fun _ => keeps_bind trnE ⟨fun h => ?_⟩ fun _ => keeps_bind trnE (kE_setRv _) fun _ => keeps_pure trnE _
    cases h
    exact frame_of_eq rfl rfl rfl
  · exact keeps_bind trnE (keeps_getRv trnE) fun _ => keeps_bind trnE (keeps_assert trnE _) fun _ =>
      keeps_bind trnE (kE_runPtm hR _ _ _) fun _ => keeps_bind trnE (kE_setRv _) fun _ => keeps_pure trnE _
  · refine keeps_bind trnE (keeps_getBody trnE _) fun _ => ?_
    split
    · exact keeps_bind trnE (keeps_assert trnE _) fun _ => keeps_bind trnE (hR.eval _ _) fun _ => keeps_pure trnE _
    · exact keeps_bind trnE (kE_execBlock hR _) fun _ => keeps_pure trnE _

omit hR in
theorem kE_setOwner {i : Nat} {o : Option Nat} {g : M α} (hg : Keeps FrE g) :
    Keeps FrE (do let x ← getScope i; setScope i { x with owner := o }; g) := by
  refine ⟨fun {s a s'} h => ?_⟩
  simp only [bind_ok_iff, getScope_ok_iff, setScope_apply, Out.ok.injEq] at h
  obtain ⟨x, s1, ⟨hx, _, rfl⟩, _, _, ⟨_, rfl⟩, h⟩ := h
  exact trnE.trans (frame_setScope (y := { x with owner := o }) hx (List.prefix_refl _) fun _ => rfl) (hg.out h)

omit hR in
theorem kE_makeInst (c scope : Nat) (d : Dest) (args : List Nat) : Keeps FrE (makeInst c scope d args) := by
  unfold makeInst
  exact keeps_bind trnE (keeps_checkDest trnE _) fun _ => keeps_bind trnE (kE_alloc _) fun _ => kE_setOwner <|
    keeps_bind trnE (kE_classInst _ _) fun _ => keeps_bind trnE (kE_setRv _) fun _ => keeps_pure trnE _

theorem kE_takeRv (d : Dest) : Keeps FrE (takeRv R d) := by
  unfold takeRv
  split
  · exact keeps_abort
  · refine keeps_bind trnE (keeps_getRv trnE) fun _ => keeps_bind trnE ?_ fun _ => keeps_bind trnE (kE_setRv _) fun _ => keeps_pure trnE _
    unfold dropRv
    split
    · exact keeps_pure trnE _
    · exact hR.dec _
    · exact keeps_ub
  · refine keeps_bind trnE (keeps_getRv trnE) fun _ => keeps_bind trnE ?_ fun _ => keeps_bind trnE (kE_setRv _) fun _ => keeps_pure trnE _
    unfold rvValue
    split
    · exact kE_alloc _
    · exact keeps_pure trnE _
    · exact keeps_ub

theorem kE_finish (c : Nat) (sc : Option Nat) (d : Dest) (args : List Nat) : Keeps FrE (finish R c sc d args) := by
  unfold finish
  refine keeps_bind trnE (keeps_getCell trnE _) fun _ => ?_
  split
  · split
    · split
      · exact keeps_bind trnE (kE_setRv _) fun _ => keeps_pure trnE _
      · exact keeps_bind trnE (keeps_deref trnE _) fun _ => kE_makeInst _ _ _ _
    · exact kE_takeRv hR _
  · exact keeps_ub

theorem kE_afterCall (c : Nat) (k : FnKind) (d : Dest) (args : List Nat) (ran : Ran) : Keeps FrE (afterCall R c k d args ran) := by
  unfold afterCall
  split
  · exact keeps_bind trnE (kE_setRv _) fun _ => keeps_pure trnE _
  · exact kE_finish hR _ _ _ _
  · exact kE_finish hR _ _ _ _

omit hR in
theorem instScope_ok {acc : Option Nat} {s s' : St} {r : Option Nat} (h : instScope acc s = .ok r s') : s' = s := by
  cases acc with
  | none => cases h; rfl
  | some a =>
    simp only [instScope, bind_ok_iff, getCell_ok_iff] at h
    obtain ⟨x, s1, ⟨_, rfl⟩, h⟩ := h
    cases hd : x.data <;> rw [hd] at h <;> cases h <;> rfl

omit hR in
theorem enter_ok {f : FnData} {inst : Option Nat} {s s' : St} {i : Nat} (h : enter f inst s = .ok i s') :
    ∃ st, s.envs[f.env.getD s.eng.env]? = some st ∧ i = s.scopes.length ∧
      s' = { s with
        scopes := s.scopes ++ [{ cls := f.kind == .cls }]
        envs := s.envs.set (f.env.getD s.eng.env) (i :: (inst.toList ++ st))
        eng := { s.eng with body := f.body, env := f.env.getD s.eng.env } } := by
  simp only [enter, bind_ok_iff, modify_apply, Out.ok.injEq, getScope_ok_iff, setScope_apply, pure_apply] at h
  obtain ⟨_, s1, ⟨_, rfl⟩, _, s2, h2, k, s3, h3, sc, s4, ⟨hsc, _, rfl⟩, _, _, ⟨_, rfl⟩, rfl, rfl⟩ := h
  obtain ⟨st1, cls, hst1, rfl, rfl⟩ := pushScope_ok h3
  have hsc' : sc = { cls := cls } := by simpa using hsc.symm
  subst hsc'
  cases inst with
  | none =>
    cases h2
    exact ⟨st1, hst1, rfl, by simp⟩
  | some a =>
    obtain ⟨st, hst, rfl⟩ := (attach_ok_iff ..).1 h2
    have hlt := (List.getElem?_eq_some_iff.1 hst).1
    have : st1 = a :: st := by
      have : (s.envs.set (f.env.getD s.eng.env) (a :: st))[f.env.getD s.eng.env]? = some st1 := hst1
      rw [List.getElem?_set_self hlt] at this
      exact (Option.some.inj this).symm
    subst this
    exact ⟨st, hst, rfl, by simp⟩

omit hR in
theorem leave_ok {prev : Eng} {inst : Option Nat} {s s' : St} {st : List Nat} {i : Nat} (h : leave prev inst s = .ok () s')
    (hst : s.envs[s.eng.env]? = some (i :: (inst.toList ++ st))) :
    s' = { s with
      envs := s.envs.set s.eng.env st
      eng := { s.eng with body := prev.body, env := prev.env } } := by
  simp only [leave, bind_ok_iff, modify_apply, Out.ok.injEq] at h
  obtain ⟨_, s1, h1, _, s2, h2, _, rfl⟩ := h
  obtain ⟨st1, hst1, rfl⟩ := (detach_ok_iff ..).1 h1
  have := hst.symm.trans hst1
  simp only [Option.some.injEq, List.cons.injEq] at this
  obtain ⟨rfl, rfl⟩ := this
  have hlt := (List.getElem?_eq_some_iff.1 hst).1
  cases inst with
  | none =>
    cases h2
    rfl
  | some a =>
    simp only [optIter, bind_ok_iff, pure_apply, Out.ok.injEq] at h2
    obtain ⟨_, s3, h3, _, rfl⟩ := h2
    obtain ⟨st2, hst2, rfl⟩ := (detach_ok_iff ..).1 h3
    have : (s.envs.set s.eng.env (a :: st))[s.eng.env]? = some (_ :: st2) := hst2
    rw [List.getElem?_set_self hlt] at this
    simp only [Option.some.injEq, List.cons.injEq] at this
    obtain ⟨rfl, rfl⟩ := this
    simp

omit hR in
theorem kE_setName (c : Nat) (n : Bytes) (i : Nat) : Keeps FrE (setName c n i) :=
  keeps_bind trnE (keeps_getCell trnE _) fun _ => kE_setCell _ _

omit hR in
theorem kE_setOwnerOf (c i : Nat) : Keeps FrE (setOwnerOf c i) :=
  keeps_bind trnE (keeps_getCell trnE _) fun _ => kE_setCell _ _

omit hR in
theorem kF_bindArgs (i : Nat) : ∀ ks cs, Keeps (Frame fun k => k = i) (bindArgs i ks cs)
  | [], _ => keeps_pure (trn_frame _) _
  | _ :: _, [] => keeps_pure (trn_frame _) _
  | k :: ks, c :: cs => by
    have ih := kF_bindArgs i ks cs
    unfold bindArgs
    have hm : ∀ {β} {m : M β}, Keeps FrE m → Keeps (Frame fun k => k = i) m := fun h => ⟨fun hm => (h.out hm).mono fun _ h => h.elim⟩
    refine keeps_bind (trn_frame _) (kX_addVar _) fun _ => keeps_bind (trn_frame _) (hm (kE_setName _ _ _)) fun _ =>
      keeps_bind (trn_frame _) (hm ?_) fun _ => ih
    exact keeps_bind trnE (keeps_getScope trnE _) fun _ => kE_setVar _ _

omit hR in
theorem kF_setupArgs (i : Nat) (f : FnData) (args : List Nat) : Keeps (Frame fun k => k = i) (setupArgs i f args) := by
  unfold setupArgs
  split
  · exact kF_bindArgs _ _ _
  · split
    · exact kF_bindArgs _ _ _
    · exact keeps_raise _

theorem kE_stepCall (w : World) (c : Nat) (acc : Option Nat) (d : Dest) (args : List Nat) : Keeps FrE (stepCall w R c acc d args) := by
  unfold stepCall
  refine keeps_bind trnE (keeps_getCell trnE _) fun x => ?_
  split
  · rename_i f _
    refine ⟨fun {s a s'} h => ?_⟩
    simp only [bind_ok_iff, get_apply, Out.ok.injEq] at h
    obtain ⟨inst, s0, h0, _, _, ⟨rfl, rfl⟩, i, s1, h1, _, s2, h2, ran, s3, h3, _, s4, h4, h5⟩ := h
    obtain rfl := instScope_ok h0
    obtain ⟨st, hst, rfl, rfl⟩ := enter_ok h1
    have hlt := (List.getElem?_eq_some_iff.1 hst).1
    have f1 := (kF_setupArgs _ f args).out h2
    have f2 : Frame (fun k => k = s0.scopes.length) s2 s3 := ((kE_runBody hR w c f acc d args).out h3).mono fun _ h => h.elim
    have f3 := (trn_frame _).trans f1 f2
    have hst3 := f3.envs (f.env.getD s0.eng.env) (s0.scopes.length :: (inst.toList ++ st)) (List.getElem?_set_self hlt)
    have henv : s3.eng.env = f.env.getD s0.eng.env := f3.env
    obtain rfl := leave_ok h4 (by rw [henv]; exact hst3)
    rw [henv] at h5
    refine trnE.trans (frame_nested hst hst3 ?_ ?_ f3 (fun i hi => by omega) { s3.eng with body := s0.eng.body, env := s0.eng.env } rfl rfl ?_ ?_) ((kE_afterCall hR c f.kind d args ran).out h5)
    · intro i x hx
      show (s0.scopes ++ [_])[i]? = some x
      rw [List.getElem?_append_left (List.getElem?_eq_some_iff.1 hx).1]; exact hx
    · intro j t hj ht
      show (s0.envs.set _ _)[j]? = some t
      rw [List.getElem?_set_ne (Ne.symm hj)]; exact ht
    · exact f3.paths
    · exact f3.ptm
  · exact keeps_ub

/-! ## Statements -/

omit hR in
theorem keepsF {F : Nat → Prop} {m : M α} (h : Keeps FrE m) : Keeps (Frame F) m := ⟨fun hm => (h.out hm).mono fun _ h => h.elim⟩

theorem kE_initVal (e : Option Expr) : Keeps FrE (initVal R e) := by
  cases e with
  | none => exact kE_alloc _
  | some e => exact kE_value hR e

omit hR in
/-- Something done to the innermost scope. -/
theorem kX_curScope {g : Nat → M α} (hg : ∀ i, Keeps (Frame fun k => k = i) (g i)) : Keeps FrX (do let i ← curScope; g i) := by
  refine ⟨fun {s a s'} h hv => ?_⟩
  simp only [bind_ok_iff, curScope_ok_iff] at h
  obtain ⟨i, s1, ⟨⟨st, hst⟩, rfl⟩, h⟩ := h
  exact ((hg i).out h).mono fun k hk => ⟨st, by rw [hk]; exact hst⟩

theorem kX_declVar (st : Bool) (name : Bytes) (e : Option Expr) : Keeps FrX (declVar R st name e) := by
  unfold declVar
  refine kX_curScope fun i => ?_
  have t := trn_frame fun k => k = i
  refine keeps_bind t (keeps_getScope t _) fun _ => ?_
  split
  · exact keeps_bind t (keeps_deref t _) fun _ => keeps_bind t (keeps_deref t _) fun _ => keeps_bind t (keeps_getCell t _) fun _ => keeps_raise _
  · exact keeps_bind t (kX_addVar _) fun _ => keepsF <| keeps_bind trnE (kE_initVal hR _) fun _ => keeps_bind trnE (kE_setVar _ _) fun _ => kE_setOwnerOf _ _

omit hR in
theorem kE_allocBlock (b : Option (List Stmt)) : Keeps FrE (allocBlock b) := by
  cases b with
  | none => exact keeps_pure trnE _
  | some ss => exact keeps_bind trnE (kE_allocBody _) fun _ => keeps_pure trnE _

theorem kE_classBody (c : Nat) (y : Cell) (f : Nat → FnData) (ss : List Stmt) :
    Keeps FrE (do
      let sc ← allocScope { owner := some c }
      setCell c { y with data := .fn (f sc) }
      attach sc
      forEach R.member ss
      let _ ← detach
      classDecl c) := by
  refine ⟨fun {s a s'} h => ?_⟩
  simp only [bind_ok_iff, allocScope_apply, setCell_apply, Out.ok.injEq, attach_ok_iff] at h
  obtain ⟨_, _, ⟨rfl, rfl⟩, _, _, ⟨_, rfl⟩, _, s1, ⟨st, hst, rfl⟩, _, s2, h2, _, s3, h3, h4⟩ := h
  have hlt := (List.getElem?_eq_some_iff.1 hst).1
  have hcur : (s.envs.set s.eng.env (s.scopes.length :: st))[s.eng.env]? = some (s.scopes.length :: st) :=
    List.getElem?_set_self hlt
  have hf := (keeps_forEach trnX hR.member ss).out h2 ⟨_, hcur⟩
  have hst2 := hf.envs _ _ hcur
  obtain ⟨st', hst', rfl⟩ := (detach_ok_iff ..).1 h3
  rw [hf.env] at hst'
  have := hst2.symm.trans hst'
  simp only [Option.some.injEq, List.cons.injEq] at this
  obtain ⟨rfl, rfl⟩ := this
  refine trnE.trans ?_ ((kE_classDecl c).out h4)
  rw [hf.env]
  refine frame_nested (s := s) hst hst2 ?_ ?_ hf (fun i hi => ?_) s2.eng hf.body hf.env hf.paths hf.ptm
  · intro i x hx
    show (s.scopes ++ [_])[i]? = some x
    rw [List.getElem?_append_left (List.getElem?_eq_some_iff.1 hx).1]; exact hx
  · intro j t hj ht
    show (s.envs.set _ _)[j]? = some t
    rw [List.getElem?_set_ne (Ne.symm hj)]; exact ht
  · obtain ⟨t, ht⟩ := hi
    have := hcur.symm.trans ht
    simp only [Option.some.injEq, List.cons.injEq] at this
    omega

theorem kX_declFn (kind : FnKind) (st : Bool) (name : Bytes) (ps : List Bytes) (body : Option (List Stmt)) :
    Keeps FrX (declFn R kind st name ps body) := by
  unfold declFn
  refine kX_curScope fun i => ?_
  have t := trn_frame fun k => k = i
  refine keeps_bind t (keeps_getScope t _) fun _ => ?_
  split
  · exact keeps_bind t (keeps_deref t _) fun _ => keeps_bind t (keeps_deref t _) fun _ => keeps_bind t (keeps_getCell t _) fun _ => keeps_raise _
  · refine keeps_bind t (kX_addVar _) fun _ => keepsF <| keeps_bind trnE (kE_alloc _) fun _ => keeps_bind trnE (kE_setVar _ _) fun _ =>
      keeps_bind trnE (kE_setName _ _ _) fun _ => keeps_bind trnE (kE_setOwnerOf _ _) fun _ => keeps_bind trnE kE_closeOver fun _ =>
      keeps_bind trnE (kE_allocBlock _) fun _ => keeps_bind trnE (keeps_getCell trnE _) fun _ => keeps_bind trnE (kE_setCell _ _) fun _ => ?_
    split
    · exact kE_classBody hR _ _ _ _
    · exact keeps_pure trnE _

theorem kX_stepMember (s : Stmt) : Keeps FrX (stepMember R s) := by
  unfold stepMember
  split
  · exact kX_declFn hR _ _ _ _ _
  · exact kX_declFn hR _ _ _ _ _
  · exact kX_declVar hR _ _ _
  · exact kX_declFn hR _ _ _ _ _
  · exact keeps_pure trnX _

theorem kE_store (p : Option (Nat × Nat)) (c r : Nat) : Keeps FrE (store R p c r) := by
  unfold store
  split
  · exact keeps_bind trnE (hR.dec _) fun _ => keeps_bind trnE (keeps_getVar trnE _) fun _ => keeps_bind trnE (kE_setVar _ _) fun _ => kE_setName _ _ _
  · exact keeps_bind trnE (keeps_getCell trnE _) fun _ => kE_setCell _ _

theorem kE_assignTo (p : Option (Nat × Nat)) (v : Option Nat) (t : Bytes) (e : Expr) : Keeps FrE (assignTo R p v t e) := by
  unfold assignTo
  refine keeps_bind trnE (keeps_deref trnE _) fun _ => keeps_bind trnE (keeps_getCell trnE _) fun _ => keeps_ite (keeps_raise _) ?_
  refine keeps_bind trnE (kE_value hR _) fun _ => keeps_bind trnE (kE_store hR _ _ _) fun _ => keeps_bind trnE (keeps_getCell trnE _) fun _ => ?_
  exact keeps_ite (keeps_raise _) (keeps_pure trnE _)

theorem kE_assign (l : Lhs) (e : Expr) : Keeps FrE (assign R l e) := by
  unfold assign
  split
  · refine keeps_bind trnE (keeps_findVar trnE _) fun _ => ?_
    split
    · exact keeps_raise _
    · exact keeps_bind trnE (keeps_getVar trnE _) fun _ => kE_assignTo hR _ _ _ _
  · refine keeps_bind trnE (kE_accessFind hR _ _) fun _ => ?_
    split
    split
    · exact kE_assignTo hR _ _ _ _
    · exact keeps_bind trnE (keeps_deref trnE _) fun _ => keeps_bind trnE (keeps_getCell trnE _) fun _ => keeps_raise _
  · exact keeps_bind trnE (kE_evalIndex hR _ _ _) fun _ => kE_assignTo hR _ _ _ _

theorem kE_doReturn (e : Option Expr) : Keeps FrE (doReturn R e) := by
  unfold doReturn
  refine keeps_bind trnE (keeps_curStack trnE) fun _ => keeps_ite (keeps_raise _) ?_
  refine keeps_bind trnE (keeps_curScope trnE) fun _ => keeps_bind trnE (keeps_getScope trnE _) fun _ => keeps_ite (keeps_raise _) ?_
  refine keeps_bind trnE (keeps_getRv trnE) fun _ => keeps_bind trnE (keeps_assert trnE _) fun _ => keeps_ite (kE_setRv _) ?_
  split
  · refine keeps_bind trnE (hR.eval _ _) fun _ => ?_
    split
    · exact kE_setRv _
    · exact keeps_pure trnE _
  · exact keeps_bind trnE (kE_alloc _) fun _ => kE_setRv _

theorem kE_doAssert (e : Expr) (t : Bytes) : Keeps FrE (doAssert R e t) := by
  unfold doAssert
  refine keeps_bind trnE (kE_value hR _) fun _ => keeps_bind trnE (keeps_getCell trnE _) fun _ => ?_
  split
  · exact keeps_ite (hR.dec _) (keeps_raise _)
  · exact keeps_raise _

theorem kE_doPrint (e : Expr) : Keeps FrE (doPrint R e) := by
  unfold doPrint
  refine keeps_bind trnE (kE_value hR _) fun _ => keeps_bind trnE (kE_stepRepr hR.repr _ _) fun _ => keeps_bind trnE ⟨fun h => ?_⟩ fun _ => hR.dec _
  cases h
  exact frame_of_eq rfl rfl rfl

omit hR in
theorem onErr_ok {m : M α} {f : Bytes → Bytes} {s s' : St} {a : α} (h : onErr m f s = .ok a s') : m s = .ok a s' := by
  unfold onErr at h
  split at h
  · exact ((raise_not_ok ..).1 h).elim
  · exact h

theorem kX_doImport (w : World) (rel : Bool) (bits : List Bytes) : Keeps FrX (doImport w R rel bits) := by
  unfold doImport
  refine keeps_bind trnX (keeps_get trnX) fun _ => ?_
  dsimp only
  split
  · exact keeps_raise _
  · exact keeps_raise _
  · exact keeps_raise _
  · rename_i p _
    refine ⟨fun {s a s'} h hv => ?_⟩
    have h := onErr_ok h
    simp only [inEngine, bind_ok_iff, get_apply, modify_apply, Out.ok.injEq] at h
    obtain ⟨_, _, ⟨rfl, rfl⟩, _, _, ⟨_, rfl⟩, _, s2, h2, _, rfl⟩ := h
    have hf := (keeps_forEach trnX hR.exec p).out h2 hv
    exact { env := hf.env, body := rfl, ptm := rfl, paths := rfl, envs := hf.envs, scopes := hf.scopes }

theorem kX_execLine (w : World) (l : Line) : Keeps FrX (execLine w R l) := by
  unfold execLine
  split
  · exact keepsX (kE_doPrint hR _)
  · exact keepsX (kE_doReturn hR _)
  · exact keepsX (kE_doAssert hR _ _)
  · exact kX_declVar hR _ _ _
  · exact keepsX (kE_assign hR _ _)
  · exact kX_declFn hR _ _ _ _ _
  · exact keepsX (keeps_bind trnE (hR.eval _ _) fun _ => keeps_pure trnE _)
  · exact kX_doImport hR _ _ _

theorem kX_stepExec (w : World) (s : Stmt) : Keeps FrX (stepExec w R s) := by
  unfold stepExec
  split
  · exact keeps_pure trnX _
  · exact keepsX (keeps_bind trnE (kE_execBlock hR _) fun _ => keeps_pure trnE _)
  · exact kX_declFn hR _ _ _ _ _
  · exact kX_declFn hR _ _ _ _ _
  · exact keeps_bind trnX (keeps_returning trnX) fun _ => keeps_ite (keeps_pure trnX _) (kX_execLine hR w _)

end

theorem recFr (w : World) : ∀ n, RecFr (interp w n)
  | 0 => {
      eval := fun _ _ => keeps_timeout
      exec := fun _ => keeps_timeout
      member := fun _ => keeps_timeout
      call := fun _ _ _ _ => keeps_timeout
      filter := fun _ _ _ => keeps_timeout
      eq := fun _ _ => keeps_timeout
      dec := fun _ => keeps_timeout
      repr := fun _ => keeps_timeout }
  | n + 1 =>
    have hR := recFr w n
    { eval := fun _ _ => kE_stepEval hR w _ _
      exec := fun _ => kX_stepExec hR w _
      member := fun _ => kX_stepMember hR _
      call := fun _ _ _ _ => kE_stepCall hR w _ _ _ _
      filter := fun _ _ _ => kE_stepFilter hR _ _ _
      eq := fun _ _ => kE_stepEq hR.eq _ _
      dec := fun _ => kE_stepDec hR.dec _
      repr := fun _ => kE_stepRepr hR.repr _ _ }

end Bob.Fl
