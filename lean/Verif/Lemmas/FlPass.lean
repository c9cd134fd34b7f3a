import Verif.Lemmas.FlFrame
/-!
# What holds throughout a run

A reflexive and transitive relation between states that the elementary operations respect is respected by all of the interpreter.
-/

namespace Bob.Fl

/-- What is needed of the elementary operations of expressions. -/
structure Lv (T : St → St → Prop) : Prop where
  trn : Trn T
  alloc : ∀ d, (∀ i, d ≠ .inst i) → Keeps T (alloc d)
  allocBuf : ∀ b, Keeps T (allocBuf b)
  incref : ∀ c, Keeps T (incref c)
  decCell : ∀ c (x : Cell) r s, s.cells[c]? = some x → T s { s with cells := s.cells.set c { x with refs := r } }
  valCopy : ∀ c, Keeps T (valCopy c)
  closeOver : Keeps T closeOver
  allocBody : ∀ b, Keeps T (allocBody b)
  freeBuf : ∀ b, Keeps T (freeBuf b)
  freeBody : ∀ b, Keeps T (freeBody b)
  freeState : ∀ b, Keeps T (freeState b)
  freed : ∀ i (x : Scope) s, s.scopes[i]? = some x → T s { s with scopes := s.scopes.set i { x with freed := true } }

/-- What is needed of the recursive functions for expressions. -/
structure RecT (T : St → St → Prop) (R : Rec) : Prop where
  eval : ∀ d e, Keeps T (R.eval d e)
  call : ∀ c a d args, Keeps T (R.call c a d args)
  filter : ∀ c f i, Keeps T (R.filter c f i)
  eq : ∀ x y, Keeps T (R.eq x y)
  dec : ∀ c, Keeps T (R.dec c)
  repr : ∀ c, Keeps T (R.repr c)

syntax "keepsT " term:max : tactic
macro_rules
  | `(tactic| keepsT $t) => `(tactic| repeat' (first
      | assumption
      | exact Lv.alloc $t _ nofun
      | exact Lv.allocBuf $t _
      | exact Lv.incref $t _
      | exact Lv.valCopy $t _
      | exact Lv.closeOver $t
      | exact Lv.allocBody $t _
      | exact keeps_pure (Lv.trn $t) _
      | exact keeps_get (Lv.trn $t)
      | exact keeps_assert (Lv.trn $t) _
      | exact keeps_deref (Lv.trn $t) _
      | exact keeps_getCell (Lv.trn $t) _
      | exact keeps_getScope (Lv.trn $t) _
      | exact keeps_getRv (Lv.trn $t)
      | exact keeps_curStack (Lv.trn $t)
      | exact keeps_curScope (Lv.trn $t)
      | exact keeps_abort
      | exact keeps_ub
      | exact keeps_fail
      | exact keeps_raise _
      | exact keeps_readBuf (Lv.trn $t) _ _
      | exact keeps_readStr (Lv.trn $t) _ _
      | refine keeps_bind (Lv.trn $t) ?_ ?_
      | refine keeps_each (Lv.trn $t) ?_ _
      | refine keeps_forEach (Lv.trn $t) ?_ _
      | refine keeps_optIter (Lv.trn $t) ?_ _
      | intro _
      | split))

section
variable {T : St → St → Prop} (hT : Lv T)
include hT

theorem Lv.allocStr (b : Bytes) : Keeps T (allocStr b) := keeps_bind hT.trn (hT.allocBuf _) fun _ => hT.alloc _ nofun

theorem p_decVars {dec : Nat → M Unit} (hd : ∀ c, Keeps T (dec c)) : ∀ vs, Keeps T (decVars dec vs)
  | [] => keeps_pure hT.trn _
  | v :: vs => by
    have ih := p_decVars hd vs
    unfold decVars
    keepsT hT

theorem p_freeScope {dec : Nat → M Unit} (hd : ∀ c, Keeps T (dec c)) (i : Nat) : Keeps T (freeScope dec i) := by
  refine keeps_bind hT.trn (keeps_getScope hT.trn i) fun x => keeps_bind hT.trn (p_decVars hT hd _) fun _ => ⟨fun {s a s'} h => ?_⟩
  simp only [bind_ok_iff, getScope_ok_iff, setScope_apply, Out.ok.injEq] at h
  obtain ⟨x, s1, ⟨hx, _, rfl⟩, _, rfl⟩ := h
  exact hT.freed i x _ hx

theorem p_freeVal {dec : Nat → M Unit} (hd : ∀ c, Keeps T (dec c)) (c : Nat) : Keeps T (freeVal dec c) := by
  have h1 := hT.freeBuf
  have h2 := hT.freeBody
  have h3 := hT.freeState
  have h4 := p_freeScope hT hd
  unfold freeVal
  refine keeps_bind hT.trn (keeps_getCell hT.trn _) fun x => ?_
  split
  · exact h1 _
  · exact h2 _
  · exact keeps_bind hT.trn (h4 _) fun _ => h3 _
  · exact keeps_pure hT.trn _

theorem p_stepDec {dec : Nat → M Unit} (hd : ∀ c, Keeps T (dec c)) (c : Nat) : Keeps T (stepDec dec c) := by
  refine ⟨fun {s a s'} h => ?_⟩
  simp only [stepDec, bind_ok_iff, getCell_ok_iff, setCell_apply, Out.ok.injEq] at h
  obtain ⟨x, s1, ⟨hx, rfl⟩, _, s2, ⟨_, rfl⟩, h⟩ := h
  refine hT.trn.trans (hT.decCell c x (if x.refs = 0 then 18446744073709551615 else x.refs - 1) s1 hx) ?_
  by_cases hr : (if x.refs = 0 then 18446744073709551615 else x.refs - 1) = 0
  · rw [if_pos hr] at h
    exact (p_freeVal hT hd c).out h
  · rw [if_neg hr] at h
    exact (keeps_pure hT.trn ()).out h

theorem p_eqVec {eq : Nat → Nat → M Bool} (he : ∀ x y, Keeps T (eq x y)) : ∀ xs ys, Keeps T (eqVec eq xs ys)
  | [], _ => keeps_pure hT.trn _
  | _ :: _, [] => keeps_pure hT.trn _
  | x :: xs, y :: ys => by
    have ih := p_eqVec he xs ys
    unfold eqVec
    refine keeps_bind hT.trn (he x y) fun b => ?_
    keepsT hT

theorem p_findKey {eq : Nat → Nat → M Bool} (he : ∀ x y, Keeps T (eq x y)) (k : Nat) : ∀ es, Keeps T (findKey eq k es)
  | [] => keeps_pure hT.trn _
  | (k', v) :: es => by
    have ih := p_findKey he k es
    unfold findKey
    refine keeps_bind hT.trn (he _ _) fun b => ?_
    keepsT hT

theorem p_eqMap {eq : Nat → Nat → M Bool} (he : ∀ x y, Keeps T (eq x y)) (ys : List (Nat × Nat)) : ∀ es, Keeps T (eqMap eq ys es)
  | [] => keeps_pure hT.trn _
  | (k, v) :: es => by
    have ih := p_eqMap he ys es
    have hf := p_findKey hT he k ys
    unfold eqMap
    refine keeps_bind hT.trn hf fun o => ?_
    split
    · exact keeps_pure hT.trn _
    · refine keeps_bind hT.trn (he _ _) fun b => ?_
      keepsT hT

theorem p_stepEq {eq : Nat → Nat → M Bool} (he : ∀ x y, Keeps T (eq x y)) (x y : Nat) : Keeps T (stepEq eq x y) := by
  have h1 := p_eqVec hT he
  have h2 := p_eqMap hT he
  unfold stepEq
  refine keeps_bind hT.trn (keeps_getCell hT.trn _) fun cx => keeps_bind hT.trn (keeps_getCell hT.trn _) fun cy => ?_
  split
  case h_5 => split; exact h1 _ _; exact keeps_pure hT.trn _
  case h_6 => split; exact h2 _ _; exact keeps_pure hT.trn _
  all_goals keepsT hT

theorem p_stepRepr {rep : Nat → M Bytes} (hr : ∀ c, Keeps T (rep c)) (inner : Bool) (c : Nat) : Keeps T (stepRepr rep inner c) := by
  unfold stepRepr
  refine keeps_bind hT.trn (keeps_getCell hT.trn _) fun x => ?_
  split
  case h_5 => exact keeps_bind hT.trn (keeps_each hT.trn hr _) fun _ => keeps_pure hT.trn _
  case h_6 =>
    exact keeps_bind hT.trn (keeps_each hT.trn (fun kv => keeps_bind hT.trn (hr _) fun _ => keeps_bind hT.trn (hr _) fun _ =>
      keeps_pure hT.trn _) _) fun _ => keeps_pure hT.trn _
  all_goals keepsT hT

variable {R : Rec} (hR : RecT T R)
include hR


theorem p_value (e : Expr) : Keeps T (R.value e) :=
  keeps_bind hT.trn (hR.eval _ _) fun _ => keeps_deref hT.trn _

theorem p_anyKey (k : Nat) : ∀ es, Keeps T (anyKey R.eq k es)
  | [] => keeps_pure hT.trn _
  | (k', v) :: es => by
    have ih := p_anyKey k es
    unfold anyKey
    refine keeps_bind hT.trn (hR.eq _ _) fun b => ?_
    keepsT hT

theorem p_lookupKey (k : Nat) : ∀ es, Keeps T (lookupKey R.eq k es)
  | [] => keeps_pure hT.trn _
  | (k', v) :: es => by
    have ih := p_lookupKey k es
    unfold lookupKey
    refine keeps_bind hT.trn (hR.eq _ _) fun b => ?_
    keepsT hT

theorem p_evalItems : ∀ items done, Keeps T (evalItems R items done)
  | [], _ => keeps_pure hT.trn _
  | (ke, ve) :: rest, done => by
    have ih := p_evalItems rest
    unfold evalItems
    refine keeps_bind hT.trn (p_value hT hR _) fun k => keeps_bind hT.trn (p_anyKey hT hR _ _) fun b => ?_
    split
    · exact keeps_raise _
    · exact keeps_bind hT.trn (p_value hT hR _) fun v => ih _

theorem p_applyBin (w : World) (op : BinOp) (l r : Nat) (dl dr : Data) : Keeps T (applyBin w R op l r dl dr) := by
  have heq : ∀ d, Keeps T (equality R op d l r) := by
    intro d
    unfold equality
    split
    · exact keeps_bind hT.trn (hR.eq _ _) fun _ => (hT.alloc _ nofun)
    · exact keeps_bind hT.trn (hR.eq _ _) fun _ => (hT.alloc _ nofun)
    · exact keeps_raise _
  have hop : ∀ d o, Keeps T (opResult op d o) := by
    intro d o
    unfold opResult
    keepsT hT
  have hcp : ∀ e, Keeps T (copyEntry e) := fun e =>
    keeps_bind hT.trn (hT.valCopy _) fun _ => keeps_bind hT.trn (hT.valCopy _) fun _ => keeps_pure hT.trn _
  unfold applyBin
  split
  · keepsT hT
  · split
    · exact hop _ _
    · exact hop _ _
    · split
      · exact keeps_bind hT.trn (keeps_readBuf hT.trn _ _) fun _ => keeps_bind hT.trn (keeps_readBuf hT.trn _ _) fun _ => hT.allocStr _
      · exact heq _
    · split
      · exact keeps_bind hT.trn (keeps_each hT.trn hT.valCopy _) fun _ =>
          keeps_bind hT.trn (keeps_each hT.trn hT.valCopy _) fun _ => (hT.alloc _ nofun)
      · exact heq _
    · split
      · exact keeps_bind hT.trn (keeps_each hT.trn hcp _) fun _ => keeps_bind hT.trn (keeps_each hT.trn hcp _) fun _ => (hT.alloc _ nofun)
      · exact heq _
    · exact keeps_raise _

theorem p_evalBin (w : World) (d : Dest) (op : BinOp) (l r : Expr) : Keeps T (evalBin w R d op l r) := by
  have hv := p_value hT hR
  have ha := p_applyBin hT hR w op
  have hd := hR.dec
  unfold evalBin
  refine keeps_bind hT.trn (hv _) fun _ => keeps_bind hT.trn (hv _) fun _ => keeps_bind hT.trn (keeps_getCell hT.trn _) fun _ =>
    keeps_bind hT.trn (keeps_getCell hT.trn _) fun _ => ?_
  split
  · exact keeps_raise _
  · split
    · exact keeps_pure hT.trn _
    · exact keeps_bind hT.trn (keeps_checkDest hT.trn _) fun _ => keeps_bind hT.trn (ha _ _ _ _) fun _ =>
        keeps_bind hT.trn (hd _) fun _ => keeps_bind hT.trn (hd _) fun _ => keeps_pure hT.trn _

theorem p_evalUn (d : Dest) (op : UnOp) (e : Expr) : Keeps T (evalUn R d op e) := by
  have hu : ∀ x, Keeps T (applyUn op x) := by
    intro x
    unfold applyUn
    split
    · split
      · exact (hT.alloc _ nofun)
      · exact keeps_ub
    · exact (hT.alloc _ nofun)
    · exact keeps_raise _
  unfold evalUn
  refine keeps_bind hT.trn (p_value hT hR _) fun _ => keeps_bind hT.trn (keeps_getCell hT.trn _) fun _ => ?_
  split
  · exact keeps_pure hT.trn _
  · exact keeps_bind hT.trn (keeps_checkDest hT.trn _) fun _ => keeps_bind hT.trn (hu _) fun _ =>
      keeps_bind hT.trn (hR.dec _) fun _ => keeps_pure hT.trn _

theorem p_accessFind (e : Expr) (name : Bytes) : Keeps T (accessFind R e name) := by
  unfold accessFind
  refine keeps_bind hT.trn (p_value hT hR _) fun _ => keeps_bind hT.trn (keeps_getCell hT.trn _) fun _ => ?_
  split
  · refine keeps_bind hT.trn (keeps_shallowFind hT.trn _ _) fun _ => ?_
    split
    · exact keeps_raise _
    · refine keeps_bind hT.trn (keeps_getVar hT.trn _) fun _ => ?_
      split
      · exact keeps_raise _
      · exact keeps_pure hT.trn _
  · refine keeps_ite ?_ ?_
    · refine keeps_bind hT.trn (keeps_deref hT.trn _) fun _ => keeps_bind hT.trn (keeps_shallowFind hT.trn _ _) fun _ => ?_
      split
      · exact keeps_raise _
      · exact keeps_bind hT.trn (keeps_getVar hT.trn _) fun _ => keeps_pure hT.trn _
    · split
      · exact keeps_raise _
      · exact keeps_bind hT.trn (keeps_get hT.trn) fun _ => keeps_pure hT.trn _

theorem p_evalAccess (d : Dest) (e : Expr) (name : Bytes) : Keeps T (evalAccess R d e name) := by
  unfold evalAccess
  refine keeps_bind hT.trn (p_accessFind hT hR _ _) fun _ => ?_
  split
  split
  · exact keeps_pure hT.trn _
  · exact keeps_bind hT.trn (keeps_checkDest hT.trn _) fun _ => keeps_bind hT.trn (keeps_deref hT.trn _) fun _ =>
      keeps_bind hT.trn (hT.incref _) fun _ => keeps_pure hT.trn _

theorem p_evalIndex (d : Dest) (e i : Expr) : Keeps T (evalIndex R d e i) := by
  unfold evalIndex
  refine keeps_bind hT.trn (p_value hT hR _) fun _ => keeps_bind hT.trn (keeps_getCell hT.trn _) fun _ => ?_
  split
  · exact keeps_raise _
  · refine keeps_bind hT.trn (p_value hT hR _) fun _ => keeps_bind hT.trn (keeps_getCell hT.trn _) fun _ => ?_
    split
    · exact keeps_raise _
    · split
      · exact keeps_pure hT.trn _
      · refine keeps_bind hT.trn (keeps_checkDest hT.trn _) fun _ => keeps_bind hT.trn (keeps_getCell hT.trn _) fun _ =>
          keeps_bind hT.trn (keeps_deref hT.trn _) fun _ => ?_
        split
        · split
          · exact keeps_raise _
          · exact keeps_ub
          · exact keeps_bind hT.trn (keeps_deref hT.trn _) fun _ => keeps_bind hT.trn (hT.incref _) fun _ => keeps_pure hT.trn _
        · refine keeps_bind hT.trn (p_lookupKey hT hR _ _) fun _ => ?_
          split
          · exact keeps_bind hT.trn (hT.incref _) fun _ => keeps_pure hT.trn _
          · exact keeps_bind hT.trn ((hT.alloc _ nofun)) fun _ => keeps_pure hT.trn _
        · exact keeps_ub

theorem p_evalCall (d : Dest) (f : Expr) (args : List Expr) : Keeps T (evalCall R d f args) := by
  unfold evalCall
  refine keeps_bind hT.trn (hR.eval _ _) fun _ => keeps_bind hT.trn (keeps_deref hT.trn _) fun _ =>
    keeps_bind hT.trn (keeps_getCell hT.trn _) fun _ => ?_
  split
  · exact keeps_bind hT.trn (keeps_each hT.trn (p_value hT hR) _) fun _ => keeps_bind hT.trn (hR.call _ _ _ _) fun _ => keeps_pure hT.trn _
  · exact keeps_raise _

omit hR in
theorem p_evalLit (l : Lit) : Keeps T (evalLit l) := by
  unfold evalLit
  split
  · exact (hT.alloc _ nofun)
  · exact (hT.alloc _ nofun)
  · split
    · exact (hT.alloc _ nofun)
    · exact keeps_raise _
    · exact keeps_ub
  · exact hT.allocStr _

omit hR in
theorem p_evalIdent (x : Bytes) : Keeps T (evalIdent x) := by
  unfold evalIdent
  refine keeps_bind hT.trn (keeps_findVar hT.trn _) fun _ => ?_
  split
  · exact keeps_raise _
  · exact keeps_bind hT.trn (keeps_getVar hT.trn _) fun _ => keeps_bind hT.trn (keeps_deref hT.trn _) fun _ =>
      keeps_bind hT.trn (hT.incref _) fun _ => keeps_pure hT.trn _

omit hR in
theorem p_evalLambda (ps : List Bytes) (b : Body) : Keeps T (evalLambda ps b) := by
  unfold evalLambda
  exact keeps_bind hT.trn hT.closeOver fun _ => keeps_bind hT.trn (hT.allocBody _) fun _ => (hT.alloc _ nofun)

theorem p_stepEval (w : World) (d : Dest) (e : Expr) : Keeps T (stepEval w R d e) := by
  unfold stepEval
  split
  · split
    · exact keeps_raise _
    · exact keeps_bind hT.trn (keeps_checkDest hT.trn _) fun _ => keeps_bind hT.trn (p_evalLit hT _) fun _ => keeps_pure hT.trn _
  · split
    · exact keeps_raise _
    · exact keeps_bind hT.trn (p_evalIdent hT _) fun _ => keeps_pure hT.trn _
  · split
    · exact keeps_raise _
    · exact keeps_bind hT.trn (keeps_checkDest hT.trn _) fun _ => keeps_bind hT.trn (p_evalLambda hT _ _) fun _ => keeps_pure hT.trn _
  · refine keeps_bind hT.trn (keeps_each hT.trn (p_value hT hR) _) fun _ => ?_
    split
    · exact keeps_pure hT.trn _
    · exact keeps_bind hT.trn (keeps_checkDest hT.trn _) fun _ => keeps_bind hT.trn ((hT.alloc _ nofun)) fun _ => keeps_pure hT.trn _
  · refine keeps_bind hT.trn (p_evalItems hT hR _ _) fun _ => ?_
    split
    · exact keeps_pure hT.trn _
    · exact keeps_bind hT.trn (keeps_checkDest hT.trn _) fun _ => keeps_bind hT.trn ((hT.alloc _ nofun)) fun _ => keeps_pure hT.trn _
  · exact p_evalCall hT hR _ _ _
  · exact hR.eval _ _
  · exact p_evalUn hT hR _ _ _
  · exact p_evalBin hT hR _ _ _ _ _
  · exact p_evalAccess hT hR _ _ _
  · exact keeps_bind hT.trn (p_evalIndex hT hR _ _ _) fun _ => keeps_pure hT.trn _

/-! ## Calls -/

theorem p_mapLoop (c f : Nat) : ∀ n i, Keeps T (mapLoop R c f n i)
  | 0, _ => keeps_pure hT.trn _
  | n + 1, i => by
    have ih := p_mapLoop c f n (i + 1)
    unfold mapLoop
    exact keeps_bind hT.trn (keeps_getVec hT.trn _) fun _ => keeps_bind hT.trn (keeps_deref hT.trn _) fun _ =>
      keeps_bind hT.trn (hR.call _ _ _ _) fun _ => keeps_bind hT.trn (keeps_deref hT.trn _) fun _ => keeps_bind hT.trn ih fun _ => keeps_pure hT.trn _

theorem p_stepFilter (c f i : Nat) : Keeps T (stepFilter R c f i) := by
  unfold stepFilter
  refine keeps_bind hT.trn (keeps_getVec hT.trn _) fun _ => ?_
  split
  · exact keeps_pure hT.trn _
  · refine keeps_bind hT.trn (hR.call _ _ _ _) fun _ => keeps_bind hT.trn (keeps_deref hT.trn _) fun _ =>
      keeps_bind hT.trn (keeps_getCell hT.trn _) fun _ => ?_
    split
    · split
      · exact keeps_bind hT.trn (hT.valCopy _) fun _ => keeps_bind hT.trn (hR.filter _ _ _) fun _ => keeps_pure hT.trn _
      · exact hR.filter _ _ _
    · refine keeps_bind hT.trn ?_ fun _ => keeps_bind hT.trn (keeps_getCell hT.trn _) fun _ => keeps_raise _
      unfold freeResult
      split
      · exact keeps_blame (p_freeVal hT hR.dec _)
      · exact p_freeVal hT hR.dec _

theorem p_runPtm (p : Ptm) (self : Option Nat) (args : List Nat) : Keeps T (runPtm R p self args) := by
  have hst : ∀ a b t n m c, Keeps T (strTest a b t n m c) := by
    intro a b t n m c
    unfold strTest
    refine keeps_bind hT.trn (keeps_getCell hT.trn _) fun _ => ?_
    split
    · exact keeps_bind hT.trn (keeps_strCompare hT.trn _ _ _ _ _) fun _ => (hT.alloc _ nofun)
    · exact keeps_raise _
  unfold runPtm
  refine keeps_bind hT.trn (keeps_deref hT.trn _) fun _ => keeps_bind hT.trn (keeps_getCell hT.trn _) fun _ => ?_
  split
  · split
    · exact (hT.alloc _ nofun)
    · exact keeps_raise _
  · split
    · exact hst _ _ _ _ _ _
    · exact keeps_raise _
  · split
    · exact hst _ _ _ _ _ _
    · exact keeps_raise _
  · split
    · exact (hT.alloc _ nofun)
    · exact keeps_raise _
  · exact keeps_bind hT.trn (keeps_fnArg hT.trn _ _) fun _ => keeps_bind hT.trn (p_mapLoop hT hR _ _ _ _) fun _ => (hT.alloc _ nofun)
  · exact keeps_bind hT.trn (keeps_fnArg hT.trn _ _) fun _ => keeps_bind hT.trn (hR.filter _ _ _) fun _ => (hT.alloc _ nofun)
  · exact keeps_abort

end

end Bob.Fl
