import Verif.Spec.Flamingo
import Verif.Lemmas.FlFrame
/-!
# Comparing, printing and releasing values
-/

namespace Bob.Fl

/-- Nothing changed at all. -/
def Same (s s' : St) : Prop := s' = s

theorem trnSame : Trn Same := ⟨fun _ => rfl, fun h1 h2 => h2.trans h1⟩

theorem same_eqVec {eq : Nat → Nat → M Bool} (he : ∀ x y, Keeps Same (eq x y)) : ∀ xs ys, Keeps Same (eqVec eq xs ys)
  | [], _ => keeps_pure trnSame _
  | _ :: _, [] => keeps_pure trnSame _
  | x :: xs, y :: ys => by
    have ih := same_eqVec he xs ys
    unfold eqVec
    refine keeps_bind trnSame (he x y) fun b => ?_
    keeps trnSame

theorem same_findKey {eq : Nat → Nat → M Bool} (he : ∀ x y, Keeps Same (eq x y)) (k : Nat) : ∀ es, Keeps Same (findKey eq k es)
  | [] => keeps_pure trnSame _
  | (k', v) :: es => by
    have ih := same_findKey he k es
    unfold findKey
    refine keeps_bind trnSame (he _ _) fun b => ?_
    keeps trnSame

theorem same_eqMap {eq : Nat → Nat → M Bool} (he : ∀ x y, Keeps Same (eq x y)) (ys : List (Nat × Nat)) : ∀ es, Keeps Same (eqMap eq ys es)
  | [] => keeps_pure trnSame _
  | (k, v) :: es => by
    have ih := same_eqMap he ys es
    have hf := same_findKey he k ys
    unfold eqMap
    refine keeps_bind trnSame hf fun o => ?_
    split
    · exact keeps_pure trnSame _
    · refine keeps_bind trnSame (he _ _) fun b => ?_
      keeps trnSame

theorem same_stepEq {eq : Nat → Nat → M Bool} (he : ∀ x y, Keeps Same (eq x y)) (x y : Nat) : Keeps Same (stepEq eq x y) := by
  have h1 := same_eqVec he
  have h2 := same_eqMap he
  unfold stepEq
  refine keeps_bind trnSame (keeps_getCell trnSame _) fun cx => keeps_bind trnSame (keeps_getCell trnSame _) fun cy => ?_
  split
  case h_5 => split; exact h1 _ _; exact keeps_pure trnSame _
  case h_6 => split; exact h2 _ _; exact keeps_pure trnSame _
  case h_4 =>
    have := keeps_readBuf trnSame
    keeps trnSame
  all_goals keeps trnSame

/-- Comparing values changes nothing. -/
theorem same_eq (w : World) : ∀ (n x y : Nat), Keeps Same ((interp w n).eq x y)
  | 0, _, _ => keeps_timeout
  | n + 1, x, y => same_stepEq (same_eq w n) x y

theorem same_anyKey (w : World) (n k : Nat) : ∀ es, Keeps Same (anyKey (interp w n).eq k es)
  | [] => keeps_pure trnSame _
  | (k', v) :: es => by
    have ih := same_anyKey w n k es
    unfold anyKey
    refine keeps_bind trnSame (same_eq w n _ _) fun b => ?_
    keeps trnSame

theorem same_lookupKey (w : World) (n k : Nat) : ∀ es, Keeps Same (lookupKey (interp w n).eq k es)
  | [] => keeps_pure trnSame _
  | (k', v) :: es => by
    have ih := same_lookupKey w n k es
    unfold lookupKey
    refine keeps_bind trnSame (same_eq w n _ _) fun b => ?_
    keeps trnSame

theorem same_stepRepr {rep : Nat → M Bytes} (hr : ∀ c, Keeps Same (rep c)) (inner : Bool) (c : Nat) : Keeps Same (stepRepr rep inner c) := by
  unfold stepRepr
  refine keeps_bind trnSame (keeps_getCell trnSame _) fun x => ?_
  split
  case h_4 => exact keeps_bind trnSame (keeps_readStr trnSame _ _) fun _ => keeps_pure trnSame _
  case h_5 => exact keeps_bind trnSame (keeps_each trnSame hr _) fun _ => keeps_pure trnSame _
  case h_6 =>
    exact keeps_bind trnSame (keeps_each trnSame (fun kv => keeps_bind trnSame (hr _) fun _ => keeps_bind trnSame (hr _) fun _ =>
      keeps_pure trnSame _) _) fun _ => keeps_pure trnSame _
  all_goals keeps trnSame

/-- Making the text of a value changes nothing. -/
theorem same_repr (w : World) : ∀ (n c : Nat), Keeps Same ((interp w n).repr c)
  | 0, _ => keeps_timeout
  | n + 1, c => same_stepRepr (same_repr w n) true c

/-- Every value holds what it held, nothing was printed, and bob's classes were not involved. -/
structure Quiet (s s' : St) : Prop where
  holds : ∀ (c : Nat) (d : Data), s.Holds c d → s'.Holds c d
  count : s.cells.length ≤ s'.cells.length
  out : s'.out = s.out
  steps : s'.host.steps = s.host.steps
  calls : s'.calls = s.calls
  envs : s'.envs = s.envs
  eng : s'.eng = s.eng

theorem trnQ : Trn Quiet where
  refl _ := ⟨fun _ _ h => h, Nat.le_refl _, rfl, rfl, rfl, rfl, rfl⟩
  trans h1 h2 := ⟨fun c d h => h2.holds c d (h1.holds c d h), Nat.le_trans h1.count h2.count, h2.out.trans h1.out, h2.steps.trans h1.steps,
    h2.calls.trans h1.calls, h2.envs.trans h1.envs, h2.eng.trans h1.eng⟩

theorem holds_set {s : St} {c : Nat} {x y : Cell} (hx : s.cells[c]? = some x) (hd : y.data = x.data) {k : Nat} {d : Data} (h : s.Holds k d) :
    ({ s with cells := s.cells.set c y } : St).Holds k d := by
  obtain ⟨z, hz, rfl⟩ := h
  by_cases hk : k = c
  · subst hk
    cases hx.symm.trans hz
    exact ⟨y, List.getElem?_set_self (List.getElem?_eq_some_iff.1 hx).1, hd⟩
  · exact ⟨z, by
      show (s.cells.set c y)[k]? = some z
      rw [List.getElem?_set_ne (Ne.symm hk)]; exact hz, rfl⟩

theorem holds_append {s : St} {x : List Cell} {k : Nat} {d : Data} (h : s.Holds k d) : ({ s with cells := s.cells ++ x } : St).Holds k d := by
  obtain ⟨z, hz, rfl⟩ := h
  exact ⟨z, by
    show (s.cells ++ x)[k]? = some z
    rw [List.getElem?_append_left (List.getElem?_eq_some_iff.1 hz).1]; exact hz, rfl⟩

theorem quiet_set {s : St} {c : Nat} {x y : Cell} (hx : s.cells[c]? = some x) (hd : y.data = x.data) :
    Quiet s { s with cells := s.cells.set c y } :=
  ⟨fun _ _ h => holds_set hx hd h, by simp, rfl, rfl, rfl, rfl, rfl⟩

theorem q_setCell {c : Nat} {g : Cell → Cell} (hg : ∀ x, (g x).data = x.data) {f : Cell → M α} (hf : ∀ x, Keeps Quiet (f x)) :
    Keeps Quiet (do let x ← getCell c; setCell c (g x); f x) := by
  refine ⟨fun {s a s'} h => ?_⟩
  simp only [bind_ok_iff, getCell_ok_iff, setCell_apply, Out.ok.injEq] at h
  obtain ⟨x, s1, ⟨hx, rfl⟩, _, _, ⟨_, rfl⟩, h⟩ := h
  exact trnQ.trans (quiet_set hx (hg x)) ((hf x).out h)

theorem q_alloc (d : Data) : Keeps Quiet (alloc d) := by
  refine ⟨fun {s a s'} h => ?_⟩
  cases h
  exact ⟨fun _ _ h => holds_append h, by simp, rfl, rfl, rfl, rfl, rfl⟩

theorem q_allocBuf (d : Bytes) : Keeps Quiet (allocBuf d) := by
  refine ⟨fun {s a s'} h => ?_⟩
  cases h
  exact ⟨fun _ _ h => h, Nat.le_refl _, rfl, rfl, rfl, rfl, rfl⟩

theorem q_allocStr (d : Bytes) : Keeps Quiet (allocStr d) := keeps_bind trnQ (q_allocBuf _) fun _ => q_alloc _

theorem q_setScope (i : Nat) (x : Scope) : Keeps Quiet (setScope i x) := by
  refine ⟨fun {s a s'} h => ?_⟩
  cases h
  exact ⟨fun _ _ h => h, Nat.le_refl _, rfl, rfl, rfl, rfl, rfl⟩

theorem q_setName (c : Nat) (n : Bytes) (i : Nat) : Keeps Quiet (setName c n i) := by
  refine ⟨fun {s a s'} h => ?_⟩
  simp only [setName, bind_ok_iff, getCell_ok_iff, setCell_apply, Out.ok.injEq] at h
  obtain ⟨x, s1, ⟨hx, rfl⟩, _, rfl⟩ := h
  exact quiet_set hx rfl

theorem q_setOwnerOf (c i : Nat) : Keeps Quiet (setOwnerOf c i) := by
  refine ⟨fun {s a s'} h => ?_⟩
  simp only [setOwnerOf, bind_ok_iff, getCell_ok_iff, setCell_apply, Out.ok.injEq] at h
  obtain ⟨x, s1, ⟨hx, rfl⟩, _, rfl⟩ := h
  exact quiet_set hx rfl

theorem q_incref (c : Nat) : Keeps Quiet (incref c) := by
  refine ⟨fun {s a s'} h => ?_⟩
  simp only [incref, bind_ok_iff, getCell_ok_iff, assert_ok_iff, setCell_apply, Out.ok.injEq] at h
  obtain ⟨x, s1, ⟨hx, rfl⟩, _, _, ⟨_, rfl⟩, _, rfl⟩ := h
  exact quiet_set hx rfl

theorem q_valCopy (c : Nat) : Keeps Quiet (valCopy c) := by
  unfold valCopy
  refine keeps_bind trnQ (keeps_getCell trnQ _) fun x => keeps_bind trnQ (keeps_readName trnQ _) fun _ =>
    keeps_bind trnQ ?_ fun d => ⟨fun h => ?_⟩
  · unfold copyData
    split
    · exact keeps_bind trnQ (keeps_bind trnQ (keeps_readStr trnQ _ _) fun _ => q_allocBuf _) fun _ => keeps_pure trnQ _
    · exact keeps_pure trnQ _
  · cases h
    exact ⟨fun _ _ h => holds_append h, by simp, rfl, rfl, rfl, rfl, rfl⟩

theorem q_freeVal {dec : Nat → M Unit} (hd : ∀ c, Keeps Quiet (dec c)) (c : Nat) : Keeps Quiet (freeVal dec c) := by
  have hbuf : ∀ b, Keeps Quiet (freeBuf b) := by
    intro b
    unfold freeBuf
    refine keeps_bind trnQ (keeps_get trnQ) fun _ => ?_
    split
    · refine ⟨fun h => ?_⟩
      cases h
      exact ⟨fun _ _ h => h, Nat.le_refl _, rfl, rfl, rfl, rfl, rfl⟩
    · exact keeps_ub
  have hbody : ∀ b, Keeps Quiet (freeBody b) := by
    intro b
    unfold freeBody
    split
    · exact keeps_pure trnQ _
    · refine keeps_bind trnQ (keeps_get trnQ) fun _ => ?_
      split
      · refine ⟨fun h => ?_⟩
        cases h
        exact ⟨fun _ _ h => h, Nat.le_refl _, rfl, rfl, rfl, rfl, rfl⟩
      · exact keeps_ub
  have hst : ∀ b, Keeps Quiet (freeState b) := by
    intro b
    unfold freeState
    split
    · exact keeps_pure trnQ _
    · refine keeps_bind trnQ (keeps_get trnQ) fun _ => ?_
      split
      · split
        · exact keeps_ub
        · refine ⟨fun h => ?_⟩
          cases h
          exact ⟨fun _ _ h => h, Nat.le_refl _, rfl, rfl, rfl, rfl, rfl⟩
      · exact keeps_ub
  have hvars : ∀ vs, Keeps Quiet (decVars dec vs) := by
    intro vs
    induction vs with
    | nil => exact keeps_pure trnQ _
    | cons v vs ih => exact keeps_bind trnQ (keeps_optIter trnQ hd _) fun _ => ih
  unfold freeVal
  refine keeps_bind trnQ (keeps_getCell trnQ _) fun x => ?_
  split
  · exact hbuf _
  · exact hbody _
  · exact keeps_bind trnQ (keeps_bind trnQ (keeps_getScope trnQ _) fun _ => keeps_bind trnQ (hvars _) fun _ =>
      keeps_bind trnQ (keeps_getScope trnQ _) fun _ => q_setScope _ _) fun _ => hst _
  · exact keeps_pure trnQ _

/-- Releasing a value changes no value's contents. -/
theorem q_dec (w : World) : ∀ (n c : Nat), Keeps Quiet ((interp w n).dec c)
  | 0, _ => keeps_timeout
  | n + 1, c => by
    have hf := q_freeVal (q_dec w n) c
    show Keeps Quiet (stepDec (interp w n).dec c)
    unfold stepDec
    refine q_setCell (g := fun x => { x with refs := if x.refs = 0 then 18446744073709551615 else x.refs - 1 }) (fun _ => rfl) fun x => ?_
    exact keeps_ite hf (keeps_pure trnQ _)

theorem Keeps.weaken {T T' : St → St → Prop} {m : M α} (h : Keeps T m) (hT : ∀ s s', T s s' → T' s s') : Keeps T' m := ⟨fun hm => hT _ _ (h.out hm)⟩

theorem holds_unique {s : St} {c : Nat} {d d' : Data} (h : s.Holds c d) (h' : s.Holds c d') : d = d' := by
  obtain ⟨x, hx, rfl⟩ := h
  obtain ⟨y, hy, rfl⟩ := h'
  cases hx.symm.trans hy
  rfl

theorem getCell_holds {s : St} {c : Nat} {d : Data} (h : s.Holds c d) : ∃ x, getCell c s = .ok x s ∧ x.data = d := by
  obtain ⟨x, hx, rfl⟩ := h
  exact ⟨x, (getCell_ok_iff ..).2 ⟨hx, rfl⟩, rfl⟩

theorem holds_alloc (s : St) (d : Data) : ({ s with cells := s.cells ++ [{ data := d }] } : St).Holds s.cells.length d :=
  ⟨{ data := d }, by simp, rfl⟩

end Bob.Fl
