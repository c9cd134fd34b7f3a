import Verif.Lemmas.ParTable
/-!
# What the checks of the tables mean
-/

namespace Bob.Parse

theorem itemIn_iff {r k : Nat} {l : List (Nat × Nat)} : itemIn r k l = true ↔ (r, k) ∈ l := by
  induction l with
  | nil => simp [itemIn]
  | cons a l ih =>
    obtain ⟨a, b⟩ := a
    simp only [itemIn, Bool.or_eq_true, Bool.and_eq_true, Nat.beq_eq, ih, List.mem_cons, Prod.mk.injEq]
    constructor
    · rintro (⟨rfl, rfl⟩ | h)
      · exact .inl ⟨rfl, rfl⟩
      · exact .inr h
    · rintro (⟨rfl, rfl⟩ | h)
      · exact .inl ⟨rfl, rfl⟩
      · exact .inr h

theorem natIn_iff {x : Nat} {l : List Nat} : natIn x l = true ↔ x ∈ l := by
  induction l with
  | nil => simp [natIn]
  | cons a l ih =>
    simp only [natIn, Bool.or_eq_true, Nat.beq_eq, ih, List.mem_cons]
    exact or_congr ⟨Eq.symm, Eq.symm⟩ Iff.rfl

theorem nbeq_false {a b : Nat} : (!Nat.beq a b) = true ↔ a ≠ b := by
  rw [Bool.not_eq_true', ← Bool.not_eq_true, Nat.beq_eq]

theorem findActs_big {t : Nat} (ht : 60 ≤ t) : ∀ {gs : List (List Act × Nat)}, (gs.all fun (_, m) => Nat.blt m (2 ^ 60)) = true → findActs t gs = []
  | [], _ => rfl
  | (as, m) :: gs, h => by
    simp only [List.all_cons, Bool.and_eq_true, Nat.blt_eq] at h
    have : Nat.testBit m t = false := Nat.testBit_lt_two_pow (Nat.lt_of_lt_of_le h.1 (Nat.pow_le_pow_right (by decide) ht))
    simp only [findActs, this, cond_false]
    exact findActs_big ht h.2

/-- States that may be on the stack. -/
def Live (q : Nat) : Prop := q ≠ 0 ∧ q < 336

theorem chk_live {q : Nat} (h : Live q) : (∀ X < 110, chkEdge q X = true) ∧ (∀ t < 60, chkActs q t (actions q t) = true) ∧
    ∀ t, 60 ≤ t → actions q t = [] := by
  have := List.all_eq_true.1 chk_states q (List.mem_range.2 h.2)
  simp only [chkState, Bool.or_eq_true, Nat.beq_eq, h.1, false_or, Bool.and_eq_true, List.all_eq_true, List.mem_range] at this
  refine ⟨this.1.1, this.1.2, fun t ht => ?_⟩
  rw [actions, findActs_big ht (List.all_eq_true.2 this.2)]
  rfl

theorem live_one : Live 1 := ⟨by decide, by decide⟩

/-- A step from one live state to another. -/
structure EdgeOK (q X q' : Nat) : Prop where
  live : Live q'
  ne_one : q' ≠ 1
  item : ∀ r k, (r, k) ∈ items.get q' → ∃ j, k = j + 1 ∧ X ∈ nth [] (ruleOf r).rhs j ∧
    ((j = 0 ∧ goto q (ruleOf r).lhs ≠ 0) ∨ (r, j) ∈ items.get q)
  accept : isAccept (actions q' 0) = true → q = 1 ∧ X = 60
  doc : q' = 335 → X = 5
  hashes : q' = 331 → X = 4

theorem edge_ok {q X : Nat} (h : Live q) (hX : X < 110) (hd : X ≠ 62) (he : edge q X ≠ 0) : EdgeOK q X (edge q X) := by
  have : chkEdgeTo q X (edge q X) = true := (chk_live h).1 X hX
  generalize edge q X = q' at *
  simp only [chkEdgeTo, Bool.or_eq_true, Nat.beq_eq, he, hd, false_or, Bool.and_eq_true, nbeq_false, Nat.blt_eq, List.all_eq_true] at this
  obtain ⟨⟨⟨⟨⟨h1, h2⟩, h3⟩, h4⟩, h5⟩, h6⟩ := this
  refine ⟨⟨he, h2⟩, h1, fun r k hk => ?_, fun ha => ?_, fun hq => ?_, fun hq => ?_⟩
  · have := h3 _ hk
    match k, this with
    | 0, h => cases h
    | 1, h =>
      simp only [chkItem, Bool.and_eq_true, natIn_iff, nbeq_false] at h
      exact ⟨0, rfl, h.1, .inl ⟨rfl, h.2⟩⟩
    | j + 2, h =>
      simp only [chkItem, Bool.and_eq_true, natIn_iff, itemIn_iff] at h
      exact ⟨j + 1, rfl, h.1, .inr h.2⟩
  · rcases h4 with h4 | h4
    · simp [ha] at h4
    · exact h4
  · rcases h5 with h5 | h5
    · exact absurd hq h5
    · exact h5
  · rcases h6 with h6 | h6
    · exact absurd hq h6
    · exact h6

/-- What the only action for a token can be. -/
inductive ActOK (q t : Nat) : List Act → Prop where
  | none : ActOK q t []
  | shift {q' : Nat} : t ≠ 0 → q' ≠ 0 → (t = 4 → goto q 62 = q) → ActOK q t [.shift q']
  | extra : t = 3 → ActOK q t [.shiftExtra]
  | reduce {A n pid : Nat} : t ≠ 3 → t ≠ 4 → (q ≠ 335 → A ≠ 62) →
      (n = 0 ∧ A = 60 ∧ pid = 0 ∧ q = 1 ∨
        ∃ r, (r, n) ∈ items.get q ∧ (ruleOf r).lhs = A ∧ (ruleOf r).pid = pid ∧ (ruleOf r).rhs.length = n ∧ n ≠ 0) → ActOK q t [.reduce A n pid]
  | accept : t = 0 → ActOK q t [.accept]
  | recover : ActOK q t [.recover]

theorem act_ok {q : Nat} (h : Live q) (t : Nat) : ActOK q t (actions q t) := by
  rcases Nat.lt_or_ge t 60 with ht | ht
  · have := (chk_live h).2.1 t ht
    generalize actions q t = as at *
    match as, this with
    | [], _ => exact .none
    | [.shift q'], h =>
      simp only [chkActs, Bool.and_eq_true, Bool.or_eq_true, nbeq_false, Nat.beq_eq] at h
      refine .shift h.1.1 h.1.2 fun ht => ?_
      rcases h.2 with h | h
      · exact absurd ht h
      · exact h.1
    | [.shiftExtra], h => exact .extra (Nat.eq_of_beq_eq_true h)
    | [.reduce A n pid], h =>
      simp only [chkActs, Bool.and_eq_true, Bool.or_eq_true, nbeq_false, Nat.beq_eq, List.any_eq_true] at h
      obtain ⟨⟨⟨h1, h2⟩, h3⟩, h4⟩ := h
      refine .reduce h1 h2 (fun hq => h3.resolve_left hq) ?_
      rcases h4 with ⟨⟨⟨h4, h5⟩, h6⟩, h7⟩ | ⟨⟨r, k⟩, hm, ⟨⟨⟨rfl, h5⟩, h6⟩, h7⟩, h8⟩
      · exact .inl ⟨h4, h5, h6, h7⟩
      · exact .inr ⟨r, hm, h5, h6, h7, h8⟩
    | [.accept], h => exact .accept (Nat.eq_of_beq_eq_true h)
    | [.recover], _ => exact .recover
    | [.shiftRepeat _], h => cases h
    | _ :: _ :: _, h => simp [chkActs] at h
  · rw [(chk_live h).2.2 t ht]; exact .none

theorem act_lt {q : Nat} (h : Live q) {t : Nat} (ha : actions q t ≠ []) : t < 60 := by
  rcases Nat.lt_or_ge t 60 with ht | ht
  · exact ht
  · exact absurd ((chk_live h).2.2 t ht) ha

end Bob.Parse
