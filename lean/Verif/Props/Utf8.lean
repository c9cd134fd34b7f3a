import Verif.Spec.Utf8
import Verif.Model.Parser.Utf8
import Verif.Lemmas.ParLeaves
import Mathlib.Data.List.Forall2
/-!
# C117: scripts are read character by character
-/

namespace Bob.Parse

/-! ## Decoding -/

theorem lead3_ok : ∀ c < 16, ∀ k < 8, (lead3Bits.getD c 0).testBit k = decide (if c = 0 then k = 5 else if c = 13 then k = 4 else k = 4 ∨ k = 5) := by decide

theorem lead4_ok : ∀ h < 16, ∀ c < 5, (lead4Bits.getD h 0).testBit c = decide ((h = 8 ∧ 1 ≤ c) ∨ (9 ≤ h ∧ h ≤ 11 ∧ c ≤ 3)) := by decide

theorem trail_some {t d : Nat} (ht : t < 256) : trail t = some d ↔ t = 0x80 + d ∧ d < 64 := by
  unfold trail
  simp only
  split
  · simp only [Option.some.injEq]; omega
  · simp only [reduceCtorEq, false_iff]; omega

theorem u8_one {c : Nat} (s : List Nat) (h : c < 0x80) : u8next c s = (some c, 1) := by
  unfold u8next
  simp only [if_pos h]

theorem u8_two {c t : Nat} {s : List Nat} (h1 : 0xc2 ≤ c) (h2 : c < 0xe0) (ht : 0x80 ≤ t) (ht' : t < 0xc0) : u8next c (t :: s) = (some (c % 32 * 64 + (t - 0x80)), 2) := by
  unfold u8next
  have e : trail t = some (t - 0x80) := (trail_some (by omega)).2 ⟨by omega, by omega⟩
  simp only [if_neg (show ¬ c < 0x80 by omega), if_neg (show ¬ 0xe0 ≤ c by omega), if_pos h1, e, Option.map_some]

theorem u8_three {c t u : Nat} {s : List Nat} (h1 : 0xe0 ≤ c) (h2 : c < 0xf0) (hb : if c % 16 = 0 then t / 32 = 5 else if c % 16 = 13 then t / 32 = 4 else t / 32 = 4 ∨ t / 32 = 5)
    (hu : 0x80 ≤ u) (hu' : u < 0xc0) : u8next c (t :: u :: s) = (some ((c % 16 * 64 + t % 64) * 64 + (u - 0x80)), 3) := by
  have ht : t / 32 < 8 := by
    split at hb
    · omega
    · split at hb <;> omega
  unfold u8next
  have e : trail u = some (u - 0x80) := (trail_some (by omega)).2 ⟨by omega, by omega⟩
  simp only [e, if_neg (show ¬ c < 0x80 by omega), if_pos h1, if_pos h2, lead3_ok (c % 16) (by omega) (t / 32) ht, decide_eq_true hb, if_true, Option.map_some]

theorem u8_four {c t u v : Nat} {s : List Nat} (h1 : 0xf0 ≤ c) (h2 : c - 0xf0 ≤ 4) (hb : (t / 16 = 8 ∧ 1 ≤ c - 0xf0) ∨ (9 ≤ t / 16 ∧ t / 16 ≤ 11 ∧ c - 0xf0 ≤ 3))
    (hu : 0x80 ≤ u) (hu' : u < 0xc0) (hv : 0x80 ≤ v) (hv' : v < 0xc0) :
    u8next c (t :: u :: v :: s) = (some ((((c - 0xf0) * 64 + t % 64) * 64 + (u - 0x80)) * 64 + (v - 0x80)), 4) := by
  unfold u8next
  have e : trail u = some (u - 0x80) := (trail_some (by omega)).2 ⟨by omega, by omega⟩
  have e' : trail v = some (v - 0x80) := (trail_some (by omega)).2 ⟨by omega, by omega⟩
  simp only [e, e', if_neg (show ¬ c < 0x80 by omega), if_pos (show 0xe0 ≤ c by omega), if_neg (show ¬ c < 0xf0 by omega)]
  rw [if_pos ⟨h2, by rw [lead4_ok (t / 16) (by omega) (c - 0xf0) (by omega)]; exact decide_eq_true hb⟩]
  rfl

/-- What is decoded has one of the four forms. -/
theorem u8_forms {c : Nat} {s : List Nat} {x n : Nat} (hs : ∀ t ∈ s, t < 256) (h : u8next c s = (some x, n)) :
    (c < 0x80 ∧ x = c ∧ n = 1) ∨
    (0xc2 ≤ c ∧ c < 0xe0 ∧ ∃ t s', s = t :: s' ∧ 0x80 ≤ t ∧ t < 0xc0 ∧ x = c % 32 * 64 + (t - 0x80) ∧ n = 2) ∨
    (0xe0 ≤ c ∧ c < 0xf0 ∧ ∃ t u s', s = t :: u :: s' ∧ (if c % 16 = 0 then t / 32 = 5 else if c % 16 = 13 then t / 32 = 4 else t / 32 = 4 ∨ t / 32 = 5) ∧ 0x80 ≤ u ∧ u < 0xc0 ∧
      x = (c % 16 * 64 + t % 64) * 64 + (u - 0x80) ∧ n = 3) ∨
    (0xf0 ≤ c ∧ c - 0xf0 ≤ 4 ∧ ∃ t u v s', s = t :: u :: v :: s' ∧ ((t / 16 = 8 ∧ 1 ≤ c - 0xf0) ∨ (9 ≤ t / 16 ∧ t / 16 ≤ 11 ∧ c - 0xf0 ≤ 3)) ∧ 0x80 ≤ u ∧ u < 0xc0 ∧ 0x80 ≤ v ∧ v < 0xc0 ∧
      x = (((c - 0xf0) * 64 + t % 64) * 64 + (u - 0x80)) * 64 + (v - 0x80) ∧ n = 4) := by
  by_cases h0 : c < 0x80
  · rw [u8_one s h0] at h
    cases h
    exact .inl ⟨h0, rfl, rfl⟩
  by_cases h1 : 0xe0 ≤ c
  · by_cases h2 : c < 0xf0
    · rcases s with _ | ⟨t, _ | ⟨u, s'⟩⟩
      · simp only [u8next, if_neg h0, if_pos h1, if_pos h2] at h
        cases h
      · simp only [u8next, if_neg h0, if_pos h1, if_pos h2] at h
        cases h
      · have ht := hs t (by simp)
        have hu := hs u (by simp)
        simp only [u8next, if_neg h0, if_pos h1, if_pos h2] at h
        by_cases hb : (lead3Bits.getD (c % 16) 0).testBit (t / 32) = true
        · rw [if_pos hb] at h
          rw [lead3_ok (c % 16) (by omega) (t / 32) (by omega)] at hb
          cases hd : trail u with
          | none => rw [hd] at h; cases h
          | some d =>
            rw [hd] at h
            rw [trail_some hu] at hd
            cases h
            refine .inr (.inr (.inl ⟨h1, h2, t, u, s', rfl, of_decide_eq_true hb, by omega, by omega, ?_, rfl⟩))
            omega
        · rw [if_neg hb] at h
          cases h
    · rcases s with _ | ⟨t, _ | ⟨u, _ | ⟨v, s'⟩⟩⟩
      · simp only [u8next, if_neg h0, if_pos h1, if_neg h2] at h
        cases h
      · simp only [u8next, if_neg h0, if_pos h1, if_neg h2] at h
        cases h
      · simp only [u8next, if_neg h0, if_pos h1, if_neg h2] at h
        cases h
      · have ht := hs t (by simp)
        have hu := hs u (by simp)
        have hv := hs v (by simp)
        simp only [u8next, if_neg h0, if_pos h1, if_neg h2] at h
        by_cases hb : c - 0xf0 ≤ 4 ∧ (lead4Bits.getD (t / 16) 0).testBit (c - 0xf0) = true
        · rw [if_pos hb] at h
          obtain ⟨hb1, hb2⟩ := hb
          rw [lead4_ok (t / 16) (by omega) (c - 0xf0) (by omega)] at hb2
          cases hd : trail u with
          | none => rw [hd] at h; cases h
          | some d =>
            cases hd' : trail v with
            | none => rw [hd, hd'] at h; cases h
            | some d' =>
              rw [hd, hd'] at h
              rw [trail_some hu] at hd
              rw [trail_some hv] at hd'
              cases h
              refine .inr (.inr (.inr ⟨by omega, hb1, t, u, v, s', rfl, of_decide_eq_true hb2, by omega, by omega, by omega, by omega, ?_, rfl⟩))
              omega
        · rw [if_neg hb] at h
          cases h
  · by_cases h2 : 0xc2 ≤ c
    · rcases s with _ | ⟨t, s'⟩
      · simp only [u8next, if_neg h0, if_neg h1, if_pos h2] at h
        cases h
      · have ht := hs t (by simp)
        simp only [u8next, if_neg h0, if_neg h1, if_pos h2] at h
        cases hd : trail t with
        | none => rw [hd] at h; cases h
        | some d =>
          rw [hd] at h
          rw [trail_some ht] at hd
          cases h
          refine .inr (.inl ⟨h2, by omega, t, s', rfl, by omega, by omega, ?_, rfl⟩)
          omega
    · simp only [u8next, if_neg h0, if_neg h1, if_neg h2] at h
      cases h

/-- **C117, decoding.** What the lexer takes for a character, and its length, are those of UTF-8. -/
theorem C117_decodes {c : Nat} {s : List Nat} {x n : Nat} (hs : ∀ t ∈ s, t < 256) : u8next c s = (some x, n) ↔ Scalar x ∧ utf8 x <+: c :: s ∧ n = (utf8 x).length := by
  constructor
  · intro h
    unfold Scalar utf8
    rcases u8_forms hs h with ⟨h0, rfl, rfl⟩ | ⟨h1, h2, t, s', rfl, h3, h4, hx, rfl⟩ | ⟨h1, h2, t, u, s', rfl, hb, h3, h4, hx, rfl⟩ | ⟨h1, h2, t, u, v, s', rfl, hb, h3, h4, h5, h6, hx, rfl⟩
    · rw [if_pos h0]
      exact ⟨by omega, ⟨s, rfl⟩, rfl⟩
    · rw [if_neg (by omega), if_pos (by omega)]
      refine ⟨by omega, ⟨s', ?_⟩, rfl⟩
      simp only [List.cons_append, List.nil_append, List.cons.injEq, and_true]
      omega
    · have hb' : (c % 16 = 0 ∧ t / 32 = 5) ∨ (c % 16 = 13 ∧ t / 32 = 4) ∨ (c % 16 ≠ 0 ∧ c % 16 ≠ 13 ∧ (t / 32 = 4 ∨ t / 32 = 5)) := by
        split at hb
        · exact .inl ⟨by assumption, hb⟩
        · split at hb
          · exact .inr (.inl ⟨by assumption, hb⟩)
          · exact .inr (.inr ⟨by assumption, by assumption, hb⟩)
      rw [if_neg (by omega), if_neg (by omega), if_pos (by omega)]
      refine ⟨by omega, ⟨s', ?_⟩, rfl⟩
      simp only [List.cons_append, List.nil_append, List.cons.injEq, and_true]
      refine ⟨?_, ?_, ?_⟩ <;> omega
    · rw [if_neg (by omega), if_neg (by omega), if_neg (by omega)]
      refine ⟨by omega, ⟨s', ?_⟩, rfl⟩
      simp only [List.cons_append, List.nil_append, List.cons.injEq, and_true]
      refine ⟨?_, ?_, ?_, ?_⟩ <;> omega
  · rintro ⟨hx, hp, rfl⟩
    unfold Scalar at hx
    unfold utf8 at hp ⊢
    by_cases h0 : x < 0x80
    · rw [if_pos h0] at hp ⊢
      obtain ⟨r, hr⟩ := hp
      cases hr
      exact u8_one _ h0
    rw [if_neg h0] at hp ⊢
    by_cases h1 : x < 0x800
    · rw [if_pos h1] at hp ⊢
      obtain ⟨r, hr⟩ := hp
      cases hr
      show u8next _ ((0x80 + x % 64) :: r) = _
      rw [u8_two (by omega) (by omega) (by omega) (by omega)]
      exact Prod.ext (congrArg some (by omega)) rfl
    rw [if_neg h1] at hp ⊢
    by_cases h2 : x < 0x10000
    · rw [if_pos h2] at hp ⊢
      obtain ⟨r, hr⟩ := hp
      cases hr
      show u8next _ ((0x80 + x / 64 % 64) :: (0x80 + x % 64) :: r) = _
      rw [u8_three (by omega) (by omega) ?_ (by omega) (by omega)]
      · exact Prod.ext (congrArg some (by omega)) rfl
      · split
        · omega
        · split <;> omega
    · rw [if_neg h2] at hp ⊢
      obtain ⟨r, hr⟩ := hp
      cases hr
      show u8next _ ((0x80 + x / 4096 % 64) :: (0x80 + x / 64 % 64) :: (0x80 + x % 64) :: r) = _
      rw [u8_four (by omega) (by omega) (by omega) (by omega) (by omega) (by omega) (by omega)]
      exact Prod.ext (congrArg some (by omega)) rfl

theorem utf8_high {x : Nat} (h : 0x80 ≤ x) : (∀ b ∈ utf8 x, 0x80 ≤ b) ∧ 2 ≤ (utf8 x).length := by
  unfold utf8
  rw [if_neg (by omega)]
  split
  · refine ⟨?_, by simp⟩
    simp only [List.mem_cons, List.not_mem_nil, or_false]
    rintro b (rfl | rfl) <;> omega
  split
  · refine ⟨?_, by simp⟩
    simp only [List.mem_cons, List.not_mem_nil, or_false]
    rintro b (rfl | rfl | rfl) <;> omega
  · refine ⟨?_, by simp⟩
    simp only [List.mem_cons, List.not_mem_nil, or_false]
    rintro b (rfl | rfl | rfl | rfl) <;> omega

theorem bytes_small (cs : Bytes) : ∀ t ∈ cs.map (·.toNat), t < 256 := by
  intro t ht
  obtain ⟨b, -, rfl⟩ := List.mem_map.1 ht
  exact b.toNat_lt

/-- What is decoded: a byte below 128 stands for itself, others belong to a character of which all bytes are from 128 on, or to none. -/
theorem nextChar_cases (c : UInt8) (cs : Bytes) :
    (c.toNat < 0x80 ∧ nextChar c cs = (some c.toNat, 1)) ∨
    (0x80 ≤ c.toNat ∧ ∃ x n, nextChar c cs = (x, n) ∧ 1 ≤ n ∧ (∀ b ∈ c :: cs.take (n - 1), 0x80 ≤ b.toNat) ∧ ∀ y, x = some y → 0x80 ≤ y) := by
  rcases Nat.lt_or_ge c.toNat 0x80 with h | h
  · exact .inl ⟨h, u8_one _ h⟩
  · refine .inr ⟨h, ?_⟩
    rcases hn : nextChar c cs with ⟨x, n⟩
    refine ⟨x, n, rfl, ?_⟩
    cases x with
    | none =>
      have : n = 1 := by
        have := hn
        unfold nextChar u8next at this
        simp only at this
        split at this
        · cases this
        · cases this
          rfl
      subst this
      refine ⟨Nat.le_refl _, ?_, fun y h => nomatch h⟩
      intro b hb
      rw [show cs.take (1 - 1) = [] from List.take_zero, List.mem_singleton] at hb
      rw [hb]
      exact h
    | some x =>
      obtain ⟨-, hp, hl⟩ := (C117_decodes (bytes_small cs)).1 hn
      have hx : 0x80 ≤ x := by
        refine Nat.le_of_not_lt fun hx => ?_
        rw [show utf8 x = [x] from if_pos hx] at hp
        obtain ⟨r, hr⟩ := hp
        have := (List.cons.inj hr).1
        omega
      obtain ⟨h1, h2⟩ := utf8_high hx
      refine ⟨by omega, fun b hb => ?_, fun y hy => by cases hy; exact hx⟩
      have e : (c :: cs.take (n - 1)).map (·.toNat) = utf8 x := by
        rw [List.prefix_iff_eq_take] at hp
        rw [hp, ← hl]
        obtain ⟨k, rfl⟩ : ∃ k, n = k + 1 := ⟨n - 1, by omega⟩
        simp [List.map_take]
      exact h1 _ (e ▸ List.mem_map_of_mem hb)

/-! ## The table -/

def Arr.All {α : Type} (p : α → Bool) : Arr α → Bool
  | .leaf a => p a
  | .node _ l r => l.All p && r.All p

theorem Arr.All.get {α : Type} {p : α → Bool} : ∀ {a : Arr α}, a.All p = true → ∀ i, p (a.get i) = true
  | .leaf a, h, i => h
  | .node m l r, h, i => by
    simp only [Arr.All, Bool.and_eq_true] at h
    unfold Arr.get
    cases Nat.blt i m
    · exact Arr.All.get h.2 i
    · exact Arr.All.get h.1 i

/-- Ranges end below 128 or take in everything from 128 on. -/
def rangesOk (rs : List (Nat × Nat)) : Bool := rs.all fun r => decide (r.2 < 128 ∨ (r.1 ≤ 128 ∧ r.2 = 255))

/-- From a state, characters from 128 on are not skipped, and lead to a state that they do not lead away from. -/
def highOk (s : LexState) : Bool :=
  (s.edges.all fun e => rangesOk e.1) && match nextLex 255 s.edges with
    | none => true
    | some (st, skip) => !skip && decide (nextLex 255 (lexState st).edges = some (st, false))

theorem lexStates_ok : lexStates.All highOk = true := by decide +kernel

theorem state_ok (st : Nat) : highOk (lexState st) = true := Arr.All.get lexStates_ok st

theorem ranges_byte {rs : List (Nat × Nat)} (h : rangesOk rs = true) {c : Nat} (hc : 0x80 ≤ c) (hc' : c < 256) : inRanges c rs = inRanges 255 rs := by
  induction rs with
  | nil => rfl
  | cons r rs ih =>
    simp only [rangesOk, List.all_cons, Bool.and_eq_true, decide_eq_true_eq] at h
    unfold inRanges
    rw [ih h.2]
    congr 1
    rw [Bool.eq_iff_iff]
    simp only [Bool.and_eq_true, Nat.ble_eq]
    omega

theorem ranges_low {rs : List (Nat × Nat)} (h : rangesOk rs = true) {c : Nat} (hc : c < 0x80) : inRangesU (some c) rs = inRanges c rs := by
  induction rs with
  | nil => rfl
  | cons r rs ih =>
    simp only [rangesOk, List.all_cons, Bool.and_eq_true, decide_eq_true_eq] at h
    unfold inRanges inRangesU
    rw [ih h.2]
    congr 1
    rw [Bool.eq_iff_iff]
    simp only [Bool.and_eq_true, Nat.ble_eq, decide_eq_true_eq]
    omega

theorem ranges_high {rs : List (Nat × Nat)} (h : rangesOk rs = true) {x : Option Nat} (hx : ∀ y, x = some y → 0x80 ≤ y) : inRangesU x rs = inRanges 255 rs := by
  induction rs with
  | nil => rfl
  | cons r rs ih =>
    simp only [rangesOk, List.all_cons, Bool.and_eq_true, decide_eq_true_eq] at h
    unfold inRanges inRangesU
    rw [ih h.2]
    congr 1
    rw [Bool.eq_iff_iff]
    cases x with
    | none =>
      simp only [Bool.and_eq_true, Nat.ble_eq, decide_eq_true_eq]
      omega
    | some y =>
      have := hx y rfl
      simp only [Bool.and_eq_true, Nat.ble_eq, decide_eq_true_eq]
      omega

theorem edges_eq {f g : List (Nat × Nat) → Bool} {a b : List (List (Nat × Nat) × Nat × Bool) → Option (Nat × Bool)}
    (ha : a [] = none ∧ ∀ r st skip es, a ((r, st, skip) :: es) = bif f r then some (st, skip) else a es)
    (hb : b [] = none ∧ ∀ r st skip es, b ((r, st, skip) :: es) = bif g r then some (st, skip) else b es)
    {es : List (List (Nat × Nat) × Nat × Bool)} (he : (es.all fun e => rangesOk e.1) = true) (h : ∀ r, rangesOk r = true → f r = g r) : a es = b es := by
  induction es with
  | nil => rw [ha.1, hb.1]
  | cons e es ih =>
    obtain ⟨r, st, skip⟩ := e
    simp only [List.all_cons, Bool.and_eq_true] at he
    rw [ha.2, hb.2, h r he.1, ih he.2]

theorem state_edges (st : Nat) : ((lexState st).edges.all fun e => rangesOk e.1) = true := by
  have := state_ok st
  unfold highOk at this
  rw [Bool.and_eq_true] at this
  exact this.1

theorem next_byte (st : Nat) {c : UInt8} (hc : 0x80 ≤ c.toNat) : nextLex c.toNat (lexState st).edges = nextLex 255 (lexState st).edges :=
  edges_eq (a := nextLex c.toNat) (b := nextLex 255) ⟨rfl, fun _ _ _ _ => rfl⟩ ⟨rfl, fun _ _ _ _ => rfl⟩ (state_edges st) fun _ hr => ranges_byte hr hc c.toNat_lt

theorem next_low (st : Nat) {c : Nat} (hc : c < 0x80) : nextLexU (some c) (lexState st).edges = nextLex c (lexState st).edges :=
  edges_eq (a := nextLexU (some c)) (b := nextLex c) ⟨rfl, fun _ _ _ _ => rfl⟩ ⟨rfl, fun _ _ _ _ => rfl⟩ (state_edges st) fun _ hr => ranges_low hr hc

theorem next_high (st : Nat) {x : Option Nat} (hx : ∀ y, x = some y → 0x80 ≤ y) : nextLexU x (lexState st).edges = nextLex 255 (lexState st).edges :=
  edges_eq (a := nextLexU x) (b := nextLex 255) ⟨rfl, fun _ _ _ _ => rfl⟩ ⟨rfl, fun _ _ _ _ => rfl⟩ (state_edges st) fun _ hr => ranges_high hr hx

theorem next_loop {st st' : Nat} {skip : Bool} (h : nextLex 255 (lexState st).edges = some (st', skip)) : skip = false ∧ nextLex 255 (lexState st').edges = some (st', false) := by
  have := state_ok st
  unfold highOk at this
  rw [h, Bool.and_eq_true] at this
  have := this.2
  simp only [Bool.and_eq_true, Bool.not_eq_true', decide_eq_true_eq] at this
  exact this

/-! ## Tokens -/

theorem mark_mark (st : Nat) (p p' t t' r r' : Bytes) (best : Option Tok) : mark st p t r (mark st p' t' r' best) = mark st p t r best := by
  unfold mark
  cases (lexState st).accept <;> rfl

theorem lexGo_mark (st : Nat) (pad tok p t r : Bytes) (best : Option Tok) (text : Bytes) : lexGo st pad tok (mark st p t r best) text = lexGo st pad tok best text := by
  cases text with
  | nil => simp only [lexGo, mark_mark]
  | cons c cs => simp only [lexGo, mark_mark]

/-- In a state that characters from 128 on lead to they are read one after the other. -/
theorem lexGo_high {st : Nat} (h : nextLex 255 (lexState st).edges = some (st, false)) (pad : Bytes) (best : Option Tok) (rest : Bytes) :
    ∀ (hs tok : Bytes), (∀ b ∈ hs, 0x80 ≤ b.toNat) → lexGo st pad tok best (hs ++ rest) = lexGo st pad (tok ++ hs) best rest := by
  intro hs
  induction hs with
  | nil => intro tok _; simp
  | cons b hs ih =>
    intro tok hb
    have e := next_byte st (hb b (by simp))
    rw [h] at e
    rw [List.cons_append, lexGo]
    simp only [e]
    rw [lexGo_mark, ih _ fun x hx => hb x (by simp [hx])]
    simp

theorem lexGoU_eq : ∀ (text : Bytes) (st : Nat) (pad tok : Bytes) (best : Option Tok), lexGoU st pad tok best text = lexGo st pad tok best text := by
  intro text
  generalize hk : text.length = k
  induction k using Nat.strongRecOn generalizing text with
  | _ k ih =>
    intro st pad tok best
    cases text with
    | nil =>
      rw [lexGoU, lexGo]
      cases (lexState st).eof <;> rfl
    | cons c cs =>
      have hlen : ∀ n, (cs.drop n).length < k := by
        intro n
        simp only [List.length_cons, List.length_drop] at hk ⊢
        omega
      rcases nextChar_cases c cs with ⟨hc, hn⟩ | ⟨hc, x, n, hn, h1, hb, hx⟩
      · rw [lexGoU, lexGo]
        simp only [hn, next_low st hc, Nat.sub_self, List.take_zero, List.drop_zero]
        split <;> rename_i h <;> simp only [h]
        · exact ih _ (hlen 0) _ rfl _ _ _ _
        · exact ih _ (hlen 0) _ rfl _ _ _ _
      · rw [lexGoU, lexGo]
        simp only [hn, next_high st hx, next_byte st hc]
        cases he : nextLex 255 (lexState st).edges with
        | none => rfl
        | some e =>
          obtain ⟨st', skip⟩ := e
          obtain ⟨rfl, hl⟩ := next_loop he
          simp only
          rw [ih _ (hlen (n - 1)) _ rfl]
          have e := lexGo_high hl pad (mark st pad tok (c :: cs) best) (cs.drop (n - 1)) (cs.take (n - 1)) (tok ++ [c]) fun b hb' => hb b (by simp [hb'])
          rw [List.take_append_drop] at e
          rw [e]
          simp

/-- **C117.** Reading character by character, as the lexer does, gives the tokens that reading byte by byte gives. -/
theorem C117_tokens (mode : Nat) (text : Bytes) : lexTokU mode text = lexTok mode text := by
  unfold lexTokU lexTok lexFrom
  rw [lexGoU_eq, lexGoU_eq]
  cases lexGo mode [] [] none text <;> rfl

theorem dropMark_other : ∀ {text : Bytes}, (∀ t, text ≠ 0xEF :: 0xBB :: 0xBF :: t) → dropMark text = text := by
  intro text h
  unfold dropMark
  split
  · exact (h _ rfl).elim
  · rfl

theorem dropMarkU_eq (text : Bytes) : dropMarkU text = dropMark text := by
  cases text with
  | nil => rfl
  | cons c cs =>
    unfold dropMarkU
    rcases hn : nextChar c cs with ⟨x, n⟩
    simp only [hn]
    split
    · rename_i hx
      subst hx
      obtain ⟨-, ⟨r, hr⟩, rfl⟩ := (C117_decodes (bytes_small cs)).1 hn
      have hu : utf8 0xFEFF = [0xEF, 0xBB, 0xBF] := by decide
      rw [hu] at hr
      rcases cs with _ | ⟨d, _ | ⟨e, cs⟩⟩
      · simp at hr
      · simp at hr
      · simp only [List.map_cons, List.cons_append, List.nil_append, List.cons.injEq] at hr
        have h1 : c = 0xEF := UInt8.toNat_inj.1 hr.1.symm
        have h2 : d = 0xBB := UInt8.toNat_inj.1 hr.2.1.symm
        have h3 : e = 0xBF := UInt8.toNat_inj.1 hr.2.2.1.symm
        subst h1 h2 h3
        rw [hu]
        rfl
    · rename_i hx
      refine (dropMark_other fun t e => hx ?_).symm
      cases e
      have : nextChar 0xEF (0xBB :: 0xBF :: t) = (some 0xFEFF, 3) := (C117_decodes (bytes_small _)).2 ⟨.inr (by decide), ⟨t.map (·.toNat), rfl⟩, rfl⟩
      rw [this] at hn
      cases hn
      rfl

/-- **C117, whole scripts.** So the parser finds the same tree, or the same failure. -/
theorem C117_parses (text : Bytes) (o : Outcome) : ParsesU text o ↔ Parses text o := by
  have hs : ∀ c, stepU c = step c := by
    intro c
    unfold stepU step
    simp only [C117_tokens]
    rfl
  have hr : ∀ n c, runU n c = run n c := by
    intro n
    induction n with
    | zero => exact fun _ => rfl
    | succ n ih =>
      intro c
      unfold runU run
      rw [hs]
      cases step c with
      | next c' => exact ih c'
      | stop o => rfl
  unfold ParsesU Parses start
  simp only [hr, dropMarkU_eq]

/-! ## Tokens of texts in UTF-8 -/

theorem Encodes.append {as bs : List Nat} {s t : Bytes} (h : Encodes as s) (h' : Encodes bs t) : Encodes (as ++ bs) (s ++ t) := by
  refine ⟨fun c hc => ?_, by rw [List.map_append, List.flatMap_append, h.2, h'.2]⟩
  rcases List.mem_append.1 hc with hc | hc
  · exact h.1 c hc
  · exact h'.1 c hc

/-- The first character of a text. -/
theorem Encodes.first {d : Nat} {ds : List Nat} {text : Bytes} (h : Encodes (d :: ds) text) :
    ∃ c cs n, text = c :: cs ∧ nextChar c cs = (some d, n) ∧ Encodes [d] (c :: cs.take (n - 1)) ∧ Encodes ds (cs.drop (n - 1)) := by
  obtain ⟨h1, h2⟩ := h
  rw [List.flatMap_cons] at h2
  have hl : 1 ≤ (utf8 d).length := by
    rcases Nat.lt_or_ge d 0x80 with h | h
    · rw [show utf8 d = [d] from if_pos h]; exact Nat.le_refl _
    · exact Nat.le_of_succ_le (utf8_high h).2
  rcases text with _ | ⟨c, cs⟩
  · have := congrArg List.length h2
    simp only [List.map_nil, List.length_nil, List.length_append] at this
    omega
  · have hn : nextChar c cs = (some d, (utf8 d).length) := (C117_decodes (bytes_small cs)).2 ⟨h1 d (by simp), ⟨ds.flatMap utf8, by rw [← h2]; rfl⟩, rfl⟩
    obtain ⟨k, hk⟩ : ∃ k, (utf8 d).length = k + 1 := ⟨(utf8 d).length - 1, by omega⟩
    have hsplit : c :: cs = (c :: cs.take k) ++ cs.drop k := by simp
    have h3 := h2
    rw [hsplit, List.map_append] at h3
    have hlen : ((c :: cs.take k).map (·.toNat)).length = (utf8 d).length := by
      have := congrArg List.length h2
      simp only [List.length_map, List.length_cons, List.length_append, List.length_take] at this ⊢
      omega
    obtain ⟨h4, h5⟩ := List.append_inj h3 hlen
    refine ⟨c, cs, _, rfl, hn, ⟨fun x hx => h1 x (by rw [List.mem_singleton.1 hx]; simp), ?_⟩, fun x hx => h1 x (by simp [hx]), ?_⟩
    · rw [hk, Nat.add_sub_cancel, h4]
      simp
    · rw [hk, Nat.add_sub_cancel, h5]

/-- The token, with what is before and after it, is made of whole characters. -/
def Whole (all : List Nat) (t : Tok) : Prop := ∃ as bs ds, all = as ++ bs ++ ds ∧ Encodes as t.pad ∧ Encodes bs t.text ∧ Encodes ds t.rest

theorem mark_whole {all as bs ds : List Nat} {st : Nat} {pad tok rest : Bytes} {best : Option Tok} (h : all = as ++ bs ++ ds) (ha : Encodes as pad) (hb : Encodes bs tok) (hd : Encodes ds rest)
    (hbest : ∀ t, best = some t → Whole all t) : ∀ t, mark st pad tok rest best = some t → Whole all t := by
  intro t ht
  unfold mark at ht
  split at ht
  · cases ht
    exact ⟨as, bs, ds, h, ha, hb, hd⟩
  · exact hbest t ht

theorem encodes_nil : Encodes [] [] := ⟨fun _ h => (nomatch h), rfl⟩

theorem lexGoU_whole {all : List Nat} : ∀ (ds as bs : List Nat) (text : Bytes) (st : Nat) (pad tok : Bytes) (best : Option Tok), all = as ++ bs ++ ds → Encodes as pad → Encodes bs tok →
    Encodes ds text → (∀ t, best = some t → Whole all t) → ∀ t, lexGoU st pad tok best text = some t → Whole all t := by
  intro ds
  induction ds with
  | nil =>
    intro as bs text st pad tok best h ha hb hd hbest t ht
    have : text = [] := by simpa using hd.2
    subst this
    rw [lexGoU] at ht
    split at ht
    · exact mark_whole h ha hb hd (mark_whole h ha hb hd hbest) t ht
    · exact mark_whole h ha hb hd hbest t ht
  | cons d ds ih =>
    intro as bs text st pad tok best h ha hb hd hbest t ht
    obtain ⟨c, cs, n, rfl, hn, h1, h2⟩ := hd.first
    rw [lexGoU] at ht
    simp only [hn] at ht
    have hm := mark_whole (st := st) h ha hb hd hbest
    split at ht
    · refine ih (as ++ bs ++ [d]) [] _ _ _ _ _ ?_ ((ha.append hb).append h1) encodes_nil h2 hm t ht
      rw [h]; simp
    · refine ih as (bs ++ [d]) _ _ _ _ _ ?_ ha (hb.append h1) h2 hm t ht
      rw [h]; simp
    · exact hm t ht

/-- **C117, tokens of a text in UTF-8.** A token, and the blanks before it, are made of whole characters. -/
theorem C117_whole {mode : Nat} {text : Bytes} {cs : List Nat} (h : Encodes cs text) {t : Tok} (ht : lexTok mode text = some t) : Whole cs t := by
  rw [← C117_tokens] at ht
  unfold lexTokU at ht
  have hw : ∀ st t, lexGoU st [] [] none text = some t → Whole cs t := fun st t => lexGoU_whole cs [] [] text st [] [] none rfl encodes_nil encodes_nil h (fun t h => (nomatch h)) t
  split at ht
  · rename_i t' h'
    cases ht
    exact hw _ _ h'
  · exact hw _ _ ht

theorem Lexed.whole {ls : List (Nat × Bytes × Bytes)} {text rest : Bytes} (h : Lexed ls text rest) {cs : List Nat} (hc : Encodes cs text) :
    ∃ (ps : List (List Nat × List Nat)) (ds : List Nat), List.Forall₂ (fun p l => Encodes p.1 l.2.1 ∧ Encodes p.2 l.2.2) ps ls ∧ cs = (ps.flatMap fun p => p.1 ++ p.2) ++ ds ∧ Encodes ds rest := by
  induction h with
  | nil => exact ⟨[], cs, .nil, rfl, hc⟩
  | snoc _ _ _ ht ih =>
    obtain ⟨ps, ds, h1, h2, h3⟩ := ih hc
    obtain ⟨as, bs, ds', h4, h5, h6, h7⟩ := C117_whole h3 ht
    refine ⟨ps ++ [(as, bs)], ds', ?_, ?_, h7⟩
    · exact List.rel_append h1 (.cons ⟨h5, h6⟩ .nil)
    · rw [h2, h4]
      simp

/-- **C117, trees of texts in UTF-8.** The characters of an accepted script are divided among its tokens and the blanks before them, each of which is a text of whole characters. -/
theorem C117_tree {text : Bytes} {t : Tree} (h : ParsesU text (.tree t)) {cs : List Nat} (hc : Encodes cs (dropMarkU text)) :
    ∃ (ps : List (List Nat × List Nat)) (ds : List Nat), List.Forall₂ (fun p l => Encodes p.1 l.2.1 ∧ Encodes p.2 l.2.2) ps t.leaves ∧ cs = (ps.flatMap fun p => p.1 ++ p.2) ++ ds := by
  rw [C117_parses] at h
  rw [dropMarkU_eq] at hc
  obtain ⟨rest, h⟩ := parses_lexed h
  obtain ⟨ps, ds, h1, h2, -⟩ := h.whole hc
  exact ⟨ps, ds, h1, h2⟩

end Bob.Parse
