import Verif.Props.FlOps
/-!
# Vector indexing and number literals (C50, C57)
-/

namespace Bob.Fl

/-! ## C50 -/

/-- Container `e` and index `ie` have been evaluated in that order, to `c` and `i`, which hold `dc` and `di` afterwards; `c` was of the same kind
before the index was evaluated. -/
structure Indexed (w : World) (n : Nat) (e ie : Expr) (s s2 : St) (c i : Nat) (dc di : Data) : Prop where
  eval : ∃ s1 rc ri d0, (interp w n).eval .keep e s = .ok rc s1 ∧ rc.val = some c ∧ s1.Holds c d0 ∧ d0.kind = dc.kind ∧
    (interp w n).eval .keep ie s1 = .ok ri s2 ∧ ri.val = some i
  cont : s2.Holds c dc
  idx : s2.Holds i di

theorem evalIndex_vec {w : World} {n : Nat} {e ie : Expr} {s s2 : St} {c i : Nat} {es : List Nat} {k : Int} (h : Indexed w n e ie s s2 c i (.vec es) (.int k))
    {d : Dest} (hd : Wanted d s2) :
    (interp w (n + 1)).eval d (.index e ie) s = ((match vecIdx es.length k with
      | .out => raise (b!"index " ++ decInt k ++ b!" is out of bounds for vector of size " ++ dec es.length)
      | .ub => M.ub .overflow
      | .ok k => do
        let v ← M.deref es[k]?
        incref v
        pure (some v)) >>= fun v => pure { val := v } : M Res) s2 := by
  obtain ⟨⟨s1, rc, ri, d0, h1, h2, h3, h4, h5, h6⟩, h7, h8⟩ := h
  obtain ⟨x0, hx0, rfl⟩ := getCell_holds h3
  obtain ⟨x, hx, hxd⟩ := getCell_holds h7
  obtain ⟨y, hy, hyd⟩ := getCell_holds h8
  show (evalIndex (interp w n) d e ie >>= fun v => pure { val := v } : M Res) s = _
  rw [bind_apply, bind_apply]
  have : evalIndex (interp w n) d e ie s = (match vecIdx es.length k with
      | .out => raise (b!"index " ++ decInt k ++ b!" is out of bounds for vector of size " ++ dec es.length)
      | .ub => M.ub .overflow
      | .ok k => do
        let v ← M.deref es[k]?
        incref v
        pure (some v)) s2 := by
    unfold evalIndex
    have hk0 : x0.data.kind = .vec := h4
    rw [bind_of_ok (value_ok h1 h2), bind_of_ok hx0, if_neg (by rw [hk0]; simp), bind_of_ok (value_ok h5 h6), bind_of_ok hy]
    rw [if_neg (by rw [hyd]; simp [Data.kind]), if_neg hd.1, bind_of_ok (checkDest_wanted hd), bind_of_ok hx]
    rw [bind_of_ok (a := ()) ((deref_ok_iff ..).2 ⟨by rw [hxd, hk0]; rfl, rfl⟩), hxd, hyd]
    rfl
  rw [this]

/-- C50.  An index from the front. -/
theorem C50_from_front (w : World) (n : Nat) {e ie : Expr} {s s2 : St} {c i v : Nat} {es : List Nat} {k : Int} {y : Cell} {d : Dest}
    (h : Indexed w n e ie s s2 c i (.vec es) (.int k)) (hd : Wanted d s2) (h0 : 0 ≤ k) (hv : es[k.toNat]? = some v) (hy : s2.cells[v]? = some y)
    (hr : y.refs ≠ 0) :
    (interp w (n + 1)).eval d (.index e ie) s = .ok { val := some v } { s2 with cells := s2.cells.set v { y with refs := y.refs + 1 } } := by
  have hlt := (List.getElem?_eq_some_iff.1 hv).1
  rw [evalIndex_vec h hd]
  have hi : vecIdx es.length k = .ok k.toNat := by
    unfold vecIdx
    rw [if_pos h0, if_neg (by omega)]
  have hinc : incref v s2 = .ok () { s2 with cells := s2.cells.set v { y with refs := y.refs + 1 } } := by
    unfold incref
    rw [bind_of_ok ((getCell_ok_iff ..).2 ⟨hy, rfl⟩), bind_of_ok (a := ()) ((assert_ok_iff ..).2 ⟨by simpa using hr, rfl⟩)]
    rfl
  rw [hi]
  simp only
  rw [bind_of_ok (a := some v) (s1 := { s2 with cells := s2.cells.set v { y with refs := y.refs + 1 } })]
  · rfl
  · rw [bind_of_ok ((deref_ok_iff ..).2 ⟨hv, rfl⟩), bind_of_ok hinc]
    rfl

/-- C50.  An index from the back: `-1` is the last element. -/
theorem C50_from_back (w : World) (n : Nat) {e ie : Expr} {s s2 : St} {c i v : Nat} {es : List Nat} {k : Int} {y : Cell} {d : Dest}
    (h : Indexed w n e ie s s2 c i (.vec es) (.int k)) (hd : Wanted d s2) (h0 : k < 0) (hk : -(es.length : Int) ≤ k) (hk64 : -9223372036854775808 < k)
    (hv : es[(es.length + k).toNat]? = some v) (hy : s2.cells[v]? = some y) (hr : y.refs ≠ 0) :
    (interp w (n + 1)).eval d (.index e ie) s = .ok { val := some v } { s2 with cells := s2.cells.set v { y with refs := y.refs + 1 } } := by
  rw [evalIndex_vec h hd]
  have hi : vecIdx es.length k = .ok (es.length + k).toNat := by
    unfold vecIdx
    rw [if_neg (by omega), if_pos ((fits_iff _).2 ⟨by omega, by omega⟩), if_neg (by omega)]
    congr 1
    omega
  have hinc : incref v s2 = .ok () { s2 with cells := s2.cells.set v { y with refs := y.refs + 1 } } := by
    unfold incref
    rw [bind_of_ok ((getCell_ok_iff ..).2 ⟨hy, rfl⟩), bind_of_ok (a := ()) ((assert_ok_iff ..).2 ⟨by simpa using hr, rfl⟩)]
    rfl
  rw [hi]
  simp only
  rw [bind_of_ok (a := some v) (s1 := { s2 with cells := s2.cells.set v { y with refs := y.refs + 1 } })]
  · rfl
  · rw [bind_of_ok ((deref_ok_iff ..).2 ⟨hv, rfl⟩), bind_of_ok hinc]
    rfl

/-- C50.  Any other index is refused, without looking at any element. -/
theorem C50_out_of_bounds (w : World) (n : Nat) {e ie : Expr} {s s2 : St} {c i : Nat} {es : List Nat} {k : Int} {d : Dest}
    (h : Indexed w n e ie s s2 c i (.vec es) (.int k)) (hd : Wanted d s2) (hk : (es.length : Int) ≤ k ∨ k < -(es.length : Int))
    (hk64 : -9223372036854775808 < k) (hk64' : k < 9223372036854775808) :
    Refused (b!"index " ++ decInt k ++ b!" is out of bounds for vector of size " ++ dec es.length) s2 ((interp w (n + 1)).eval d (.index e ie) s) := by
  rw [evalIndex_vec h hd]
  refine refused_bind ?_
  have hi : vecIdx es.length k = .out := by
    unfold vecIdx
    by_cases h0 : 0 ≤ k
    · rw [if_pos h0, if_pos (by omega)]
    · rw [if_neg h0, if_pos ((fits_iff _).2 ⟨by omega, by omega⟩), if_pos (by omega)]
  rw [hi]
  exact refused_raise _ _

/-- C50.  The smallest integer is negated, which is undefined. -/
theorem C50_smallest_index (w : World) (n : Nat) {e ie : Expr} {s s2 : St} {c i : Nat} {es : List Nat} {d : Dest}
    (h : Indexed w n e ie s s2 c i (.vec es) (.int (-9223372036854775808))) (hd : Wanted d s2) :
    (interp w (n + 1)).eval d (.index e ie) s = .ub { s2 with cause := .overflow } := by
  rw [evalIndex_vec h hd]
  have hi : vecIdx es.length (-9223372036854775808) = .ub := by
    unfold vecIdx
    rw [if_neg (by omega), if_neg (fun hf => ?_)]
    have := (fits_iff _).1 hf
    unfold In64 at this
    omega
  rw [hi]
  rfl

/-- C50.  Something that is neither a vector nor a map cannot be indexed, and a vector only by integers. -/
theorem C50_kinds (w : World) (n : Nat) {e ie : Expr} {s s1 : St} {c : Nat} {rc : Res} {d0 : Data} {d : Dest}
    (h1 : (interp w n).eval .keep e s = .ok rc s1) (h2 : rc.val = some c) (h3 : s1.Holds c d0) :
    (d0.kind ≠ .vec → d0.kind ≠ .map →
      Refused (b!"can only index vectors and maps, got " ++ typeStr d0) s1 ((interp w (n + 1)).eval d (.index e ie) s)) ∧
    ∀ s2 ri i di, (interp w n).eval .keep ie s1 = .ok ri s2 → ri.val = some i → s2.Holds i di → d0.kind = .vec → di.kind ≠ .int →
      Refused (b!"can only use integers as indices, got " ++ typeStr di) s2 ((interp w (n + 1)).eval d (.index e ie) s) := by
  obtain ⟨x0, hx0, rfl⟩ := getCell_holds h3
  refine ⟨fun hv hm => ?_, fun s2 ri i di h5 h6 h7 hv hi => ?_⟩
  · show Refused _ s1 ((evalIndex (interp w n) d e ie >>= fun v => pure { val := v } : M Res) s)
    have : evalIndex (interp w n) d e ie s = raise (b!"can only index vectors and maps, got " ++ typeStr x0.data) s1 := by
      unfold evalIndex
      rw [bind_of_ok (value_ok h1 h2), bind_of_ok hx0, if_pos ⟨hv, hm⟩]
    rw [bind_apply, this]
    rcases refused_raise (α := Option Nat) (b!"can only index vectors and maps, got " ++ typeStr x0.data) s1 with ⟨h, hl⟩ | ⟨h, hl⟩ <;> rw [h]
    · exact Or.inl ⟨rfl, hl⟩
    · exact Or.inr ⟨rfl, hl⟩
  · obtain ⟨y, hy, rfl⟩ := getCell_holds h7
    show Refused _ s2 ((evalIndex (interp w n) d e ie >>= fun v => pure { val := v } : M Res) s)
    have : evalIndex (interp w n) d e ie s = raise (b!"can only use integers as indices, got " ++ typeStr y.data) s2 := by
      unfold evalIndex
      rw [bind_of_ok (value_ok h1 h2), bind_of_ok hx0, if_neg (by rw [hv]; simp), bind_of_ok (value_ok h5 h6), bind_of_ok hy, if_pos ⟨hv, hi⟩]
    rw [bind_apply, this]
    rcases refused_raise (α := Option Nat) (b!"can only use integers as indices, got " ++ typeStr y.data) s2 with ⟨h, hl⟩ | ⟨h, hl⟩ <;> rw [h]
    · exact Or.inl ⟨rfl, hl⟩
    · exact Or.inr ⟨rfl, hl⟩

example : (runScript emptyWorld 10 [] [sLet b!"v" (.vec [eNum b!"5", eNum b!"6", eNum b!"7"]), sPrint (.index (eVar b!"v") (eNum b!"0")),
    sPrint (.index (eVar b!"v") (.un .neg (eNum b!"1"))), sPrint (.index (eVar b!"v") (.un .neg (eNum b!"3"))), sPrint (.index (eVar b!"v") (eNum b!"3"))]).failed =
    some (some b!"index 3 is out of bounds for vector of size 3", [b!"5", b!"7", b!"5"]) := by
  decide +kernel

/-! ## C57 -/

/-- A decimal digit. -/
def IsDigit (c : UInt8) : Prop := 48 ≤ c.toNat ∧ c.toNat ≤ 57

/-- The number a text of digits and underscores stands for. -/
def numeral (t : Bytes) : Nat := Nat.ofDigits 10 ((t.filter fun c => c ≠ 95).map fun c => c.toNat - 48).reverse

theorem numeral_cons (c : UInt8) (t : Bytes) :
    numeral (c :: t) = (if c = 95 then 0 else (c.toNat - 48) * 10 ^ (t.filter fun c => c ≠ 95).length) + numeral t := by
  unfold numeral
  by_cases h : c = 95
  · simp [h]
  · rw [List.filter_cons_of_pos (by simpa using h), List.map_cons, List.reverse_cons, Nat.ofDigits_append, if_neg h]
    simp [Nat.ofDigits_singleton, Nat.mul_comm, Nat.add_comm]

theorem digit_test {c : UInt8} (h : IsDigit c) : (c < 48 || 57 < c) = false := by
  simp only [Bool.or_eq_false_iff, decide_eq_false_iff_not, UInt8.not_lt, UInt8.le_iff_toNat_le]
  exact ⟨h.1, h.2⟩

theorem not_digit_test {c : UInt8} (h : ¬ IsDigit c) : (c < 48 || 57 < c) = true := by
  rw [Bool.or_eq_true, decide_eq_true_eq, decide_eq_true_eq, UInt8.lt_iff_toNat_lt, UInt8.lt_iff_toNat_lt]
  unfold IsDigit at h
  show c.toNat < 48 ∨ 57 < c.toNat
  omega

/-- Reading on from `acc`. -/
theorem parseNum_acc : ∀ (t : Bytes) (acc : Nat), (∀ c ∈ t, c = 95 ∨ IsDigit c) → acc < 9223372036854775808 →
    parseNum t acc = if acc * 10 ^ (t.filter fun c => c ≠ 95).length + numeral t < 9223372036854775808 then
      .ok ((acc * 10 ^ (t.filter fun c => c ≠ 95).length + numeral t : Nat) : Int) else .overflow
  | [], acc, _, h => by simp [parseNum, numeral, h]
  | c :: t, acc, ht, h => by
    have ht' : ∀ c ∈ t, c = 95 ∨ IsDigit c := fun c hc => ht c (List.mem_cons_of_mem _ hc)
    unfold parseNum
    by_cases hc : c = 95
    · rw [if_pos (by rw [hc]), parseNum_acc t acc ht' h, numeral_cons, if_pos hc]
      simp [hc]
    · have hd : IsDigit c := (ht c (List.mem_cons_self ..)).resolve_left hc
      rw [if_neg (by exact hc), digit_test hd, if_neg (by decide), numeral_cons, if_neg hc, List.filter_cons_of_pos (by simpa using hc), List.length_cons]
      generalize hL : (t.filter fun c => c ≠ 95).length = L
      generalize hD : c.toNat - 48 = D
      have hD9 : D ≤ 9 := by have := hd.2; omega
      have hpow : 1 ≤ 10 ^ L := Nat.one_le_pow _ _ (by decide)
      have hval : acc * 10 ^ (L + 1) + (D * 10 ^ L + numeral t) = (acc * 10 + D) * 10 ^ L + numeral t := by ring
      rw [hval]
      by_cases hf : acc * 10 + D < 9223372036854775808
      · have hfit : (fits ((acc : Int) * 10) && fits ((acc : Int) * 10 + (D : Nat))) = true := by
          rw [Bool.and_eq_true, fits_iff, fits_iff]
          unfold In64
          omega
        rw [if_pos hfit]
        have := parseNum_acc t (acc * 10 + D) ht' hf
        rw [hL] at this
        exact_mod_cast this
      · have hfit : ¬ (fits ((acc : Int) * 10) && fits ((acc : Int) * 10 + (D : Nat))) = true := by
          rw [Bool.and_eq_true, fits_iff, fits_iff]
          unfold In64
          omega
        rw [if_neg hfit, if_neg]
        have : (acc * 10 + D) * 1 ≤ (acc * 10 + D) * 10 ^ L := Nat.mul_le_mul_left _ hpow
        omega

/-- C57.  A literal of digits and underscores denotes the decimal number of its digits if that is below 2^63; otherwise it overflows. -/
theorem C57_digits (t : Bytes) (ht : ∀ c ∈ t, c = 95 ∨ IsDigit c) :
    parseNum t 0 = if numeral t < 9223372036854775808 then .ok (numeral t : Int) else .overflow := by
  have := parseNum_acc t 0 ht (by decide)
  simpa using this

/-- C57.  Evaluating such a literal gives a new integer with that value, or is undefined. -/
theorem C57_literal (w : World) (n : Nat) (t : Bytes) (ht : ∀ c ∈ t, c = 95 ∨ IsDigit c) {d : Dest} {s : St} (hd : Wanted d s) :
    (numeral t < 9223372036854775808 → Yields (.int (numeral t)) s ((interp w (n + 1)).eval d (.lit (.num t)) s)) ∧
    (9223372036854775808 ≤ numeral t → (interp w (n + 1)).eval d (.lit (.num t)) s = .ub { s with cause := .overflow }) := by
  have h0 : (interp w (n + 1)).eval d (.lit (.num t)) s = (evalLit (.num t) >>= fun c => pure { val := some c } : M Res) s := by
    show (if d = Dest.discard then raise b!"unknown expression type: literal" else do
      checkDest d
      let c ← evalLit (.num t)
      pure { val := some c } : M Res) s = _
    rw [if_neg hd.1, bind_of_ok (checkDest_wanted hd)]
  rw [h0]
  unfold evalLit
  simp only
  rw [C57_digits t ht]
  refine ⟨fun h => ?_, fun h => ?_⟩
  · rw [if_pos h]
    exact ⟨_, _, rfl, holds_alloc .., Nat.le_refl _, (q_alloc _).out (alloc_apply ..)⟩
  · rw [if_neg (by omega)]
    rfl

/-- C57.  Any other character is refused. -/
theorem C57_bad_character (w : World) (n : Nat) (pre post : Bytes) (c : UInt8) (ht : ∀ c ∈ pre, c = 95 ∨ IsDigit c)
    (hv : numeral pre < 9223372036854775808) (hc : c ≠ 95 ∧ ¬ IsDigit c) {d : Dest} {s : St} (hd : Wanted d s) :
    Refused (b!"number literals can only contain decimal digits (got '" ++ [c] ++ b!"')") s ((interp w (n + 1)).eval d (.lit (.num (pre ++ c :: post))) s) := by
  have key : ∀ (pre : Bytes) (acc : Nat), (∀ c ∈ pre, c = 95 ∨ IsDigit c) → acc * 10 ^ (pre.filter fun c => c ≠ 95).length + numeral pre < 9223372036854775808 →
      parseNum (pre ++ c :: post) acc = .bad c := by
    intro pre
    induction pre with
    | nil =>
      intro acc _ _
      show parseNum (c :: post) acc = .bad c
      unfold parseNum
      rw [if_neg (by exact hc.1), not_digit_test hc.2, if_pos rfl]
    | cons a pre ih =>
      intro acc hp hv
      have hp' : ∀ c ∈ pre, c = 95 ∨ IsDigit c := fun c hc => hp c (List.mem_cons_of_mem _ hc)
      show parseNum (a :: (pre ++ c :: post)) acc = .bad c
      unfold parseNum
      by_cases ha : a = 95
      · rw [if_pos (by rw [ha])]
        refine ih acc hp' ?_
        rw [numeral_cons, if_pos ha] at hv
        simpa [ha] using hv
      · have hd : IsDigit a := (hp a (List.mem_cons_self ..)).resolve_left ha
        rw [if_neg (by exact ha), digit_test hd, if_neg (by decide)]
        rw [numeral_cons, if_neg ha, List.filter_cons_of_pos (by simpa using ha), List.length_cons] at hv
        generalize hD : a.toNat - 48 = D at *
        generalize hL : (pre.filter fun c => c ≠ 95).length = L at *
        have hval : acc * 10 ^ (L + 1) + (D * 10 ^ L + numeral pre) = (acc * 10 + D) * 10 ^ L + numeral pre := by ring
        rw [hval] at hv
        have hpow : 1 ≤ 10 ^ L := Nat.one_le_pow _ _ (by decide)
        have : (acc * 10 + D) * 1 ≤ (acc * 10 + D) * 10 ^ L := Nat.mul_le_mul_left _ hpow
        have hfit : (fits ((acc : Int) * 10) && fits ((acc : Int) * 10 + (D : Nat))) = true := by
          rw [Bool.and_eq_true, fits_iff, fits_iff]
          unfold In64
          omega
        rw [if_pos hfit]
        have := ih (acc * 10 + D) hp' hv
        exact_mod_cast this
  show Refused _ s ((if d = Dest.discard then raise b!"unknown expression type: literal" else do
      checkDest d
      let c ← evalLit (.num (pre ++ c :: post))
      pure { val := some c } : M Res) s)
  rw [if_neg hd.1, bind_of_ok (checkDest_wanted hd)]
  refine refused_bind ?_
  unfold evalLit
  simp only
  rw [show parseNum (pre ++ c :: post) 0 = .bad c from key pre 0 ht (by simpa using hv)]
  exact refused_raise _ _

example : numeral b!"1_000" = 1000 := by decide

example : (runScript emptyWorld 10 [] [sPrint (eNum b!"1_000"), sPrint (eNum b!"9223372036854775807")]).printed = some [b!"1000", b!"9223372036854775807"] := by
  decide +kernel

example : (runScript emptyWorld 10 [] [sPrint (eNum b!"9223372036854775808")]).isUb = true := by decide +kernel

end Bob.Fl
