import Verif.Lemmas.FlQuiet
import Verif.Props.FlNames
import Mathlib.Data.Nat.Digits.Defs
/-!
# Operators, literals and indexing (C50–C53, C56, C57)
-/

namespace Bob.Fl

/-! ## Common ground -/

/-- The operands of a binary operator have been evaluated, left first, each from the state the one before left; afterwards they hold
`dl` and `dr`. -/
structure Operands (w : World) (n : Nat) (le re : Expr) (s s2 : St) (l r : Nat) (dl dr : Data) : Prop where
  eval : ∃ s1 rl rr, (interp w n).eval .keep le s = .ok rl s1 ∧ rl.val = some l ∧ (interp w n).eval .keep re s1 = .ok rr s2 ∧ rr.val = some r
  left : s2.Holds l dl
  right : s2.Holds r dr

/-- Somebody wants the value, and has room for it. -/
def Wanted (d : Dest) (s : St) : Prop := d ≠ .discard ∧ (d = .ret → s.eng.rv = .none)

/-- The evaluation gave a new value holding `d`, and did nothing else that could be noticed. -/
def Yields (d : Data) (s : St) (o : Out Res) : Prop := ∃ c s', o = .ok { val := some c } s' ∧ s'.Holds c d ∧ s.cells.length ≤ c ∧ Quiet s s'

theorem value_ok {w : World} {n : Nat} {e : Expr} {s s1 : St} {r : Res} {c : Nat} (h : (interp w n).eval .keep e s = .ok r s1) (hc : r.val = some c) :
    (interp w n).value e s = .ok c s1 := by
  unfold Rec.value
  rw [bind_of_ok h]
  exact (deref_ok_iff ..).2 ⟨hc, rfl⟩

theorem checkDest_wanted {d : Dest} {s : St} (h : Wanted d s) : checkDest d s = .ok () s := by
  unfold checkDest
  cases d with
  | ret =>
    have hr := h.2 rfl
    simp only
    rw [bind_of_ok (show getRv s = .ok s.eng.rv s from rfl)]
    exact (assert_ok_iff ..).2 ⟨by rw [hr]; rfl, rfl⟩
  | _ => rfl

theorem evalBin_eq {w : World} {n : Nat} {le re : Expr} {s s2 : St} {l r : Nat} {dl dr : Data} (h : Operands w n le re s s2 l r dl dr) (op : BinOp)
    {d : Dest} (hd : Wanted d s2) (hk : dl.kind = dr.kind ∨ dl.kind = .none ∨ dr.kind = .none) :
    (interp w (n + 1)).eval d (.bin op le re) s = (do
      let v ← applyBin w (interp w n) op l r dl dr
      (interp w n).dec l
      (interp w n).dec r
      pure { val := some v } : M Res) s2 := by
  obtain ⟨⟨s1, rl, rr, h1, h2, h3, h4⟩, h5, h6⟩ := h
  obtain ⟨xl, hl, rfl⟩ := getCell_holds h5
  obtain ⟨xr, hr, rfl⟩ := getCell_holds h6
  show evalBin w (interp w n) d op le re s = _
  unfold evalBin
  rw [bind_of_ok (value_ok h1 h2), bind_of_ok (value_ok h3 h4), bind_of_ok hl, bind_of_ok hr]
  rw [if_neg (fun hc => ?_), if_neg hd.1, bind_of_ok (checkDest_wanted hd)]
  rcases hk with hk | hk | hk
  · exact hc.1 hk
  · exact hc.2.1 hk
  · exact hc.2.2 hk

/-- Values which own nothing. -/
def Data.plain : Data → Bool
  | .str _ _ => false
  | .fn _ => false
  | .inst _ => false
  | _ => true

theorem dec_plain_eq (w : World) (n : Nat) {s : St} {c : Nat} {d : Data} (h : s.Holds c d) (hp : d.plain = true) :
    ∃ x r, s.cells[c]? = some x ∧ x.data = d ∧ (interp w (n + 1)).dec c s = .ok () { s with cells := s.cells.set c { x with refs := r } } := by
  obtain ⟨x, hx, rfl⟩ := h
  refine ⟨x, if x.refs = 0 then 18446744073709551615 else x.refs - 1, hx, rfl, ?_⟩
  show stepDec (interp w n).dec c s = _
  unfold stepDec
  rw [bind_of_ok ((getCell_ok_iff ..).2 ⟨hx, rfl⟩)]
  generalize hr : (if x.refs = 0 then 18446744073709551615 else x.refs - 1) = r
  rw [bind_of_ok (setCell_apply ..)]
  have hx' : (s.cells.set c { x with refs := r })[c]? = some { x with refs := r } := List.getElem?_set_self (List.getElem?_eq_some_iff.1 hx).1
  by_cases h0 : r = 0
  · rw [if_pos h0]
    unfold freeVal
    rw [bind_of_ok ((getCell_ok_iff ..).2 ⟨hx', rfl⟩)]
    cases hd : x.data <;> simp [hd, Data.plain] at hp ⊢
  · rw [if_neg h0]
    rfl

theorem dec_plain (w : World) (n : Nat) {s : St} {c : Nat} {d : Data} (h : s.Holds c d) (hp : d.plain = true) :
    ∃ s', (interp w (n + 1)).dec c s = .ok () s' := by
  obtain ⟨_, _, _, _, h⟩ := dec_plain_eq w n h hp
  exact ⟨_, h⟩

theorem q_applyBin (w : World) (n : Nat) (op : BinOp) (l r : Nat) (dl dr : Data) : Keeps Quiet (applyBin w (interp w n) op l r dl dr) := by
  have hs : ∀ l r, Keeps Quiet ((interp w n).eq l r) := fun l r => (same_eq w n l r).weaken fun s s' h => by rw [h]; exact trnQ.refl s
  have heq : ∀ d, Keeps Quiet (equality (interp w n) op d l r) := by
    intro d
    unfold equality
    split
    · exact keeps_bind trnQ (hs _ _) fun _ => q_alloc _
    · exact keeps_bind trnQ (hs _ _) fun _ => q_alloc _
    · exact keeps_raise _
  have hop : ∀ d o, Keeps Quiet (opResult op d o) := by
    intro d o
    unfold opResult
    split
    · exact q_alloc _
    · exact q_alloc _
    · exact keeps_raise _
    · exact keeps_ub
    · exact keeps_raise _
  have hcp : ∀ e, Keeps Quiet (copyEntry e) := fun e =>
    keeps_bind trnQ (q_valCopy _) fun _ => keeps_bind trnQ (q_valCopy _) fun _ => keeps_pure trnQ _
  unfold applyBin
  split
  · split
    · exact q_alloc _
    · exact q_alloc _
    · exact keeps_raise _
  · split
    · exact hop _ _
    · exact hop _ _
    · split
      · exact keeps_bind trnQ (keeps_readBuf trnQ _ _) fun _ => keeps_bind trnQ (keeps_readBuf trnQ _ _) fun _ => q_allocStr _
      · exact heq _
    · split
      · exact keeps_bind trnQ (keeps_each trnQ q_valCopy _) fun _ =>
          keeps_bind trnQ (keeps_each trnQ q_valCopy _) fun _ => q_alloc _
      · exact heq _
    · split
      · exact keeps_bind trnQ (keeps_each trnQ hcp _) fun _ => keeps_bind trnQ (keeps_each trnQ hcp _) fun _ => q_alloc _
      · exact heq _
    · exact keeps_raise _

/-- After the operator, plain operands are released without further effect. -/
theorem yields_of_apply {w : World} {n : Nat} {s s' : St} {l r v : Nat} {dl dr d : Data} {m : M Nat} (hl : s.Holds l dl) (hr : s.Holds r dr) (hpl : dl.plain = true)
    (hpr : dr.plain = true) (hm : m s = .ok v s') (hv : s'.Holds v d) (hnew : s.cells.length ≤ v) (hq : Quiet s s') :
    Yields d s ((do
      let v ← m
      (interp w (n + 1)).dec l
      (interp w (n + 1)).dec r
      pure { val := some v } : M Res) s) := by
  rw [bind_of_ok hm]
  obtain ⟨s1, h1⟩ := dec_plain w n (hq.holds _ _ hl) hpl
  have q1 := (q_dec w (n + 1) l).out h1
  obtain ⟨s2, h2⟩ := dec_plain w n (q1.holds _ _ (hq.holds _ _ hr)) hpr
  have q2 := (q_dec w (n + 1) r).out h2
  rw [bind_of_ok h1, bind_of_ok h2]
  exact ⟨v, s2, rfl, q2.holds _ _ (q1.holds _ _ hv), hnew, trnQ.trans hq (trnQ.trans q1 q2)⟩

theorem yields_alloc {w : World} {n : Nat} {s : St} {l r : Nat} {dl dr : Data} (d : Data) (hl : s.Holds l dl) (hr : s.Holds r dr) (hpl : dl.plain = true)
    (hpr : dr.plain = true) :
    Yields d s ((do
      let v ← alloc d
      (interp w (n + 1)).dec l
      (interp w (n + 1)).dec r
      pure { val := some v } : M Res) s) :=
  yields_of_apply hl hr hpl hpr (alloc_apply ..) (holds_alloc ..) (Nat.le_refl _) ((q_alloc d).out (alloc_apply ..))

/-! ## C51 -/

/-- A 64-bit integer. -/
def In64 (z : Int) : Prop := -9223372036854775808 ≤ z ∧ z < 9223372036854775808

/-- `q` is `a / b` rounded towards zero: what is left over is smaller than `b` and has the sign of `a`. -/
def TruncDiv (a b q : Int) : Prop := (a - q * b).natAbs < b.natAbs ∧ 0 ≤ a * (a - q * b)

/-- The result of an operator in the integers. -/
inductive Math : BinOp → Int → Int → Int → Prop where
  | add : Math .add a b (a + b)
  | sub : Math .sub a b (a - b)
  | mul : Math .mul a b (a * b)
  | div : TruncDiv a b q → Math .div a b q
  | mod : TruncDiv a b q → Math .mod a b (a - q * b)

theorem fits_iff (z : Int) : fits z = true ↔ In64 z := by
  unfold fits In64
  simp only [Bool.and_eq_true, decide_eq_true_eq]
  omega

theorem truncDiv_tdiv {a b : Int} (hb : b ≠ 0) : TruncDiv a b (a.tdiv b) := by
  have h : a - a.tdiv b * b = a.tmod b := by
    have := Int.tmod_add_mul_tdiv a b
    rw [Int.mul_comm] at this
    omega
  unfold TruncDiv
  rw [h]
  refine ⟨?_, ?_⟩
  · rw [Int.natAbs_tmod]
    exact Nat.mod_lt _ (Int.natAbs_pos.2 hb)
  · rcases Int.le_total 0 a with ha | ha
    · exact Int.mul_nonneg ha (Int.tmod_nonneg b ha)
    · have : (-a).tmod b = -(a.tmod b) := Int.neg_tmod ..
      have h2 := Int.tmod_nonneg b (a := -a) (by omega)
      rw [this] at h2
      exact Int.mul_nonneg_of_nonpos_of_nonpos ha (by omega)

theorem truncDiv_unique {a b q q' : Int} (h : TruncDiv a b q) (h' : TruncDiv a b q') : q = q' := by
  have hb : b ≠ 0 := by
    rintro rfl
    have := h.1
    simp at this
  obtain ⟨h1, h2⟩ := h
  obtain ⟨h3, h4⟩ := h'
  have small : ∀ z : Int, (z * b).natAbs < b.natAbs → z = 0 := by
    intro z hz
    rw [Int.natAbs_mul] at hz
    by_contra hc
    have : 1 * b.natAbs ≤ z.natAbs * b.natAbs := Nat.mul_le_mul_right _ (by omega)
    omega
  by_cases ha0 : a = 0
  · subst ha0
    have e1 := small q (by simpa using h1)
    have e2 := small q' (by simpa using h3)
    omega
  -- the two remainders have the sign of `a`, so their difference is smaller than `b`
  have hr : (a - q * b) - (a - q' * b) = (q' - q) * b := by ring
  generalize a - q * b = r at *
  generalize a - q' * b = r' at *
  have hlt : (r - r').natAbs < b.natAbs := by
    rcases Int.lt_trichotomy a 0 with ha | ha | ha
    · have e1 : r ≤ 0 := by
        by_contra hc
        have := Int.mul_neg_of_neg_of_pos ha (by omega : 0 < r)
        omega
      have e2 : r' ≤ 0 := by
        by_contra hc
        have := Int.mul_neg_of_neg_of_pos ha (by omega : 0 < r')
        omega
      omega
    · exact absurd ha ha0
    · have e1 : 0 ≤ r := by
        by_contra hc
        have := Int.mul_neg_of_pos_of_neg ha (by omega : r < 0)
        omega
      have e2 : 0 ≤ r' := by
        by_contra hc
        have := Int.mul_neg_of_pos_of_neg ha (by omega : r' < 0)
        omega
      omega
  rw [hr] at hlt
  have := small _ hlt
  omega

theorem Math.unique {op : BinOp} {a b z z' : Int} (h : Math op a b z) (h' : Math op a b z') : z = z' := by
  cases h with
  | add => cases h'; rfl
  | sub => cases h'; rfl
  | mul => cases h'; rfl
  | div hq => cases h' with
    | div hq' => exact truncDiv_unique hq hq'
  | mod hq => cases h' with
    | mod hq' => rw [truncDiv_unique hq hq']

/-- What may come out of an operator on 64-bit integers `a` and `b`. -/
inductive Arith (op : BinOp) (a b : Int) (s : St) (o : Out Res) : Prop where
  /-- The mathematical result, if it is a 64-bit integer (for the remainder: and the quotient is one). -/
  | exact (z : Int) (hz : Math op a b z) (hin : In64 z) (hm : op = .mod → ∀ q, TruncDiv a b q → In64 q) (ho : Yields (.int z) s o)
  /-- An error for a zero divisor. -/
  | divZero (hop : op = .div) (hb : b = 0) (ho : Refused b!"division by zero" s o)
  | modZero (hop : op = .mod) (hb : b = 0) (ho : Refused b!"modulo by zero" s o)
  /-- Undefined behaviour if the result does not fit. -/
  | overflow (z : Int) (hz : Math op a b z) (hout : ¬ In64 z) (ho : o = .ub { s with cause := .overflow })
  | modOverflow (q : Int) (hop : op = .mod) (hq : TruncDiv a b q) (hout : ¬ In64 q) (ho : o = .ub { s with cause := .overflow })

theorem applyBin_int (w : World) (R : Rec) (op : BinOp) (l r : Nat) (a b : Int) :
    applyBin w R op l r (.int a) (.int b) = opResult op (.int a) (intOp w.pow op a b) := rfl

theorem arith_of {w : World} {n : Nat} {s : St} {l r : Nat} {a b : Int} {op : BinOp} (hl : s.Holds l (.int a)) (hr : s.Holds r (.int b))
    {z : Int} (hz : Math op a b z) (hm : op = .mod → ∀ q, TruncDiv a b q → In64 q) (d : Data) :
    Arith op a b s ((do
      let v ← opResult op d (exact z)
      (interp w (n + 1)).dec l
      (interp w (n + 1)).dec r
      pure { val := some v } : M Res) s) := by
  by_cases hf : fits z = true
  · refine .exact z hz ((fits_iff z).1 hf) hm ?_
    have : opResult op d (exact z) = alloc (.int z) := by rw [exact, if_pos hf]; rfl
    rw [this]
    exact yields_alloc _ hl hr rfl rfl
  · refine .overflow z hz (fun h => hf ((fits_iff z).2 h)) ?_
    have : opResult op d (exact z) = M.ub .overflow := by rw [exact, if_neg hf]; rfl
    rw [this]
    rfl

/-- C51.  Arithmetic on integers is exact, refused or undefined, as the case may be; and it has no effect but the new value. -/
theorem C51_arithmetic (w : World) (n : Nat) {le re : Expr} {s s2 : St} {l r : Nat} {a b : Int} {op : BinOp} {d : Dest}
    (h : Operands w (n + 1) le re s s2 l r (.int a) (.int b)) (hd : Wanted d s2) (hb64 : In64 b)
    (hop : op = .add ∨ op = .sub ∨ op = .mul ∨ op = .div ∨ op = .mod) :
    Arith op a b s2 ((interp w (n + 2)).eval d (.bin op le re) s) := by
  rw [evalBin_eq h op hd (Or.inl rfl), applyBin_int]
  have hl := h.left
  have hr := h.right
  rcases hop with rfl | rfl | rfl | rfl | rfl
  · exact arith_of hl hr .add (fun h => (nomatch h)) _
  · exact arith_of hl hr .sub (fun h => (nomatch h)) _
  · exact arith_of hl hr .mul (fun h => (nomatch h)) _
  · by_cases hb : b = 0
    · refine .divZero rfl hb ?_
      unfold intOp
      simp only [hb, if_true]
      exact refused_bind (refused_raise _ _)
    · have : intOp w.pow .div a b = exact (a.tdiv b) := by unfold intOp; simp only [hb, if_false]
      rw [this]
      exact arith_of hl hr (.div (truncDiv_tdiv hb)) (fun h => (nomatch h)) _
  · by_cases hb : b = 0
    · refine .modZero rfl hb ?_
      unfold intOp
      simp only [hb, if_true]
      exact refused_bind (refused_raise _ _)
    · have hq := truncDiv_tdiv (a := a) hb
      have hmod : a - a.tdiv b * b = a.tmod b := by
        have := Int.tmod_add_mul_tdiv a b
        rw [Int.mul_comm] at this
        omega
      by_cases hf : fits (a.tdiv b) = true
      · have : intOp w.pow .mod a b = .int (a.tmod b) := by unfold intOp; simp only [hb, if_false, hf, if_true]
        rw [this]
        have hz : Math .mod a b (a.tmod b) := by rw [← hmod]; exact .mod hq
        refine .exact _ hz ?_ (fun _ q h => by rw [truncDiv_unique h hq]; exact (fits_iff _).1 hf) (yields_alloc _ hl hr rfl rfl)
        have hlt := hq.1
        rw [hmod] at hlt
        unfold In64 at *
        omega
      · refine .modOverflow _ rfl hq (fun h => hf ((fits_iff _).2 h)) ?_
        have : intOp w.pow .mod a b = .ub := by unfold intOp; simp only [hb, if_false, hf]; rfl
        rw [this]
        rfl

/-- C51.  In particular: a result that fits is what you get, and the operator does nothing else. -/
theorem C51_exact_when_fits (w : World) (n : Nat) {le re : Expr} {s s2 : St} {l r : Nat} {a b z : Int} {op : BinOp} {d : Dest}
    (h : Operands w (n + 1) le re s s2 l r (.int a) (.int b)) (hd : Wanted d s2) (hb64 : In64 b) (hz : Math op a b z) (hin : In64 z)
    (hm : op = .mod → ∀ q, TruncDiv a b q → In64 q) : Yields (.int z) s2 ((interp w (n + 2)).eval d (.bin op le re) s) := by
  have hop : op = .add ∨ op = .sub ∨ op = .mul ∨ op = .div ∨ op = .mod := by cases hz <;> simp
  have hzero : (op = .div ∨ op = .mod) → b ≠ 0 := by
    rintro ho rfl
    cases hz with
    | div hq => exact absurd hq.1 (by simp)
    | mod hq => exact absurd hq.1 (by simp)
    | _ => simp at ho
  cases C51_arithmetic w n h hd hb64 hop with
  | exact z' hz' _ _ ho => rw [hz.unique hz']; exact ho
  | divZero ho hb _ => exact absurd hb (hzero (Or.inl ho))
  | modZero ho hb _ => exact absurd hb (hzero (Or.inr ho))
  | overflow z' hz' hout _ => rw [hz.unique hz'] at hin; exact absurd hin hout
  | modOverflow q ho hq hout _ => exact absurd (hm ho q hq) hout

/-- The comparison an operator makes. -/
def Compare : BinOp → Int → Int → Option Prop
  | .eq, a, b => some (a = b)
  | .ne, a, b => some (a ≠ b)
  | .lt, a, b => some (a < b)
  | .le, a, b => some (a ≤ b)
  | .gt, a, b => some (b < a)
  | .ge, a, b => some (b ≤ a)
  | _, _, _ => none

/-- C51.  Comparing integers. -/
theorem C51_comparison (w : World) (n : Nat) {le re : Expr} {s s2 : St} {l r : Nat} {a b : Int} {op : BinOp} {d : Dest} {p : Prop}
    (h : Operands w (n + 1) le re s s2 l r (.int a) (.int b)) (hd : Wanted d s2) (hp : Compare op a b = some p) :
    ∃ t : Bool, (t = true ↔ p) ∧ Yields (.bool t) s2 ((interp w (n + 2)).eval d (.bin op le re) s) := by
  rw [evalBin_eq h op hd (Or.inl rfl), applyBin_int]
  have key : ∃ t : Bool, (t = true ↔ p) ∧ intOp w.pow op a b = .bool t := by
    cases op <;> simp only [Compare, Option.some.injEq, reduceCtorEq] at hp <;> subst hp
    · exact ⟨_, by simp, rfl⟩
    · exact ⟨_, by simp, rfl⟩
    · exact ⟨_, by simp, rfl⟩
    · exact ⟨_, by simp, rfl⟩
    · exact ⟨_, by simp, rfl⟩
    · exact ⟨_, by simp, rfl⟩
  obtain ⟨t, ht, he⟩ := key
  refine ⟨t, ht, ?_⟩
  rw [he]
  exact yields_alloc _ h.left h.right rfl rfl

theorem evalUn_eq {w : World} {n : Nat} {e : Expr} {s s1 : St} {r : Res} {c : Nat} {x : Data} (h : (interp w n).eval .keep e s = .ok r s1)
    (hc : r.val = some c) (hx : s1.Holds c x) (op : UnOp) {d : Dest} (hd : Wanted d s1) :
    (interp w (n + 1)).eval d (.un op e) s = (do
      let v ← applyUn op x
      (interp w n).dec c
      pure { val := some v } : M Res) s1 := by
  obtain ⟨y, hy, rfl⟩ := getCell_holds hx
  show evalUn (interp w n) d op e s = _
  unfold evalUn
  rw [bind_of_ok (value_ok h hc), bind_of_ok hy, if_neg hd.1, bind_of_ok (checkDest_wanted hd)]

/-- C51.  Unary minus. -/
theorem C51_negation (w : World) (n : Nat) {e : Expr} {s s1 : St} {r : Res} {c : Nat} {a : Int} {d : Dest} (h : (interp w (n + 1)).eval .keep e s = .ok r s1)
    (hc : r.val = some c) (hx : s1.Holds c (.int a)) (hd : Wanted d s1) :
    (In64 (-a) → Yields (.int (-a)) s1 ((interp w (n + 2)).eval d (.un .neg e) s)) ∧
    (¬ In64 (-a) → (interp w (n + 2)).eval d (.un .neg e) s = .ub { s1 with cause := .overflow }) := by
  rw [evalUn_eq h hc hx .neg hd]
  refine ⟨fun hin => ?_, fun hout => ?_⟩
  · have : applyUn .neg (.int a) = alloc (.int (-a)) := by unfold applyUn; simp only; rw [if_pos ((fits_iff _).2 hin)]
    rw [this, bind_of_ok (alloc_apply ..)]
    have hq := (q_alloc (.int (-a))).out (alloc_apply (.int (-a)) s1)
    obtain ⟨s2, h2⟩ := dec_plain w n (hq.holds _ _ hx) rfl
    have q2 := (q_dec w (n + 1) c).out h2
    rw [bind_of_ok h2]
    exact ⟨_, s2, rfl, q2.holds _ _ (holds_alloc ..), Nat.le_refl _, trnQ.trans hq q2⟩
  · have : applyUn .neg (.int a) = M.ub .overflow := by unfold applyUn; simp only; rw [if_neg fun hf => hout ((fits_iff _).1 hf)]
    rw [this]
    rfl

/-- `Operands` is met by evaluating literals. -/
theorem operands_lits (w : World) (n : Nat) (s : St) (a b : Int) (ta tb : Bytes) (ha : parseNum ta 0 = .ok a) (hb : parseNum tb 0 = .ok b) :
    Operands w (n + 1) (eNum ta) (eNum tb) s { s with cells := s.cells ++ [{ data := .int a }] ++ [{ data := .int b }] }
      s.cells.length (s.cells.length + 1) (.int a) (.int b) := by
  have hlit : ∀ (t : Bytes) (z : Int) (s : St), parseNum t 0 = .ok z → (interp w (n + 1)).eval .keep (eNum t) s =
      .ok { val := some s.cells.length } { s with cells := s.cells ++ [{ data := .int z }] } := by
    intro t z s h
    show (if Dest.keep = Dest.discard then raise b!"unknown expression type: literal" else do
      checkDest .keep
      let c ← evalLit (.num t)
      pure { val := some c } : M Res) s = _
    rw [if_neg (by decide), bind_of_ok (show checkDest .keep s = .ok () s from rfl)]
    have : evalLit (.num t) s = .ok s.cells.length { s with cells := s.cells ++ [{ data := .int z }] } := by
      unfold evalLit
      simp only [h]
      rfl
    rw [bind_of_ok this]
    rfl
  refine ⟨⟨_, _, { val := some (s.cells.length + 1) }, hlit ta a s ha, rfl, (hlit tb b _ hb).trans ?_, rfl⟩, ?_, ?_⟩
  · simp
  · exact ⟨{ data := .int a }, by simp, rfl⟩
  · exact ⟨{ data := .int b }, by simp, rfl⟩

example : Yields (.int (-3)) { (St.init []) with cells := ptmCells ++ [{ data := .int 2 }] ++ [{ data := .int 5 }] }
    ((interp emptyWorld 5).eval .keep (.bin .sub (eNum b!"2") (eNum b!"5")) (St.init [])) :=
  C51_exact_when_fits emptyWorld 3 (operands_lits emptyWorld 3 (St.init []) 2 5 _ _ (by decide) (by decide)) ⟨by decide, fun h => (nomatch h)⟩
    ⟨by decide, by decide⟩ .sub ⟨by decide, by decide⟩ fun h => (nomatch h)

example : (runScript emptyWorld 10 [] [sPrint (.bin .div (.un .neg (eNum b!"7")) (eNum b!"2")), sPrint (.bin .mod (.un .neg (eNum b!"7")) (eNum b!"2"))]).printed =
    some [b!"-3", b!"-1"] := by
  decide +kernel

example : (runScript emptyWorld 10 [] [sPrint (.bin .add (eNum b!"9223372036854775807") (eNum b!"1"))]).isUb = true := by
  decide +kernel

/-! ## C52 -/

/-- The operators each kind of value supports. -/
def Supports : BinOp → Kind → Bool
  | .add, k => k == .int || k == .str || k == .vec || k == .map
  | .eq, k => !(k == .fn || k == .inst)
  | .ne, k => !(k == .fn || k == .inst)
  | .and, k => k == .bool
  | .or, k => k == .bool
  | .xor, k => k == .bool
  | _, k => k == .int

/-- C52.  Values of different kinds are never combined, even if nobody wants the result. -/
theorem C52_different_kinds (w : World) (n : Nat) {le re : Expr} {s s2 : St} {l r : Nat} {dl dr : Data} (h : Operands w n le re s s2 l r dl dr)
    (hk : dl.kind ≠ dr.kind) (hl : dl.kind ≠ .none) (hr : dr.kind ≠ .none) (op : BinOp) (d : Dest) :
    Refused (b!"operands have incompatible types: " ++ typeStr dl ++ b!" and " ++ typeStr dr) s2 ((interp w (n + 1)).eval d (.bin op le re) s) := by
  obtain ⟨⟨s1, rl, rr, h1, h2, h3, h4⟩, h5, h6⟩ := h
  obtain ⟨xl, hxl, rfl⟩ := getCell_holds h5
  obtain ⟨xr, hxr, rfl⟩ := getCell_holds h6
  show Refused _ s2 (evalBin w (interp w n) d op le re s)
  unfold evalBin
  rw [bind_of_ok (value_ok h1 h2), bind_of_ok (value_ok h3 h4), bind_of_ok hxl, bind_of_ok hxr, if_pos ⟨hk, hl, hr⟩]
  exact refused_raise _ _

/-- C52.  A value of a kind that does not support the operator is refused (`none` has its own message). -/
theorem C52_unsupported (w : World) (n : Nat) {le re : Expr} {s s2 : St} {l r : Nat} {dl dr : Data} (h : Operands w n le re s s2 l r dl dr)
    (hk : dl.kind = dr.kind) {op : BinOp} (hs : Supports op dl.kind = false) {d : Dest} (hd : Wanted d s2) :
    Refused (if dl.kind = .none then b!"can only check for equality to none value" else b!"unknown operator '" ++ op.text ++ b!"' for type " ++ typeStr dl)
      s2 ((interp w (n + 1)).eval d (.bin op le re) s) := by
  rw [evalBin_eq h op hd (Or.inl hk)]
  refine refused_bind ?_
  cases dl <;> cases dr <;> simp only [Data.kind, reduceCtorEq] at hk <;> cases op <;>
    simp only [Supports, Data.kind, beq_self_eq_true, Bool.not_true, Bool.or_true, Bool.true_or, reduceCtorEq] at hs <;>
    first
    | exact absurd hs (by decide)
    | exact refused_raise _ _

/-- C52.  `none` can be compared with anything by `==` and `!=`, and only so. -/
theorem C52_none (w : World) (n : Nat) {le re : Expr} {s s2 : St} {l r : Nat} {dl dr : Data} (h : Operands w (n + 1) le re s s2 l r dl dr)
    (hk : dl.kind = .none ∨ dr.kind = .none) {op : BinOp} {d : Dest} (hd : Wanted d s2) :
    (op ≠ .eq → op ≠ .ne → Refused b!"can only check for equality to none value" s2 ((interp w (n + 2)).eval d (.bin op le re) s)) ∧
    (op = .eq → dl.plain = true → dr.plain = true →
      Yields (.bool (decide (dl.kind = dr.kind))) s2 ((interp w (n + 2)).eval d (.bin op le re) s)) ∧
    (op = .ne → dl.plain = true → dr.plain = true →
      Yields (.bool (!decide (dl.kind = dr.kind))) s2 ((interp w (n + 2)).eval d (.bin op le re) s)) := by
  have ha : ∀ op, applyBin w (interp w (n + 1)) op l r dl dr = match op with
    | .eq => alloc (.bool (dl.kind == dr.kind))
    | .ne => alloc (.bool (dl.kind != dr.kind))
    | _ => raise b!"can only check for equality to none value" := by
    intro op
    unfold applyBin
    rw [if_pos hk]
    cases op <;> rfl
  rw [evalBin_eq h op hd (Or.inr hk), ha]
  refine ⟨fun h1 h2 => ?_, fun h1 hpl hpr => ?_, fun h1 hpl hpr => ?_⟩
  · refine refused_bind ?_
    cases op <;> first | exact absurd rfl h1 | exact absurd rfl h2 | exact refused_raise _ _
  · subst h1
    exact yields_alloc _ h.left h.right hpl hpr
  · subst h1
    exact yields_alloc _ h.left h.right hpl hpr

example : (runScript emptyWorld 10 [] [sPrint (.bin .add (eNum b!"1") (eStr b!"1"))]).failed =
    some (some b!"operands have incompatible types: integer and string", []) := by
  decide +kernel

example : (runScript emptyWorld 10 [] [sPrint (.bin .add (.lit (.bool true)) (.lit (.bool true)))]).failed =
    some (some b!"unknown operator '+' for type boolean", []) := by
  decide +kernel

/-- If nobody wants the result, the operator is not looked at: `true + true` as a statement is accepted. -/
theorem C52_discarded_false : ∃ p, (runScript emptyWorld 10 [] p).printed = some [] ∧ p = [sDo (.bin .add (.lit (.bool true)) (.lit (.bool true)))] :=
  ⟨_, by decide +kernel, rfl⟩

/-! ## C53 -/

/-- C53.  A binary expression that gives a value has evaluated both operands, left first, whatever the operator; and the operator and releasing
the operands do nothing that could be noticed. -/
theorem C53_both_operands (w : World) (n : Nat) {d : Dest} {op : BinOp} {le re : Expr} {s s' : St} {res : Res}
    (h : (interp w (n + 1)).eval d (.bin op le re) s = .ok res s') :
    ∃ s1 s2 rl rr, (interp w n).eval .keep le s = .ok rl s1 ∧ (interp w n).eval .keep re s1 = .ok rr s2 ∧
      s'.out = s2.out ∧ s'.host.steps = s2.host.steps ∧ s'.calls = s2.calls := by
  have h : evalBin w (interp w n) d op le re s = .ok res s' := h
  simp only [evalBin, Rec.value, bind_ok_iff, deref_ok_iff, getCell_ok_iff] at h
  obtain ⟨l, _, ⟨rl, s1, h1, h2, rfl⟩, r, _, ⟨rr, s2, h3, h4, rfl⟩, xl, _, ⟨h5, rfl⟩, xr, _, ⟨h6, rfl⟩, h⟩ := h
  refine ⟨_, _, rl, rr, h1, h3, ?_⟩
  split at h
  · exact ((raise_not_ok ..).1 h).elim
  · split at h
    · cases h
      exact ⟨rfl, rfl, rfl⟩
    · have ha : Keeps Quiet (applyBin w (interp w n) op l r xl.data xr.data) := q_applyBin ..
      have : Keeps Quiet (do
          checkDest d
          let v ← applyBin w (interp w n) op l r xl.data xr.data
          (interp w n).dec l
          (interp w n).dec r
          pure ({ val := some v } : Res)) :=
        keeps_bind trnQ (keeps_checkDest trnQ _) fun _ => keeps_bind trnQ ha fun _ => keeps_bind trnQ (q_dec w n _) fun _ => keeps_bind trnQ (q_dec w n _) fun _ => keeps_pure trnQ _
      have := this.out h
      exact ⟨this.out, this.steps, this.calls⟩

/-- C53.  If the left operand fails, so does the whole, in the same way; the right operand is not evaluated. -/
theorem C53_left_fails (w : World) (n : Nat) {d : Dest} {op : BinOp} {le re : Expr} {s : St} (h : ((interp w n).eval .keep le s).Bad) :
    ∀ o : Out Res, (interp w n).eval .keep le s = o → (interp w (n + 1)).eval d (.bin op le re) s = o := by
  rintro o rfl
  show evalBin w (interp w n) d op le re s = _
  unfold evalBin Rec.value
  rw [bind_apply, bind_apply]
  cases ho : (interp w n).eval .keep le s <;> first | rfl | (rw [ho] at h; exact h.elim)

/-- C53.  If the right operand fails, so does the whole, even if the left one of `&&` was false or of `||` true. -/
theorem C53_right_fails (w : World) (n : Nat) {d : Dest} {op : BinOp} {le re : Expr} {s s1 : St} {rl : Res} {l : Nat}
    (hl : (interp w n).eval .keep le s = .ok rl s1) (hv : rl.val = some l) (h : ((interp w n).eval .keep re s1).Bad) :
    ∀ o : Out Res, (interp w n).eval .keep re s1 = o → (interp w (n + 1)).eval d (.bin op le re) s = o := by
  rintro o rfl
  show evalBin w (interp w n) d op le re s = _
  unfold evalBin
  rw [bind_of_ok (value_ok hl hv)]
  unfold Rec.value
  rw [bind_apply, bind_apply]
  cases ho : (interp w n).eval .keep re s1 <;> first | rfl | (rw [ho] at h; exact h.elim)

/-- C53.  The value of the boolean operators. -/
theorem C53_boolean_operators (w : World) (n : Nat) {le re : Expr} {s s2 : St} {l r : Nat} {a b : Bool} {d : Dest}
    (h : Operands w (n + 1) le re s s2 l r (.bool a) (.bool b)) (hd : Wanted d s2) :
    Yields (.bool (a && b)) s2 ((interp w (n + 2)).eval d (.bin .and le re) s) ∧
    Yields (.bool (a || b)) s2 ((interp w (n + 2)).eval d (.bin .or le re) s) ∧
    Yields (.bool (Bool.xor a b)) s2 ((interp w (n + 2)).eval d (.bin .xor le re) s) := by
  rw [evalBin_eq h _ hd (Or.inl rfl), evalBin_eq h _ hd (Or.inl rfl), evalBin_eq h _ hd (Or.inl rfl)]
  refine ⟨yields_alloc _ h.left h.right rfl rfl, yields_alloc _ h.left h.right rfl rfl, ?_⟩
  have := yields_alloc (w := w) (n := n) (.bool (a != b)) h.left h.right rfl rfl
  cases a <;> cases b <;> exact this

/-- `false && f()` calls `f`. -/
example : (runScript emptyWorld 12 [] [sFn b!"f" [] [sPrint (eStr b!"called"), sRet (.lit (.bool true))],
    sPrint (.bin .and (.lit (.bool false)) (eCall (eVar b!"f") []))]).printed = some [b!"called", b!"false"] := by
  decide +kernel

end Bob.Fl
