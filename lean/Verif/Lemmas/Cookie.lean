import Verif.Model.Cookie
import Verif.Lemmas.Base
/-!
# Helper lemmas about hashes and cookies
-/

namespace Bob

theorem charTo64_lt (sg : Bool) (c : UInt8) : charTo64 sg c < M64 := by
  have := c.toNat_lt
  unfold charTo64 M64
  split <;> omega

theorem strHashFrom_lt (sg : Bool) (s : Bytes) : ∀ h, h < M64 → strHashFrom sg h s < M64 := by
  induction s with
  | nil => intro h hh; simpa [strHashFrom] using hh
  | cons c cs ih => intro h _; exact ih _ (Nat.mod_lt _ (by decide))

theorem strHash_lt (sg : Bool) (s : Bytes) : strHash sg s < M64 := strHashFrom_lt sg s _ (by decide)

theorem strHashFrom_append (sg : Bool) (a b : Bytes) : ∀ h,
    strHashFrom sg h (a ++ b) = strHashFrom sg (strHashFrom sg h a) b := by
  induction a with
  | nil => intro h; rfl
  | cons c cs ih => intro h; simp only [List.cons_append, strHashFrom]; exact ih _

theorem mul33_cancel {h k c : Nat} (hh : h < M64) (e : (h * 33 + c) % M64 = (k * 33 + c) % M64) : h ≤ k := by
  have h1 := Nat.sub_mod_eq_zero_of_mod_eq e
  have h2 : h * 33 + c - (k * 33 + c) = (h - k) * 33 := by
    rw [Nat.sub_mul]; omega
  rw [h2] at h1
  have h3 : M64 ∣ (h - k) * 33 := Nat.dvd_of_mod_eq_zero h1
  have h4 : M64 ∣ h - k := Nat.Coprime.dvd_of_dvd_mul_right (by decide) h3
  have h5 : h - k = 0 := by
    rcases Nat.eq_zero_or_pos (h - k) with h0 | h0
    · exact h0
    · have := Nat.le_of_dvd h0 h4
      omega
  omega

/-- Multiplication by 33 is invertible modulo `2^64`: a common tail does not hide a difference. -/
theorem strHashFrom_inj (sg : Bool) (s : Bytes) : ∀ h k, h < M64 → k < M64 →
    strHashFrom sg h s = strHashFrom sg k s → h = k := by
  induction s with
  | nil => intro h k _ _ e; simpa [strHashFrom] using e
  | cons c cs ih =>
    intro h k hh hk e
    simp only [strHashFrom] at e
    have := ih _ _ (Nat.mod_lt _ (by decide)) (Nat.mod_lt _ (by decide)) e
    exact Nat.le_antisymm (mul33_cancel hh this) (mul33_cancel hk this.symm)

/-- Value of a reversed string in base 33, without wrap-around. -/
def hnr (sg : Bool) : Bytes → Nat
  | [] => 0
  | c :: cs => 33 * hnr sg cs + charTo64 sg c

theorem strHashFrom_snoc (sg : Bool) (h : Nat) (s : Bytes) (c : UInt8) :
    strHashFrom sg h (s ++ [c]) = (strHashFrom sg h s * 33 + charTo64 sg c) % M64 := by
  rw [strHashFrom_append]; rfl

theorem strHashFrom_reverse (sg : Bool) (h : Nat) (r : Bytes) :
    strHashFrom sg h r.reverse % M64 = (h * 33 ^ r.length + hnr sg r) % M64 := by
  induction r with
  | nil => simp [strHashFrom, hnr]
  | cons c cs ih =>
    rw [List.reverse_cons, strHashFrom_snoc]
    simp only [hnr, List.length_cons, Nat.pow_succ]
    rw [Nat.mod_mod, Nat.add_mod, Nat.mul_mod, ih, ← Nat.mul_mod, ← Nat.add_mod]
    congr 1
    rw [Nat.add_mul, Nat.mul_assoc, Nat.mul_comm 33]
    omega

theorem foldSlash_eq_iff (c d : UInt8) : foldSlash c = foldSlash d ↔
    c = d ∨ (c = SLASH ∧ d = UNDERSCORE) ∨ (c = UNDERSCORE ∧ d = SLASH) := by
  unfold foldSlash
  have hne : SLASH ≠ UNDERSCORE := by decide
  constructor
  · intro e
    split at e <;> split at e <;> simp_all
  · rintro (e | ⟨e1, e2⟩ | ⟨e1, e2⟩)
    · rw [e]
    · subst e1 e2; decide
    · subst e1 e2; decide

theorem charTo64_foldSlash {sg : Bool} {c d : UInt8} (h : foldSlash c = foldSlash d) :
    (c = d) ∨ (charTo64 sg c = charTo64 sg d + 48) ∨ (charTo64 sg d = charTo64 sg c + 48) := by
  rcases (foldSlash_eq_iff c d).mp h with e | ⟨e1, e2⟩ | ⟨e1, e2⟩
  · exact Or.inl e
  · subst e1 e2; right; right; cases sg <;> decide
  · subst e1 e2; right; left; cases sg <;> decide

/-- Two strings equal up to `/` versus `_` have base-33 values at most `48·(33^n-1)/32` apart, and equal
values only if they are equal. -/
theorem hnr_window (sg : Bool) : ∀ (r t : Bytes), r.map foldSlash = t.map foldSlash →
    (32 * hnr sg r + 48 ≤ 32 * hnr sg t + 48 * 33 ^ r.length) ∧
    (32 * hnr sg t + 48 ≤ 32 * hnr sg r + 48 * 33 ^ r.length) ∧
    (hnr sg r = hnr sg t → r = t) := by
  intro r
  induction r with
  | nil =>
    intro t h
    have : t = [] := by simpa using h
    subst this
    simp [hnr]
  | cons c cs ih =>
    intro t h
    cases t with
    | nil => simp at h
    | cons d ds =>
      simp only [List.map_cons, List.cons.injEq] at h
      obtain ⟨h1, h2, h3⟩ := ih ds h.2
      simp only [hnr, List.length_cons, Nat.pow_succ]
      generalize hp : 33 ^ cs.length = P at *
      rcases charTo64_foldSlash (sg := sg) h.1 with e | e | e
      · subst e
        refine ⟨by omega, by omega, ?_⟩
        intro e
        rw [h3 (by omega)]
      · refine ⟨by omega, by omega, ?_⟩
        intro e'
        exfalso; omega
      · refine ⟨by omega, by omega, ?_⟩
        intro e'
        exfalso; omega

theorem append_hex_inj {x y : Bytes} {m n : Nat} (h : x ++ DOT :: hex m = y ++ DOT :: hex n) :
    x = y ∧ m = n := by
  -- compare the reversed texts: the hash digits contain no dot
  have hr : (hex m).reverse ++ DOT :: x.reverse = (hex n).reverse ++ DOT :: y.reverse := by
    have := congrArg List.reverse h
    simpa using this
  have hm : DOT ∉ (hex m).reverse := fun hc => (hex_mem (List.mem_reverse.mp hc)).1 rfl
  have hn : DOT ∉ (hex n).reverse := fun hc => (hex_mem (List.mem_reverse.mp hc)).1 rfl
  have e1 := strsepAll_field_sep DOT _ x.reverse hm
  have e2 := strsepAll_field_sep DOT _ y.reverse hn
  rw [hr, e2] at e1
  have e3 : (hex n).reverse = (hex m).reverse := (List.cons.inj e1).1
  rw [e3] at hr
  have e4 := List.append_cancel_left hr
  have e5 : x.reverse = y.reverse := (List.cons.inj e4).2
  exact ⟨List.reverse_inj.mp e5, (hex_inj (List.reverse_inj.mp e3)).symm⟩

theorem genCookie_eq_iff (sg : Bool) (out p q ext : Bytes) :
    genCookie sg out p ext = genCookie sg out q ext ↔
      p.map foldSlash = q.map foldSlash ∧ strHash sg p = strHash sg q := by
  constructor
  · intro h
    unfold genCookie at h
    have h1 := List.append_cancel_right (List.append_cancel_right h)
    have h2 : (out ++ b!"/bob/" ++ p.map foldSlash ++ b!".cookie") ++ DOT :: hex (strHash sg p) =
        (out ++ b!"/bob/" ++ q.map foldSlash ++ b!".cookie") ++ DOT :: hex (strHash sg q) := by
      simpa using h1
    obtain ⟨h3, h4⟩ := append_hex_inj h2
    have h5 := List.append_cancel_right h3
    exact ⟨List.append_cancel_left h5, h4⟩
  · rintro ⟨h1, h2⟩
    unfold genCookie
    rw [h1, h2]

/-! ## Link hashes -/

theorem linkHash_from (sg : Bool) (l : List Bytes) : ∀ h,
    l.foldl (fun h s => h ^^^ strHash sg s) h = h ^^^ linkHash sg l := by
  unfold linkHash
  induction l with
  | nil => intro h; simp
  | cons a l ih =>
    intro h
    simp only [List.foldl_cons]
    rw [ih (h ^^^ strHash sg a), ih (0 ^^^ strHash sg a)]
    simp [Nat.xor_assoc]

theorem linkHash_cons (sg : Bool) (a : Bytes) (l : List Bytes) :
    linkHash sg (a :: l) = strHash sg a ^^^ linkHash sg l := by
  have := linkHash_from sg l (0 ^^^ strHash sg a)
  unfold linkHash at *
  simpa using this

theorem linkHash_perm (sg : Bool) {l l' : List Bytes} (h : l.Perm l') : linkHash sg l = linkHash sg l' := by
  induction h with
  | nil => rfl
  | cons a _ ih => rw [linkHash_cons, linkHash_cons, ih]
  | swap a b l =>
    rw [linkHash_cons, linkHash_cons, linkHash_cons, linkHash_cons, ← Nat.xor_assoc, ← Nat.xor_assoc,
      Nat.xor_comm (strHash sg b)]
  | trans _ _ ih1 ih2 => exact ih1.trans ih2

theorem linkCookie_eq_iff (sg : Bool) (out : Bytes) (ar : Bool) (l l' : List Bytes) :
    linkCookie sg out ar l = linkCookie sg out ar l' ↔ linkHash sg l = linkHash sg l' := by
  constructor
  · intro h
    unfold linkCookie at h
    have h1 := List.append_cancel_right (List.append_cancel_right h)
    exact hex_inj (List.append_cancel_left h1)
  · intro h
    unfold linkCookie
    rw [h]

end Bob
