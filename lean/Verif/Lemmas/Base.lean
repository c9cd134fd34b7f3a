import Verif.Model.Base
/-!
# Helper lemmas about bytes, digits and C strings
-/

namespace Bob

theorem digitsAux_foldl (base : Nat) (hb : 2 ≤ base) (dc : Nat → UInt8) (dv : UInt8 → Nat)
    (hdv : ∀ d, d < base → dv (dc d) = d) :
    ∀ (fuel n : Nat) (acc : Bytes), n < fuel →
      (digitsAux base dc fuel n acc).foldl (fun a c => a * base + dv c) 0
        = acc.foldl (fun a c => a * base + dv c) n := by
  intro fuel
  induction fuel with
  | zero => intro n acc h; omega
  | succ f ih =>
    intro n acc h
    simp only [digitsAux]
    have hmod : dv (dc (n % base)) = n % base := hdv _ (Nat.mod_lt _ (by omega))
    by_cases hz : n / base = 0
    · simp only [hz, if_true, List.foldl_cons, hmod]
      have hlt : n < base := by
        rcases Nat.div_eq_zero_iff.mp hz with h0 | h0 <;> omega
      simp [Nat.mod_eq_of_lt hlt]
    · simp only [hz, if_false]
      have hlt : n / base < f := by
        have : n / base < n := Nat.div_lt_self (by
          rcases Nat.eq_zero_or_pos n with h0 | h0
          · simp [h0] at hz
          · exact h0) hb
        omega
      rw [ih _ _ hlt]
      simp only [List.foldl_cons, hmod]
      congr 1
      rw [Nat.mul_comm]; exact Nat.div_add_mod n base

theorem digitsAux_mem (base : Nat) (hb : 0 < base) (dc : Nat → UInt8) (P : UInt8 → Prop) (hP : ∀ d, d < base → P (dc d)) :
    ∀ (fuel n : Nat) (acc : Bytes), (∀ c ∈ acc, P c) → ∀ c ∈ digitsAux base dc fuel n acc, P c := by
  intro fuel
  induction fuel with
  | zero => intro n acc h; simpa [digitsAux] using h
  | succ f ih =>
    intro n acc h c hc
    simp only [digitsAux] at hc
    have hacc : ∀ c ∈ dc (n % base) :: acc, P c := by
      intro c hc
      rcases List.mem_cons.mp hc with rfl | hc
      · exact hP _ (Nat.mod_lt _ hb)
      · exact h c hc
    split at hc
    · exact hacc c hc
    · exact ih _ _ hacc c hc

theorem digitsAux_ne_nil (base : Nat) (dc : Nat → UInt8) :
    ∀ (fuel n : Nat) (acc : Bytes), (fuel ≠ 0 ∨ acc ≠ []) → digitsAux base dc fuel n acc ≠ [] := by
  intro fuel
  induction fuel with
  | zero => intro n acc h; simpa [digitsAux] using h
  | succ f ih =>
    intro n acc _
    simp only [digitsAux]
    split
    · simp
    · exact ih _ _ (Or.inr (by simp))

def hexVal (c : UInt8) : Nat := if c.toNat < 58 then c.toNat - 48 else c.toNat - 87

theorem hexVal_hexChar : ∀ d, d < 16 → hexVal (hexChar d) = d := by decide

def decVal (c : UInt8) : Nat := c.toNat - 48

theorem decVal_decChar : ∀ d, d < 10 → decVal (decChar d) = d := by decide

theorem hex_value (n : Nat) : (hex n).foldl (fun a c => a * 16 + hexVal c) 0 = n := by
  exact digitsAux_foldl 16 (by omega) hexChar hexVal hexVal_hexChar (n + 1) n [] (by omega)

theorem hex_inj {m n : Nat} (h : hex m = hex n) : m = n := by
  have := hex_value m
  rw [h, hex_value] at this
  exact this.symm

theorem dec_value (n : Nat) : (dec n).foldl (fun a c => a * 10 + decVal c) 0 = n := by
  exact digitsAux_foldl 10 (by omega) decChar decVal decVal_decChar (n + 1) n [] (by omega)

theorem dec_inj {m n : Nat} (h : dec m = dec n) : m = n := by
  have := dec_value m
  rw [h, dec_value] at this
  exact this.symm

theorem hex_ne_nil (n : Nat) : hex n ≠ [] := digitsAux_ne_nil _ _ _ _ _ (Or.inl (by omega))

theorem hexChar_ne_sep : ∀ d, d < 16 → hexChar d ≠ DOT ∧ hexChar d ≠ SLASH ∧ hexChar d ≠ NUL := by decide

theorem hex_mem {n : Nat} {c : UInt8} (h : c ∈ hex n) : c ≠ DOT ∧ c ≠ SLASH ∧ c ≠ NUL :=
  digitsAux_mem 16 (by omega) hexChar (fun c => c ≠ DOT ∧ c ≠ SLASH ∧ c ≠ NUL) hexChar_ne_sep _ _ [] (by simp) c h

/-! ## C strings -/

theorem cstr_eq_self {s : Bytes} (h : NUL ∉ s) : cstr s = s := by
  induction s with
  | nil => rfl
  | cons c cs ih =>
    simp only [List.mem_cons, not_or] at h
    have : c ≠ NUL := fun e => h.1 e.symm
    simp [cstr, this, ih h.2]

theorem nul_not_mem_cstr (s : Bytes) : NUL ∉ cstr s := by
  induction s with
  | nil => simp [cstr]
  | cons c cs ih =>
    simp only [cstr]
    split
    · simp
    · rename_i hne
      simp only [List.mem_cons, not_or]
      exact ⟨fun e => hne e.symm, ih⟩

theorem cstr_idem (s : Bytes) : cstr (cstr s) = cstr s := cstr_eq_self (nul_not_mem_cstr s)

/-! ## Splitting -/

theorem strsepAll_ne_nil (sep : UInt8) (s : Bytes) : strsepAll sep s ≠ [] := by
  cases s with
  | nil => simp [strsepAll]
  | cons c cs =>
    simp only [strsepAll]
    split
    · simp
    · split <;> simp

/-- A field without separator followed by a separator is split off. -/
theorem strsepAll_field_sep (sep : UInt8) (f rest : Bytes) (hf : sep ∉ f) :
    strsepAll sep (f ++ sep :: rest) = f :: strsepAll sep rest := by
  induction f with
  | nil => simp [strsepAll]
  | cons c cs ih =>
    simp only [List.mem_cons, not_or] at hf
    have hne : c ≠ sep := fun e => hf.1 e.symm
    simp [strsepAll, hne, ih hf.2]

theorem strsepAll_field (sep : UInt8) (f : Bytes) (hf : sep ∉ f) : strsepAll sep f = [f] := by
  induction f with
  | nil => simp [strsepAll]
  | cons c cs ih =>
    simp only [List.mem_cons, not_or] at hf
    have hne : c ≠ sep := fun e => hf.1 e.symm
    simp [strsepAll, hne, ih hf.2]

theorem sep_not_mem_strsepAll (sep : UInt8) (s : Bytes) : ∀ f ∈ strsepAll sep s, sep ∉ f := by
  induction s with
  | nil => simp [strsepAll]
  | cons c cs ih =>
    simp only [strsepAll]
    split
    · intro f hf
      rcases List.mem_cons.mp hf with rfl | hf
      · simp
      · exact ih f hf
    · rename_i hne
      split
      · intro f hf
        simp only [List.mem_singleton] at hf
        subst hf
        simpa using fun e => hne e.symm
      · rename_i g gs hg
        intro f hf
        rcases List.mem_cons.mp hf with rfl | hf
        · have := ih g (by simp [hg])
          simp only [List.mem_cons, not_or]
          exact ⟨fun e => hne e.symm, this⟩
        · exact ih f (by simp [hg, hf])

/-- Joining the fields with the separator gives the text back. -/
theorem strsepAll_join (sep : UInt8) (s : Bytes) : [sep].intercalate (strsepAll sep s) = s := by
  induction s with
  | nil => simp [strsepAll, List.intercalate]
  | cons c cs ih =>
    have hne := strsepAll_ne_nil sep cs
    simp only [strsepAll]
    obtain ⟨g, gs, hg⟩ := List.exists_cons_of_ne_nil hne
    split
    · rename_i heq
      subst heq
      rw [hg] at ih ⊢
      simp only [List.intercalate, List.intersperse_cons_cons] at ih ⊢
      simpa using ih
    · rw [hg] at ih ⊢
      cases gs with
      | nil => simpa [List.intercalate] using ih
      | cons a as =>
        simp only [List.intercalate, List.intersperse_cons_cons, List.flatten_cons] at ih ⊢
        simpa using ih

end Bob
