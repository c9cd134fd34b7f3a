import Verif.Lemmas.WriteTable
import Verif.Lemmas.LexWord
/-!
# Trees that follow the rules for written scripts are found

One induction for all of `Verif.Lemmas.WriteTable`.
-/

namespace Bob.Parse

mutual
/-- A tree of some kind, with a blank before each token. -/
inductive Der : Nat → Tree → Prop where
  | leaf {s : Nat} {w : Bytes} : s < 60 → s ≠ 4 → s ≠ 5 → Knows s w → Der s (.leaf s [32] w false)
  | node {r : WRule} {cs : List Tree} : r ∈ wRules → Ders r.rhs cs → Der r.kind (.node (shape r.kind) r.pid cs false)
inductive Ders : List (List Nat) → List Tree → Prop where
  | nil : Ders [] []
  | cons {p : List Nat} {ps : List (List Nat)} {k : Nat} {c : Tree} {cs : List Tree} : k ∈ p → Der k c → Ders ps cs → Ders (p :: ps) (c :: cs)
end

theorem subMask_bit {m m' t : Nat} (h : subMask m m' = true) (ht : m.testBit t = true) : m'.testBit t = true := by
  unfold subMask at h
  have h := Nat.beq_eq.mp h
  have : (Nat.land m m').testBit t = m.testBit t := by rw [h]
  rw [show Nat.land m m' = m &&& m' from rfl, Nat.testBit_and, ht, Bool.true_and] at this
  exact this

theorem covers_find {a : Act} {t : Nat} : ∀ {gs : List (List Act × Nat)} {m : Nat}, covers a m gs = true → m.testBit t = true →
    (findActs t gs).filter (!·.isRepeat) = [a]
  | [], m, h, ht => by
    unfold covers at h
    rw [Nat.beq_eq.mp h] at ht
    simp at ht
  | (as, ts) :: gs, m, h, ht => by
    unfold covers at h
    simp only [Bool.and_eq_true, Bool.or_eq_true, beq_iff_eq] at h
    rw [findActs]
    cases hb : Nat.testBit ts t with
    | true =>
      rw [cond_true]
      refine h.1.resolve_left fun h0 => ?_
      have : (Nat.land m ts).testBit t = false := by rw [Nat.beq_eq.mp h0]; simp
      rw [show Nat.land m ts = m &&& ts from rfl, Nat.testBit_and, ht, hb] at this
      cases this
    | false =>
      rw [cond_false]
      refine covers_find h.2 ?_
      rw [show Nat.xor m (Nat.land m ts) = m ^^^ (m &&& ts) from rfl, Nat.testBit_xor, Nat.testBit_and, ht, hb]
      rfl

def firstsMask (ps : List (List Nat)) (m : Nat) : Nat :=
  match ps with
  | [] => m
  | p :: _ => p.foldl (fun m k => Nat.lor m (firstMask k)) 0

theorem foldl_bit {t : Nat} : ∀ {p : List Nat} {m : Nat}, (m.testBit t = true ∨ ∃ k ∈ p, (firstMask k).testBit t = true) →
    (p.foldl (fun m k => Nat.lor m (firstMask k)) m).testBit t = true
  | [], m, h => by
    rcases h with h | ⟨k, hk, -⟩
    · exact h
    · cases hk
  | k :: p, m, h => by
    rw [List.foldl_cons]
    refine foldl_bit ?_
    rw [show Nat.lor m (firstMask k) = m ||| firstMask k from rfl, Nat.testBit_or]
    rcases h with h | ⟨k', hk, h⟩
    · exact .inl (by rw [h]; rfl)
    · rcases List.mem_cons.1 hk with rfl | hk
      · exact .inl (by rw [h]; simp)
      · exact .inr ⟨k', hk, h⟩

theorem lookup_mem {k m : Nat} : ∀ {l : List (Nat × Nat)}, lookup k l = m → m ≠ 0 → (k, m) ∈ l
  | [], h, hm => absurd h.symm hm
  | (a, m') :: l, h, hm => by
    unfold lookup at h
    cases hk : Nat.beq k a with
    | true =>
      rw [hk, cond_true] at h
      cases Nat.beq_eq.mp hk
      exact h ▸ List.mem_cons_self ..
    | false =>
      rw [hk, cond_false] at h
      exact List.mem_cons_of_mem _ (lookup_mem h hm)

theorem rule_facts {r : WRule} (h : r ∈ wRules) : headOk r = true ∧ 60 ≤ shape r.kind ∧ shape r.kind < 110 ∧ shape r.kind ≠ 62 := by
  have := List.all_eq_true.1 heads_ok r h
  simp only [Bool.and_eq_true, nbeq_false] at this
  exact ⟨this.1.1.1, Nat.le_of_ble_eq_true this.1.1.2, Nat.blt_eq.mp this.1.2, this.2⟩

theorem Der.sym {k : Nat} {c : Tree} (h : Der k c) : c.sym = shape k ∧ c.extra = false := by
  cases h with
  | leaf h60 => exact ⟨by rw [shape, Nat.mod_eq_of_lt (by omega)]; rfl, rfl⟩
  | node => exact ⟨rfl, rfl⟩

theorem Ders.extra : ∀ {ps : List (List Nat)} {cs : List Tree}, Ders ps cs → ∀ c ∈ cs, c.extra = false
  | _, _, .nil, _, h => by cases h
  | _, _, .cons _ hd hs, c, h => by
    rcases List.mem_cons.1 h with rfl | h
    · exact hd.sym.2
    · exact hs.extra c h

theorem Ders.length : ∀ {ps : List (List Nat)} {cs : List Tree}, Ders ps cs → cs.length = ps.length
  | _, _, .nil => rfl
  | _, _, .cons _ _ hs => by rw [List.length_cons, List.length_cons, hs.length]

theorem ders_ends {cs : List Tree} (h : ∀ c ∈ cs, c.extra = false) : Ends cs :=
  ⟨fun c hc => h c (List.mem_of_head? hc), fun c hc => h c (List.mem_of_getLast? hc)⟩

theorem kind_big {r : WRule} (h : r ∈ wRules) : Nat.blt r.kind 60 = false := by
  have := (rule_facts h).2.1
  rw [← Bool.not_eq_true, Nat.blt_eq]
  have : shape r.kind ≤ r.kind := Nat.mod_le ..
  omega

theorem der_fits_aux : ∀ (n : Nat),
    (∀ {k : Nat} {c : Tree}, sizeOf c ≤ n → Der k c → ∃ f, (firstMask k).testBit f = true ∧ ∀ {q t : Nat}, (admMask k q).testBit t = true → Fits q t c f) ∧
    (∀ {ps : List (List Nat)} {cs : List Tree}, sizeOf cs ≤ n → Ders ps cs → ∀ {a : Act} {t : Nat}, ∃ f, (∀ m, m.testBit t = true → (firstsMask ps m).testBit f = true) ∧
      ∀ {q m : Nat}, m.testBit t = true → walkOk a ps q m = true → ∃ q', Chain q cs t f q' ∧ actions q' t = [a]) := by
  intro n
  induction n with
  | zero =>
    refine ⟨fun {k c} hs => ?_, fun {ps cs} hs => ?_⟩
    · cases c <;> simp at hs
    · cases cs <;> simp at hs
  | succ n ih =>
    obtain ⟨ih1, ih2⟩ := ih
    refine ⟨fun {k c} hs h => ?_, fun {ps cs} hs h {a t} => ?_⟩
    · cases h with
      | leaf h60 h4 h5 hk =>
        refine ⟨k, ?_, fun _ => .leaf h60⟩
        rw [firstMask, Nat.blt_eq.mpr h60, cond_true, Nat.one_shiftLeft, Nat.testBit_two_pow_self]
      | @node r cs hr hd =>
        have hf := rule_facts hr
        have hz : sizeOf cs ≤ n := by simp at hs; omega
        refine ?_
        -- the first token does not depend on the one after the tree
        obtain ⟨p, ps, hrhs⟩ : ∃ p ps, r.rhs = p :: ps := by
          have := hf.1
          unfold headOk at this
          split at this
          · cases this
          · exact ⟨_, _, by assumption⟩
        have hd' := hd
        rw [hrhs] at hd'
        cases hd' with
        | @cons _ _ k c cs hk hc hcs =>
          obtain ⟨f, h1, h2⟩ := ih1 (c := c) (by simp at hz; omega) hc
          refine ⟨f, ?_, fun {q t} ht => ?_⟩
          · have := hf.1
            unfold headOk at this
            rw [hrhs] at this
            exact subMask_bit (List.all_eq_true.1 this k hk) h1
          · obtain ⟨g, h3, h4⟩ := ih2 (cs := cs) (by simp at hz; omega) hcs (a := .reduce (shape r.kind) r.rhs.length r.pid) (t := t)
            rw [admMask, kind_big hr, cond_false] at ht
            have hm : lookup q (adms.get r.kind) ≠ 0 := fun h => by rw [h] at ht; simp at ht
            have hw := List.all_eq_true.1 (List.all_eq_true.1 rules_ok r hr) _ (lookup_mem rfl hm)
            simp only at hw
            rw [hrhs] at hw
            unfold walkOk at hw
            have hw := List.all_eq_true.1 hw k hk
            simp only [Bool.and_eq_true, nbeq_false] at hw
            obtain ⟨q', h5, h6⟩ := h4 ht (by rw [hrhs]; exact hw.2)
            refine .node (q' := q') (.cons hc.sym.2 (by rw [hc.sym.1]; exact hw.1.1) (h2 (subMask_bit hw.1.2 ?_)) (by rw [hc.sym.1]; exact h5)) h6 ?_
              (ders_ends hd.extra) hf.2.1 hf.2.2.1 hf.2.2.2
            · have := h3 _ ht
              unfold firstsMask at this
              exact this
            · rw [solid_length hd.extra, hd.length]
    · cases h with
      | nil => exact ⟨t, fun m h => h, fun {q m} hm hw => ⟨q, .nil, by unfold walkOk at hw; exact covers_find hw hm⟩⟩
      | @cons p ps k c cs hk hc hcs =>
        obtain ⟨f, h1, h2⟩ := ih1 (c := c) (by simp at hs; omega) hc
        obtain ⟨g, h3, h4⟩ := ih2 (cs := cs) (by simp at hs; omega) hcs (a := a) (t := t)
        refine ⟨f, fun m _ => foldl_bit (.inr ⟨k, hk, h1⟩), fun {q m} hm hw => ?_⟩
        unfold walkOk at hw
        have hw := List.all_eq_true.1 hw k hk
        simp only [Bool.and_eq_true, nbeq_false] at hw
        obtain ⟨q', h5, h6⟩ := h4 hm hw.2
        refine ⟨q', .cons hc.sym.2 (by rw [hc.sym.1]; exact hw.1.1) (h2 (subMask_bit hw.1.2 ?_)) (by rw [hc.sym.1]; exact h5), h6⟩
        have := h3 _ hm
        unfold firstsMask at this
        exact this

theorem Der.yield : ∀ (n : Nat), (∀ {k : Nat} {c : Tree}, sizeOf c ≤ n → Der k c → ∃ w, c.yield = 32 :: w) := by
  intro n
  induction n with
  | zero => intro k c hs; cases c <;> simp at hs
  | succ n ih =>
    intro k c hs h
    cases h with
    | leaf => exact ⟨_, rfl⟩
    | @node r cs hr hd =>
      cases hd' : r.rhs with
      | nil => have := (rule_facts hr).1; rw [headOk, hd'] at this; cases this
      | cons p ps =>
        rw [hd'] at hd
        cases hd with
        | @cons _ _ k c cs hk hc hcs =>
          obtain ⟨w, hw⟩ := ih (c := c) (by simp at hs; omega) hc
          exact ⟨w ++ yields cs, by rw [Tree.yield, yields, hw]; rfl⟩

theorem Ders.sep {ps : List (List Nat)} {cs : List Tree} (h : Ders ps cs) {rest : Bytes} (hr : Sep rest) : Sep (yields cs ++ rest) := by
  cases h with
  | nil => exact hr
  | cons hk hc hcs =>
    obtain ⟨w, hw⟩ := Der.yield _ (Nat.le_refl _) hc
    rw [yields, hw]
    exact rfl

theorem der_lex_aux : ∀ (n : Nat), (∀ {k : Nat} {c : Tree}, sizeOf c ≤ n → Der k c → ∀ {rest : Bytes}, Sep rest → LexAll c rest) ∧
    (∀ {ps : List (List Nat)} {cs : List Tree}, sizeOf cs ≤ n → Ders ps cs → ∀ {rest : Bytes}, Sep rest → LexAlls cs rest) := by
  intro n
  induction n with
  | zero =>
    refine ⟨fun {k c} hs => ?_, fun {ps cs} hs => ?_⟩
    · cases c <;> simp at hs
    · cases cs <;> simp at hs
  | succ n ih =>
    obtain ⟨ih1, ih2⟩ := ih
    refine ⟨fun {k c} hs h {rest} hr => ?_, fun {ps cs} hs h {rest} hr => ?_⟩
    · cases h with
      | leaf h60 h4 h5 hk =>
        rw [LexAll]
        exact ⟨h4, h5, hk.starts hr⟩
      | node _ hd =>
        rw [LexAll]
        exact ih2 (by simp at hs; omega) hd hr
    · cases h with
      | nil => rw [LexAlls]; trivial
      | cons hk hc hcs =>
        rw [LexAlls]
        exact ⟨hc.sym.2, ih1 (by simp at hs; omega) hc (hcs.sep hr), ih2 (by simp at hs; omega) hcs hr⟩

theorem adm_file : (admMask 60 1).testBit 0 = true := by decide +kernel

/-- A tree that follows the rules is what the parser finds in its text. -/
theorem Der.parses {pid : Nat} {cs : List Tree} (h : Der 60 (.node 60 pid cs false)) :
    Parses (yields cs) (.tree (.node 60 pid (cs ++ [.leaf 0 [] [] true]) false)) := by
  obtain ⟨f, -, h2⟩ := (der_fits_aux _).1 (Nat.le_refl _) h
  refine parses_of_fits (h2 adm_file) ?_ ?_
  · have := (der_lex_aux _).1 (Nat.le_refl _) h (rest := []) trivial
    rwa [LexAll] at this
  · obtain ⟨w, hw⟩ := Der.yield _ (Nat.le_refl _) h
    rw [Tree.yield] at hw
    rw [hw]
    rfl

end Bob.Parse
