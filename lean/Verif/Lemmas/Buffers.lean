import Verif.Model.Buffers
import Verif.Lemmas.Base
/-!
# Reading and writing blocks of memory
-/

namespace Bob.Mem

theorem store_eq {b : Block} {i : Nat} (c : UInt8) (h : i < b.length) :
    store b i c = some (b.take i ++ some c :: b.drop (i + 1)) := by
  rw [store, if_pos h, List.set_eq_take_append_cons_drop, if_pos h]

/-- `memcpy` to a place with enough room. -/
theorem copyTo_eq : ∀ (bs : Bytes) (b : Block) (off : Nat), off + bs.length ≤ b.length →
    copyTo b off bs = some (b.take off ++ bs.map some ++ b.drop (off + bs.length))
  | [], b, off, _ => by simp [copyTo]
  | c :: cs, b, off, h => by
    simp only [List.length_cons] at h
    have hs : off < b.length := by omega
    simp only [copyTo, store_eq c hs, bind, Option.bind]
    rw [copyTo_eq cs _ (off + 1) (by simp; omega)]
    have hl : (b.take off).length = off := by rw [List.length_take]; omega
    have e1 : (b.take off ++ some c :: b.drop (off + 1)).take (off + 1) = b.take off ++ [some c] := by
      rw [List.take_append, hl, List.take_of_length_le (by rw [hl]; omega)]
      simp
    have e2 : (b.take off ++ some c :: b.drop (off + 1)).drop (off + 1 + cs.length) = b.drop (off + (cs.length + 1)) := by
      rw [List.drop_append, hl, List.drop_eq_nil_of_le (by rw [hl]; omega)]
      have : off + 1 + cs.length - off = cs.length + 1 := by omega
      rw [this]
      simp only [List.drop_succ_cons, List.drop_drop, List.nil_append]
      congr 1; omega
    rw [e1, e2]
    simp [List.append_assoc]

/-- … and to a place without. -/
theorem copyTo_none : ∀ (bs : Bytes) (b : Block) (off : Nat), bs ≠ [] → b.length < off + bs.length → copyTo b off bs = none
  | [], _, _, h, _ => absurd rfl h
  | c :: cs, b, off, _, h => by
    simp only [List.length_cons] at h
    simp only [copyTo, bind, Option.bind]
    by_cases hs : off < b.length
    · rw [store_eq c hs]
      refine copyTo_none cs _ (off + 1) ?_ (by simp; omega)
      intro hc; rw [hc] at h; simp at h; omega
    · rw [store, if_neg hs]

theorem strAt_cut : ∀ (s : Bytes) (r : Block), strAt (s.map some ++ some NUL :: r) = some (cstr s)
  | [], r => by simp [strAt, cstr]
  | c :: s, r => by
    by_cases hc : c = NUL
    · simp [strAt, cstr, hc]
    · simp [strAt, cstr, hc, strAt_cut s r]

theorem strAt_str {s : Bytes} (h : NUL ∉ s) (r : Block) : strAt (s.map some ++ some NUL :: r) = some s := by
  rw [strAt_cut, cstr_eq_self h]

/-- A block without a zero byte is read past its end. -/
theorem strAt_none : ∀ {s : Bytes}, NUL ∉ s → strAt (ofVal s) = none
  | [], _ => rfl
  | c :: s, h => by
    simp only [List.mem_cons, not_or] at h
    have ih := strAt_none h.2
    simp only [ofVal] at ih
    have hc : ¬ c = NUL := fun e => h.1 e.symm
    simp [ofVal, strAt, hc, ih]

theorem strAt_val_nul : ∀ {s : Bytes}, NUL ∈ s → strAt (ofVal s) = some (cstr s)
  | [], h => by simp at h
  | c :: s, h => by
    by_cases hc : c = NUL
    · simp [ofVal, strAt, cstr, hc]
    · have ih := strAt_val_nul (s := s) (by
        rcases List.mem_cons.1 h with h | h
        · exact absurd h.symm hc
        · exact h)
      simp only [ofVal] at ih
      simp [ofVal, strAt, cstr, hc, ih]

theorem strnAt_val : ∀ (s : Bytes) (r : Block), strnAt s.length (s.map some ++ r) = some (cstr s)
  | [], _ => rfl
  | c :: s, r => by
    by_cases hc : c = NUL
    · simp [strnAt, cstr, hc]
    · simp [strnAt, cstr, hc, strnAt_val s r]

theorem loadN_val : ∀ (s : Bytes) (r : Block), loadN s.length (s.map some ++ r) = some s
  | [], _ => rfl
  | c :: s, r => by simp [loadN, loadN_val s r]

theorem starAt_val {s : Bytes} (h : s.length < 2147483648) : starAt s.length (ofVal s) = some (cstr s) := by
  have : s.length % 4294967296 = s.length := by omega
  rw [starAt, this, if_pos h]
  simpa [ofVal] using strnAt_val s []

theorem length_cstr : ∀ s : Bytes, (cstr s).length ≤ s.length
  | [] => by simp [cstr]
  | c :: s => by
    have := length_cstr s
    rw [cstr]; split <;> simp <;> omega

theorem length_fresh (n : Nat) : (fresh n).length = n := by simp [fresh]

theorem drop_fresh (n k : Nat) : (fresh n).drop k = fresh (n - k) := by simp [fresh]

theorem length_grow (b : Block) (n : Nat) : (grow b n).length = n := by simp [grow, fresh]; omega

/-- Growing keeps what is there. -/
theorem grow_eq {b : Block} {n : Nat} (h : b.length ≤ n) : grow b n = b ++ fresh (n - b.length) := by
  rw [grow, List.take_of_length_le h]

/-- `snprintf` into a block with room for the whole text. -/
theorem snprintf_eq {b : Block} {off size : Nat} {t : Bytes} (h1 : t.length < size) (h2 : off + t.length < b.length) :
    snprintf b off size t = some (b.take off ++ (t.map some ++ some NUL :: b.drop (off + t.length + 1))) := by
  have ht : t.take (size - 1) = t := List.take_of_length_le (by omega)
  rw [snprintf, if_neg (by omega), ht, copyTo_eq _ _ _ (by simp; omega)]
  simp [List.append_assoc, Nat.add_assoc]

theorem load_at (pre : Block) (c : UInt8) (r : Block) : load (pre ++ some c :: r) pre.length = some c := by
  simp [load]

theorem store_at (pre : Block) (x : Option UInt8) (c : UInt8) (r : Block) :
    store (pre ++ x :: r) pre.length c = some (pre ++ some c :: r) := by
  rw [store_eq c (by simp)]
  simp

/-! ## Cookies -/

theorem foldLoop_eq : ∀ (s : Bytes) (pre r : Block),
    foldLoop s.length pre.length (pre ++ (s.map some ++ r)) = some (pre ++ ((s.map foldSlash).map some ++ r))
  | [], pre, r => by simp [foldLoop]
  | c :: s, pre, r => by
    have ih := foldLoop_eq s (pre ++ [some (foldSlash c)]) r
    have hl := load_at pre c (s.map some ++ r)
    simp only [List.length_cons, foldLoop, List.map_cons, List.cons_append, hl, bind, Option.bind]
    simp only [List.length_append, List.length_singleton, List.append_assoc, List.singleton_append] at ih
    by_cases hc : c = SLASH
    · rw [if_pos hc, store_at]
      simp only [foldSlash, hc, if_true] at ih ⊢
      exact ih
    · rw [if_neg hc]
      simp only [foldSlash, if_neg hc] at ih ⊢
      exact ih

/-- The loop runs past the end of the block. -/
theorem foldLoop_none : ∀ (n i : Nat) (b : Block), b.length < i + n → 0 < n → foldLoop n i b = none
  | 0, _, _, _, h => by omega
  | n + 1, i, b, h, _ => by
    simp only [foldLoop, bind, Option.bind]
    by_cases hi : i < b.length
    · cases hl : load b i with
      | none => rfl
      | some c =>
        simp only []
        by_cases hc : c = SLASH
        · rw [if_pos hc, store_eq _ hi]
          exact foldLoop_none n (i + 1) _ (by simp; omega) (by omega)
        · rw [if_neg hc]
          exact foldLoop_none n (i + 1) _ (by omega) (by omega)
    · have : load b i = none := by simp [load, List.getElem?_eq_none (by omega : b.length ≤ i)]
      rw [this]

/-! ## Flags -/

/-- Writing behind the end of a string leaves it as it is. -/
theorem strAt_take : ∀ {b : Block} {s : Bytes} {n : Nat} (x : Block), strAt b = some s → s.length < n → strAt (b.take n ++ x) = some s
  | [], _, _, _, h, _ => by simp [strAt] at h
  | none :: _, _, _, _, h, _ => by simp [strAt] at h
  | some c :: b, s, n, x, h, hn => by
    cases n with
    | zero => omega
    | succ n =>
      simp only [strAt, List.take_succ_cons, List.cons_append] at h ⊢
      by_cases hc : c = NUL
      · rw [if_pos hc] at h ⊢; exact h
      · rw [if_neg hc] at h ⊢
        cases hs : strAt b with
        | none => rw [hs] at h; simp at h
        | some t =>
          rw [hs] at h
          simp only [Option.map_some, Option.some.injEq] at h
          subst h
          simp only [List.length_cons] at hn
          rw [strAt_take x hs (by omega)]
          rfl

/-- After a flag with a zero byte nothing changes any more. -/
theorem flagLoop_cut : ∀ (fs : List Bytes) (b : Block) (size : Nat) (q : Bytes), (∀ f ∈ fs, f.length < 2147483648) → strAt b = some q →
    q.length < size → b.length = size + 1 → ∃ b', flagLoop fs b size = some b' ∧ strAt b' = some q
  | [], b, _, q, _, h, _, _ => ⟨b, rfl, h⟩
  | f :: fs, b, size, q, hf, h, hq, hb => by
    have hl := length_cstr f
    have h1 := hf f (by simp)
    simp only [flagLoop, starAt_val h1, bind, Option.bind]
    rw [snprintf_eq (by simp; omega) (by rw [length_grow]; simp; omega)]
    simp only []
    refine flagLoop_cut fs _ _ q (fun g hg => hf g (by simp [hg])) ?_ (by omega) ?_
    · refine strAt_take _ ?_ hq
      rw [grow_eq (by omega)]
      have := strAt_take (n := b.length) (fresh (size + (f.length + 1) + 1 - b.length)) h (by omega)
      rwa [List.take_of_length_le (Nat.le_refl _)] at this
    · simp [length_grow]; omega

theorem flagLoop_eq : ∀ (fs : List Bytes) (p : Bytes), (∀ f ∈ fs, f.length < 2147483648) → NUL ∉ p →
    ∃ b', flagLoop fs (p.map some ++ [some NUL]) p.length = some b' ∧ strAt b' = some (p ++ flagText fs)
  | [], p, _, hp => ⟨_, rfl, by rw [strAt_str hp]; simp [flagText]⟩
  | f :: fs, p, hf, hp => by
    have h1 := hf f (by simp)
    have hg : grow (p.map some ++ [some NUL]) (p.length + (f.length + 1) + 1) = p.map some ++ some NUL :: fresh (f.length + 1) := by
      rw [grow_eq (by simp)]
      simp
    have hl := length_cstr f
    have ht : (p.map some ++ some NUL :: fresh (f.length + 1)).take p.length = p.map some := by
      rw [List.take_append_of_le_length (by simp), List.take_of_length_le (by simp)]
    simp only [flagLoop, starAt_val h1, bind, Option.bind, hg]
    rw [snprintf_eq (by simp; omega) (by simp [length_fresh]; omega), ht]
    simp only []
    by_cases hn : NUL ∈ f
    · have hs : strAt (p.map some ++ ((cstr f ++ [NL]).map some ++ some NUL ::
          (p.map some ++ some NUL :: fresh (f.length + 1)).drop (p.length + (cstr f ++ [NL]).length + 1))) = some (p ++ (cstr f ++ [NL])) := by
        rw [← List.append_assoc, ← List.map_append]
        refine strAt_str ?_ _
        simp only [List.mem_append, not_or]
        exact ⟨hp, nul_not_mem_cstr f, by decide⟩
      have hlt : ∀ {g : Bytes}, NUL ∈ g → (cstr g).length < g.length := by
        intro g
        induction g with
        | nil => simp
        | cons c g ih =>
          intro hm
          rw [cstr]
          split
          · simp
          · rename_i hc
            rcases List.mem_cons.1 hm with e | hm
            · exact absurd e.symm hc
            · simpa using ih hm
      have := hlt hn
      obtain ⟨b', e, h'⟩ := flagLoop_cut fs _ (p.length + (f.length + 1)) _ (fun g hg => hf g (by simp [hg])) hs (by simp; omega)
        (by simp [length_fresh]; omega)
      exact ⟨b', e, by rw [h', flagText, if_pos hn]⟩
    · have hc := cstr_eq_self hn
      have hd : (p.map some ++ some NUL :: fresh (f.length + 1)).drop (p.length + (f ++ [NL]).length + 1) = [] := by
        apply List.drop_eq_nil_of_le
        simp [length_fresh]; omega
      obtain ⟨b', e, h'⟩ := flagLoop_eq fs (p ++ (f ++ [NL])) (fun g hg => hf g (by simp [hg])) (by
        simp only [List.mem_append, not_or]
        exact ⟨hp, hn, by decide⟩)
      refine ⟨b', ?_, by rw [h', flagText, if_neg hn]; simp⟩
      rw [hc, hd, ← e]
      simp

/-! ## Output of commands -/

theorem outLoop_eq : ∀ (cs : List Bytes) (s : Bytes) (x : Option UInt8), (∀ c ∈ cs, c.length ≤ 4096) →
    ∃ y, outLoop cs (s.map some ++ [x]) s.length = some ((s ++ cs.flatten).map some ++ [y], (s ++ cs.flatten).length)
  | [], s, x, _ => ⟨x, by simp [outLoop]⟩
  | c :: cs, s, x, h => by
    have h1 := h c (by simp)
    have hr : copyTo (fresh 4096) 0 c = some (c.map some ++ fresh (4096 - c.length)) := by
      rw [copyTo_eq _ _ _ (by rw [length_fresh]; omega), drop_fresh]
      simp
    have hb : ∃ y, copyTo (grow (s.map some ++ [x]) (s.length + c.length + 1)) (s.length + c.length - c.length) c =
        some ((s ++ c).map some ++ [y]) := by
      have hl := length_grow (s.map some ++ [x]) (s.length + c.length + 1)
      rw [copyTo_eq _ _ _ (by omega)]
      have e1 : s.length + c.length - c.length = s.length := by omega
      rw [e1]
      have e2 : (grow (s.map some ++ [x]) (s.length + c.length + 1)).take s.length = s.map some := by
        rw [grow_eq (by simp), List.append_assoc, List.take_append_of_le_length (by simp), List.take_of_length_le (by simp)]
      obtain ⟨y, hy⟩ : ∃ y, (grow (s.map some ++ [x]) (s.length + c.length + 1)).drop (s.length + c.length) = [y] := by
        have : ((grow (s.map some ++ [x]) (s.length + c.length + 1)).drop (s.length + c.length)).length = 1 := by
          rw [List.length_drop, hl]; omega
        exact List.length_eq_one_iff.1 this
      exact ⟨y, by rw [e2, hy]; simp⟩
    obtain ⟨y, hb⟩ := hb
    obtain ⟨z, ih⟩ := outLoop_eq cs (s ++ c) y (fun d hd => h d (by simp [hd]))
    refine ⟨z, ?_⟩
    simp only [outLoop, hr, bind, Option.bind, loadN_val, hb]
    simp only [List.length_append] at ih
    rw [ih]
    simp [List.append_assoc, Nat.add_assoc]

/-! ## Dependencies -/

theorem scan_found {sep : UInt8} : ∀ (f : Bytes) (r : Block) (i : Nat), sep ∉ f → NUL ∉ f →
    scan sep (f.map some ++ some sep :: r) i = some (i + f.length, true)
  | [], r, i, _, _ => by simp [scan]
  | c :: f, r, i, h1, h2 => by
    simp only [List.mem_cons, not_or] at h1 h2
    simp only [List.map_cons, List.cons_append, scan]
    rw [if_neg (fun e => h1.1 e.symm), if_neg (fun e => h2.1 e.symm), scan_found f r (i + 1) h1.2 h2.2]
    simp; omega

theorem scan_end {sep : UInt8} (hs : sep ≠ NUL) : ∀ (f : Bytes) (r : Block) (i : Nat), sep ∉ f → NUL ∉ f →
    scan sep (f.map some ++ some NUL :: r) i = some (i + f.length, false)
  | [], r, i, _, _ => by
    have : ¬ NUL = sep := fun e => hs e.symm
    simp [scan, this]
  | c :: f, r, i, h1, h2 => by
    simp only [List.mem_cons, not_or] at h1 h2
    simp only [List.map_cons, List.cons_append, scan]
    rw [if_neg (fun e => h1.1 e.symm), if_neg (fun e => h2.1 e.symm), scan_end hs f r (i + 1) h1.2 h2.2]
    simp; omega

theorem strsep_found {sep : UInt8} {f : Bytes} (pre r : Block) (h1 : sep ∉ f) (h2 : NUL ∉ f) :
    strsep sep (pre ++ (f.map some ++ some sep :: r)) pre.length =
      some (pre ++ (f.map some ++ some NUL :: r), some (pre.length + f.length + 1)) := by
  have := store_at (pre ++ f.map some) (some sep) NUL r
  simp only [List.length_append, List.length_map, List.append_assoc] at this
  simp [strsep, scan_found f r _ h1 h2, this]

theorem strsep_end {sep : UInt8} {f : Bytes} (hs : sep ≠ NUL) (pre r : Block) (h1 : sep ∉ f) (h2 : NUL ∉ f) :
    strsep sep (pre ++ (f.map some ++ some NUL :: r)) pre.length = some (pre ++ (f.map some ++ some NUL :: r), none) := by
  simp [strsep, scan_end hs f r _ h1 h2]

/-- A text either has no separator, or begins with a field and a separator. -/
theorem field_cases (sep : UInt8) : ∀ s : Bytes, sep ∉ s ∨ ∃ f rest, s = f ++ sep :: rest ∧ sep ∉ f
  | [] => Or.inl (by simp)
  | c :: s => by
    by_cases hc : c = sep
    · exact Or.inr ⟨[], s, by simp [hc], by simp⟩
    · rcases field_cases sep s with h | ⟨f, rest, rfl, hf⟩
      · refine Or.inl ?_
        simp only [List.mem_cons, not_or]
        exact ⟨fun e => hc e.symm, h⟩
      · refine Or.inr ⟨c :: f, rest, by simp, ?_⟩
        simp only [List.mem_cons, not_or]
        exact ⟨fun e => hc e.symm, hf⟩

/-- What one field adds to the text of the file. -/
def tokenText (f : Bytes) : Bytes := if skipToken f then [] else stripNl f ++ [NL]

/-- One round of `get_include_deps`. -/
theorem depsLoop_token {fuel : Nat} {b pre tail : Block} {f acc : Bytes} {p' : Option Nat} (hf : NUL ∉ f)
    (hs : strsep SP b pre.length = some (pre ++ (f.map some ++ some NUL :: tail), p')) :
    ∃ pre2 : Block, pre2.length = pre.length + f.length + 1 ∧
      depsLoop (fuel + 1) b (some pre.length) acc = depsLoop fuel (pre2 ++ tail) p' (acc ++ tokenText f) := by
  simp only [depsLoop, hs, bind, Option.bind]
  cases f with
  | nil =>
    refine ⟨pre ++ [some NUL], by simp, ?_⟩
    have := load_at pre NUL tail
    simp [this, tokenText, skipToken]
  | cons c f =>
    have hl : load (pre ++ (List.map some (c :: f) ++ some NUL :: tail)) pre.length = some c := by
      simpa using load_at pre c (f.map some ++ some NUL :: tail)
    have hd : (pre ++ (List.map some (c :: f) ++ some NUL :: tail)).drop pre.length = List.map some (c :: f) ++ some NUL :: tail := by
      simp
    have hcn : ¬ c = NUL := by
      intro e; subst e; simp at hf
    rw [hl]
    simp only [hd, strAt_str hf]
    by_cases hk : c = COLON ∨ c = BACKSLASH
    · refine ⟨pre ++ (List.map some (c :: f) ++ [some NUL]), by simp; omega, ?_⟩
      rw [if_pos (by rcases hk with h | h <;> simp [h])]
      have : skipToken (c :: f) = true := by simpa [skipToken] using hk
      simp [tokenText, this]
    · rw [if_neg (by simp only [not_or] at hk ⊢; exact ⟨hk.1, hk.2, hcn⟩)]
      have hk' : skipToken (c :: f) = false := by simpa [skipToken] using hk
      obtain ⟨g, l, hgl⟩ : ∃ g l, c :: f = g ++ [l] := by
        rcases List.eq_nil_or_concat (c :: f) with h | ⟨g, l, h⟩
        · simp at h
        · exact ⟨g, l, by simpa using h⟩
      have hgn : NUL ∉ g := fun h => hf (by rw [hgl]; simp [h])
      have hlen : pre.length + (c :: f).length - 1 = pre.length + g.length := by rw [hgl]; simp
      have hload : load (pre ++ (List.map some (c :: f) ++ some NUL :: tail)) (pre.length + g.length) = some l := by
        have := load_at (pre ++ g.map some) l (some NUL :: tail)
        simp only [List.length_append, List.length_map, List.append_assoc] at this
        rw [hgl]; simpa using this
      rw [hlen, hload]
      simp only []
      by_cases hnl : l = NL
      · have hst : store (pre ++ (List.map some (c :: f) ++ some NUL :: tail)) (pre.length + g.length) NUL =
            some (pre ++ (g.map some ++ some NUL :: some NUL :: tail)) := by
          have := store_at (pre ++ g.map some) (some l) NUL (some NUL :: tail)
          simp only [List.length_append, List.length_map, List.append_assoc] at this
          rw [hgl]; simpa using this
        rw [if_pos hnl, hst]
        have hd2 : (pre ++ (g.map some ++ some NUL :: some NUL :: tail)).drop pre.length = g.map some ++ some NUL :: some NUL :: tail := by simp
        simp only [hd2, strAt_str hgn]
        refine ⟨pre ++ (g.map some ++ [some NUL, some NUL]), by rw [hgl]; simp; omega, ?_⟩
        have : stripNl (c :: f) = g := by rw [stripNl, hgl]; simp [hnl]
        simp [tokenText, hk', this]
      · rw [if_neg hnl]
        simp only [pure]
        simp only [hd, strAt_str hf]
        refine ⟨pre ++ (List.map some (c :: f) ++ [some NUL]), by simp; omega, ?_⟩
        have : stripNl (c :: f) = c :: f := by rw [stripNl, hgl]; simp [hnl]
        simp [tokenText, hk', this]

theorem depsLoop_eq : ∀ (n : Nat) (s : Bytes) (pre r : Block) (acc : Bytes) (fuel : Nat), s.length ≤ n → NUL ∉ s → s.length + 2 ≤ fuel →
    depsLoop fuel (pre ++ (s.map some ++ some NUL :: r)) (some pre.length) acc =
      some (acc ++ (strsepAll SP s).flatMap tokenText) := by
  intro n
  induction n with
  | zero =>
    intro s pre r acc fuel hn hs hfuel
    have : s = [] := List.length_eq_zero_iff.1 (by omega)
    subst this
    obtain ⟨fuel, rfl⟩ : ∃ k, fuel = k + 2 := ⟨fuel - 2, by simp at hfuel; omega⟩
    obtain ⟨pre2, _, e⟩ := depsLoop_token (fuel := fuel + 1) (acc := acc) (f := []) (by simp) (strsep_end (sep := SP) (by decide) pre r (by simp) (by simp))
    rw [e]
    simp [depsLoop, strsepAll]
  | succ n ih =>
    intro s pre r acc fuel hn hs hfuel
    obtain ⟨fuel, rfl⟩ : ∃ k, fuel = k + 2 := ⟨fuel - 2, by omega⟩
    rcases field_cases SP s with h | ⟨f, rest, rfl, hf⟩
    · obtain ⟨pre2, _, e⟩ := depsLoop_token (fuel := fuel + 1) (acc := acc) hs (strsep_end (sep := SP) (by decide) pre r h hs)
      rw [e]
      simp [depsLoop, strsepAll_field SP s h]
    · have hfn : NUL ∉ f := fun h => hs (by simp [h])
      have hrn : NUL ∉ rest := fun h => hs (by simp [h])
      have hsep := strsep_found (sep := SP) pre (rest.map some ++ some NUL :: r) hf hfn
      obtain ⟨pre2, hp2, e⟩ := depsLoop_token (fuel := fuel + 1) (acc := acc) hfn hsep
      have hb : pre ++ (List.map some (f ++ SP :: rest) ++ some NUL :: r) = pre ++ (f.map some ++ some SP :: (rest.map some ++ some NUL :: r)) := by simp
      simp only [List.length_append, List.length_cons] at hn hfuel
      rw [hb, e, ← hp2, ih rest pre2 r _ (fuel + 1) (by omega) hrn (by omega), strsepAll_field_sep SP f rest hf]
      simp [List.append_assoc]

theorem headersLoop_eq : ∀ (n : Nat) (s : Bytes) (pre r : Block) (deps : List Nat) (fuel : Nat), s.length ≤ n → NUL ∉ s → s.length + 2 ≤ fuel →
    ∃ bf ds, headersLoop fuel (pre ++ (s.map some ++ some NUL :: r)) (some pre.length) deps = some (bf, deps ++ ds) ∧
      (∃ t, bf = pre ++ t) ∧
      ds.mapM (fun p => strAt (bf.drop p)) = some ((strsepAll NL s).filter fun t => !t.isEmpty) := by
  intro n
  induction n with
  | zero =>
    intro s pre r deps fuel hn hs hfuel
    have : s = [] := List.length_eq_zero_iff.1 (by omega)
    subst this
    obtain ⟨fuel, rfl⟩ : ∃ k, fuel = k + 2 := ⟨fuel - 2, by simp at hfuel; omega⟩
    have e := strsep_end (sep := NL) (f := []) (by decide) pre r (by simp) (by simp)
    have hl := load_at pre NUL r
    refine ⟨pre ++ some NUL :: r, [], ?_, ⟨_, rfl⟩, by simp [strsepAll]⟩
    simp only [List.map_nil, List.nil_append] at e
    simp [headersLoop, e, hl]
  | succ n ih =>
    intro s pre r deps fuel hn hs hfuel
    obtain ⟨fuel, rfl⟩ : ∃ k, fuel = k + 2 := ⟨fuel - 2, by omega⟩
    have hload : ∀ (f : Bytes) (x : Block), NUL ∉ f → ∃ c, load (pre ++ (f.map some ++ some NUL :: x)) pre.length = some c ∧ (c = NUL ↔ f = []) := by
      intro f x hf
      cases f with
      | nil => exact ⟨NUL, by simpa using load_at pre NUL x, by simp⟩
      | cons c f =>
        refine ⟨c, by simpa using load_at pre c (f.map some ++ some NUL :: x), ?_⟩
        simp only [reduceCtorEq, iff_false]
        intro e; subst e; simp at hf
    rcases field_cases NL s with h | ⟨f, rest, rfl, hf⟩
    · have e := strsep_end (sep := NL) (by decide) pre r h hs
      obtain ⟨c, hc, hcn⟩ := hload s r hs
      refine ⟨pre ++ (s.map some ++ some NUL :: r), if c = NUL then [] else [pre.length], ?_, ⟨_, rfl⟩, ?_⟩
      · simp only [headersLoop, e, bind, Option.bind, hc]
        by_cases hz : c = NUL <;> simp [hz]
      · rw [strsepAll_field NL s h]
        by_cases hz : c = NUL
        · simp [hz, hcn.1 hz]
        · have : s ≠ [] := fun e => hz (hcn.2 e)
          simp [hz, this, strAt_str hs]
    · have hfn : NUL ∉ f := fun h => hs (by simp [h])
      have hrn : NUL ∉ rest := fun h => hs (by simp [h])
      have hsep := strsep_found (sep := NL) pre (rest.map some ++ some NUL :: r) hf hfn
      have hb : pre ++ (List.map some (f ++ NL :: rest) ++ some NUL :: r) = pre ++ (f.map some ++ some NL :: (rest.map some ++ some NUL :: r)) := by simp
      obtain ⟨c, hc, hcn⟩ := hload f (rest.map some ++ some NUL :: r) hfn
      simp only [List.length_append, List.length_cons] at hn hfuel
      obtain ⟨bf, ds, e, ⟨t, ht⟩, hm⟩ := ih rest (pre ++ (f.map some ++ [some NUL])) r (if c = NUL then deps else deps ++ [pre.length]) (fuel + 1)
        (by omega) hrn (by omega)
      refine ⟨bf, (if c = NUL then [] else [pre.length]) ++ ds, ?_, ⟨f.map some ++ some NUL :: t, by rw [ht]; simp⟩, ?_⟩
      · rw [hb]
        rw [headersLoop, hsep]
        simp only [bind, Option.bind, hc]
        have hx : (pre ++ (f.map some ++ [some NUL])).length = pre.length + f.length + 1 := by simp; omega
        rw [hx] at e
        simp only [List.append_assoc, List.singleton_append] at e
        rw [e]
        by_cases hz : c = NUL <;> simp [hz]
      · rw [strsepAll_field_sep NL f rest hf]
        by_cases hz : c = NUL
        · simp [hz, hcn.1 hz, hm]
        · have hne : f ≠ [] := fun e => hz (hcn.2 e)
          have hst : strAt (bf.drop pre.length) = some f := by
            rw [ht]
            simpa using strAt_str hfn t
          simp [hz, hne, hst, hm]

end Bob.Mem
