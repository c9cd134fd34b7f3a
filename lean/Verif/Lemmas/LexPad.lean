import Verif.Lemmas.ParTerm
import Verif.Spec.Pads
/-!
# Tokens after other blanks
-/

namespace Bob.Parse

/-! ## Tables -/

/-- States of the lexer in which blanks are skipped. -/
def skippers : List Nat := [0, 1, 2, 3, 4, 5, 6, 7, 9, 10, 41, 42]

/-- States of the lexer within comments. -/
def inComment : List Nat := [46, 48, 49, 50, 51]

def spaces : List Nat := [9, 11, 12, 13, 32]

def chkPadEdge (st : Nat) : List (Nat × Nat) × Nat × Bool → Bool
  | (_, t, skip) => Nat.blt t 186 && (bif skip then Nat.beq t st && natIn st skippers else !natIn t skippers) &&
    (!(lexState st).accept.isSome || (lexState t).accept.isSome) && (!natIn st inComment || (!skip && natIn t inComment))

def chkPad (st : Nat) : Bool :=
  (lexState st).edges.all (chkPadEdge st) &&
  (match (lexState st).accept with
    | none => true
    | some s => !natIn st skippers && (ofComment s || spaces.all fun c => (nextLex c (lexState st).edges).isNone)) &&
  (match (lexState st).eof with
    | none => true
    | some e => natIn st skippers && Nat.beq e 43) &&
  (!natIn st inComment || (match (lexState st).accept with
    | none => false
    | some s => ofComment s))

theorem chk_pad : (List.range 186).all chkPad = true := by decide +kernel

def chkSkip (m : Nat) : Bool :=
  spaces.all (fun c => nextLex c (lexState m).edges == some (m, true)) &&
  (List.range 256).all fun c =>
    match nextLex c (lexState 0).edges, nextLex c (lexState m).edges with
    | some (_, true), some (t, true) => Nat.beq t m
    | some (_, true), some (t, false) => Nat.beq t 45
    | some (_, true), none => false
    | _, some (_, true) => false
    | _, _ => true

theorem chk_skips : skippers.all chkSkip = true := by decide +kernel

/-- Where the lexer can be after the same characters, from state 0 and from another one, without having accepted anything from that one. -/
def lags : List (Nat × Nat) := [(8, 8), (11, 11), (12, 12), (19, 19), (89, 14), (133, 26), (113, 27), (151, 38), (165, 36), (68, 39), (87, 18), (84, 16), (95, 13), (84, 17), (126, 24),
  (151, 31), (40, 40), (115, 20), (158, 30), (117, 21), (97, 15), (167, 35), (130, 29), (163, 33), (123, 23), (172, 34), (173, 37), (161, 32), (131, 25), (144, 28), (119, 22)]

def lagIn (a b : Nat) : List (Nat × Nat) → Bool
  | [] => false
  | (x, y) :: ps => (Nat.beq a x && Nat.beq b y) || lagIn a b ps

/-- From `a` and `b` on. -/
def chkLag (a b : Nat) : Bool :=
  (List.range 256).all fun c =>
    match nextLex c (lexState b).edges with
    | some (t, false) => (lexState t).accept.isSome || match nextLex c (lexState a).edges with
      | some (u, false) => lagIn u t lags
      | _ => false
    | _ => true

theorem chk_lags : (lags.all fun p => chkLag p.1 p.2 && (!(lexState p.1).accept.isSome || spaces.all fun c => (nextLex c (lexState p.2).edges).isNone)) = true := by decide +kernel

theorem chk_lag_starts : (skippers.all fun m => chkLag 0 m) = true := by decide +kernel

theorem lagIn_iff {a b : Nat} : ∀ {ps : List (Nat × Nat)}, lagIn a b ps = true ↔ (a, b) ∈ ps
  | [] => by simp [lagIn]
  | (x, y) :: ps => by simp only [lagIn, Bool.or_eq_true, Bool.and_eq_true, Nat.beq_eq, lagIn_iff (ps := ps), List.mem_cons, Prod.mk.injEq]

structure PadOK (st : Nat) : Prop where
  edge : ∀ {c t : Nat} {skip : Bool}, nextLex c (lexState st).edges = some (t, skip) → t < 186 ∧ (skip = true → t = st ∧ st ∈ skippers) ∧ (skip = false → t ∉ skippers) ∧
    ((lexState st).accept.isSome = true → (lexState t).accept.isSome = true) ∧ (st ∈ inComment → t ∈ inComment)
  acc : ∀ {s : Nat}, (lexState st).accept = some s → st ∉ skippers ∧ (ofComment s = false → ∀ c ∈ spaces, nextLex c (lexState st).edges = none) ∧ (st ∈ inComment → ofComment s = true)
  eof : ∀ {e : Nat}, (lexState st).eof = some e → st ∈ skippers ∧ e = 43

theorem pad_ok {st : Nat} (h : st < 186) : PadOK st := by
  have := List.all_eq_true.1 chk_pad st (List.mem_range.2 h)
  simp only [chkPad, Bool.and_eq_true] at this
  obtain ⟨⟨⟨h1, h2⟩, h3⟩, h4⟩ := this
  refine ⟨fun {c t skip} hn => ?_, fun {s} hs => ?_, fun {e} he => ?_⟩
  · obtain ⟨r, hm, _⟩ := nextLex_mem hn
    have := List.all_eq_true.1 h1 _ hm
    cases skip <;>
      simp only [chkPadEdge, Bool.and_eq_true, Bool.or_eq_true, Bool.not_eq_true', cond_true, cond_false, natIn_iff, Nat.beq_eq, Nat.blt_eq, ← Bool.not_eq_true] at this
    · exact ⟨this.1.1.1, (nomatch ·), fun _ => this.1.1.2, fun h => this.1.2.resolve_left fun h' => h' h, fun h => (this.2.resolve_left fun h' => h' h).2⟩
    · exact ⟨this.1.1.1, fun _ => this.1.1.2, (nomatch ·), fun h => this.1.2.resolve_left fun h' => h' h, fun h => (this.2.resolve_left fun h' => h' h).2⟩
  · simp only [hs, Bool.and_eq_true, Bool.or_eq_true, Bool.not_eq_true', ← Bool.not_eq_true, natIn_iff] at h2 h4
    refine ⟨h2.1, fun hc d hd => ?_, fun hi => h4.resolve_left fun h' => h' hi⟩
    have := List.all_eq_true.1 (h2.2.resolve_left (by rw [hc]; simp)) d hd
    simpa using this
  · simp only [he, Bool.and_eq_true, natIn_iff, Nat.beq_eq] at h3
    exact h3

theorem skipper_lt {m : Nat} (h : m ∈ skippers) : m < 186 := by
  simp only [skippers, List.mem_cons, List.not_mem_nil, or_false] at h
  omega

theorem skipper_acc {m : Nat} (h : m ∈ skippers) : (lexState m).accept = none := by
  cases ha : (lexState m).accept with
  | none => rfl
  | some s => exact absurd h ((pad_ok (skipper_lt h)).acc ha).1

theorem skipper_space {m c : Nat} (h : m ∈ skippers) (hc : c ∈ spaces) : nextLex c (lexState m).edges = some (m, true) := by
  have := List.all_eq_true.1 chk_skips m h
  simp only [chkSkip, Bool.and_eq_true] at this
  exact eq_of_beq (List.all_eq_true.1 this.1 c hc)

theorem space_mem {c : UInt8} (h : isSpace c = true) : c.toNat ∈ spaces := by
  simp only [isSpace, isBlank, Bool.and_eq_true, Bool.or_eq_true, Nat.ble_eq, Nat.beq_eq, bne_iff_ne, ne_eq] at h
  have : c.toNat ≠ 10 := fun e => h.2 (by rw [← UInt8.toNat_inj]; exact e)
  simp only [spaces, List.mem_cons, List.not_mem_nil, or_false]
  omega

theorem both_skip {m : Nat} {c : UInt8} {t : Nat} (h : m ∈ skippers) (h0 : nextLex c.toNat (lexState 0).edges = some (t, true)) :
    nextLex c.toNat (lexState m).edges = some (m, true) ∨ nextLex c.toNat (lexState m).edges = some (45, false) := by
  have := List.all_eq_true.1 chk_skips m h
  simp only [chkSkip, Bool.and_eq_true] at this
  have := List.all_eq_true.1 this.2 c.toNat (List.mem_range.2 c.toNat_lt)
  rw [h0] at this
  cases hm : nextLex c.toNat (lexState m).edges with
  | none => rw [hm] at this; cases this
  | some p =>
    obtain ⟨u, b⟩ := p
    rw [hm] at this
    cases b <;> simp only [Nat.beq_eq] at this <;> rw [this]
    · exact .inr rfl
    · exact .inl rfl

theorem skip_both {m : Nat} {c : UInt8} {t : Nat} (h : m ∈ skippers) (hm : nextLex c.toNat (lexState m).edges = some (t, true)) :
    nextLex c.toNat (lexState 0).edges = some (0, true) := by
  have := List.all_eq_true.1 chk_skips m h
  simp only [chkSkip, Bool.and_eq_true] at this
  have := List.all_eq_true.1 this.2 c.toNat (List.mem_range.2 c.toNat_lt)
  rw [hm] at this
  cases h0 : nextLex c.toNat (lexState 0).edges with
  | none => rw [h0] at this; simp at this
  | some p =>
    obtain ⟨u, b⟩ := p
    cases b with
    | false => rw [h0] at this; simp at this
    | true => rw [((pad_ok (by decide : (0 : Nat) < 186)).edge h0).2.1 rfl |>.1]

theorem lag_next {a b : Nat} (h : chkLag a b = true) {c : UInt8} {t : Nat} (hb : nextLex c.toNat (lexState b).edges = some (t, false)) (ht : (lexState t).accept = none) :
    ∃ u, nextLex c.toNat (lexState a).edges = some (u, false) ∧ (u, t) ∈ lags := by
  have := List.all_eq_true.1 h c.toNat (List.mem_range.2 c.toNat_lt)
  simp only [hb, ht, Option.isSome_none, Bool.false_or] at this
  split at this
  · rename_i u hu
    exact ⟨u, hu, lagIn_iff.1 this⟩
  · cases this

/-! ## One token -/

theorem mark_cases {st : Nat} {pad tok rest : Bytes} {best : Option Tok} {r : Tok} (h : mark st pad tok rest best = some r) :
    (∃ s, (lexState st).accept = some s ∧ r = ⟨s, pad, tok, rest⟩) ∨ ((lexState st).accept = none ∧ best = some r) := by
  unfold mark at h
  split at h
  · rename_i s hs
    cases h
    exact .inl ⟨s, hs, rfl⟩
  · rename_i hs
    exact .inr ⟨hs, h⟩

theorem mark_acc {st s : Nat} {pad tok rest : Bytes} {best : Option Tok} (h : (lexState st).accept = some s) : mark st pad tok rest best = some ⟨s, pad, tok, rest⟩ := by
  unfold mark; rw [h]

theorem mark_not {st : Nat} {pad tok rest : Bytes} {best : Option Tok} (h : (lexState st).accept = none) : mark st pad tok rest best = best := by
  unfold mark; rw [h]

/-- What is found is what was found before, or begins further on. -/
theorem go_later : ∀ {text : Bytes} {st : Nat} {pad tok : Bytes} {best : Option Tok} {r : Tok}, lexGo st pad tok best text = some r →
    best = some r ∨ (r.rest.length ≤ text.length ∧ pad.length ≤ r.pad.length)
  | [], st, pad, tok, best, r, h => by
    rw [lexGo] at h
    split at h
    · rcases mark_cases h with ⟨s, _, rfl⟩ | ⟨_, h⟩
      · exact .inr ⟨Nat.le_refl _, Nat.le_refl _⟩
      · rcases mark_cases h with ⟨s, _, rfl⟩ | ⟨_, h⟩
        · exact .inr ⟨Nat.le_refl _, Nat.le_refl _⟩
        · exact .inl h
    · rcases mark_cases h with ⟨s, _, rfl⟩ | ⟨_, h⟩
      · exact .inr ⟨Nat.le_refl _, Nat.le_refl _⟩
      · exact .inl h
  | c :: cs, st, pad, tok, best, r, h => by
    have hm : mark st pad tok (c :: cs) best = some r → best = some r ∨ (r.rest.length ≤ (c :: cs).length ∧ pad.length ≤ r.pad.length) := fun h => by
      rcases mark_cases h with ⟨s, _, rfl⟩ | ⟨_, h⟩
      · exact .inr ⟨Nat.le_refl _, Nat.le_refl _⟩
      · exact .inl h
    rw [lexGo] at h
    split at h
    · rcases go_later h with h | h
      · exact hm h
      · simp only [List.length_append, List.length_cons, List.length_nil] at h ⊢
        exact .inr ⟨by omega, by omega⟩
    · rcases go_later h with h | h
      · exact hm h
      · simp only [List.length_cons] at h ⊢
        exact .inr ⟨by omega, by omega⟩
    · exact hm h

/-- In a state that accepts it does not matter what was found before. -/
theorem go_acc {text : Bytes} {st s : Nat} {pad tok : Bytes} {best : Option Tok} (h : (lexState st).accept = some s) : lexGo st pad tok best text = lexGo st pad tok none text := by
  cases text with
  | nil => simp only [lexGo, mark_acc h]
  | cons c cs => simp only [lexGo, mark_acc h]

/-- What may follow a token in place of what did. -/
def Follows (keep : Bool) (rest rest' : Bytes) : Prop :=
  (rest = [] ∧ rest' = []) ∨ (∃ c cs cs', rest = c :: cs ∧ rest' = c :: cs') ∨ (keep = false ∧ ∃ c cs, rest' = c :: cs ∧ isSpace c = true)

/-- Where a token ends. -/
theorem go_end {s st : Nat} {pad tok rest : Bytes} {best : Option Tok} (hlt : st < 186) (hb : ∀ b, best = some b → rest.length < b.rest.length)
    (h : lexGo st pad tok best rest = some ⟨s, pad, tok, rest⟩) :
    ((lexState st).accept = some s ∧ ∀ c cs, rest = c :: cs → nextLex c.toNat (lexState st).edges = none) ∨ (rest = [] ∧ (lexState st).eof = some 43 ∧ (lexState 43).accept = some s) := by
  have hbest : best ≠ some ⟨s, pad, tok, rest⟩ := fun e => absurd (hb _ e) (Nat.lt_irrefl _)
  have hmk : ∀ {x : Bytes}, mark st pad tok x best = some ⟨s, pad, tok, rest⟩ → (lexState st).accept = some s := fun h => by
    rcases mark_cases h with ⟨s', hs, e⟩ | ⟨_, h⟩
    · cases e; exact hs
    · exact absurd h hbest
  cases rest with
  | nil =>
    rw [lexGo] at h
    split at h
    · rename_i e he
      obtain ⟨hsk, rfl⟩ := (pad_ok hlt).eof he
      rcases mark_cases h with ⟨s', hs, e⟩ | ⟨_, h⟩
      · cases e; exact .inr ⟨rfl, he, hs⟩
      · rw [mark_not (skipper_acc hsk)] at h
        exact absurd h hbest
    · exact .inl ⟨hmk h, fun _ _ h => (nomatch h)⟩
  | cons c cs =>
    rw [lexGo] at h
    have key : ∀ {t : Nat} {skip : Bool} {p k : Bytes}, nextLex c.toNat (lexState st).edges = some (t, skip) →
        lexGo t p k (mark st pad tok (c :: cs) best) cs = some ⟨s, pad, tok, c :: cs⟩ → False := fun {t skip p k} hn h => by
      rcases go_later h with h' | h'
      · have ha := hmk h'
        have := ((pad_ok hlt).edge hn).2.2.2.1 (by rw [ha]; rfl)
        obtain ⟨s', hs'⟩ := Option.isSome_iff_exists.1 this
        rw [go_acc hs'] at h
        rcases go_later h with h | h
        · cases h
        · simp only [List.length_cons] at h; omega
      · simp only [List.length_cons] at h'; omega
    split at h
    · rename_i hn; exact absurd h fun h => key hn h
    · rename_i hn; exact absurd h fun h => key hn h
    · rename_i hn
      refine .inl ⟨hmk h, fun d ds e => ?_⟩
      cases e
      exact hn

/-- A token after other blanks and before other text. -/
theorem go_token {s : Nat} {pad pad' rest rest' : Bytes} (hf : Follows (ofComment s) rest rest') (hz : rest = [] → s = 0 → rest' = []) (h43 : (lexState 43).accept = some 0) :
    ∀ {T : Bytes} {st : Nat} {tok : Bytes} {best best' : Option Tok}, st < 186 → (∀ b, best = some b → (T ++ rest).length < b.rest.length) →
    lexGo st pad tok best (T ++ rest) = some ⟨s, pad, tok ++ T, rest⟩ → lexGo st pad' tok best' (T ++ rest') = some ⟨s, pad', tok ++ T, rest'⟩
  | [], st, tok, best, best', hlt, hb, h => by
    simp only [List.nil_append, List.append_nil] at h ⊢ hb
    rcases go_end hlt hb h with ⟨ha, hd⟩ | ⟨he, h1, h2⟩
    · have heof : (lexState st).eof = none := by
        cases he : (lexState st).eof with
        | none => rfl
        | some e => rw [skipper_acc ((pad_ok hlt).eof he).1] at ha; cases ha
      have stop : ∀ {c : UInt8} {cs : Bytes}, nextLex c.toNat (lexState st).edges = none → lexGo st pad' tok best' (c :: cs) = some ⟨s, pad', tok, c :: cs⟩ := fun hn => by
        rw [lexGo, hn]; exact mark_acc ha
      rcases hf with ⟨_, rfl⟩ | ⟨c, cs, cs', e, rfl⟩ | ⟨hk, c, cs, rfl, hc⟩
      · rw [lexGo, heof]; exact mark_acc ha
      · exact stop (hd c cs e)
      · exact stop (((pad_ok hlt).acc ha).2.1 hk _ (space_mem hc))
    · have h0 : s = 0 := by rw [h43] at h2; cases h2; rfl
      rw [hz he h0, lexGo, h1]
      exact mark_acc h2
  | c :: T, st, tok, best, best', hlt, hb, h => by
    have hbest : best ≠ some ⟨s, pad, tok ++ c :: T, rest⟩ := fun e => by
      have := hb _ e
      simp only [List.length_append] at this
      omega
    have hmk : mark st pad tok (c :: (T ++ rest)) best ≠ some ⟨s, pad, tok ++ c :: T, rest⟩ := fun h => by
      rcases mark_cases h with ⟨s', hs, e⟩ | ⟨_, h⟩
      · have := congrArg (fun t : Tok => t.rest.length) e
        simp only [List.length_cons, List.length_append] at this
        omega
      · exact hbest h
    rw [List.cons_append, lexGo] at h ⊢
    split at h
    · rename_i hn
      rcases go_later h with h' | ⟨_, h'⟩
      · exact absurd h' hmk
      · simp only [List.length_append, List.length_cons, List.length_nil] at h'; omega
    · rename_i t hn
      rw [show tok ++ c :: T = (tok ++ [c]) ++ T by simp] at h ⊢
      refine go_token hf hz h43 ((pad_ok hlt).edge hn).1 (fun b hm => ?_) h
      rcases mark_cases hm with ⟨s', hs, rfl⟩ | ⟨_, hm⟩
      · simp only [List.length_cons]; omega
      · have := hb b hm
        simp only [List.cons_append, List.length_cons] at this
        omega
    · exact absurd h hmk

theorem none_best {P : Tok → Prop} : ∀ b, (none : Option Tok) = some b → P b := fun _ h => (nomatch h)

/-! ## Blanks -/

theorem go_pad_fixed : ∀ {text : Bytes} {st : Nat} {pad tok : Bytes} {best : Option Tok} {r : Tok}, st < 186 → st ∉ skippers → (∀ b, best = some b → b.pad = pad) →
    lexGo st pad tok best text = some r → r.pad = pad
  | [], st, pad, tok, best, r, hlt, hs, hb, h => by
    have hm : mark st pad tok [] best = some r → r.pad = pad := fun h => by
      rcases mark_cases h with ⟨s, _, rfl⟩ | ⟨_, h⟩
      · rfl
      · exact hb r h
    rw [lexGo] at h
    split at h
    · rename_i he; exact absurd ((pad_ok hlt).eof he).1 hs
    · exact hm h
  | c :: cs, st, pad, tok, best, r, hlt, hs, hb, h => by
    have hm : ∀ r, mark st pad tok (c :: cs) best = some r → r.pad = pad := fun r h => by
      rcases mark_cases h with ⟨s, _, rfl⟩ | ⟨_, h⟩
      · rfl
      · exact hb r h
    rw [lexGo] at h
    split at h
    · rename_i hn; exact absurd (((pad_ok hlt).edge hn).2.1 rfl).2 hs
    · rename_i hn
      have := (pad_ok hlt).edge hn
      exact go_pad_fixed this.1 (this.2.2.1 rfl) hm h
    · exact hm r h

theorem go_pads {m s : Nat} {T rest u : Bytes} (hm : m ∈ skippers) : ∀ {p pad : Bytes}, lexGo m pad [] none (p ++ u) = some ⟨s, pad ++ p, T, rest⟩ →
    (∀ c ∈ p, nextLex c.toNat (lexState m).edges = some (m, true)) ∧ lexGo m (pad ++ p) [] none u = some ⟨s, pad ++ p, T, rest⟩
  | [], pad, h => ⟨fun _ h => (nomatch h), by simpa using h⟩
  | c :: p, pad, h => by
    rw [List.cons_append, lexGo, mark_not (skipper_acc hm)] at h
    split at h
    · rename_i t hn
      obtain ⟨rfl, _⟩ := ((pad_ok (skipper_lt hm)).edge hn).2.1 rfl
      have e : ∀ x : Bytes, pad ++ c :: x = pad ++ [] ++ [c] ++ x := fun x => by simp
      rw [e] at h ⊢
      have := go_pads hm h
      exact ⟨fun d hd => (List.mem_cons.1 hd).elim (fun e => e ▸ hn) (this.1 d), this.2⟩
    · rename_i t hn
      have := (pad_ok (skipper_lt hm)).edge hn
      have := congrArg List.length (go_pad_fixed this.1 (this.2.2.1 rfl) none_best h)
      simp at this
    · cases h

theorem go_skips {m : Nat} {u : Bytes} (hm : m ∈ skippers) : ∀ {p pad : Bytes}, (∀ c ∈ p, nextLex c.toNat (lexState m).edges = some (m, true)) →
    lexGo m pad [] none (p ++ u) = lexGo m (pad ++ p) [] none u
  | [], pad, _ => by simp
  | c :: p, pad, h => by
    rw [List.cons_append, lexGo, mark_not (skipper_acc hm), h c (List.mem_cons_self ..)]
    simp only []
    rw [go_skips hm fun d hd => h d (List.mem_cons_of_mem _ hd)]
    simp

theorem all_spaces {m : Nat} {p q : Bytes} (hm : m ∈ skippers) (h : ∀ c ∈ p, isSpace c = true ∨ c ∈ q) (hq : ∀ c ∈ q, nextLex c.toNat (lexState m).edges = some (m, true)) :
    ∀ c ∈ p, nextLex c.toNat (lexState m).edges = some (m, true) :=
  fun c hc => (h c hc).elim (fun h => skipper_space hm (space_mem h)) (hq c)

theorem go_comment : ∀ {text : Bytes} {st : Nat} {pad tok : Bytes} {best : Option Tok} {r : Tok}, st < 186 → st ∈ inComment → (∀ b, best = some b → ofComment b.sym = true) →
    lexGo st pad tok best text = some r → ofComment r.sym = true
  | [], st, pad, tok, best, r, hlt, hs, hb, h => by
    have hm : mark st pad tok [] best = some r → ofComment r.sym = true := fun h => by
      rcases mark_cases h with ⟨s, ha, rfl⟩ | ⟨_, h⟩
      · exact ((pad_ok hlt).acc ha).2.2 hs
      · exact hb r h
    rw [lexGo] at h
    split at h
    · rename_i he
      have := ((pad_ok hlt).eof he).1
      simp only [skippers, inComment, List.mem_cons, List.not_mem_nil, or_false] at this hs
      omega
    · exact hm h
  | c :: cs, st, pad, tok, best, r, hlt, hs, hb, h => by
    have hm : ∀ r, mark st pad tok (c :: cs) best = some r → ofComment r.sym = true := fun r h => by
      rcases mark_cases h with ⟨s, ha, rfl⟩ | ⟨_, h⟩
      · exact ((pad_ok hlt).acc ha).2.2 hs
      · exact hb r h
    rw [lexGo] at h
    split at h
    · rename_i hn
      have := (pad_ok hlt).edge hn
      exact go_comment this.1 (this.2.2.2.2 hs) hm h
    · rename_i hn
      have := (pad_ok hlt).edge hn
      exact go_comment this.1 (this.2.2.2.2 hs) hm h
    · exact hm r h

/-- What may be put before a token in place of what was. -/
def PadFor (m : Nat) (pad pad' : Bytes) : Prop := pad' = pad ∨ ((∀ d ∈ pad', isSpace d = true ∨ d ∈ pad) ∧ (m = 50 → pad ≠ []))

theorem eof_accept : (lexState 43).accept = some 0 := by decide +kernel

theorem fresh_cases {m : Nat} (h : m ∈ fresh) : m ∈ skippers ∨ m = 50 := by
  simp only [fresh, skippers, List.mem_cons, List.not_mem_nil, or_false] at h ⊢
  omega

theorem from_other {m s : Nat} {pad pad' T rest rest' : Bytes} (hm : m ∈ fresh) (hp : PadFor m pad pad') (hf : Follows (ofComment s) rest rest') (hz : rest = [] → s = 0 → rest' = [])
    (h : lexFrom m (pad ++ T ++ rest) = some ⟨s, pad, T, rest⟩) : lexFrom m (pad' ++ T ++ rest') = some ⟨s, pad', T, rest'⟩ := by
  unfold lexFrom at h ⊢
  rw [List.append_assoc] at h ⊢
  rcases fresh_cases hm with hs | rfl
  · have := go_pads (pad := []) hs h
    rw [go_skips (pad := []) hs]
    · exact go_token hf hz eof_accept (skipper_lt hs) none_best this.2
    · rcases hp with rfl | hp
      · exact this.1
      · exact all_spaces hs hp.1 this.1
  · have h0 : pad = [] := go_pad_fixed (by decide) (by decide) none_best h
    subst h0
    have : pad' = [] := by
      rcases hp with rfl | hp
      · rfl
      · exact absurd rfl (hp.2 rfl)
    subst this
    exact go_token (T := T) (tok := []) hf hz eof_accept (by decide) none_best h

/-! ## No token -/

theorem go_none_acc {text : Bytes} {st : Nat} {pad tok : Bytes} {best : Option Tok} (h : lexGo st pad tok best text = none) : (lexState st).accept = none := by
  cases ha : (lexState st).accept with
  | none => rfl
  | some s =>
    exfalso
    have never : ∀ {text : Bytes} {st : Nat} {pad tok : Bytes} {b : Tok}, lexGo st pad tok (some b) text ≠ none := by
      intro text
      induction text with
      | nil =>
        intro st pad tok b h
        have hm : ∀ {st : Nat} {b : Tok}, ∃ b', mark st pad tok [] (some b) = some b' := fun {st b} => by
          unfold mark; split
          · exact ⟨_, rfl⟩
          · exact ⟨_, rfl⟩
        rw [lexGo] at h
        obtain ⟨b1, h1⟩ := hm (st := st) (b := b)
        rw [h1] at h
        split at h
        · rename_i e _
          obtain ⟨b2, h2⟩ := hm (st := e) (b := b1)
          rw [h2] at h; cases h
        · cases h
      | cons c cs ih =>
        intro st pad tok b h
        have hm : ∃ b', mark st pad tok (c :: cs) (some b) = some b' := by
          unfold mark; split
          · exact ⟨_, rfl⟩
          · exact ⟨_, rfl⟩
        obtain ⟨b1, h1⟩ := hm
        rw [lexGo, h1] at h
        split at h
        · exact ih h
        · exact ih h
        · cases h
    cases text with
    | nil =>
      rw [lexGo, mark_acc ha] at h
      split at h
      · unfold mark at h; split at h <;> cases h
      · cases h
    | cons c cs =>
      rw [lexGo, mark_acc ha] at h
      split at h
      · exact never h
      · exact never h
      · cases h

/-- Where nothing is found for a token that there is in state 0, nothing is found after a change of blanks. -/
theorem go_none {s : Nat} {pad pad' rest rest' : Bytes} (hf : Follows (ofComment s) rest rest') :
    ∀ {T : Bytes} {a b : Nat} {tok : Bytes} {best : Option Tok}, a < 186 → b < 186 → b ∉ skippers → (a, b) ∈ lags → (∀ x, best = some x → (T ++ rest).length < x.rest.length) →
    lexGo a pad tok best (T ++ rest) = some ⟨s, pad, tok ++ T, rest⟩ → a ∉ skippers → lexGo b pad tok none (T ++ rest) = none → lexGo b pad' tok none (T ++ rest') = none
  | [], a, b, tok, best, hla, hlb, hsk, hin, hb, h, hsa, hn => by
    simp only [List.nil_append, List.append_nil] at h hn hb ⊢
    have hacc := go_none_acc hn
    have hlag := List.all_eq_true.1 chk_lags _ hin
    simp only [Bool.and_eq_true, Bool.or_eq_true, Bool.not_eq_true', ← Bool.not_eq_true] at hlag
    have heof : (lexState b).eof = none := by
      cases he : (lexState b).eof with
      | none => rfl
      | some e => exact absurd ((pad_ok hlb).eof he).1 hsk
    rcases go_end hla hb h with ⟨ha, hd⟩ | ⟨_, h1, _⟩
    · rcases hf with ⟨_, rfl⟩ | ⟨c, cs, cs', rfl, rfl⟩ | ⟨_, c, cs, rfl, hc⟩
      · rw [lexGo, heof]; exact mark_not hacc
      · cases hx : nextLex c.toNat (lexState b).edges with
        | none => rw [lexGo, hx]; exact mark_not hacc
        | some p =>
          obtain ⟨t, skip⟩ := p
          cases skip with
          | true => exact absurd (((pad_ok hlb).edge hx).2.1 rfl).2 hsk
          | false =>
            rw [lexGo, hx] at hn
            obtain ⟨u, hu, _⟩ := lag_next hlag.1 hx (go_none_acc hn)
            rw [hd c cs rfl] at hu; cases hu
      · have := List.all_eq_true.1 (hlag.2.resolve_left (by rw [ha]; simp)) _ (space_mem hc)
        rw [Option.isNone_iff_eq_none] at this
        rw [lexGo, this]; exact mark_not hacc
    · exact absurd ((pad_ok hla).eof h1).1 hsa
  | c :: T, a, b, tok, best, hla, hlb, hsk, hin, hb, h, hsa, hn => by
    have hacc := go_none_acc hn
    have hlag := List.all_eq_true.1 chk_lags _ hin
    simp only [Bool.and_eq_true] at hlag
    rw [List.cons_append, lexGo, mark_not hacc] at hn ⊢
    cases hx : nextLex c.toNat (lexState b).edges with
    | none => rfl
    | some p =>
      obtain ⟨t, skip⟩ := p
      have hp := (pad_ok hlb).edge hx
      cases skip with
      | true => exact absurd (hp.2.1 rfl).2 hsk
      | false =>
        rw [hx] at hn
        obtain ⟨u, hu, hin'⟩ := lag_next hlag.1 hx (go_none_acc hn)
        rw [List.cons_append, lexGo, hu] at h
        rw [show tok ++ c :: T = (tok ++ [c]) ++ T by simp] at h
        have hq := (pad_ok hla).edge hu
        refine go_none hf hq.1 hp.1 (hp.2.2.1 rfl) hin' (fun x hm => ?_) h (hq.2.2.1 rfl) hn
        rcases mark_cases hm with ⟨s', hs, rfl⟩ | ⟨_, hm⟩
        · simp only [List.length_cons]; omega
        · have := hb x hm
          simp only [List.cons_append, List.length_cons] at this
          omega

theorem newline_accept : (lexState 45).accept = some 2 := by decide +kernel

theorem go_none_pads {m : Nat} {u : Bytes} (hm : m ∈ skippers) : ∀ {p pad : Bytes}, (∀ c ∈ p, nextLex c.toNat (lexState 0).edges = some (0, true)) →
    lexGo m pad [] none (p ++ u) = none → (∀ c ∈ p, nextLex c.toNat (lexState m).edges = some (m, true)) ∧ lexGo m (pad ++ p) [] none u = none
  | [], pad, _, h => ⟨fun _ h => (nomatch h), by simpa using h⟩
  | c :: p, pad, h0, h => by
    rw [List.cons_append, lexGo, mark_not (skipper_acc hm)] at h
    rcases both_skip hm (h0 c (List.mem_cons_self ..)) with hn | hn
    · rw [hn] at h
      have := go_none_pads hm (fun d hd => h0 d (List.mem_cons_of_mem _ hd)) h
      refine ⟨fun d hd => (List.mem_cons.1 hd).elim (fun e => e ▸ hn) (this.1 d), by simpa using this.2⟩
    · rw [hn] at h
      exact absurd (go_none_acc h) (by rw [newline_accept]; simp)

theorem none_other {m s : Nat} {pad pad' T rest rest' : Bytes} (hm : m ∈ fresh) (hp : PadFor m pad pad') (hf : Follows (ofComment s) rest rest') (hz : rest = [] → s = 0 → rest' = [])
    (h : lexFrom 0 (pad ++ T ++ rest) = some ⟨s, pad, T, rest⟩) (hn : lexFrom m (pad ++ T ++ rest) = none) : lexFrom m (pad' ++ T ++ rest') = none := by
  unfold lexFrom at h hn ⊢
  rw [List.append_assoc] at h hn ⊢
  have hs : m ∈ skippers := by
    rcases fresh_cases hm with hs | rfl
    · exact hs
    · exact absurd (go_none_acc hn) (by decide +kernel)
  have hz0 : (0 : Nat) ∈ skippers := by decide
  have h0 := go_pads (pad := []) hz0 h
  have h1 := go_none_pads (pad := []) hs h0.1 hn
  rw [go_skips (pad := []) hs (by
    rcases hp with rfl | hp
    · exact h1.1
    · exact all_spaces hs hp.1 h1.1)]
  obtain ⟨_, h0⟩ := h0
  obtain ⟨_, h1⟩ := h1
  simp only [List.nil_append] at h0 h1 ⊢
  cases T with
  | nil =>
    rcases go_end (skipper_lt hz0) none_best h0 with ⟨ha, _⟩ | ⟨he, _, h2⟩
    · rw [skipper_acc hz0] at ha; cases ha
    · have : s = 0 := by rw [eof_accept] at h2; cases h2; rfl
      subst he
      rw [hz rfl this]
      simp only [List.append_nil, lexGo] at h1 ⊢
      rw [mark_not (skipper_acc hs)] at h1 ⊢
      split at h1
      · rename_i e _
        unfold mark at h1
        split at h1
        · cases h1
        · rename_i hx; simp only [mark_not hx]
      · rfl
  | cons c T =>
    rw [List.cons_append, lexGo, mark_not (skipper_acc hs)] at h1 ⊢
    rw [List.cons_append, lexGo, mark_not (skipper_acc hz0)] at h0
    cases hx : nextLex c.toNat (lexState m).edges with
    | none => rfl
    | some p =>
      obtain ⟨t, skip⟩ := p
      have hp' := (pad_ok (skipper_lt hs)).edge hx
      cases skip with
      | true =>
        rw [skip_both hs hx] at h0
        rcases go_later h0 with h | ⟨_, h⟩
        · cases h
        · simp only [List.length_append, List.length_cons, List.length_nil] at h; omega
      | false =>
        rw [hx] at h1
        obtain ⟨u, hu, hin⟩ := lag_next (List.all_eq_true.1 chk_lag_starts m hs) hx (go_none_acc h1)
        rw [hu] at h0
        have hq := (pad_ok (skipper_lt hz0)).edge hu
        exact go_none hf hq.1 hp'.1 (hp'.2.2.1 rfl) hin none_best (by simpa using h0) (hq.2.2.1 rfl) h1

/-- A token is found after other blanks and before other text. -/
theorem lexTok_other {m s : Nat} {pad pad' T rest rest' : Bytes} (hm : m ∈ fresh) (hp : PadFor m pad pad') (hf : Follows (ofComment s) rest rest') (hz : rest = [] → s = 0 → rest' = [])
    (h : lexTok m (pad ++ T ++ rest) = some ⟨s, pad, T, rest⟩) : lexTok m (pad' ++ T ++ rest') = some ⟨s, pad', T, rest'⟩ := by
  unfold lexTok at h ⊢
  split at h
  · rename_i h'
    cases h
    rw [from_other hm hp hf hz h']
  · rename_i h'
    rw [none_other hm hp hf hz h h']
    exact from_other (by decide) (hp.imp_right fun h => ⟨h.1, fun e => (nomatch e)⟩) hf hz h

end Bob.Parse
