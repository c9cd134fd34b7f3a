import Verif.Lemmas.ParComp
import Verif.Spec.FlWords
/-!
# Reading one token

What the lexer finds at a blank, a word and another blank.
-/

namespace Bob.Parse

/-- The state after the characters of `w`. -/
def walk (st : Nat) : Bytes → Option Nat
  | [] => some st
  | c :: cs =>
    match nextLex c.toNat (lexState st).edges with
    | some (st', false) => walk st' cs
    | _ => none

/-- A blank or the end of the text. -/
def Sep : Bytes → Prop
  | [] => True
  | c :: _ => c = 32

def stops (st : Nat) : Option Nat :=
  match (lexState st).eof, nextLex 32 (lexState st).edges with
  | none, none => (lexState st).accept
  | _, _ => none

def lexWord (m : Nat) (w : Bytes) : Option Nat :=
  match nextLex 32 (lexState m).edges with
  | some (m', true) =>
    match walk m' w with
    | some st => stops st
    | none => none
  | _ => none

theorem lexGo_walk {rest : Bytes} : ∀ {w : Bytes} {st st' : Nat}, walk st w = some st' → ∀ pad tok best, ∃ best', lexGo st pad tok best (w ++ rest) = lexGo st' pad (tok ++ w) best' rest
  | [], st, st', h, pad, tok, best => by
    cases h
    exact ⟨best, by simp⟩
  | c :: cs, st, st', h, pad, tok, best => by
    unfold walk at h
    split at h
    · rename_i st1 h1
      obtain ⟨b, hb⟩ := lexGo_walk (rest := rest) h pad (tok ++ [c]) (mark st pad tok (c :: (cs ++ rest)) best)
      refine ⟨b, ?_⟩
      rw [List.cons_append, lexGo, h1]
      simpa using hb
    · cases h

theorem lexGo_stops {st s : Nat} (h : stops st = some s) {rest : Bytes} (hr : Sep rest) (pad tok : Bytes) (best : Option Tok) :
    lexGo st pad tok best rest = some ⟨s, pad, tok, rest⟩ := by
  unfold stops at h
  split at h
  · rename_i h1 h2
    cases rest with
    | nil => simp only [lexGo, h1, mark, h]
    | cons c cs =>
      cases (show c = 32 from hr)
      simp only [lexGo, show (32 : UInt8).toNat = 32 from rfl, h2, mark, h]
  · cases h

theorem lexWord_lex {m s : Nat} {w : Bytes} (h : lexWord m w = some s) {rest : Bytes} (hr : Sep rest) :
    lexTok m ([32] ++ (w ++ rest)) = some ⟨s, [32], w, rest⟩ := by
  unfold lexWord at h
  split at h
  · rename_i m' h1
    split at h
    · rename_i st h2
      obtain ⟨b, hb⟩ := lexGo_walk (rest := rest) h2 [32] [] (mark m [] [] (32 :: (w ++ rest)) none)
      have : lexFrom m (32 :: (w ++ rest)) = some ⟨s, [32], w, rest⟩ := by
        rw [lexFrom, lexGo, show (32 : UInt8).toNat = 32 from rfl, h1]
        simp only [List.nil_append]
        rw [hb, List.nil_append, lexGo_stops h hr]
      simp only [lexTok, List.singleton_append, this]
    · cases h
  · cases h

/-- Every state that knows token `s` finds it in `w`. -/
def known (s : Nat) (w : Bytes) : Bool :=
  (List.range 336).all fun q => Nat.beq q 0 || Nat.beq q 331 || Nat.beq q 335 || (actions q s).isEmpty || match lexMode q with
    | none => false
    | some m => lexWord m w == some s

/-- Text of the tokens that have only one. -/
def tokText : Nat → Bytes
  | 2 => b!"\n"
  | 6 => b!"{"
  | 7 => b!"}"
  | 8 => b!"import"
  | 9 => b!"."
  | 10 => b!"static"
  | 12 => b!"proto"
  | 13 => b!"("
  | 14 => b!")"
  | 16 => b!"fn"
  | 17 => b!"|"
  | 18 => b!"class"
  | 19 => b!"print"
  | 20 => b!"assert"
  | 21 => b!"return"
  | 26 => b!","
  | 27 => b!":"
  | 28 => b!"let"
  | 29 => b!"="
  | 44 => b!"["
  | 45 => b!"]"
  | 24 => b!"<"
  | 25 => b!">"
  | 30 => b!"-"
  | 31 => b!"!"
  | 32 => b!"**"
  | 33 => b!"*"
  | 34 => b!"/"
  | 35 => b!"%"
  | 36 => b!"+"
  | 37 => b!"=="
  | 38 => b!"!="
  | 39 => b!"<="
  | 40 => b!">="
  | 41 => b!"&&"
  | 42 => b!"||"
  | 43 => b!"^^"
  | 56 => b!"true"
  | 57 => b!"false"
  | 59 => b!"none"
  | _ => []

def fixedToks : List Nat := [2, 6, 7, 8, 9, 10, 12, 13, 14, 16, 17, 18, 19, 20, 21, 24, 25, 26, 27, 28, 29, 30, 31, 32, 33, 34, 35, 36, 37, 38, 39, 40, 41, 42, 43, 44, 45, 56, 57, 59]

theorem known_all : (fixedToks.all fun s => known s (tokText s)) = true := by decide +kernel

/-- What every state that knows `s` finds in `w`. -/
def Knows (s : Nat) (w : Bytes) : Prop := ∀ e, Usual e → actions e s ≠ [] → ∃ m, lexMode e = some m ∧ lexWord m w = some s

theorem knows_fixed {s : Nat} (h : s ∈ fixedToks) : Knows s (tokText s) := by
  intro e he ha
  have := List.all_eq_true.1 (List.all_eq_true.1 known_all s h) e (List.mem_range.2 he.live.2)
  simp only [Bool.or_eq_true, Nat.beq_eq, he.live.1, he.hashes, he.doc, false_or] at this
  rcases this with h | h
  · exact absurd (List.isEmpty_iff.1 h) ha
  · cases hm : lexMode e with
    | none => simp [hm] at h
    | some m =>
      simp only [hm, beq_iff_eq] at h
      exact ⟨m, rfl, h⟩

theorem Knows.starts {s : Nat} {w : Bytes} (h : Knows s w) {rest : Bytes} (hr : Sep rest) : Starts s ([32] ++ (w ++ rest)) ⟨s, [32], w, rest⟩ where
  sym := rfl
  lex e he ha := by
    obtain ⟨m, h1, h2⟩ := h e he ha
    exact ⟨m, h1, lexWord_lex h2 hr⟩

/-! ## Names -/

/-- States of the lexer within a word that begins like a reserved one, and what has been read there. -/
def prefixes : List (Nat × Bytes) := [
  (54, b!"import"), (57, b!"static"), (59, b!"pure"), (61, b!"proto"), (66, b!"fn"), (70, b!"class"), (71, b!"print"), (72, b!"assert"),
  (73, b!"return"), (74, b!"vec"), (75, b!"map"), (83, b!"let"), (108, b!"any"), (109, b!"int"), (110, b!"str"), (111, b!"bool"),
  (112, b!"void"), (113, b!"f"), (114, b!"f"), (115, b!"cl"), (116, b!"m"), (117, b!"st"), (118, b!"ve"), (119, b!"stati"),
  (120, b!"voi"), (121, b!"v"), (122, b!"non"), (123, b!"pur"), (124, b!"tru"), (125, b!"fals"), (126, b!"l"), (127, b!"r"),
  (128, b!"ass"), (129, b!"vo"), (130, b!"pr"), (131, b!"stat"), (132, b!"boo"), (133, b!"c"), (134, b!"fa"), (135, b!"i"),
  (136, b!"a"), (137, b!"a"), (138, b!"retur"), (139, b!"i"), (140, b!"no"), (141, b!"pri"), (142, b!"n"), (143, b!"v"),
  (144, b!"prot"), (145, b!"b"), (146, b!"bo"), (147, b!"err"), (148, b!"imp"), (149, b!"ma"), (150, b!"im"), (151, b!"p"),
  (152, b!"t"), (153, b!"st"), (154, b!"erro"), (155, b!"e"), (156, b!"retu"), (157, b!"er"), (158, b!"pu"), (159, b!"asse"),
  (160, b!"impo"), (161, b!"clas"), (162, b!"as"), (163, b!"cla"), (164, b!"fal"), (165, b!"s"), (166, b!"in"), (167, b!"le"),
  (168, b!"prin"), (169, b!"asser"), (170, b!"impor"), (171, b!"re"), (172, b!"sta"), (173, b!"pro"), (174, b!"s"), (175, b!"p"),
  (176, b!"tr"), (177, b!"ret"), (178, b!"an"), (182, b!"true"), (183, b!"false"), (184, b!"error"), (185, b!"none")]

def wordModes : List Nat := [1, 5, 6, 7, 9, 41, 42]

def isName (c : Nat) : Bool := (Nat.ble 65 c && Nat.ble c 90) || (Nat.ble 97 c && Nat.ble c 122) || Nat.beq c 95

def isNum (c : Nat) : Bool := Nat.ble 48 c && Nat.ble c 57

/-- The lexer is in state `st` after `w`. -/
def within (st : Nat) (w : Bytes) : Bool := Nat.beq st 179 || prefixes.contains (st, w)

def chkNext (st c : Nat) (w : Bytes) : Bool :=
  match nextLex c (lexState st).edges with
  | some (st', false) => within st' (w ++ [UInt8.ofNat c])
  | _ => false

theorem chk_modes_word : (wordModes.all fun m => nextLex 32 (lexState m).edges == some (m, true) &&
    (List.range 256).all fun c => !isName c || chkNext m c []) = true := by decide +kernel

theorem chk_prefixes : (prefixes.all fun (st, w) => (List.range 256).all fun c => !(isName c || isNum c) || chkNext st c w) = true := by decide +kernel

theorem chk_generic : ((List.range 256).all fun c => !(isName c || isNum c) || nextLex c (lexState 179).edges == some (179, false)) = true := by decide +kernel

theorem chk_stops : (prefixes.all fun (st, w) => stops st == some 53 || Fl.reserved.contains w) = true := by decide +kernel

theorem chk_word_modes : ((List.range 336).all fun q => Nat.beq q 0 || Nat.beq q 331 || Nat.beq q 335 || (actions q 53).isEmpty || match lexMode q with
    | none => false
    | some m => natIn m wordModes) = true := by decide +kernel

theorem ofNat_toNat (c : UInt8) : UInt8.ofNat c.toNat = c := by simp

theorem chkNext_spec {st : Nat} {c : UInt8} {w : Bytes} (h : chkNext st c.toNat w = true) :
    ∃ st', nextLex c.toNat (lexState st).edges = some (st', false) ∧ within st' (w ++ [c]) = true := by
  unfold chkNext at h
  split at h
  · rename_i st' h1
    rw [ofNat_toNat] at h
    exact ⟨st', h1, h⟩
  · cases h

theorem walk_within {v : Bytes} : ∀ {st : Nat} {w : Bytes}, within st w = true → (v.all fun d => Fl.isLetter d || Fl.isDigit d) = true →
    ∃ st', walk st v = some st' ∧ within st' (w ++ v) = true := by
  induction v with
  | nil => intro st w h _; exact ⟨st, rfl, by simpa using h⟩
  | cons c v ih =>
    intro st w h hv
    simp only [List.all_cons, Bool.and_eq_true] at hv
    have hc : (isName c.toNat || isNum c.toNat) = true := hv.1
    have hlt : c.toNat ∈ List.range 256 := List.mem_range.2 c.toNat_lt
    have : ∃ st', nextLex c.toNat (lexState st).edges = some (st', false) ∧ within st' (w ++ [c]) = true := by
      simp only [within, Bool.or_eq_true, Nat.beq_eq, List.contains_iff_mem] at h
      rcases h with rfl | h
      · have := List.all_eq_true.1 chk_generic _ hlt
        simp only [hc, Bool.not_true, Bool.false_or, beq_iff_eq] at this
        exact ⟨179, this, rfl⟩
      · have := List.all_eq_true.1 (List.all_eq_true.1 chk_prefixes _ h) _ hlt
        simp only [hc, Bool.not_true, Bool.false_or] at this
        exact chkNext_spec this
    obtain ⟨st1, h1, h2⟩ := this
    obtain ⟨st2, h3, h4⟩ := ih h2 hv.2
    refine ⟨st2, ?_, by simpa using h4⟩
    unfold walk
    rw [h1]
    exact h3

theorem lexWord_name {m : Nat} (hm : m ∈ wordModes) {w : Bytes} (h : Fl.nameOK w = true) : lexWord m w = some 53 := by
  have h0 := List.all_eq_true.1 chk_modes_word m hm
  simp only [Bool.and_eq_true, beq_iff_eq] at h0
  match w, h with
  | c :: cs, h =>
    simp only [Fl.nameOK, Bool.and_eq_true] at h
    have := List.all_eq_true.1 h0.2 c.toNat (List.mem_range.2 c.toNat_lt)
    rw [show isName c.toNat = true from h.1.1] at this
    simp only [Bool.not_true, Bool.false_or] at this
    obtain ⟨st1, h1, h2⟩ := chkNext_spec this
    obtain ⟨st2, h3, h4⟩ := walk_within h2 h.1.2
    have hst : stops st2 = some 53 := by
      simp only [within, Bool.or_eq_true, Nat.beq_eq, List.contains_iff_mem] at h4
      rcases h4 with rfl | h4
      · decide +kernel
      · have := List.all_eq_true.1 chk_stops _ h4
        simp only [Bool.or_eq_true, beq_iff_eq] at this
        rcases this with h | h'
        · exact h
        · have := h.2
          simp only [List.nil_append, List.singleton_append] at h'
          rw [h'] at this; cases this
    have hw : walk m (c :: cs) = some st2 := by unfold walk; rw [h1]; exact h3
    simp only [lexWord, h0.1, hw, hst]

theorem knows_name {w : Bytes} (h : Fl.nameOK w = true) : Knows 53 w := by
  intro e he ha
  have := List.all_eq_true.1 chk_word_modes e (List.mem_range.2 he.live.2)
  simp only [Bool.or_eq_true, Nat.beq_eq, he.live.1, he.hashes, he.doc, false_or] at this
  rcases this with h' | h'
  · exact absurd (List.isEmpty_iff.1 h') ha
  · cases hm : lexMode e with
    | none => simp [hm] at h'
    | some m =>
      simp only [hm, natIn_iff] at h'
      exact ⟨m, rfl, lexWord_name h' h⟩

/-! ## Numbers and strings -/

def litModes : List Nat := [1, 5, 41, 42]

theorem chk_lit_modes : ((List.range 336).all fun q => Nat.beq q 0 || Nat.beq q 331 || Nat.beq q 335 || ((actions q 54).isEmpty && (actions q 55).isEmpty) ||
    match lexMode q with
    | none => false
    | some m => natIn m litModes) = true := by decide +kernel

theorem chk_lits : (litModes.all fun m => nextLex 32 (lexState m).edges == some (m, true) && nextLex 34 (lexState m).edges == some (8, false) &&
    (List.range 256).all fun c => !isNum c || nextLex c (lexState m).edges == some (180, false)) = true := by decide +kernel

theorem chk_num : ((List.range 256).all fun c => !isNum c || nextLex c (lexState 180).edges == some (180, false)) = true := by decide +kernel

theorem chk_str : (nextLex 34 (lexState 8).edges == some (181, false) && nextLex 92 (lexState 8).edges == some (40, false) &&
    (List.range 256).all fun c => (Nat.beq c 0 || Nat.beq c 34 || Nat.beq c 92 || nextLex c (lexState 8).edges == some (8, false)) &&
      (Nat.beq c 0 || Nat.beq c 10 || nextLex c (lexState 40).edges == some (8, false))) = true := by decide +kernel

theorem walk_num : ∀ {w : Bytes}, w.all Fl.isDigit = true → walk 180 w = some 180
  | [], _ => rfl
  | c :: cs, h => by
    simp only [List.all_cons, Bool.and_eq_true] at h
    have := List.all_eq_true.1 chk_num c.toNat (List.mem_range.2 c.toNat_lt)
    rw [show isNum c.toNat = true from h.1] at this
    simp only [Bool.not_true, Bool.false_or, beq_iff_eq] at this
    unfold walk
    rw [this]
    exact walk_num h.2

theorem toNat_ne {c d : UInt8} (h : c ≠ d) : c.toNat ≠ d.toNat := fun h' => h (UInt8.toNat_inj.1 h')

theorem walk_str : ∀ {w : Bytes}, Fl.strOK w = true → walk 8 (w ++ [34]) = some 181 := by
  have hs := chk_str
  simp only [Bool.and_eq_true, beq_iff_eq, List.all_eq_true, List.mem_range, Bool.or_eq_true, Nat.beq_eq] at hs
  obtain ⟨⟨h34, h92⟩, hall⟩ := hs
  intro w
  induction w using Fl.strOK.induct with
  | case1 =>
    intro _
    show walk 8 [34] = _
    unfold walk
    rw [show (34 : UInt8).toNat = 34 from rfl, h34]
    rfl
  | case2 => intro h; simp [Fl.strOK] at h
  | case3 d ds ih =>
    intro h
    simp only [Fl.strOK, if_true, Bool.and_eq_true, bne_iff_ne] at h
    have h1 := (hall d.toNat d.toNat_lt).2
    have h0 : d.toNat ≠ 0 := toNat_ne h.1.1
    have h10 : d.toNat ≠ 10 := toNat_ne h.1.2
    simp only [h0, h10, false_or] at h1
    show walk 8 (92 :: d :: (ds ++ [34])) = _
    unfold walk
    rw [show (92 : UInt8).toNat = 92 from rfl, h92]
    show walk 40 (d :: (ds ++ [34])) = _
    unfold walk
    rw [h1]
    exact ih h.2
  | case4 c cs hc ih =>
    intro h
    unfold Fl.strOK at h
    rw [if_neg hc] at h
    simp only [Bool.and_eq_true, bne_iff_ne] at h
    have h1 := (hall c.toNat c.toNat_lt).1
    have h0 : c.toNat ≠ 0 := toNat_ne h.1.2
    have h34 : c.toNat ≠ 34 := toNat_ne h.1.1
    have h92 : c.toNat ≠ 92 := toNat_ne hc
    simp only [h0, h34, h92, false_or] at h1
    show walk 8 (c :: (cs ++ [34])) = _
    unfold walk
    rw [h1]
    exact ih h.2

theorem lit_mode {e s : Nat} (he : Usual e) (hs : s = 54 ∨ s = 55) (ha : actions e s ≠ []) : ∃ m, lexMode e = some m ∧ m ∈ litModes := by
  have := List.all_eq_true.1 chk_lit_modes e (List.mem_range.2 he.live.2)
  simp only [Bool.or_eq_true, Nat.beq_eq, he.live.1, he.hashes, he.doc, false_or, Bool.and_eq_true, List.isEmpty_iff] at this
  rcases this with h' | h'
  · rcases hs with rfl | rfl
    · exact absurd h'.1 ha
    · exact absurd h'.2 ha
  · cases hm : lexMode e with
    | none => simp [hm] at h'
    | some m =>
      simp only [hm, natIn_iff] at h'
      exact ⟨m, rfl, h'⟩

theorem knows_num {w : Bytes} (h : Fl.numOK w = true) : Knows 54 w := by
  intro e he ha
  obtain ⟨m, hm, hm'⟩ := lit_mode he (.inl rfl) ha
  refine ⟨m, hm, ?_⟩
  have h0 := List.all_eq_true.1 chk_lits m hm'
  simp only [Bool.and_eq_true, beq_iff_eq] at h0
  match w, h with
  | c :: cs, h =>
    simp only [Fl.numOK, Bool.and_eq_true] at h
    have := List.all_eq_true.1 h0.2 c.toNat (List.mem_range.2 c.toNat_lt)
    rw [show isNum c.toNat = true from h.1] at this
    simp only [Bool.not_true, Bool.false_or, beq_iff_eq] at this
    have hw : walk m (c :: cs) = some 180 := by unfold walk; rw [this]; exact walk_num h.2
    have hst : stops 180 = some 54 := by decide +kernel
    simp only [lexWord, h0.1, hw, hst]

theorem knows_str {w : Bytes} (h : Fl.strOK w = true) : Knows 55 (34 :: (w ++ [34])) := by
  intro e he ha
  obtain ⟨m, hm, hm'⟩ := lit_mode he (.inr rfl) ha
  refine ⟨m, hm, ?_⟩
  have h0 := List.all_eq_true.1 chk_lits m hm'
  simp only [Bool.and_eq_true, beq_iff_eq] at h0
  have hw : walk m (34 :: (w ++ [34])) = some 181 := by
    unfold walk
    rw [show (34 : UInt8).toNat = 34 from rfl, h0.1.2]
    exact walk_str h
  have hst : stops 181 = some 55 := by decide +kernel
  simp only [lexWord, h0.1.1, hw, hst]

end Bob.Parse
