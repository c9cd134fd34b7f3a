import Verif.Lemmas.ParLeaves
import Verif.Props.Parse
/-!
# C97, C98: tokens of accepted scripts
-/

namespace Bob.Parse

theorem Lexed.spelled {ls : List (Nat × Bytes × Bytes)} {text rest : Bytes} (h : Lexed ls text rest) : spelled isLooseComment ls = true := by
  induction h with
  | nil => rfl
  | snoc _ hq hm ht ih =>
    have := lexTok_spell hq hm ht
    simp only [Bob.Parse.spelled, List.all_append, List.all_cons, List.all_nil, Bool.and_true, Bool.and_eq_true]
    exact ⟨ih, this⟩

/-- **C97 (part).** In the tree of an accepted script each token has the spelling of its symbol: keywords and operators their own, names are made of letters and digits, and so on.
Between the tokens there are only blanks.  Comments end with the line they begin in, except for a bare `#`.  Full statement: with `isComment` for `isLooseComment`. -/
theorem C97_tokens_are_spelled_partial (text : Bytes) (t : Tree) (h : Parses text (.tree t)) : spelled isLooseComment t.leaves = true := by
  obtain ⟨rest, h⟩ := parses_lexed h
  exact h.spelled

def leavesOfText (text : Bytes) : Option (List (Nat × Bytes × Bytes)) :=
  match parse text with
  | some (.tree t) => some t.leaves
  | _ => none

theorem leavesOfText_some {text : Bytes} {ls : List (Nat × Bytes × Bytes)} (h : leavesOfText text = some ls) : ∃ t, Parses text (.tree t) ∧ t.leaves = ls := by
  unfold leavesOfText at h
  split at h
  · rename_i t ht
    cases h
    exact ⟨t, (parse_iff _ _).2 ht, rfl⟩
  · cases h

set_option maxRecDepth 100000 in
theorem bare_hash : leavesOfText b!"let a = 1\n#\na = 2\n" = some [(T.let_, b!"", b!"let"), (T.word, b!" ", b!"a"), (T.assign, b!" ", b!"="), (T.number, b!" ", b!"1"),
    (T.newline, b!"", b!"\n"), (T.comment, b!"", b!"#\na = 2"), (T.eof, b!"\n", b!"")] := by decide +kernel

/-- **C97 fails for comments.** After a bare `#` the next line is taken for part of the comment. -/
theorem C97_tokens_are_spelled_false : ¬ ∀ (text : Bytes) (t : Tree), Parses text (.tree t) → spelled isComment t.leaves = true := by
  intro h
  obtain ⟨t, h1, h2⟩ := leavesOfText_some bare_hash
  have := h _ t h1
  rw [h2] at this
  revert this
  decide

/-- Where comments are not bare, they are as they should be. -/
theorem C97_comments {text : Bytes} (h : isLooseComment text = true) : isComment text = true ∨ ∃ bl cs, text = bl ++ 35 :: 10 :: cs ∧ bl.all isSpace = true := by
  unfold isLooseComment at h
  split at h
  · rename_i c cs hd
    simp only [Bool.and_eq_true, bne_iff_ne] at h
    by_cases hc : c = 10
    · subst hc
      right
      refine ⟨text.takeWhile isSpace, cs, ?_, List.all_takeWhile⟩
      rw [← hd, List.takeWhile_append_dropWhile]
    · left
      unfold isComment
      rw [hd]
      simp only [List.all_cons, Bool.and_eq_true, inLine, bne_iff_ne]
      exact ⟨⟨hc, h.1.2⟩, h.2⟩
  · cases h

/-! ## Words -/

/-- What follows the last token. -/
def EndsWell (which : Nat → Bool) (ls : List (Nat × Bytes × Bytes)) (rest : Bytes) : Prop :=
  ∀ a, ls.getLast? = some a → which a.1 = true → rest.head?.any wordChar = false

theorem touching_snoc {which : Nat → Bool} {b : Nat × Bytes × Bytes} : ∀ {ls : List (Nat × Bytes × Bytes)}, touching which ls = false →
    (∀ a, ls.getLast? = some a → which a.1 = true → (b.2.1.isEmpty && b.2.2.head?.any wordChar) = false) → touching which (ls ++ [b]) = false
  | [], _, _ => rfl
  | [a], _, h2 => by
    have := h2 a rfl
    simp only [List.cons_append, List.nil_append, touching, Bool.or_false]
    cases hw : which a.1 with
    | false => rfl
    | true => simp only [Bool.and_assoc, this hw, Bool.and_false]
  | a :: c :: ls, h1, h2 => by
    simp only [touching, Bool.or_eq_false_iff, List.cons_append] at h1 ⊢
    exact ⟨h1.1, touching_snoc (ls := c :: ls) h1.2 (by simpa using h2)⟩

theorem Lexed.names {ls : List (Nat × Bytes × Bytes)} {text rest : Bytes} (h : Lexed ls text rest) :
    touching (· == T.word) ls = false ∧ EndsWell (· == T.word) ls rest := by
  induction h with
  | nil => exact ⟨rfl, fun _ h => by cases h⟩
  | @snoc ls text t q m r _ hq hm ht ih =>
    refine ⟨touching_snoc ih.1 fun a ha hw => ?_, fun a ha hw => ?_⟩
    · have h1 := ih.2 a ha hw
      have h2 := lexTok_all ht
      unfold Tok.all at h2
      cases hp : t.pad with
      | cons _ _ => rfl
      | nil =>
        rw [hp] at h2
        cases hx : t.text with
        | nil => rfl
        | cons c cs =>
          rw [hx] at h2
          simp only [List.nil_append, List.cons_append] at h2
          rw [← h2] at h1
          simpa using h1
    · simp only [List.getLast?_append, List.getLast?_singleton, Option.some_or, Option.some.injEq] at ha
      subst ha
      exact lexTok_names hq hm ht (eq_of_beq hw)

/-- **C98 (part).** A name is not cut short: no letter or digit follows it.  The names of types are not used as names.  Full statement: no two words touch each other, and
keywords are never used as names. -/
theorem C98_names_are_whole_partial (text : Bytes) (t : Tree) (h : Parses text (.tree t)) : touching (· == T.word) t.leaves = false ∧
    ∀ pad w, (T.word, pad, w) ∈ t.leaves → isWord w = true ∧ w ∉ primitives := by
  obtain ⟨rest, h⟩ := parses_lexed h
  refine ⟨h.names.1, fun pad w hm => ?_⟩
  have := List.all_eq_true.1 h.spelled _ hm
  simp only [Bool.and_eq_true] at this
  have h2 := this.2
  have : (isWord w && !primitives.contains w) = true := h2
  simp only [Bool.and_eq_true, Bool.not_eq_true', ← Bool.not_eq_true, List.contains_iff_mem] at this
  exact this

set_option maxRecDepth 100000 in
theorem glued : leavesOfText b!"static leta = 1fn f {}\n" = some [(T.static_, b!"", b!"static"), (T.let_, b!" ", b!"let"), (T.word, b!"", b!"a"), (T.assign, b!" ", b!"="),
    (T.number, b!" ", b!"1"), (T.fn, b!"", b!"fn"), (T.word, b!" ", b!"f"), (T.lbrace, b!" ", b!"{"), (T.rbrace, b!"", b!"}"), (T.eof, b!"\n", b!"")] := by decide +kernel

/-- **C98 fails**: `static leta = 1fn f {}` declares a variable `a` and a function `f`. -/
theorem C98_words_are_whole_false : ¬ ∀ (text : Bytes) (t : Tree), Parses text (.tree t) → touching (fun _ => true) t.leaves = false := by
  intro h
  obtain ⟨t, h1, h2⟩ := leavesOfText_some glued
  have := h _ t h1
  rw [h2] at this
  revert this
  decide

set_option maxRecDepth 100000 in
theorem keyword_name : leavesOfText b!"let true = let\n" = some [(T.let_, b!"", b!"let"), (T.word, b!" ", b!"true"), (T.assign, b!" ", b!"="), (T.word, b!" ", b!"let"),
    (T.newline, b!"", b!"\n"), (T.eof, b!"", b!"")] := by decide +kernel

/-- **C98 fails for keywords** too: `let true = let` declares a variable `true` with the value of a variable `let`. -/
theorem C98_keywords_are_no_names_false : ¬ ∀ (text : Bytes) (t : Tree), Parses text (.tree t) → ∀ pad w, (T.word, pad, w) ∈ t.leaves → w ∉ Fl.reserved := by
  intro h
  obtain ⟨t, h1, h2⟩ := leavesOfText_some keyword_name
  have := h _ t h1 b!" " b!"let" (by rw [h2]; decide)
  exact this (by decide)

/-! Sample. -/

set_option maxRecDepth 100000 in
theorem C97_sample : leavesOfText b!"print \"a b\" + f(12) # hi\n" = some [(T.print, b!"", b!"print"), (T.string, b!" ", b!"\"a b\""), (T.plus, b!" ", b!"+"),
    (T.word, b!" ", b!"f"), (T.lparen, b!"", b!"("), (T.number, b!"", b!"12"), (T.rparen, b!"", b!")"), (T.comment, b!" ", b!"# hi"), (T.newline, b!"", b!"\n"),
    (T.eof, b!"", b!"")] := by decide +kernel

end Bob.Parse
