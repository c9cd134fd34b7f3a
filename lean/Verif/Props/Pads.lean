import Verif.Lemmas.PadLower
import Verif.Props.Tokens
/-!
# C121: blanks between tokens
-/

namespace Bob.Parse
open Bob.Fl

/-- **C121.** If blanks are put between the tokens of a script, or blanks are replaced by others, then it is parsed as before: the tokens are the same, and the tree differs only in the blanks. -/
theorem C121_blanks_do_not_matter (text : Bytes) (t : Tree) (ls : List (Nat × Bytes × Bytes)) (h : Parses text (.tree t)) (hr : Repadded false t.leaves ls) :
    ∃ t', Parses (textOf ls) (.tree t') ∧ t'.stripped = t.stripped ∧ t'.leaves = ls :=
  parses_other h hr (other_mark h hr)

/-- **C121.** The interpreter makes the same of both, unless the blanks are within what an `assert` tests or what a value is assigned to, the texts of which messages show. -/
theorem C121_runs_the_same (text : Bytes) (t : Tree) (ls : List (Nat × Bytes × Bytes)) (h : Parses text (.tree t)) (hr : Repadded false t.leaves ls) :
    ∃ t', Parses (textOf ls) (.tree t') ∧ (t'.shown = t.shown → lower t' = lower t) := by
  obtain ⟨t', h1, h2, h3⟩ := C121_blanks_do_not_matter text t ls h hr
  exact ⟨t', h1, fun hs => (lower_same (whole_alike ((C93_accepted_texts_follow_the_grammar text _ h).2 t rfl).1 h2 (h3.symm ▸ hr) hs)).symm⟩

/-! ## Samples -/

/-- Whether tokens are the same with other blanks. -/
def isRepadded : Bool → List (Nat × Bytes × Bytes) → List (Nat × Bytes × Bytes) → Bool
  | _, [], [] => true
  | keep, (s, pad, text) :: ls, (s', pad', text') :: ls' =>
    s == s' && text == text' && (pad == pad' || match pad' with
      | [] => false
      | c :: _ => ((!keep && isSpace c) || pad.head? == some c) && !(keep && ofComment s) && pad'.all fun d => isSpace d || pad.contains d) && isRepadded (ofComment s || text.isEmpty) ls ls'
  | _, _, _ => false

theorem isRepadded_spec : ∀ {keep : Bool} {ls ls' : List (Nat × Bytes × Bytes)}, isRepadded keep ls ls' = true → Repadded keep ls ls'
  | _, [], [], _ => .nil
  | keep, (s, pad, text) :: ls, (s', pad', text') :: ls', h => by
    unfold isRepadded at h
    simp only [Bool.and_eq_true, beq_iff_eq] at h
    obtain ⟨⟨⟨rfl, rfl⟩, h⟩, h2⟩ := h
    rw [Bool.or_eq_true, beq_iff_eq] at h
    rcases h with rfl | h
    · exact .same (isRepadded_spec h2)
    · cases pad' with
      | nil => cases h
      | cons c pad' =>
        simp only [Bool.and_eq_true, Bool.or_eq_true, Bool.not_eq_true', Bool.and_eq_false_iff, beq_iff_eq, List.all_eq_true, List.contains_iff_mem] at h
        obtain ⟨⟨h3, h4⟩, h5⟩ := h
        refine .other h3 (fun e => h4.resolve_left (by simp [e])) h5 (isRepadded_spec h2)
  | _, [], _ :: _, h => by simp [isRepadded] at h
  | _, _ :: _, [], h => by simp [isRepadded] at h

/-- Whether the first text has the tokens of the second, with other blanks, and is interpreted. -/
def otherBlanks (text text' : Bytes) : Bool :=
  match parse text, parse text' with
  | some (.tree t), some (.tree t') => isRepadded false t.leaves t'.leaves && t'.shown == t.shown && text != text' && (match lower t with | .ok (_ :: _) => true | _ => false)
  | _, _ => false

/-- The hypotheses hold for a script with a function, a list, a comment, an assertion and an assignment. -/
theorem C121_sample : otherBlanks
    b!"fn f(a: Int) {\n assert a==1\n}\nlet x=[1,2*3]\n# c\nx[0]=f(-1)\n"
    b!"  fn f ( a : Int )  {\n\n\tassert  a==1\n}\nlet \t x = [ 1 , 2 * 3 ]  \n   # c\n\nx[0]  = f (  - 1 )\n" = true := by decide +kernel

/-! ## What does matter -/

/-- The tests of the assertions that a script consists of. -/
def assertTexts : List Stmt → List Bytes
  | [] => []
  | .line (.assert _ text) :: ss => text :: assertTexts ss
  | _ :: ss => assertTexts ss

/-- Whether a script with the tokens of another one has assertions with other texts. -/
def otherTexts (text text' : Bytes) : Bool :=
  match parse text, parse text' with
  | some (.tree t), some (.tree t') => isRepadded false t.leaves t'.leaves && textOf t'.leaves == text' && (match lower t, lower t' with
    | .ok ss, .ok ss' => assertTexts ss != assertTexts ss'
    | _, _ => false)
  | _, _ => false

theorem texts_sample : otherTexts b!"assert a==1\n" b!"assert a == 1\n" = true := by decide +kernel

/-- **C121.** The condition on the texts that are shown cannot be left out: blanks within the test of an assertion are shown by its message. -/
theorem C121_shown_texts_false : ¬ ∀ (text : Bytes) (t t' : Tree) (ls : List (Nat × Bytes × Bytes)), Parses text (.tree t) → Repadded false t.leaves ls → Parses (textOf ls) (.tree t') →
    lower t' = lower t := fun h => by
  have hs := texts_sample
  unfold otherTexts at hs
  split at hs
  · rename_i t t' h1 h2
    simp only [Bool.and_eq_true, beq_iff_eq] at hs
    obtain ⟨⟨hr, hx⟩, hs⟩ := hs
    have := h _ t t' _ ((parse_iff _ _).2 h1) (isRepadded_spec hr) (hx.symm ▸ (parse_iff _ _).2 h2)
    rw [this] at hs
    split at hs
    · rename_i h1 h2
      rw [h1] at h2; cases h2
      simp at hs
    · cases hs
  · cases hs

/-- The symbols and texts of tokens. -/
def tokens (ls : List (Nat × Bytes × Bytes)) : List (Nat × Bytes) := ls.map fun l => (l.1, l.2.2)

def setPad : List (Nat × Bytes × Bytes) → Nat → Bytes → List (Nat × Bytes × Bytes)
  | [], _, _ => []
  | (s, _, text) :: ls, 0, pad => (s, pad, text) :: ls
  | l :: ls, n + 1, pad => l :: setPad ls n pad

theorem setPad_tokens : ∀ (ls : List (Nat × Bytes × Bytes)) (n : Nat) (pad : Bytes), tokens (setPad ls n pad) = tokens ls
  | [], _, _ => rfl
  | _ :: _, 0, _ => rfl
  | l :: ls, n + 1, pad => by simp only [setPad, tokens, List.map_cons]; exact congrArg _ (setPad_tokens ls n pad)

/-- Whether a text is not parsed into the same tokens after other blanks were put before one of its tokens. -/
def spoilt (text : Bytes) (n : Nat) (pad : Bytes) : Bool :=
  match parse text with
  | some (.tree t) => (setPad t.leaves n pad).all (fun l => l.2.1.all isBlank) && (match parse (textOf (setPad t.leaves n pad)) with
    | some (.tree t') => tokens t'.leaves != tokens t.leaves
    | _ => true)
  | _ => false

theorem spoilt_spec {text : Bytes} {n : Nat} {pad : Bytes} (h : spoilt text n pad = true) :
    ∃ t, Parses text (.tree t) ∧ (∀ l ∈ setPad t.leaves n pad, l.2.1.all isBlank = true) ∧ ∀ t', Parses (textOf (setPad t.leaves n pad)) (.tree t') → tokens t'.leaves ≠ tokens t.leaves := by
  unfold spoilt at h
  split at h
  · rename_i t ht
    rw [Bool.and_eq_true] at h
    refine ⟨t, (parse_iff _ _).2 ht, List.all_eq_true.1 h.1, fun t' ht' => ?_⟩
    have h2 := h.2
    rw [(parse_iff _ _).1 ht'] at h2
    simpa using h2
  · cases h

/-- A blank is left out: `leta=1` assigns to `leta`. -/
theorem C121_sample_left_out : spoilt b!"let a=1\n" 1 b!"" = true := by decide +kernel

/-- A line is ended: `let a`, and `=1` on the next one, is a syntax error. -/
theorem C121_sample_line_ended : spoilt b!"let a=1\n" 2 b!"\n" = true := by decide +kernel

/-- **C121.** Not all blanks are alike: leaving them out, or ending a line, changes what the tokens are. -/
theorem C121_any_blanks_false : ¬ ∀ (text : Bytes) (t : Tree) (ls : List (Nat × Bytes × Bytes)), Parses text (.tree t) → tokens ls = tokens t.leaves → (∀ l ∈ ls, l.2.1.all isBlank = true) →
    ∃ t', Parses (textOf ls) (.tree t') ∧ tokens t'.leaves = tokens t.leaves := fun h => by
  obtain ⟨t, h1, h2, h3⟩ := spoilt_spec C121_sample_left_out
  obtain ⟨t', h4, h5⟩ := h _ t _ h1 (setPad_tokens ..) h2
  exact h3 t' h4 h5

end Bob.Parse
