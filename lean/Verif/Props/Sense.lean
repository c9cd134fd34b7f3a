import Verif.Lemmas.SenseMain
import Verif.Props.Tokens
/-!
# C99: accepted scripts make sense to the interpreter
-/

namespace Bob.Parse
open Bob.Fl

/-- **C99 (part).** In an accepted script in which no comment is put where the interpreter counts the parts of a node, no name of a type is used as an expression, and no static variable
has both a type and a value, no assertion of the interpreter about the shape of the nodes fails, and none of the fields it takes is missing.  Full statement: without this condition. -/
theorem C99_no_assertion_fails_partial (text : Bytes) (t : Tree) (h : Parses text (.tree t)) (hs : t.sense false = true) :
    lower t = .error .error ∨ ∃ ss, lower t = .ok ss := by
  have := whole_good ((C93_accepted_texts_follow_the_grammar text _ h).2 t rfl).1 hs (fun h => nomatch h)
  revert this
  cases lower t with
  | ok ss => exact fun _ => .inr ⟨ss, rfl⟩
  | error e => cases e with
    | error => exact fun _ => .inl rfl
    | _ => exact fun h => h.elim

/-- **C99 (part).** If there are also no slices, no operators as names of functions and no comments in lists of arguments or parameters, the interpreter can make sense of the script. -/
theorem C99_accepted_scripts_make_sense_partial (text : Bytes) (t : Tree) (h : Parses text (.tree t)) (hs : t.sense true = true) : ∃ ss, lower t = .ok ss := by
  have := whole_good ((C93_accepted_texts_follow_the_grammar text _ h).2 t rfl).1 hs (fun _ => C97_tokens_are_spelled_partial text t h)
  revert this
  cases lower t with
  | ok ss => exact fun _ => ⟨ss, rfl⟩
  | error e => cases e with
    | error => exact fun h => nomatch h
    | _ => exact fun h => h.elim

/-- The fault in a text, if it is accepted. -/
def faultOf (text : Bytes) : Option (Option Fault) :=
  match parse text with
  | some (.tree t) => some (match lower t with | .ok _ => none | .error e => some e)
  | _ => none

theorem faultOf_some {text : Bytes} {e : Fault} (h : faultOf text = some (some e)) : ∃ t, Parses text (.tree t) ∧ lower t = .error e := by
  unfold faultOf at h
  split at h
  · rename_i t ht
    refine ⟨t, (parse_iff _ _).2 ht, ?_⟩
    cases hl : lower t with
    | ok _ => rw [hl] at h; cases h
    | error f => rw [hl] at h; cases h; rfl
  · cases h

/-- **C99 fails.** The name of a type as an expression. -/
theorem C99_accepted_scripts_make_sense_false : ¬ ∀ (text : Bytes) (t : Tree), Parses text (.tree t) → lower t = .error .error ∨ ∃ ss, lower t = .ok ss := by
  intro h
  obtain ⟨t, h1, h2⟩ := faultOf_some (text := b!"print str\n") (e := .abort) (by decide +kernel)
  rcases h _ t h1 with h | ⟨ss, h⟩ <;> rw [h2] at h <;> cases h

/-! Each part of the condition is needed. -/

set_option maxRecDepth 100000 in
theorem C99_static_type : faultOf b!"static let x: int = 1\n" = some (some .abort) := by decide +kernel

set_option maxRecDepth 100000 in
theorem C99_comment : faultOf b!"print ( # why\n1)\n" = some none ∧ faultOf b!"print # why\n1\n" = some (some .abort) := by
  constructor <;> decide +kernel

set_option maxRecDepth 100000 in
theorem C99_slice : faultOf b!"print a[1:2]\n" = some (some .error) := by decide +kernel

set_option maxRecDepth 100000 in
theorem C99_operator : faultOf b!"fn ++(a) {\nreturn a\n}\n" = some (some .error) := by decide +kernel

set_option maxRecDepth 100000 in
theorem C99_list_comment : faultOf b!"f(1,# one\n2)\n" = some (some .error) := by decide +kernel

def senseOf (text : Bytes) : Option Bool :=
  match parse text with
  | some (.tree t) => some (t.sense true)
  | _ => none

set_option maxRecDepth 100000 in
theorem C99_sample : senseOf b!"# build\nlet cc: Cc = Cc([\"-O2\"])\n## what\nfn f(a: int) -> str {\n\treturn a # first\n}\ninstall = {cc.compile(src)[0]: |x| x + 1}\n" = some true := by
  decide +kernel

end Bob.Parse
