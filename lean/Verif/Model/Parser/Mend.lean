import Verif.Model.Parser.Driver
/-!
# Missing tokens

What the Tree-sitter runtime does where `Model/Parser/Driver` stops: at a token for which there is no action, `ts_parser__handle_error` (`src/flamingo/runtime/parser.c:1418-1514`) looks for a token
that would have to be there, and goes on as if it were, with a leaf of no length.

Simplifications:
* The runtime goes on with several versions of the stack and keeps the cheapest tree.  Here are the versions that a version can become, not which of them is kept.
* The other way to recover, in which what cannot be parsed is put into a node `ERROR` (`ts_parser__recover`, `src/flamingo/runtime/parser.c:1241-1413`), is left out: there are only the versions
  without such nodes.
* Which tokens are tried first, and that a version is dropped if after all reductions the token still cannot be used, only restrict the versions.
-/

namespace Bob.Parse

/-- `ts_language_next_state` for tokens, `src/flamingo/runtime/language.c:80-100`: what the last of the actions leads to. -/
def nextState (q s : Nat) : Nat :=
  match (findActs s (rows.get q).acts).getLast? with
  | some (.shift q') => q'
  | some (.shiftRepeat q') => q'
  | some .shiftExtra => q
  | _ => 0

/-- `ts_language_has_reduce_action`, `src/flamingo/runtime/language.h:62-70`. -/
def hasReduce (q s : Nat) : Bool :=
  match findActs s (rows.get q).acts with
  | .reduce .. :: _ => true
  | _ => false

/-- Whether `ts_parser__do_all_potential_reductions` (`src/flamingo/runtime/parser.c:1092-1180`) has anything to look at in a state.  At the end of the text (token 0) it looks at all tokens
but this one. -/
def hopeful (q t : Nat) : Bool :=
  if t = 0 then (List.range tokenCount).any fun s => s != 0 && !(findActs s (rows.get q).acts).isEmpty else !(findActs t (rows.get q).acts).isEmpty

/-- Whether the runtime may put token `s` before token `t` in state `q`, `src/flamingo/runtime/parser.c:1438-1488`. -/
def mayMiss (q s t : Nat) : Bool :=
  s != 0 && Nat.blt s tokenCount && nextState q s != 0 && nextState q s != q && hasReduce (nextState q s) t && hopeful (nextState q s) t

/-- A leaf for a token that is not there, `ts_subtree_new_missing_leaf` (`src/flamingo/runtime/subtree.c:561-583`); what is parsed is all in one range, so nothing comes before it. -/
def missingLeaf (s : Nat) : Tree := .leaf s [] [] false

/-- The versions that a version of the stack can become. -/
inductive Mend : Config → Config → Prop where
  /-- as without errors -/
  | step {c c' : Config} : step c = .next c' → Mend c c'
  /-- the next token is read -/
  | look {st : Stack} {m : Nat} {t : Tok} {rest : Bytes} : lexMode st.top = some m → lexTok m rest = some t → Mend ⟨st, none, rest⟩ ⟨st, some t, t.rest⟩
  /-- and read again, in another state (`ts_parser__get_cached_token`, `src/flamingo/runtime/parser.c:696-715`) -/
  | again {st : Stack} {t : Tok} {rest : Bytes} : Mend ⟨st, some t, rest⟩ ⟨st, none, t.pad ++ t.text ++ t.rest⟩
  /-- a reduction that would be done before another token, `src/flamingo/runtime/parser.c:1117-1158` -/
  | reduce {st st' : Stack} {t : Tok} {rest : Bytes} {s A n pid : Nat} : Act.reduce A n pid ∈ findActs s (rows.get st.top).acts → n ≠ 0 → Bob.Parse.reduce A n pid false st = some st' →
      Mend ⟨st, some t, rest⟩ ⟨st', some t, rest⟩
  /-- a token is missing -/
  | missing {st : Stack} {t : Tok} {rest : Bytes} {s : Nat} : mayMiss st.top s t.sym = true → Mend ⟨st, some t, rest⟩ ⟨(nextState st.top s, missingLeaf s) :: st, some t, rest⟩

/-- Versions that come from a version in any number of rounds. -/
inductive Mends : Config → Config → Prop where
  | refl (c : Config) : Mends c c
  | tail {a b c : Config} : Mends a b → Mend b c → Mends a c

/-- A tree without `ERROR` nodes that the runtime makes of a text, with or without missing tokens. -/
def MendsTo (text : Bytes) (t : Tree) : Prop := ∃ c, Mends (start text) c ∧ Bob.Parse.step c = .stop (.tree t)

end Bob.Parse
