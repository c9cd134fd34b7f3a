import Verif.Model.Parser.Lower
/-!
# Scripts with missing tokens

Trees that differ in how tokens are spelled of which the interpreter needs to know only that they are there: brackets, commas, ends of lines, keywords.  A token that is missing is spelled as
nothing.
-/

namespace Bob.Parse

/-- Nodes of which the text matters: names and literals, and the operators that are known by their text. -/
def spelt (type : Bytes) : Bool :=
  type == b!"identifier" || type == b!"none" || type == b!"bool" || type == b!"number" || type == b!"string" || type == b!"unary_operator"

/-- Where the text of two trees with the same symbol matters, it is the same: that of names and literals, the operator between two expressions, qualifiers, what is tested by an `assert` and
what a value is assigned to, which messages show. -/
def SameTexts (t t' : Tree) : Prop :=
  (spelt t.type = true → t'.text = t.text) ∧
  (t.type = b!"qualifier_list" → (t'.kids false).map Tree.text = (t.kids false).map Tree.text) ∧
  (t.type = b!"binary_expression" → (t'.field b!"operator").map Tree.text = (t.field b!"operator").map Tree.text) ∧
  (t.type = b!"assignment" → (t'.field b!"left").map Tree.text = (t.field b!"left").map Tree.text) ∧
  (t.type = b!"assert" → (t'.field b!"test").map Tree.text = (t.field b!"test").map Tree.text)

mutual
/-- The same tree, but for the blanks between tokens and the spelling of tokens that does not matter. -/
inductive Respelt : Tree → Tree → Prop where
  | leaf {s : Nat} {pad pad' text text' : Bytes} {x : Bool} : (spelt (symbolNames.getD s []) = true → text' = text) → Respelt (.leaf s pad text x) (.leaf s pad' text' x)
  | node {s pid : Nat} {cs cs' : List Tree} {x : Bool} : Respelts cs cs' → SameTexts (.node s pid cs x) (.node s pid cs' x) → Respelt (.node s pid cs x) (.node s pid cs' x)
inductive Respelts : List Tree → List Tree → Prop where
  | nil : Respelts [] []
  | cons {c c' : Tree} {cs cs' : List Tree} : Respelt c c' → Respelts cs cs' → Respelts (c :: cs) (c' :: cs')
end

/-- The text has a syntax error. -/
def Malformed (text : Bytes) : Prop := Parses text .error

end Bob.Parse
