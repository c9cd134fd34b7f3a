import Verif.Spec.FlTokens
import Verif.Model.Parser.Lower
/-!
# Scripts with other blanks

What it means to change the blanks between the tokens of a script.  A token is a triple of its symbol, the blanks before it and its text, as in `Tree.leaves`.
-/

namespace Bob.Parse

/-- The tokens of which comments are made: `#` comments, `##`, and what follows it. -/
def ofComment (s : Nat) : Bool := s == 3 || s == 4 || s == 5

/-- The same tokens, with other blanks before some of them.  New blanks may be put between two tokens, and blanks may be replaced by others.  There is at least one of these, and ends of lines
are among them only if there was one among the old ones.  The first one is either no end of a line or the same as before.
`keep`: the first blank before the first token stays, as after a part of a comment, and if the token is part of a comment too then all of them do. -/
inductive Repadded : (keep : Bool) → List (Nat × Bytes × Bytes) → List (Nat × Bytes × Bytes) → Prop where
  | nil {keep : Bool} : Repadded keep [] []
  | same {keep : Bool} {s : Nat} {pad text : Bytes} {ls ls' : List (Nat × Bytes × Bytes)} :
      Repadded (ofComment s || text.isEmpty) ls ls' → Repadded keep ((s, pad, text) :: ls) ((s, pad, text) :: ls')
  | other {keep : Bool} {s : Nat} {c : UInt8} {pad pad' text : Bytes} {ls ls' : List (Nat × Bytes × Bytes)} :
      (keep = false ∧ isSpace c = true) ∨ pad.head? = some c → (keep = true → ofComment s = false) → (∀ d ∈ c :: pad', isSpace d = true ∨ d ∈ pad) →
      Repadded (ofComment s || text.isEmpty) ls ls' → Repadded keep ((s, pad, text) :: ls) ((s, c :: pad', text) :: ls')

/-- The text of tokens. -/
def textOf : List (Nat × Bytes × Bytes) → Bytes
  | [] => []
  | (_, pad, text) :: ls => pad ++ text ++ textOf ls

mutual
/-- A tree without the blanks between its tokens. -/
def Tree.stripped : Tree → Tree
  | .leaf s _ text x => .leaf s [] text x
  | .node s pid cs x => .node s pid (strippedOf cs) x
def strippedOf : List Tree → List Tree
  | [] => []
  | c :: cs => c.stripped :: strippedOf cs
end

/-- The text of what is tested by an `assert`, or of what a value is assigned to, which messages show. -/
def Tree.shownHere (t : Tree) : List Bytes :=
  if t.type = b!"assert" then ((t.field b!"test").map Tree.text).toList
  else if t.type = b!"assignment" then ((t.field b!"left").map Tree.text).toList
  else []

mutual
/-- All such texts of a script. -/
def Tree.shown : Tree → List Bytes
  | .leaf .. => []
  | .node s pid cs x => (Tree.node s pid cs x).shownHere ++ shownOf cs
def shownOf : List Tree → List Bytes
  | [] => []
  | c :: cs => c.shown ++ shownOf cs
end

end Bob.Parse
