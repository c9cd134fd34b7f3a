import Verif.Spec.FlGrammar
/-!
# How operators bind

What the usual reading of operators means for trees: of two operators next to each other the one that binds tighter is inside, and of two that bind the same the left one.
-/

namespace Bob.Parse

/-- How tightly an operator binds, by the symbol of its node. -/
def level (op : Nat) : Nat :=
  if op = T.power then 6
  else if op = N.multiplicativeOperator then 5
  else if op = N.additiveOperator then 4
  else if op = N.comparativeOperator then 3
  else if op = T.and_ then 2
  else if op = N.orOperator then 1
  else 0

/-- `s` is a part of `t` (or `t` itself). -/
inductive Within : Tree → Tree → Prop where
  | refl {t : Tree} : Within t t
  | child {s c : Tree} {A pid : Nat} {cs : List Tree} {e : Bool} : c ∈ cs → Within s c → Within s (.node A pid cs e)

/-- The parts of a node that are not comments. -/
def Tree.parts (t : Tree) : List Tree := t.children.filter (!·.extra)

/-- A binary expression. -/
def Binary (s l o r : Tree) : Prop := s.sym = N.binaryExpression ∧ s.parts = [l, o, r]

/-- A unary expression. -/
def Unary (s o e : Tree) : Prop := s.sym = N.unaryExpression ∧ s.parts = [o, e]

/-- An access, a call, an index or a slice of `e`. -/
def Postfix (s e : Tree) : Prop :=
  (s.sym = N.access ∨ s.sym = N.call ∨ s.sym = N.index ∨ s.sym = N.slice) ∧ ∃ p ps, s.parts = e :: p :: ps

/-- An expression is a node around what it is. -/
def Is (e s : Tree) : Prop := e.sym = N.expression ∧ e.parts = [s]

end Bob.Parse
