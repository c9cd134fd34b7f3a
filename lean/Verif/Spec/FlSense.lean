import Verif.Spec.FlGrammar
import Verif.Model.Flamingo.Syntax
/-!
# Scripts that the interpreter can make sense of

Which trees that follow the grammar have no node that the interpreter refuses.
-/

namespace Bob.Parse

/-- Nodes in which there may be no comment, since their children are counted. -/
def counted : List Nat := [
  N.import_, N.importPath, N.print, N.assert_, N.return_, N.access, N.call, N.varDecl, N.assignment, N.unaryExpression, N.binaryExpression]

/-- The name of a type that is a keyword, used as a name. -/
def Tree.isTypeName (t : Tree) : Bool := t.sym == N.identifier && t.children.any (·.sym == N.primitiveType)

mutual
/-- No comment, nor one in the rest of a list. -/
def Tree.bare : Tree → Bool
  | .leaf _ _ _ e => !e
  | .node s _ cs e => !e && (!(s == N.argListRepeat1 || s == N.paramListRepeat1) || allBare cs)
def allBare : List Tree → Bool
  | [] => true
  | c :: cs => c.bare && allBare cs
end

/-- Nodes that lead to a failed assertion: comments where there may be none, names of types in expressions, and `static let a: int = 1`, which has one part more than the
interpreter thinks possible. -/
def safeNode (s pid : Nat) (cs : List Tree) : Bool :=
  (!counted.contains s || cs.all (!·.extra)) && !(s == N.varDecl && pid == 49) && !(s == N.expression && cs.any Tree.isTypeName)

/-- Nodes that lead to an error message: slices, operators where names are expected, and comments in lists of arguments or parameters. -/
def knownNode (s : Nat) (cs : List Tree) : Bool :=
  s != N.slice && (!(s == N.functionDeclaration || s == N.proto) || cs.all (·.sym != N.overloadableOperator)) &&
  (!(s == N.argList || s == N.paramList) || allBare cs)

mutual
/-- No node fails an assertion, and if `strict`, none is an error. -/
def Tree.sense (strict : Bool) : Tree → Bool
  | .leaf .. => true
  | .node s pid cs _ => safeNode s pid cs && (!strict || knownNode s cs) && allSense strict cs
def allSense (strict : Bool) : List Tree → Bool
  | [] => true
  | c :: cs => c.sense strict && allSense strict cs
end

end Bob.Parse
