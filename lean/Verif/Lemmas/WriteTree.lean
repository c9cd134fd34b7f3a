import Verif.Spec.FlText
import Verif.Spec.FlGrammar
import Verif.Model.Parser.Lower
/-!
# Trees of scripts

The tree that the parser is to build for the text of a script.
-/

namespace Bob.Parse
open Bob.Fl

def nw (A pid : Nat) (cs : List Tree) : Tree := .node A pid cs false
def lf (s : Nat) (w : Bytes) : Tree := .leaf s [32] w false

/-- `, x` again and again. -/
def repFrom (R : Nat) (acc : Tree) : List Tree → Tree
  | [] => acc
  | x :: xs => repFrom R (nw R 0 [acc, nw R 0 [lf T.comma b!",", x]]) xs

/-- A list with commas. -/
def listParts (R : Nat) : List Tree → List Tree
  | [] => []
  | [x] => [x]
  | x :: y :: xs => [x, repFrom R (nw R 0 [lf T.comma b!",", y]) xs]

def identTree (name : Bytes) : Tree := nw N.identifier 0 [lf T.word name]

def paramTrees (ps : List Bytes) : List Tree := ps.map fun p => nw N.param 4 [identTree p]

/-- A list of parameters in parentheses or bars, if there are any. -/
def paramList (ps : List Bytes) : List Tree := if ps.isEmpty then [] else [nw N.paramList 0 (listParts N.paramListRepeat1 (paramTrees ps))]

def litTree : Lit → Tree
  | .none => lf T.none_ b!"none"
  | .bool true => nw N.bool 0 [lf T.true_ b!"true"]
  | .bool false => nw N.bool 0 [lf T.false_ b!"false"]
  | .num t => lf T.number t
  | .str s => lf T.string (34 :: (s ++ [34]))

def unTok : UnOp → Nat
  | .neg => T.minus
  | .not => T.not_

def unTree (op : UnOp) : Tree := nw N.unaryOperator 0 [lf (unTok op) op.text]

def binTok : BinOp → Nat
  | .add => T.plus
  | .sub => T.minus
  | .mul => T.times
  | .div => T.over
  | .mod => T.mod
  | .pow => T.power
  | .eq => T.eq
  | .ne => T.ne
  | .lt => T.lt
  | .le => T.le
  | .gt => T.gt
  | .ge => T.ge
  | .and => T.and_
  | .or => T.or_
  | .xor => T.xor

/-- The nonterminal of an operator, if it has one. -/
def binKind : BinOp → Option Nat
  | .add | .sub => some N.additiveOperator
  | .mul | .div | .mod => some N.multiplicativeOperator
  | .pow | .and => none
  | .eq | .ne | .lt | .le | .gt | .ge => some N.comparativeOperator
  | .or | .xor => some N.orOperator

def binTree (op : BinOp) : Tree :=
  match binKind op with
  | some A => nw A 0 [lf (binTok op) op.text]
  | none => lf (binTok op) op.text

def qualTree : Tree := nw N.qualifierList 0 [nw N.qualifierListRepeat1 0 [nw N.qualifier 0 [lf T.static_ b!"static"]]]

def qualParts (isStatic : Bool) : List Tree := if isStatic then [qualTree] else []

def pathTree : List Bytes → Tree
  | [] => nw N.importPath 0 []
  | [w] => nw N.importPath 2 [identTree w]
  | w :: ws => nw N.importPath 20 [identTree w, lf T.dot b!".", pathTree ws]

/-- Statements one after the other. -/
def seqFrom (acc : Tree) : List Tree → Tree
  | [] => acc
  | x :: xs => seqFrom (nw N.statementList 0 [acc, x]) xs

def seqTree : List Tree → List Tree
  | [] => []
  | x :: xs => [seqFrom x xs]

def blockOf (ss : List Tree) : Tree :=
  match ss with
  | [] => nw N.block 0 [lf T.lbrace b!"{", lf T.rbrace b!"}"]
  | s :: ss => nw N.block 9 [lf T.lbrace b!"{", seqFrom s ss, lf T.rbrace b!"}"]

def expr (c : Tree) : Tree := nw N.expression 0 [c]

/-- Which production a declaration is, by the parts it has. -/
def fnPid : Bool → Bool → Nat
  | false, true => 31
  | false, false => 39
  | true, true => 42
  | true, false => 48

def protoPid : Bool → Bool → Nat
  | false, true => 3
  | false, false => 30
  | true, true => 14
  | true, false => 41

mutual

def exprTree : Expr → Tree
  | .lit l => expr (nw N.literal 0 [litTree l])
  | .ident name => expr (identTree name)
  | .lambda ps b =>
    expr (nw N.lambda (if ps.isEmpty then 13 else 22) ([lf T.bar b!"|"] ++ paramList ps ++ [lf T.bar b!"|", bodyTree b]))
  | .vec es => expr (nw N.vec 0 ([lf T.lbracket b!"["] ++ listParts N.argListRepeat1 (exprTrees es) ++ [lf T.rbracket b!"]"]))
  | .map is => expr (nw N.map 0 ([lf T.lbrace b!"{"] ++ listParts N.mapRepeat1 (itemTrees is) ++ [lf T.rbrace b!"}"]))
  | .call f [] => expr (nw N.call 16 [exprTree f, lf T.lparen b!"(", lf T.rparen b!")"])
  | .call f (e :: es) =>
    expr (nw N.call 27 [exprTree f, lf T.lparen b!"(", nw N.argList 0 (listParts N.argListRepeat1 (exprTree e :: exprTrees es)), lf T.rparen b!")"])
  | .paren e => expr (nw N.parenthesizedExpression 11 [lf T.lparen b!"(", exprTree e, lf T.rparen b!")"])
  | .un op e => expr (nw N.unaryExpression 8 [unTree op, exprTree e])
  | .bin op l r => expr (nw N.binaryExpression 17 [exprTree l, binTree op, exprTree r])
  | .access e name => expr (nw N.access 15 [exprTree e, lf T.dot b!".", identTree name])
  | .index e i => expr (nw N.index 29 [exprTree e, lf T.lbracket b!"[", exprTree i, lf T.rbracket b!"]"])

def exprTrees : List Expr → List Tree
  | [] => []
  | e :: es => exprTree e :: exprTrees es

def itemTree : Expr × Expr → Tree
  | (k, v) => nw N.mapItem 19 [exprTree k, lf T.colon b!":", exprTree v]

def itemTrees : List (Expr × Expr) → List Tree
  | [] => []
  | i :: is => itemTree i :: itemTrees is

def bodyTree : Body → Tree
  | .block ss => blockOf (stmtTrees ss)
  | .expr e => exprTree e

def retTree : Option Expr → Tree
  | none => nw N.return_ 0 [lf T.return_ b!"return"]
  | some e => nw N.return_ 7 [lf T.return_ b!"return", exprTree e]

def lhsTree : Lhs → Tree
  | .ident name => identTree name
  | .access e name _ => nw N.access 15 [exprTree e, lf T.dot b!".", identTree name]
  | .index e i _ => nw N.index 29 [exprTree e, lf T.lbracket b!"[", exprTree i, lf T.rbracket b!"]"]

def declTree (isStatic : Bool) (name : Bytes) : Option Expr → Tree
  | none => nw N.varDecl (if isStatic then 14 else 3) (qualParts isStatic ++ [lf T.let_ b!"let", identTree name])
  | some e => nw N.varDecl (if isStatic then 35 else 25) (qualParts isStatic ++ [lf T.let_ b!"let", identTree name, lf T.assign b!"=", exprTree e])

def lineTree : Line → Tree
  | .print e => nw N.print 5 [lf T.print b!"print", exprTree e]
  | .ret e => retTree e
  | .assert e _ => nw N.assert_ 6 [lf T.assert_ b!"assert", exprTree e]
  | .decl st name e => declTree st name e
  | .assign lhs rhs => nw N.assignment 18 [lhsTree lhs, lf T.assign b!"=", exprTree rhs]
  | .proto st name ps =>
    nw N.proto (protoPid st ps.isEmpty) (qualParts st ++ [lf T.proto b!"proto", identTree name, lf T.lparen b!"("] ++ paramList ps ++ [lf T.rparen b!")"])
  | .expr e => exprTree e
  | .import false path => nw N.import_ 1 [lf T.import_ b!"import", pathTree path]
  | .import true path => nw N.import_ 10 [lf T.import_ b!"import", nw N.importRelativeDot 0 [lf T.dot b!"."], pathTree path]

/-- A statement, with the end of its line. -/
def stmtTree : Stmt → Tree
  | .skip => nw N.statementList 0 []
  | .block ss => nw N.statementList 0 [nw N.lineInsensitiveStatement 0 [blockOf (stmtTrees ss)]]
  | .fn st name ps ss =>
    nw N.statementList 0 [nw N.lineInsensitiveStatement 0 [nw N.functionDeclaration (fnPid st ps.isEmpty)
      (qualParts st ++ [lf T.fn b!"fn", identTree name, lf T.lparen b!"("] ++ paramList ps ++ [lf T.rparen b!")", blockOf (stmtTrees ss)])]]
  | .cls _ name ps ss =>
    nw N.statementList 0 [nw N.lineInsensitiveStatement 0 [nw N.classDeclaration (fnPid false ps.isEmpty)
      ([lf T.class_ b!"class", identTree name, lf T.lparen b!"("] ++ paramList ps ++ [lf T.rparen b!")", blockOf (stmtTrees ss)])]]
  | .line l => nw N.statementList 0 [nw N.statement 0 [lineTree l], lf T.newline b!"\n"]

def stmtTrees : List Stmt → List Tree
  | [] => []
  | s :: ss => stmtTree s :: stmtTrees ss

end

/-- The parts of the tree of a whole script. -/
def scriptParts (ss : List Stmt) : List Tree := seqTree (stmtTrees ss)

end Bob.Parse
