import Verif.Model.Base
/-!
# Syntax trees of build scripts

The interpreter of `src/flamingo` walks over Tree-sitter nodes.  The trees below are what it takes out of them, with the text of
identifiers, literals and operators already cut out of the source (`flamingo->src + start`, `end - start`).  How they come from a text is
modelled in `Verif.Model.Parser`.
-/

namespace Bob.Fl

/-- Node types `none`, `bool`, `number`, `string` below `literal`, `src/flamingo/grammar/literal.h`.  A number is its text, a
string the text between the quotes. -/
inductive Lit where
  | none
  | bool (b : Bool)
  | num (text : Bytes)
  | str (s : Bytes)
deriving DecidableEq, Repr

/-- `src/flamingo/grammar/unary_expr.h:65,73`. -/
inductive UnOp where
  | neg | not
deriving DecidableEq, Repr

/-- `src/flamingo/grammar/binary_expr.h:105-275`. -/
inductive BinOp where
  | add | sub | mul | div | mod | pow | eq | ne | lt | le | gt | ge | and | or | xor
deriving DecidableEq, Repr

def UnOp.text : UnOp → Bytes
  | .neg => b!"-"
  | .not => b!"!"

def BinOp.text : BinOp → Bytes
  | .add => b!"+"
  | .sub => b!"-"
  | .mul => b!"*"
  | .div => b!"/"
  | .mod => b!"%"
  | .pow => b!"**"
  | .eq => b!"=="
  | .ne => b!"!="
  | .lt => b!"<"
  | .le => b!"<="
  | .gt => b!">"
  | .ge => b!">="
  | .and => b!"&&"
  | .or => b!"||"
  | .xor => b!"^^"

mutual

/-- `expression` nodes, `src/flamingo/grammar/expr.h:17-75`. -/
inductive Expr where
  | lit (l : Lit)
  | ident (name : Bytes)
  | lambda (params : List Bytes) (body : Body)
  | vec (elems : List Expr)
  | map (items : List (Expr × Expr))
  | call (callable : Expr) (args : List Expr)
  | paren (e : Expr)
  | un (op : UnOp) (e : Expr)
  | bin (op : BinOp) (l r : Expr)
  | access (e : Expr) (name : Bytes)
  | index (e i : Expr)

/-- What `fn.body` points to: a `block` or (for lambdas) an `expression` node. -/
inductive Body where
  | block (ss : List Stmt)
  | expr (e : Expr)

/-- Left-hand sides, `src/flamingo/grammar/assignment.h:41-69`.  `text` is their source text, used in messages. -/
inductive Lhs where
  | ident (name : Bytes)
  | access (e : Expr) (name : Bytes) (text : Bytes)
  | index (e i : Expr) (text : Bytes)

/-- Children of a `statement` node, `src/flamingo/grammar/statement.h:55-90`. -/
inductive Line where
  | print (e : Expr)
  | ret (e : Option Expr)
  | assert (e : Expr) (text : Bytes)
  | decl (isStatic : Bool) (name : Bytes) (init : Option Expr)
  | assign (lhs : Lhs) (rhs : Expr)
  | proto (isStatic : Bool) (name : Bytes) (params : List Bytes)
  | expr (e : Expr)
  | import (relative : Bool) (path : List Bytes)

/-- What `parse_statement` is called on, `src/flamingo/grammar/statement.h:17-53`. -/
inductive Stmt where
  /-- newline, `;`, comments -/
  | skip
  | block (ss : List Stmt)
  | fn (isStatic : Bool) (name : Bytes) (params : List Bytes) (body : List Stmt)
  | cls (isStatic : Bool) (name : Bytes) (params : List Bytes) (body : List Stmt)
  | line (l : Line)

end

end Bob.Fl
