import Verif.Model.Parser.Nodes
import Verif.Model.Flamingo.Syntax
/-!
# From nodes to syntax trees

What the functions of `src/flamingo/grammar` take out of the nodes they are called on, apart from what they do with it, which is modelled in `Verif.Model.Flamingo`.  Nodes that the
interpreter cannot make sense of are faults.  The interpreter looks at a node only when it gets there, so a fault in a
part that is never run is without effect; here it is found anyway.
-/

namespace Bob.Parse
open Bob.Fl

inductive Fault where
  /-- an assertion fails, or a missing node is used -/
  | abort
  /-- `error(flamingo, …)` -/
  | error
  /-- not reached: the bound on the depth is the size of the tree -/
  | deep
deriving DecidableEq, Repr

abbrev Low := Except Fault

/-- An assertion. -/
def check (b : Bool) : Low Unit := if b then .ok () else .error .abort

/-- A check with an error message. -/
def expect (b : Bool) : Low Unit := if b then .ok () else .error .error

/-- A field that is used without a check. -/
def Tree.get (t : Tree) (name : Bytes) : Low Tree :=
  match t.field name with
  | some c => .ok c
  | none => .error .abort

/-- `parse_literal`, `src/flamingo/grammar/literal.h:9-100`. -/
def lowerLit (t : Tree) : Low Lit :=
  match t.kids false with
  | [c] =>
    if c.type = b!"none" then .ok .none
    else if c.type = b!"bool" then .ok (.bool (c.text.head? == some 116))
    else if c.type = b!"number" then .ok (.num c.text)
    else if c.type = b!"string" then .ok (.str ((c.text.drop 1).take (c.text.length - 2)))
    else .error .error
  | _ => .error .abort

/-- `parse_identifier`, `src/flamingo/grammar/identifier.h:10-30`. -/
def lowerIdent (t : Tree) : Low Bytes := do
  check (t.kids false).isEmpty
  return t.text

/-- The name of a parameter, `src/flamingo/call.h:44-66`. -/
def lowerParam (t : Tree) : Low Bytes := do
  let id ← t.get b!"ident"
  check (id.type == b!"identifier")
  return id.text

/-- `params`, with `check_param_types` (`src/flamingo/grammar/params.h:8-21`). -/
def lowerParams : Option Tree → Low (List Bytes)
  | none => .ok []
  | some ps => do
    expect (ps.type == b!"param_list")
    expect ((ps.kids true).all (·.type == b!"param"))
    (ps.kids true).mapM lowerParam

/-- `check_is_static`, `src/flamingo/grammar/static.h:10-37`: `strncmp(…, "static", size)`. -/
def lowerStatic (t : Tree) : Low Bool :=
  match t.field b!"qualifiers" with
  | none => .ok false
  | some qs => do
    check (qs.type == b!"qualifier_list")
    return (qs.kids false).any fun q => q.text.isPrefixOf b!"static"

/-- The name of what is declared. -/
def lowerName (t : Tree) : Low Bytes := do
  let name ← t.get b!"name"
  expect (name.type == b!"identifier")
  return name.text

/-- `op` of `parse_unary_expr`, `src/flamingo/grammar/unary_expr.h:26-40`. -/
def lowerUnOp (t : Tree) : Low UnOp := do
  expect (t.type == b!"unary_operator")
  match [UnOp.neg, .not].find? (·.text == t.text) with
  | some o => .ok o
  | none => .error .error

/-- `op` of `parse_binary_expr`, `src/flamingo/grammar/binary_expr.h:50-65`.  The test of its type there, `strstr("operator", op_type)`, has its arguments in the wrong order, and fails
for none of the types that operators have. -/
def lowerBinOp (t : Tree) : Low BinOp :=
  match [BinOp.add, .sub, .mul, .div, .mod, .pow, .eq, .ne, .lt, .le, .gt, .ge, .and, .or, .xor].find? (·.text == t.text) with
  | some o => .ok o
  | none => .error .error

/-- `parse_import_path`, `src/flamingo/grammar/import.h:104-156`. -/
def lowerPath : Nat → Tree → Low (List Bytes)
  | 0, _ => .error .deep
  | n + 1, t => do
    check ((t.kids false).length == 1 || (t.kids false).length == 3)
    let bit ← t.get b!"bit"
    expect (bit.type == b!"identifier")
    match t.field b!"rest" with
    | none => return [bit.text]
    | some rest =>
      expect (rest.type == b!"import_path")
      return bit.text :: (← lowerPath n rest)

/-- `parse_function_declaration`, `src/flamingo/grammar/function_declaration.h:40-77`: all but the body. -/
def lowerHead (t : Tree) : Low (Bool × Bytes × List Bytes) := do
  match t.field b!"qualifiers" with
  | none => pure ()
  | some qs => expect (qs.type == b!"qualifier_list")
  let name ← lowerName t
  let ps ← lowerParams (t.field b!"params")
  return (← lowerStatic t, name, ps)

mutual

/-- `parse_expr`, `src/flamingo/grammar/expr.h:17-75`.  Where the value is not used, it does not look into literals, identifiers and lambdas. -/
def lowerExpr : Nat → Tree → Low Expr
  | 0, _ => .error .deep
  | n + 1, t => do
    check (t.type == b!"expression")
    match t.kids false with
    | [c] => lowerKind n c
    | _ => .error .abort

/-- The functions called by `parse_expr`. -/
def lowerKind : Nat → Tree → Low Expr
  | 0, _ => .error .deep
  | n + 1, c =>
    if c.type = b!"literal" then return .lit (← lowerLit c)
    else if c.type = b!"identifier" then return .ident (← lowerIdent c)
    -- `parse_lambda`, `src/flamingo/grammar/lambda.h:12-73`
    else if c.type = b!"lambda" then do
      let ps ← lowerParams (c.field b!"params")
      let body ← c.get b!"body"
      if body.type = b!"block" then return .lambda ps (.block (← lowerBlock n body))
      else if body.type = b!"expression" then return .lambda ps (.expr (← lowerExpr n body))
      else .error .error
    -- `parse_vec`, `src/flamingo/grammar/vec.h:8-49`
    else if c.type = b!"vec" then return .vec (← ((c.kids false).filter (·.type == b!"expression")).mapM (lowerExpr n))
    -- `parse_map`, `src/flamingo/grammar/map.h:8-91`
    else if c.type = b!"map" then return .map (← ((c.kids false).filter (·.type == b!"map_item")).mapM (lowerItem n))
    -- `parse_call`, `src/flamingo/grammar/call.h:13-88`
    else if c.type = b!"call" then do
      check ((c.kids false).length == 3 || (c.kids false).length == 4)
      let f ← c.get b!"callable"
      expect (f.type == b!"expression")
      match c.field b!"args" with
      | none => return .call (← lowerExpr n f) []
      | some args =>
        expect (args.type == b!"arg_list")
        let f ← lowerExpr n f
        expect ((args.kids true).all (·.type == b!"expression"))
        return .call f (← (args.kids true).mapM (lowerExpr n))
    else if c.type = b!"parenthesized_expression" then return .paren (← lowerExpr n (← c.get b!"expression"))
    -- `parse_unary_expr`, `src/flamingo/grammar/unary_expr.h:13-48`
    else if c.type = b!"unary_expression" then do
      check ((c.kids true).length == 2)
      let e ← c.get b!"operand"
      expect (e.type == b!"expression")
      let op ← lowerUnOp (← c.get b!"operator")
      return .un op (← lowerExpr n e)
    -- `parse_binary_expr`, `src/flamingo/grammar/binary_expr.h:29-80`
    else if c.type = b!"binary_expression" then do
      check ((c.kids true).length == 3)
      let l ← c.get b!"left"
      expect (l.type == b!"expression")
      let r ← c.get b!"right"
      expect (r.type == b!"expression")
      let op ← lowerBinOp (← c.get b!"operator")
      let l ← lowerExpr n l
      return .bin op l (← lowerExpr n r)
    else if c.type = b!"access" then do
      let (e, name) ← lowerAccess n c
      return .access e name
    else if c.type = b!"index" then do
      let (e, i) ← lowerIndex n c
      return .index e i
    else .error .error

/-- `access_find_var`, `src/flamingo/grammar/access.h:11-43`. -/
def lowerAccess : Nat → Tree → Low (Expr × Bytes)
  | 0, _ => .error .deep
  | n + 1, c => do
    check ((c.kids true).length == 2)
    let e ← c.get b!"accessed"
    expect (e.type == b!"expression")
    let name ← c.get b!"accessor"
    expect (name.type == b!"identifier")
    return (← lowerExpr n e, name.text)

/-- `parse_index`, `src/flamingo/grammar/index.h:11-54`. -/
def lowerIndex : Nat → Tree → Low (Expr × Expr)
  | 0, _ => .error .deep
  | n + 1, c => do
    let e ← c.get b!"indexed"
    expect (e.type == b!"expression")
    let i ← c.get b!"index"
    expect (i.type == b!"expression")
    let e ← lowerExpr n e
    return (e, ← lowerExpr n i)

/-- One key and its value, `src/flamingo/grammar/map.h:24-70`. -/
def lowerItem : Nat → Tree → Low (Expr × Expr)
  | 0, _ => .error .deep
  | n + 1, c => do
    let k ← c.get b!"key"
    let v ← c.get b!"value"
    check (k.type == b!"expression")
    check (v.type == b!"expression")
    let k ← lowerExpr n k
    return (k, ← lowerExpr n v)

/-- `parse_block`, `src/flamingo/grammar/block.h:11-34`. -/
def lowerBlock : Nat → Tree → Low (List Stmt)
  | 0, _ => .error .deep
  | n + 1, t => do
    check (t.type == b!"block")
    (t.kids true).mapM (lowerStmt n)

/-- `parse_statement`, `src/flamingo/grammar/statement.h:17-91`. -/
def lowerStmt : Nat → Tree → Low Stmt
  | 0, _ => .error .deep
  | n + 1, t =>
    if t.type = b!"\n" || t.type = b!";" || t.type = b!"comment" || t.type = b!"doc_comment" then .ok .skip
    else if t.type = b!"block" then return .block (← lowerBlock n t)
    else if t.type = b!"function_declaration" then do
      let (isStatic, name, ps) ← lowerHead t
      return .fn isStatic name ps (← lowerFnBody n t)
    else if t.type = b!"class_declaration" then do
      let (isStatic, name, ps) ← lowerHead t
      return .cls isStatic name ps (← lowerFnBody n t)
    else do
      check (t.type == b!"statement")
      match t.kids false with
      | [c] => return .line (← lowerLine n c)
      | _ => .error .abort

/-- The body, `src/flamingo/grammar/function_declaration.h:79-88`. -/
def lowerFnBody : Nat → Tree → Low (List Stmt)
  | 0, _ => .error .deep
  | n + 1, t => do
    let body ← t.get b!"body"
    expect (body.type == b!"block")
    lowerBlock n body

/-- What is in a `statement`, `src/flamingo/grammar/statement.h:55-90`. -/
def lowerLine : Nat → Tree → Low Line
  | 0, _ => .error .deep
  | n + 1, c =>
    -- `parse_print`, `src/flamingo/grammar/print.h:124-154`
    if c.type = b!"print" then do
      check ((c.kids false).length == 2)
      let e ← c.get b!"msg"
      expect (e.type == b!"expression")
      return .print (← lowerExpr n e)
    -- `parse_return`, `src/flamingo/grammar/return.h:12-62`
    else if c.type = b!"return" then do
      check ((c.kids false).length == 1 || (c.kids false).length == 2)
      match c.field b!"rv" with
      | none => return .ret none
      | some e =>
        expect (e.type == b!"expression")
        return .ret (some (← lowerExpr n e))
    -- `parse_assert`, `src/flamingo/grammar/assert.h:11-43`
    else if c.type = b!"assert" then do
      check ((c.kids false).length == 2)
      let e ← c.get b!"test"
      expect (e.type == b!"expression")
      return .assert (← lowerExpr n e) e.text
    -- `parse_var_decl`, `src/flamingo/grammar/var_decl.h:13-89`
    else if c.type = b!"var_decl" then do
      check (1 ≤ (c.kids true).length && (c.kids true).length ≤ 3)
      let name ← lowerName c
      match c.field b!"type" with
      | none => pure ()
      | some ty => expect (ty.type == b!"type")
      match c.field b!"initial" with
      | none => return .decl (← lowerStatic c) name none
      | some e =>
        expect (e.type == b!"expression")
        let isStatic ← lowerStatic c
        return .decl isStatic name (some (← lowerExpr n e))
    -- `parse_assignment`, `src/flamingo/grammar/assignment.h:14-80`
    else if c.type = b!"assignment" then do
      check ((c.kids false).length == 3)
      let r ← c.get b!"right"
      expect (r.type == b!"expression")
      let l ← c.get b!"left"
      if l.type = b!"identifier" then return .assign (.ident l.text) (← lowerExpr n r)
      else if l.type = b!"access" then do
        let (e, name) ← lowerAccess n l
        return .assign (.access e name l.text) (← lowerExpr n r)
      else if l.type = b!"index" then do
        let (e, i) ← lowerIndex n l
        return .assign (.index e i l.text) (← lowerExpr n r)
      else .error .error
    else if c.type = b!"proto" then do
      let (isStatic, name, ps) ← lowerHead c
      return .proto isStatic name ps
    else if c.type = b!"expression" then return .expr (← lowerExpr n c)
    -- `parse_import`, `src/flamingo/grammar/import.h:158-187`
    else if c.type = b!"import" then do
      check ((c.kids false).length == 2 || (c.kids false).length == 3)
      let path ← c.get b!"path"
      expect (path.type == b!"import_path")
      return .import (c.field b!"relative").isSome (← lowerPath n path)
    else .error .error

end

mutual
def Tree.size : Tree → Nat
  | .leaf .. => 1
  | .node _ _ cs _ => 1 + sizes cs
def sizes : List Tree → Nat
  | [] => 0
  | c :: cs => c.size + sizes cs
end

/-- `flamingo_run` and `parse`, `src/flamingo/flamingo.c:243-288`. -/
def lower (t : Tree) : Low (List Stmt) := do
  check (t.type == b!"source_file")
  (t.kids false).mapM (lowerStmt (3 * t.size))

end Bob.Parse
