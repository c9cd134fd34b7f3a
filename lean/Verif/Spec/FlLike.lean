import Verif.Model.Flamingo.Setup
/-!
# Scripts that are alike

Scripts that are the same but for statements without effect: ends of lines, `;` and comments.  If `loose` is false, they are the same altogether.
-/

namespace Bob.Fl

mutual
inductive ExprLike (loose : Bool) : Expr → Expr → Prop
  | lit (l : Lit) : ExprLike loose (.lit l) (.lit l)
  | ident (name : Bytes) : ExprLike loose (.ident name) (.ident name)
  | lambda (ps : List Bytes) {b b' : Body} : BodyLike loose b b' → ExprLike loose (.lambda ps b) (.lambda ps b')
  | vec {es es' : List Expr} : ExprsLike loose es es' → ExprLike loose (.vec es) (.vec es')
  | map {is is' : List (Expr × Expr)} : ItemsLike loose is is' → ExprLike loose (.map is) (.map is')
  | call {f f' : Expr} {es es' : List Expr} : ExprLike loose f f' → ExprsLike loose es es' → ExprLike loose (.call f es) (.call f' es')
  | paren {e e' : Expr} : ExprLike loose e e' → ExprLike loose (.paren e) (.paren e')
  | un (op : UnOp) {e e' : Expr} : ExprLike loose e e' → ExprLike loose (.un op e) (.un op e')
  | bin (op : BinOp) {l l' r r' : Expr} : ExprLike loose l l' → ExprLike loose r r' → ExprLike loose (.bin op l r) (.bin op l' r')
  | access {e e' : Expr} (name : Bytes) : ExprLike loose e e' → ExprLike loose (.access e name) (.access e' name)
  | index {e e' i i' : Expr} : ExprLike loose e e' → ExprLike loose i i' → ExprLike loose (.index e i) (.index e' i')

inductive ExprsLike (loose : Bool) : List Expr → List Expr → Prop
  | nil : ExprsLike loose [] []
  | cons {e e' : Expr} {es es' : List Expr} : ExprLike loose e e' → ExprsLike loose es es' → ExprsLike loose (e :: es) (e' :: es')

inductive ItemsLike (loose : Bool) : List (Expr × Expr) → List (Expr × Expr) → Prop
  | nil : ItemsLike loose [] []
  | cons {k k' v v' : Expr} {is is' : List (Expr × Expr)} : ExprLike loose k k' → ExprLike loose v v' → ItemsLike loose is is' →
      ItemsLike loose ((k, v) :: is) ((k', v') :: is')

inductive BodyLike (loose : Bool) : Body → Body → Prop
  | block {ss ss' : List Stmt} : StmtsLike loose ss ss' → BodyLike loose (.block ss) (.block ss')
  | expr {e e' : Expr} : ExprLike loose e e' → BodyLike loose (.expr e) (.expr e')

inductive OptLike (loose : Bool) : Option Expr → Option Expr → Prop
  | none : OptLike loose none none
  | some {e e' : Expr} : ExprLike loose e e' → OptLike loose (some e) (some e')

inductive LhsLike (loose : Bool) : Lhs → Lhs → Prop
  | ident (name : Bytes) : LhsLike loose (.ident name) (.ident name)
  | access {e e' : Expr} (name text : Bytes) : ExprLike loose e e' → LhsLike loose (.access e name text) (.access e' name text)
  | index {e e' i i' : Expr} (text : Bytes) : ExprLike loose e e' → ExprLike loose i i' → LhsLike loose (.index e i text) (.index e' i' text)

inductive LineLike (loose : Bool) : Line → Line → Prop
  | print {e e' : Expr} : ExprLike loose e e' → LineLike loose (.print e) (.print e')
  | ret {e e' : Option Expr} : OptLike loose e e' → LineLike loose (.ret e) (.ret e')
  | assert {e e' : Expr} (text : Bytes) : ExprLike loose e e' → LineLike loose (.assert e text) (.assert e' text)
  | decl (st : Bool) (name : Bytes) {e e' : Option Expr} : OptLike loose e e' → LineLike loose (.decl st name e) (.decl st name e')
  | assign {l l' : Lhs} {e e' : Expr} : LhsLike loose l l' → ExprLike loose e e' → LineLike loose (.assign l e) (.assign l' e')
  | proto (st : Bool) (name : Bytes) (ps : List Bytes) : LineLike loose (.proto st name ps) (.proto st name ps)
  | expr {e e' : Expr} : ExprLike loose e e' → LineLike loose (.expr e) (.expr e')
  | import (rel : Bool) (path : List Bytes) : LineLike loose (.import rel path) (.import rel path)

inductive StmtLike (loose : Bool) : Stmt → Stmt → Prop
  | skip : StmtLike loose .skip .skip
  | block {ss ss' : List Stmt} : StmtsLike loose ss ss' → StmtLike loose (.block ss) (.block ss')
  | fn (st : Bool) (name : Bytes) (ps : List Bytes) {ss ss' : List Stmt} : StmtsLike loose ss ss' → StmtLike loose (.fn st name ps ss) (.fn st name ps ss')
  | cls (st : Bool) (name : Bytes) (ps : List Bytes) {ss ss' : List Stmt} : StmtsLike loose ss ss' → StmtLike loose (.cls st name ps ss) (.cls st name ps ss')
  | line {l l' : Line} : LineLike loose l l' → StmtLike loose (.line l) (.line l')

inductive StmtsLike (loose : Bool) : List Stmt → List Stmt → Prop
  | nil : StmtsLike loose [] []
  | cons {s s' : Stmt} {ss ss' : List Stmt} : StmtLike loose s s' → StmtsLike loose ss ss' → StmtsLike loose (s :: ss) (s' :: ss')
  /-- a statement without effect on one side only -/
  | left {ss ss' : List Stmt} : loose = true → StmtsLike loose ss ss' → StmtsLike loose (.skip :: ss) ss'
  | right {ss ss' : List Stmt} : loose = true → StmtsLike loose ss ss' → StmtsLike loose ss (.skip :: ss')
end

/-- The same file, or scripts that are alike. -/
inductive FileLike (loose : Bool) : FileRes → FileRes → Prop
  | refl (f : FileRes) : FileLike loose f f
  | src {ss ss' : List Stmt} : StmtsLike loose ss ss' → FileLike loose (.src ss) (.src ss')

/-- Worlds that differ in the scripts only. -/
structure WorldLike (loose : Bool) (w w' : World) : Prop where
  file : ∀ path, FileLike loose (w.file path) (w'.file path)
  list : w'.list = w.list
  pow : w'.pow = w.pow
  outPath : w'.outPath = w.outPath
  signed : w'.signed = w.signed

/-- What can be seen of a script that was run: how it ended, what it printed, and what bob finds afterwards. -/
inductive Seen where
  | ok (out : List Bytes) (vars : List (Bytes × ScriptVal)) (requests : Option (List Req))
  | err (msg : Option Bytes) (out : List Bytes)
  | abort (out : List Bytes)
  | ub (out : List Bytes)

/-- `none`: the model did not get to the end. -/
def seen : Out Unit → Option Seen
  | .ok _ s => some (.ok s.out s.scriptVars s.requests)
  | .err msg s => some (.err msg s.out)
  | .abort s => some (.abort s.out)
  | .ub s => some (.ub s.out)
  | .timeout => none

/-- Running a script shows `x`. -/
def Shows (w : World) (paths : List Bytes) (p : List Stmt) (x : Seen) : Prop := ∃ n, seen (runScript w n paths p) = some x

/-! ## Leaving out what has no effect -/

mutual
def bareExpr : Expr → Expr
  | .lit l => .lit l
  | .ident x => .ident x
  | .lambda ps b => .lambda ps (bareBody b)
  | .vec es => .vec (bareExprs es)
  | .map is => .map (bareItems is)
  | .call f es => .call (bareExpr f) (bareExprs es)
  | .paren e => .paren (bareExpr e)
  | .un op e => .un op (bareExpr e)
  | .bin op l r => .bin op (bareExpr l) (bareExpr r)
  | .access e name => .access (bareExpr e) name
  | .index e i => .index (bareExpr e) (bareExpr i)

def bareExprs : List Expr → List Expr
  | [] => []
  | e :: es => bareExpr e :: bareExprs es

def bareItems : List (Expr × Expr) → List (Expr × Expr)
  | [] => []
  | (k, v) :: is => (bareExpr k, bareExpr v) :: bareItems is

def bareBody : Body → Body
  | .block ss => .block (bare ss)
  | .expr e => .expr (bareExpr e)

def bareOpt : Option Expr → Option Expr
  | none => none
  | some e => some (bareExpr e)

def bareLhs : Lhs → Lhs
  | .ident x => .ident x
  | .access e name text => .access (bareExpr e) name text
  | .index e i text => .index (bareExpr e) (bareExpr i) text

def bareLine : Line → Line
  | .print e => .print (bareExpr e)
  | .ret o => .ret (bareOpt o)
  | .assert e text => .assert (bareExpr e) text
  | .decl st name o => .decl st name (bareOpt o)
  | .assign l e => .assign (bareLhs l) (bareExpr e)
  | .proto st name ps => .proto st name ps
  | .expr e => .expr (bareExpr e)
  | .import rel path => .import rel path

def bareStmt : Stmt → Stmt
  | .skip => .skip
  | .block ss => .block (bare ss)
  | .fn st name ps ss => .fn st name ps (bare ss)
  | .cls st name ps ss => .cls st name ps (bare ss)
  | .line l => .line (bareLine l)

/-- The script without statements that have no effect. -/
def bare : List Stmt → List Stmt
  | [] => []
  | .skip :: ss => bare ss
  | s :: ss => bareStmt s :: bare ss
end

end Bob.Fl
