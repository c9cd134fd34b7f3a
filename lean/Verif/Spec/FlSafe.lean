import Verif.Model.Flamingo.Host
/-!
# A discipline for build scripts

Reference counting in the interpreter is not sound for every script (see `Props/FlCrash.lean`).  This file describes, by looking at
the text of a script only, scripts for which it is: `Props/FlSafe.lean` proves that these never make the interpreter use released
memory.  In short:

* a name that is assigned to anywhere is never the name of a parameter;
* a variable that some function assigns to is only ever assigned values computed without calling functions;
* elements of vectors and maps are not assigned to;
* classes have names of their own, which are only called or used to get at members, and a new instance is not stored directly in
  a variable that is assigned to, nor returned, nor an operand;
* members of strings and vectors (`len`, `map` …) are only called, and nothing else has their names.

`return` must be inside a function, imports outside functions and classes, and class declarations outside functions.
-/

namespace Bob.Fl

/-- What has to be known about a script (and all it imports) beforehand: the names assigned to, those of them assigned to inside
functions and classes, and the names of classes. -/
structure Discipline where
  assigned : List Bytes := []
  inside : List Bytes := []
  classes : List Bytes := []

/-- Members of strings and vectors which call nothing back. -/
def calmNames : List Bytes := [b!"len", b!"startswith", b!"endswith"]

/-- Members of strings and vectors. -/
def memberNames : List Bytes := calmNames ++ [b!"map", b!"where"]

/-- Where a statement is: outside of functions and classes, in a function, or directly in the body of a class. -/
inductive Place where
  | top | fn | cls
deriving DecidableEq

section
variable (L : Discipline)

/-- The name of something declared. -/
def freeName (x : Bytes) : Bool := !memberNames.contains x

/-- The name of a parameter. -/
def Discipline.param (x : Bytes) : Bool := !memberNames.contains x && !L.assigned.contains x

/-- An expression which can be a class. -/
def Expr.isClass : Expr → Bool
  | .ident x => L.classes.contains x
  | .access _ x => L.classes.contains x
  | _ => false

/-- An expression which can be a member of a string or vector. -/
def Expr.isMember : Expr → Bool
  | .access _ x => memberNames.contains x
  | _ => false

/-- An expression which can be a member of a string or vector that calls nothing back. -/
def Expr.isCalm : Expr → Bool
  | .access _ x => calmNames.contains x
  | _ => false

/-- An expression which can be a new instance. -/
def Expr.isNew : Expr → Bool
  | .call f _ => f.isClass L
  | _ => false

/-- An expression which is a value: not a class, and not a member of a string or vector. -/
def Expr.isVal (e : Expr) : Bool := !e.isClass L && !e.isMember

/-- An expression which is a value, but not a new instance. -/
def Expr.isOwn (e : Expr) : Bool := e.isVal L && !e.isNew L

mutual

/-- Expressions; with `calm`, such that no function is called. -/
def Expr.ok (calm : Bool) : Expr → Bool
  | .lit (.str s) => !s.contains NUL
  | .lit _ => true
  | .ident _ => true
  | .lambda ps b => ps.all L.param && b.ok
  | .vec es => okVals calm es
  | .map items => okItems calm items
  | .call f args => f.ok calm && (!calm || f.isCalm) && okVals calm args
  | .paren e => e.ok calm && e.isOwn L
  | .un _ e => e.ok calm && e.isOwn L
  | .bin _ l r => l.ok calm && l.isOwn L && r.ok calm && r.isOwn L
  | .access e _ => e.ok calm && !e.isMember
  | .index e i => e.ok calm && e.isVal L && i.ok calm && i.isVal L

def okVals (calm : Bool) : List Expr → Bool
  | [] => true
  | e :: es => e.ok calm && e.isVal L && okVals calm es

def okItems (calm : Bool) : List (Expr × Expr) → Bool
  | [] => true
  | (k, v) :: rest => k.ok calm && k.isVal L && v.ok calm && v.isVal L && okItems calm rest

/-- Bodies of functions. -/
def Body.ok : Body → Bool
  | .block ss => okStmts .fn ss
  | .expr e => e.ok false && e.isOwn L

def Lhs.ok (p : Place) : Lhs → Bool
  | .ident x => L.assigned.contains x && (p == .top || L.inside.contains x)
  | .access e x _ => e.ok false && !e.isMember && L.assigned.contains x && (p == .top || L.inside.contains x)
  | .index _ _ _ => false

def Line.ok (p : Place) : Line → Bool
  | .print e => e.ok false && e.isOwn L
  | .ret none => p == .fn
  | .ret (some e) => p == .fn && e.ok false && e.isOwn L
  | .assert e _ => e.ok false && e.isOwn L
  | .decl _ x none => freeName x
  | .decl _ x (some e) => freeName x && e.ok false && e.isVal L && (!e.isNew L || !L.assigned.contains x)
  | .assign (.ident x) e => (Lhs.ident x).ok p && e.ok (L.inside.contains x) && e.isOwn L
  | .assign (.access b x t) e => (Lhs.access b x t).ok p && e.ok (L.inside.contains x) && e.isOwn L
  | .assign (.index _ _ _) _ => false
  | .proto _ x ps => freeName x && ps.all L.param
  | .expr e => e.ok false
  | .import _ _ => p == .top

def Stmt.ok (p : Place) : Stmt → Bool
  | .skip => true
  | .block ss => okStmts p ss
  | .fn _ x ps ss => freeName x && ps.all L.param && okStmts .fn ss
  | .cls _ x ps ss => p != .fn && L.classes.contains x && freeName x && ps.all L.param && okStmts .cls ss
  | .line l => l.ok p

def okStmts (p : Place) : List Stmt → Bool
  | [] => true
  | s :: ss => s.ok p && okStmts p ss

end

end

/-- What is needed of everything outside: files to be imported follow the discipline, names of files contain no NUL, and the empty
name is not assigned to (it is given to arguments of members of strings and vectors). -/
structure World.Ok (L : Discipline) (w : World) : Prop where
  file : ∀ path p, w.file path = .src p → okStmts L .top p = true
  list : ∀ path ps, w.list path = some ps → ∀ p ∈ ps, NUL ∉ p
  out : NUL ∉ w.outPath
  empty : [] ∉ L.assigned

end Bob.Fl
