import Verif.Model.Flamingo.Interp
/-!
# Vocabulary for properties of scripts

What the properties of the interpreter talk about, in terms of the state only.
-/

namespace Bob.Fl

/-- The stack of scopes in use, innermost first. -/
def St.Stack (s : St) (st : List Nat) : Prop := s.envs[s.eng.env]? = some st

/-- Scope `i` has contents `x` and was not released. -/
def St.Alive (s : St) (i : Nat) (x : Scope) : Prop := s.scopes[i]? = some x ∧ x.freed = false

/-- The scope of the variable after which the value is named was not released. -/
def St.NameKept (s : St) (x : Cell) : Prop := ∀ i sc, x.keyIn = some i → s.scopes[i]? = some sc → sc.freed = false

/-- The same for every value. -/
def St.NamesKept (s : St) : Prop := ∀ (c : Nat) (x : Cell), s.cells[c]? = some x → s.NameKept x

/-- The scope declares the name. -/
def Scope.Has (x : Scope) (name : Bytes) : Prop := ∃ v ∈ x.vars, v.key = name

/-- The names declared in a scope, in order, with their `static`. -/
def Scope.names (x : Scope) : List (Bytes × Bool) := x.vars.map fun v => (v.key, v.isStatic)

/-- `v`, at position `k`, is the first variable of that name in the scope. -/
def Scope.First (x : Scope) (name : Bytes) (k : Nat) (v : Var) : Prop :=
  x.vars[k]? = some v ∧ v.key = name ∧ ∀ (k' : Nat) (v' : Var), k' < k → x.vars[k']? = some v' → v'.key ≠ name

/-- Value `c` holds `d`. -/
def St.Holds (s : St) (c : Nat) (d : Data) : Prop := ∃ x, s.cells[c]? = some x ∧ x.data = d

/-- The script is stopped with a message; if the message is too long for the buffer, by an assertion (C59). -/
def Refused (msg : Bytes) (s : St) (o : Out α) : Prop :=
  (o = .err (some msg) s ∧ msg.length < 235) ∨ (o = .abort { s with cause := .message } ∧ 235 ≤ msg.length)

/-- Not a normal end. -/
def Out.Bad : Out α → Prop
  | .ok _ _ => False
  | _ => True

/-- What a script printed, if it ended normally. -/
def Out.printed : Out α → Option (List Bytes)
  | .ok _ s => some s.out
  | _ => none

/-- The message of a script that failed, and what it had printed. -/
def Out.failed : Out α → Option (Option Bytes × List Bytes)
  | .err m s => some (m, s.out)
  | _ => none

def Out.isAbort : Out α → Bool
  | .abort _ => true
  | _ => false

def Out.isUb : Out α → Bool
  | .ub _ => true
  | _ => false

/-- A world without files, for examples. -/
def emptyWorld : World where
  file := fun _ => .missing b!"No such file or directory"
  list := fun _ => none
  pow := fun _ _ => none
  outPath := b!"out"
  signed := true

/-! Abbreviations for examples. -/

def eNum (b : Bytes) : Expr := .lit (.num b)
def eStr (b : Bytes) : Expr := .lit (.str b)
def eVar (b : Bytes) : Expr := .ident b
def sLet (x : Bytes) (e : Expr) : Stmt := .line (.decl false x (some e))
def sPrint (e : Expr) : Stmt := .line (.print e)
def sRet (e : Expr) : Stmt := .line (.ret (some e))
def sSet (x : Bytes) (e : Expr) : Stmt := .line (.assign (.ident x) e)
def sDo (e : Expr) : Stmt := .line (.expr e)
def sFn (f : Bytes) (ps : List Bytes) (b : List Stmt) : Stmt := .fn false f ps b
def eCall (f : Expr) (args : List Expr) : Expr := .call f args

example : (runScript emptyWorld 10 [] [sLet b!"x" (eNum b!"1"), sPrint (eVar b!"x")]).printed = some [b!"1"] := by decide +kernel

end Bob.Fl
