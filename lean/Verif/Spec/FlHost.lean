import Mathlib.Data.List.Forall2
import Verif.Spec.Flamingo
import Verif.Model.Flamingo.Setup
/-!
# Vocabulary for what scripts ask to be built
-/

namespace Bob.Fl

/-- Value `c` is the string `b`. -/
def St.HasStr (s : St) (c : Nat) (b : Bytes) : Prop :=
  ∃ buf size full, s.Holds c (.str buf size) ∧ s.bufs[buf]? = some (some full) ∧ size ≤ full.length ∧ b = full.take size

/-- Value `c` is a string whose bytes up to the first NUL are `b`. -/
def St.HasText (s : St) (c : Nat) (b : Bytes) : Prop :=
  ∃ buf size full, s.Holds c (.str buf size) ∧ s.bufs[buf]? = some (some full) ∧ (size ≤ full.length ∨ NUL ∈ full) ∧ b = cstr (full.take size)

/-- Value `c` is a vector of the strings `bs`. -/
def St.HasStrs (s : St) (c : Nat) (bs : List Bytes) : Prop := ∃ es, s.Holds c (.vec es) ∧ List.Forall₂ s.HasStr es bs

/-- The function `f` is called `name` and was declared as a member of the instance `i`. -/
def St.Method (s : St) (f : Nat) (name : Bytes) (i : InstData) : Prop :=
  ∃ x sc scope o, s.cells[f]? = some x ∧ x.name = name ∧ x.owner = some sc ∧ s.Alive sc scope ∧ scope.owner = some o ∧ s.Holds o (.inst i)

/-- A request: the object it is for, what is to be done, and the values. -/
abbrev Request := Uniq × StepKind × ReqData

/-- What an external call made in state `t`, returning in state `t'`, is and what it registers. -/
inductive Serves (w : World) (t t' : St) (c : ExtCall) : Option Request → Prop
  /-- `Fs.list(dir)` -/
  | list (arg : Nat) (dir : Bytes) (found : List Bytes) (hf : t.host.fsList = some c.callable) (ha : c.args = [arg]) (hd : t.HasText arg dir)
      (hl : w.list dir = some found) (hr : t'.HasStrs c.result found) : Serves w t t' c none
  /-- `cc.compile(srcs)`: the result are the cookies of the sources, which the call leaves as they are -/
  | compile (i : InstData) (srcs : Nat) (paths : List Bytes) (hm : t.Method c.callable b!"compile" i) (hc : t.host.ccCls = some i.cls) (ha : c.args = [srcs])
      (hs : t'.HasStrs srcs paths) (hr : t'.HasStrs c.result (paths.map fun p => genCookie w.signed w.outPath p b!"o")) :
      Serves w t t' c (some (.state i.data, .compile, { state := i.data, srcs := srcs, out := c.result }))
  /-- `linker.link(objs)`: the result is the cookie of the objects; the request gets an object of its own -/
  | link (i : InstData) (srcs : Nat) (paths : List Bytes) (hm : t.Method c.callable b!"link" i) (hc : t.host.linkerCls = some i.cls)
      (ha : c.args = [srcs]) (hs : t.HasStrs srcs paths) (hr : t'.HasStr c.result (linkCookie w.signed w.outPath false paths)) :
      Serves w t t' c (some (.bss t.host.nbss, .link, { state := i.data, srcs := srcs, out := c.result }))
  /-- `linker.archive(objs)` -/
  | archive (i : InstData) (srcs : Nat) (paths : List Bytes) (hm : t.Method c.callable b!"archive" i) (hc : t.host.linkerCls = some i.cls)
      (ha : c.args = [srcs]) (hs : t.HasStrs srcs paths) (hr : t'.HasStr c.result (linkCookie w.signed w.outPath true paths)) :
      Serves w t t' c (some (.bss t.host.nbss, .archive, { state := i.data, srcs := srcs, out := c.result }))

/-- An external call with the states before and after it and what it registers. -/
structure Event where
  before : St
  after : St
  call : ExtCall
  req : Option Request

/-- Single things to be built. -/
inductive Item where
  | obj (j : CJob)
  | product (j : LJob)
deriving DecidableEq, Repr

/-- What a step builds, in the order in which its work is begun. -/
def itemsOf : Req → List Item
  | .compile js => js.map .obj
  | .link j => [.product j]

/-- What a request asks for, with its values read in state `s`. -/
def St.items (s : St) : Request → Option (List Item)
  | (_, .compile, d) => (s.compileJobs d).map fun js => js.map .obj
  | (_, .link, d) => (s.linkJob false d).map fun j => [.product j]
  | (_, .archive, d) => (s.linkJob true d).map fun j => [.product j]

/-! For examples: a world with `import/bob.fl`. -/

def bobWorld : World where
  file := fun p => if p = b!"import/bob.fl" then .src bobFl else .missing b!"No such file or directory"
  list := fun d => if d = b!"src" then some [b!"src/a.c", b!"src/b.c"] else none
  pow := fun _ _ => none
  outPath := b!"out"
  signed := true

def bobPaths : List Bytes := [b!"/usr/share/flamingo/import", b!"import"]
def sBob : Stmt := .line (.import false [b!"bob"])
def eNew (k : Bytes) (fl : List Bytes) : Expr := eCall (eVar k) [.vec (fl.map eStr)]
def eMeth (o : Expr) (m : Bytes) (a : List Expr) : Expr := eCall (.access o m) a

/-- The requests of a script that ended normally. -/
def Out.requests : Out Unit → Option (List Req)
  | .ok _ s => s.requests
  | _ => none

end Bob.Fl
