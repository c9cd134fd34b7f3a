import Verif.Model.Flamingo.Syntax
import Verif.Model.BuildStep
/-!
# Memory of the interpreter

Everything the interpreter allocates is kept in lists that only grow; an address is a position in such a list.  Releasing something
is recorded, and using it afterwards (or releasing it again) is the outcome `ub`.  Addresses are never reused.
-/

namespace Bob.Fl

/-- `ptm_cb`, `src/flamingo/primitive_type_member.h:95-101`. -/
inductive Ptm where
  | strLen | strEndswith | strStartswith | vecLen | vecMap | vecWhere
deriving DecidableEq, Repr

/-- `flamingo_fn_kind_t`, `src/flamingo/flamingo.h`. -/
inductive FnKind where
  | function | cls | extern
  | ptm (p : Ptm)
deriving DecidableEq, Repr

/-- `val->fn`.  `body` is the address of the heap-allocated node, `env` of the closed-over environment, `scope` of the static
scope.  `src` is not kept (trees carry their text). -/
structure FnData where
  kind : FnKind
  body : Option Nat := none
  params : List Bytes := []
  env : Option Nat := none
  scope : Option Nat := none
deriving DecidableEq, Repr

/-- `val->inst`.  `data` is the address of the host's state for the instance; `free_data` is set exactly when `data` is. -/
structure InstData where
  cls : Nat
  scope : Nat
  data : Option Nat := none
deriving DecidableEq, Repr

/-- The union in `flamingo_val_t`.  A string is a buffer and a size. -/
inductive Data where
  | none
  | bool (b : Bool)
  | int (i : Int)
  | str (buf size : Nat)
  | vec (elems : List Nat)
  | map (entries : List (Nat × Nat))
  | fn (f : FnData)
  | inst (i : InstData)
deriving DecidableEq, Repr

/-- `flamingo_val_kind_t`. -/
inductive Kind where
  | none | bool | int | str | vec | map | fn | inst
deriving DecidableEq, Repr

def Data.kind : Data → Kind
  | .none => .none
  | .bool _ => .bool
  | .int _ => .int
  | .str _ _ => .str
  | .vec _ => .vec
  | .map _ => .map
  | .fn _ => .fn
  | .inst _ => .inst

/-- `flamingo_val_t`.  An empty `name` also stands for no name.  A name is a pointer to the key of a variable (`src/flamingo/var.h:17`);
`keyIn` is the scope of that variable, or `none` for names in memory of their own: those of copies and of primitive type members. -/
structure Cell where
  data : Data
  refs : Nat := 1
  owner : Option Nat := none
  name : Bytes := []
  keyIn : Option Nat := none
deriving DecidableEq, Repr

/-- `flamingo_var_t`.  `val = none` is the NULL of a variable being initialised.  `is_static` of parameters, which the C code leaves
uninitialised and never reads, is false. -/
structure Var where
  key : Bytes
  val : Option Nat := none
  isStatic : Bool := false
deriving DecidableEq, Repr

/-- `flamingo_scope_t` without its reference count, which is never read. -/
structure Scope where
  vars : List Var := []
  owner : Option Nat := none
  cls : Bool := false
  freed : Bool := false
deriving DecidableEq, Repr

/-- `flamingo->cur_fn_rv`; `sentinel` is the 0xC1A55EE of `src/flamingo/grammar/return.h:47`. -/
inductive Rv where
  | none
  | val (c : Nat)
  | sentinel
deriving DecidableEq, Repr

/-- The fields of `flamingo_t` which differ between an engine and one it imports.  `ptm` is the address of the first of the
engine's six primitive type members, which are allocated together. -/
structure Eng where
  body : Option Nat := none
  rv : Rv := .none
  env : Nat := 0
  paths : List Bytes := []
  ptm : Nat := 0
deriving DecidableEq, Repr

/-- The `unique` of build steps: addresses of host objects. -/
inductive Uniq where
  | state (o : Option Nat)
  | bss (n : Nat)
deriving DecidableEq, Repr

/-- Name and callback of a build step, `src/class/cc.c:346`, `src/class/linker.c:223`. -/
inductive StepKind where
  | compile | link | archive
deriving DecidableEq, Repr

/-- `build_step_state_t` of `src/class/cc.c:30-36` and `src/class/linker.c:30-41`: addresses of the host state and of the two values. -/
structure ReqData where
  state : Option Nat
  srcs : Nat
  out : Nat
deriving DecidableEq, Repr

/-- One `state_t`, `src/class/cc.c:26-28`, `src/class/linker.c:26-28`. -/
structure HostState where
  flags : Nat
  freed : Bool := false
deriving DecidableEq, Repr

/-- What bob's classes keep: `class_val` of `src/class/class.h:8-15`, `list_val` of `src/class/fs.c:16`, the `state_t` objects and the
build steps. -/
structure Host where
  fsCls : Option Nat := none
  ccCls : Option Nat := none
  linkerCls : Option Nat := none
  fsList : Option Nat := none
  states : List HostState := []
  steps : List (BuildStep Uniq StepKind ReqData) := []
  nbss : Nat := 0
deriving DecidableEq, Repr

/-- An external function call that came back, for stating properties only: the function and what it was given and gave. -/
structure ExtCall where
  callable : Nat
  args : List Nat
  result : Nat
deriving DecidableEq, Repr

/-- What a crash is put down to, for stating properties only: a message too long for its buffer, an integer out of range, a variable used before it was initialised, `return` of a
call, one of bob's own functions called on the wrong thing, `vec.where` with a function that returns an instance, or anything else. -/
inductive Cause where
  | message | overflow | uninit | returnCall | host | whereInst | other
deriving DecidableEq, Repr

/-- The whole state.  `bodies` and `bufs` are the memory behind `fn.body` and `str.str`, `none` once released.  The head of a
stack in `envs` is the innermost scope (the C array is the other way round).  `out` is what was printed, `calls` the external calls so far, and `cause` is set by crashes. -/
structure St where
  cells : List Cell := []
  bufs : List (Option Bytes) := []
  bodies : List (Option Body) := []
  scopes : List Scope := []
  envs : List (List Nat) := []
  eng : Eng := {}
  host : Host := {}
  out : List Bytes := []
  calls : List ExtCall := []
  cause : Cause := .other

/-- How a piece of the interpreter can end.  `err`: it returned a negative value; the message is `none` if the host failed without
raising an error.  `abort`: a failed assertion.  `timeout`: the model ran out of fuel. -/
inductive Out (α : Type) where
  | ok (a : α) (s : St)
  | err (msg : Option Bytes) (s : St)
  | abort (s : St)
  | ub (s : St)
  | timeout

/-- Pieces of the interpreter. -/
def M (α : Type) := St → Out α

def M.pure (a : α) : M α := fun s => .ok a s

def M.bind (m : M α) (f : α → M β) : M β := fun s =>
  match m s with
  | .ok a s' => f a s'
  | .err msg s' => .err msg s'
  | .abort s' => .abort s'
  | .ub s' => .ub s'
  | .timeout => .timeout

instance : Monad M where
  pure := M.pure
  bind := M.bind

def M.get : M St := fun s => .ok s s
def M.modify (f : St → St) : M Unit := fun s => .ok () (f s)
def M.abort (c : Cause := .other) : M α := fun s => .abort { s with cause := c }
def M.ub (c : Cause := .other) : M α := fun s => .ub { s with cause := c }
/-- What happens in `m`, with crashes put down to `c`. -/
def M.blame (c : Cause) (m : M α) : M α := fun s =>
  match m s with
  | .abort s' => .abort { s' with cause := c }
  | .ub s' => .ub { s' with cause := c }
  | o => o
def M.timeout : M α := fun _ => .timeout
/-- A host function returned -1 after logging, without `flamingo_raise_error`. -/
def M.fail : M α := fun s => .err none s

/-- `assert(b)`. -/
def M.assert (b : Bool) : M Unit := if b then pure () else M.abort

/-- The C code dereferences a pointer which is NULL or dangling if this is `none`. -/
def M.deref (o : Option α) (c : Cause := .other) : M α :=
  match o with
  | some a => pure a
  | none => M.ub c

/-- `"Bob the Builder:0:0: "`, the prefix of messages (`src/flamingo/flamingo.c:53`, `src/bsys/bob/main.c:155`). -/
def msgPrefix : Bytes := b!"Bob the Builder:0:0: "

/-- `flamingo_raise_error`, `src/flamingo/flamingo.c:31-61`.  The message must fit in `flamingo->err` (256 bytes), otherwise one of
the assertions fails.  An engine never raises a second error before it is asked for the first, so line 49-52 is not used. -/
def raise (msg : Bytes) : M α :=
  if (msgPrefix ++ msg).length < 256 then fun s => .err (some msg) s else M.abort .message

/-! ## Values -/

def getCell (c : Nat) : M Cell := fun s =>
  match s.cells[c]? with
  | some x => .ok x s
  | none => .ub s

def setCell (c : Nat) (x : Cell) : M Unit := M.modify fun s => { s with cells := s.cells.set c x }

/-- `val_alloc`, `src/flamingo/val.h:84-89`, followed by setting kind and contents. -/
def alloc (d : Data) : M Nat := fun s => .ok s.cells.length { s with cells := s.cells ++ [{ data := d }] }

/-- A fresh buffer. -/
def allocBuf (b : Bytes) : M Nat := fun s => .ok s.bufs.length { s with bufs := s.bufs ++ [some b] }

/-- `flamingo_val_make_str`, `src/flamingo/flamingo.c:302-313`. -/
def allocStr (b : Bytes) : M Nat := do
  let buf ← allocBuf b
  alloc (.str buf b.length)

/-- Reading `size` bytes of a buffer. -/
def readBuf (buf size : Nat) : M Bytes := do
  let s ← M.get
  match s.bufs[buf]? with
  | some (some b) => if size ≤ b.length then pure (b.take size) else M.ub
  | _ => M.ub

/-- `val_incref`, `src/flamingo/val.h:12-17`. -/
def incref (c : Nat) : M Unit := do
  let x ← getCell c
  M.assert (x.refs != 0)
  setCell c { x with refs := x.refs + 1 }

/-- `free` of a string buffer. -/
def freeBuf (buf : Nat) : M Unit := do
  let s ← M.get
  match s.bufs[buf]? with
  | some (some _) => M.modify fun s => { s with bufs := s.bufs.set buf none }
  | _ => M.ub

/-- `free(val->fn.body)`. -/
def freeBody : Option Nat → M Unit
  | none => pure ()
  | some b => do
    let s ← M.get
    match s.bodies[b]? with
    | some (some _) => M.modify fun s => { s with bodies := s.bodies.set b none }
    | _ => M.ub

/-- `val->inst.free_data(val, val->inst.data)`, `src/class/cc.c:362-365`, `src/class/linker.c:243-246`. -/
def freeState : Option Nat → M Unit
  | none => pure ()
  | some i => do
    let s ← M.get
    match s.host.states[i]? with
    | some h =>
      if h.freed then M.ub
      else M.modify fun s => { s with host := { s.host with states := s.host.states.set i { h with freed := true } } }
    | none => M.ub

def getScope (i : Nat) : M Scope := fun s =>
  match s.scopes[i]? with
  | some x => if x.freed then .ub s else .ok x s
  | none => .ub s

def setScope (i : Nat) (x : Scope) : M Unit := M.modify fun s => { s with scopes := s.scopes.set i x }

/-- Doing something unless a pointer is NULL. -/
def optIter (f : α → M Unit) : Option α → M Unit
  | some a => f a
  | none => pure ()

/-- The loop of `scope_free`, `src/flamingo/scope.h:27-32` (with `val_decref(NULL)` doing nothing). -/
def decVars (dec : Nat → M Unit) : List Var → M Unit
  | [] => pure ()
  | v :: vs => do
    optIter dec v.val
    decVars dec vs

/-- `scope_free`, `src/flamingo/scope.h:26-36`. -/
def freeScope (dec : Nat → M Unit) (i : Nat) : M Unit := do
  let x ← getScope i
  decVars dec x.vars
  let x ← getScope i
  setScope i { x with freed := true }

/-- `val_free`, `src/flamingo/val.h:201-219`.  `dec` is `val_decref`. -/
def freeVal (dec : Nat → M Unit) (c : Nat) : M Unit := do
  let x ← getCell c
  match x.data with
  | .str buf _ => freeBuf buf
  | .fn f => freeBody f.body
  | .inst i => do
    freeScope dec i.scope
    freeState i.data
  | _ => pure ()

/-- `val_decref`, `src/flamingo/val.h:221-236`, of a value (not NULL), where `dec` is `val_decref` itself.  The count is a `size_t`. -/
def stepDec (dec : Nat → M Unit) (c : Nat) : M Unit := do
  let x ← getCell c
  let r := if x.refs = 0 then 18446744073709551615 else x.refs - 1
  setCell c { x with refs := r }
  if r = 0 then freeVal dec c else pure ()

/-- At most `size` bytes of a string, as `printf("%.*s")` and `strndup` read it: up to the first NUL. -/
def readStr (buf size : Nat) : M Bytes := do
  let s ← M.get
  match s.bufs[buf]? with
  | some (some b) => if size ≤ b.length || b.contains NUL then pure (cstr (b.take size)) else M.ub
  | _ => M.ub

/-- `strndup(str, size)`.  Bytes after the first NUL are lost. -/
def strndup (buf size : Nat) : M Nat := do
  let b ← readStr buf size
  allocBuf (b ++ [NUL])

/-- `src/flamingo/val.h:103-120`. -/
def copyData : Data → M Data
  | .str buf size => do
    let buf ← strndup buf size
    pure (.str buf size)
  | d => pure d

/-- Whether the variable to whose key a name points went with its scope (`scope_free`, `src/flamingo/scope.h:26-36`). -/
def St.keyFreed (s : St) (x : Cell) : Bool :=
  match x.keyIn with
  | none => false
  | some i =>
    match s.scopes[i]? with
    | some sc => sc.freed
    | none => false

/-- Reading the bytes of a value's name. -/
def readName (x : Cell) : M Bytes := do
  let s ← M.get
  if s.keyFreed x then M.ub else pure x.name

/-- `val_copy`, `src/flamingo/val.h:91-123`: a copy of the structure; only the name and strings get their own contents. -/
def valCopy (c : Nat) : M Nat := do
  let x ← getCell c
  let _ ← readName x
  let d ← copyData x.data
  fun s => .ok s.cells.length { s with cells := s.cells ++ [{ x with data := d, refs := 1, keyIn := none }] }

/-- A loop which stops at the first failure and collects results. -/
def each (f : α → M β) : List α → M (List β)
  | [] => pure []
  | a :: as => do
    let b ← f a
    let bs ← each f as
    pure (b :: bs)

/-- A loop which stops at the first failure. -/
def forEach (f : α → M Unit) : List α → M Unit
  | [] => pure ()
  | a :: as => do
    f a
    forEach f as

/-- Comparison of vectors of equal length, `src/flamingo/val.h:148-157`. -/
def eqVec (eq : Nat → Nat → M Bool) : List Nat → List Nat → M Bool
  | x :: xs, y :: ys => do
    if ← eq x y then eqVec eq xs ys else pure false
  | _, _ => pure true

/-- The first entry with a key equal to `k`, where the key of the map comes second in the comparison, `src/flamingo/val.h:171-182`. -/
def findKey (eq : Nat → Nat → M Bool) (k : Nat) : List (Nat × Nat) → M (Option Nat)
  | [] => pure none
  | (k', v) :: rest => do
    if ← eq k k' then pure (some v) else findKey eq k rest

/-- `src/flamingo/val.h:163-189`. -/
def eqMap (eq : Nat → Nat → M Bool) (ys : List (Nat × Nat)) : List (Nat × Nat) → M Bool
  | [] => pure true
  | (k, v) :: rest => do
    match ← findKey eq k ys with
    | none => pure false
    | some v' => if ← eq v v' then eqMap eq ys rest else pure false

/-- `val_eq`, `src/flamingo/val.h:125-199`, where `eq` is `val_eq` itself.  Functions and instances are compared by the bytes of their
structure. -/
def stepEq (eq : Nat → Nat → M Bool) (x y : Nat) : M Bool := do
  let cx ← getCell x
  let cy ← getCell y
  match cx.data, cy.data with
  | .none, .none => pure true
  | .bool a, .bool b => pure (a == b)
  | .int a, .int b => pure (a == b)
  | .str bx nx, .str by' ny =>
    if nx = ny then do
      let a ← readBuf bx nx
      let b ← readBuf by' ny
      pure (a == b)
    else pure false
  | .vec xs, .vec ys => if xs.length = ys.length then eqVec eq xs ys else pure false
  | .map xs, .map ys => if xs.length = ys.length then eqMap eq ys xs else pure false
  | .fn f, .fn g => pure (f == g)
  | .inst a, .inst b => pure (a == b)
  | _, _ => pure false

/-- `val_type_str`, `src/flamingo/val.h:35-67`. -/
def typeStr : Data → Bytes
  | .none => b!"none"
  | .bool _ => b!"boolean"
  | .int _ => b!"integer"
  | .str _ _ => b!"string"
  | .vec _ => b!"vector"
  | .map _ => b!"map"
  | .fn f =>
    match f.kind with
    | .extern => b!"external function"
    | .function => b!"function"
    | .cls => b!"class"
    | .ptm _ => b!"primitive type member"
  | .inst _ => b!"instance"

/-- `val_role_str`, `src/flamingo/val.h:69-82`. -/
def roleStr : Data → Bytes
  | .vec _ => b!"unknown"
  | .map _ => b!"unknown"
  | .fn f => typeStr (.fn f)
  | _ => b!"variable"

/-- Elements separated by commas, `src/flamingo/grammar/print.h:51,89`. -/
def commas : List Bytes → Bytes
  | [] => []
  | [x] => x
  | x :: xs => x ++ b!", " ++ commas xs

/-- `repr`, `src/flamingo/grammar/print.h:13-122`, where `rep` is `repr` itself with `inner = true`. -/
def stepRepr (rep : Nat → M Bytes) (inner : Bool) (c : Nat) : M Bytes := do
  let x ← getCell c
  match x.data with
  | .none => pure b!"<none>"
  | .bool b => pure (if b then b!"true" else b!"false")
  | .int i => pure (decInt i)
  | .str buf size => do
    let b ← readStr buf size
    pure (if inner then b!"\"" ++ b ++ b!"\"" else b)
  | .vec es => do
    let rs ← each rep es
    pure (b!"[" ++ commas rs ++ b!"]")
  | .map es => do
    let rs ← each (fun (kv : Nat × Nat) => do
      let k ← rep kv.1
      let v ← rep kv.2
      pure (k ++ b!": " ++ v)) es
    pure (b!"{" ++ commas rs ++ b!"}")
  | .fn f =>
    if x.name.isEmpty then pure b!"<anonymous function>"
    else do
      let n ← readName x
      pure (b!"<" ++ typeStr (.fn f) ++ b!" " ++ n ++ b!">")
  | .inst i => do
    let k ← getCell i.cls
    let n ← readName k
    pure (b!"<instance of " ++ n ++ b!">")

/-! ## Scopes and environments -/

/-- `flamingo->env->scope_stack`, innermost first. -/
def curStack : M (List Nat) := do
  let s ← M.get
  M.deref s.envs[s.eng.env]?

def setStack (st : List Nat) : M Unit := M.modify fun s => { s with envs := s.envs.set s.eng.env st }

/-- `scope_alloc`, `src/flamingo/scope.h:13-24`. -/
def allocScope (x : Scope) : M Nat := fun s => .ok s.scopes.length { s with scopes := s.scopes ++ [x] }

/-- `env_close_over`, `src/flamingo/env.h:22-37`. -/
def closeOver : M Nat := do
  let st ← curStack
  fun s => .ok s.envs.length { s with envs := s.envs ++ [st] }

/-- `env_cur_scope`, `src/flamingo/env.h:47-50`. -/
def curScope : M Nat := do
  match ← curStack with
  | [] => M.abort
  | i :: _ => pure i

/-- `env_gently_attach_scope`, `src/flamingo/env.h:52-57`. -/
def attach (i : Nat) : M Unit := do
  let st ← curStack
  setStack (i :: st)

/-- `env_gently_detach_scope`, `src/flamingo/env.h:59-62`, and `env_pop_scope`, lines 74-77. -/
def detach : M Nat := do
  match ← curStack with
  | [] => M.abort
  | i :: st => do
    setStack st
    pure i

/-- `class_scope` of the innermost scope, if there is one. -/
def topCls : M Bool := do
  match ← curStack with
  | [] => pure false
  | p :: _ => do
    let x ← getScope p
    pure x.cls

/-- `env_push_scope`, `src/flamingo/env.h:64-72`. -/
def pushScope : M Nat := do
  let cls ← topCls
  let i ← allocScope { cls := cls }
  attach i
  pure i

/-- `scope_shallow_find_var`, `src/flamingo/scope.h:55-65`: the position of the first variable of that name. -/
def findKeyIdx (key : Bytes) : List Var → Option Nat
  | [] => none
  | v :: vs => if v.key = key then some 0 else (findKeyIdx key vs).map (· + 1)

def shallowFind (i : Nat) (key : Bytes) : M (Option Nat) := do
  let x ← getScope i
  pure (findKeyIdx key x.vars)

/-- The loop of `env_find_var`, `src/flamingo/env.h:79-92`: scope and position of a variable. -/
def findIn (key : Bytes) : List Nat → M (Option (Nat × Nat))
  | [] => pure none
  | i :: st => do
    match ← shallowFind i key with
    | some k => pure (some (i, k))
    | none => findIn key st

/-- `env_find_var` in the current environment. -/
def findVar (key : Bytes) : M (Option (Nat × Nat)) := do
  let st ← curStack
  findIn key st

def getVar (p : Nat × Nat) : M Var := do
  let x ← getScope p.1
  M.deref x.vars[p.2]?

/-- Writing `var->val`. -/
def setVar (p : Nat × Nat) (c : Nat) : M Unit := do
  let x ← getScope p.1
  let v ← M.deref x.vars[p.2]?
  setScope p.1 { x with vars := x.vars.set p.2 { v with val := some c } }

/-- `scope_add_var`, `src/flamingo/scope.h:38-53`. -/
def addVar (i : Nat) (v : Var) : M Unit := do
  let x ← getScope i
  setScope i { x with vars := x.vars ++ [v] }

/-- `val->name = var->key`, `src/flamingo/var.h:17`, for a variable of scope `i`. -/
def setName (c : Nat) (name : Bytes) (i : Nat) : M Unit := do
  let x ← getCell c
  setCell c { x with name := name, keyIn := some i }

def setOwnerOf (c : Nat) (scope : Nat) : M Unit := do
  let x ← getCell c
  setCell c { x with owner := some scope }

def setRv (r : Rv) : M Unit := M.modify fun s => { s with eng := { s.eng with rv := r } }
def getRv : M Rv := fun s => .ok s.eng.rv s

end Bob.Fl
