import Verif.Model.Flamingo.Host
/-!
# The interpreter

One function for each file of `src/flamingo/grammar`.  They are mutually recursive; here each takes the others as an argument of type
`Rec`, and `interp n` ties the knot with recursion depth `n`.
-/

namespace Bob.Fl

/-- Where the result of an expression goes: `val == NULL`, a pointer to a NULL local (or `&var->val`, or a vector element), or
`&flamingo->cur_fn_rv` (only from `return`). -/
inductive Dest where
  | discard | keep | ret
deriving DecidableEq, Repr

/-- What `parse_expr` leaves in `*val` (none: nothing or NULL) and in `*accessed_val_ref`. -/
structure Res where
  val : Option Nat := none
  acc : Option Nat := none

/-- The mutually recursive functions: `parse_expr`, `parse_statement`, a static member in `find_static_members_in_class`, `call`, the loop of
`vec_where` (whose length is not known beforehand), `val_eq`, `val_decref` and `repr`. -/
structure Rec where
  eval : Dest → Expr → M Res
  exec : Stmt → M Unit
  member : Stmt → M Unit
  call : Nat → Option Nat → Dest → List Nat → M (Option Nat)
  filter : Nat → Nat → Nat → M (List Nat)
  eq : Nat → Nat → M Bool
  dec : Nat → M Unit
  repr : Nat → M Bytes

/-- `assert(*val == NULL)` for a destination that is not NULL. -/
def checkDest : Dest → M Unit
  | .ret => do
    let r ← getRv
    M.assert (r == .none)
  | _ => pure ()

/-- `parse_expr` into a NULL local; the value is used at once. -/
def Rec.value (R : Rec) (e : Expr) : M Nat := do
  let r ← R.eval .keep e
  M.deref r.val

/-! ## Literals and operators -/

/-- Range of `int64_t`. -/
def fits (i : Int) : Bool := decide (-9223372036854775808 ≤ i) && decide (i ≤ 9223372036854775807)

inductive NumRes where
  | ok (i : Int)
  | bad (c : UInt8)
  | overflow
deriving DecidableEq, Repr

/-- The loop at `src/flamingo/grammar/literal.h:59-70`.  A leading minus sign never gets past line 64. -/
def parseNum : Bytes → Int → NumRes
  | [], acc => .ok acc
  | c :: cs, acc =>
    if c = UNDERSCORE then parseNum cs acc
    else if c < 48 || 57 < c then .bad c
    else if fits (acc * 10) && fits (acc * 10 + (c.toNat - 48 : Nat)) then parseNum cs (acc * 10 + (c.toNat - 48 : Nat))
    else .overflow

/-- Result of an operator on operands of one kind. -/
inductive OpRes where
  | int (i : Int)
  | bool (b : Bool)
  | err (msg : Bytes)
  | ub
  | unknown
deriving DecidableEq, Repr

def exact (i : Int) : OpRes := if fits i then .int i else .ub

/-- `src/flamingo/grammar/binary_expr.h:121-197`.  Signed overflow and `INT64_MIN / -1` are undefined. -/
def intOp (pow : Int → Int → Option Int) (op : BinOp) (a b : Int) : OpRes :=
  match op with
  | .add => exact (a + b)
  | .sub => exact (a - b)
  | .mul => exact (a * b)
  | .div => if b = 0 then .err b!"division by zero" else exact (a.tdiv b)
  | .mod => if b = 0 then .err b!"modulo by zero" else if fits (a.tdiv b) then .int (a.tmod b) else .ub
  | .pow => match pow a b with
    | some r => .int r
    | none => .ub
  | .eq => .bool (a == b)
  | .ne => .bool (a != b)
  | .lt => .bool (decide (a < b))
  | .le => .bool (decide (a ≤ b))
  | .gt => .bool (decide (a > b))
  | .ge => .bool (decide (a ≥ b))
  | _ => .unknown

/-- `src/flamingo/grammar/binary_expr.h:199-223`. -/
def boolOp (op : BinOp) (a b : Bool) : OpRes :=
  match op with
  | .and => .bool (a && b)
  | .or => .bool (a || b)
  | .xor => .bool (a != b)
  | .eq => .bool (a == b)
  | .ne => .bool (a != b)
  | _ => .unknown

/-- `src/flamingo/grammar/binary_expr.h:317`, `src/flamingo/grammar/unary_expr.h:83`. -/
def unknownOp (text : Bytes) (d : Data) : M α :=
  raise (b!"unknown operator '" ++ text ++ b!"' for type " ++ typeStr d)

def opResult (op : BinOp) (d : Data) : OpRes → M Nat
  | .int i => alloc (.int i)
  | .bool b => alloc (.bool b)
  | .err msg => raise msg
  | .ub => M.ub .overflow
  | .unknown => unknownOp op.text d

/-- `equality`, `src/flamingo/grammar/binary_expr.h:13-27`. -/
def equality (R : Rec) (op : BinOp) (d : Data) (l r : Nat) : M Nat :=
  match op with
  | .eq => do
    let b ← R.eq l r
    alloc (.bool b)
  | .ne => do
    let b ← R.eq l r
    alloc (.bool !b)
  | _ => unknownOp op.text d

/-- Copying map entries, `src/flamingo/grammar/binary_expr.h:294-304`. -/
def copyEntry (e : Nat × Nat) : M (Nat × Nat) := do
  let k ← valCopy e.1
  let v ← valCopy e.2
  pure (k, v)

/-- The operators, `src/flamingo/grammar/binary_expr.h:103-317`, for operands already found to be compatible.  (The C code allocates the result
first.) -/
def applyBin (w : World) (R : Rec) (op : BinOp) (l r : Nat) (dl dr : Data) : M Nat :=
  if dl.kind = .none ∨ dr.kind = .none then
    match op with
    | .eq => alloc (.bool (dl.kind == dr.kind))
    | .ne => alloc (.bool (dl.kind != dr.kind))
    | _ => raise b!"can only check for equality to none value"
  else
    match dl, dr with
    | .int a, .int b => opResult op dl (intOp w.pow op a b)
    | .bool a, .bool b => opResult op dl (boolOp op a b)
    | .str bl nl, .str br nr =>
      if op = .add then do
        let a ← readBuf bl nl
        let b ← readBuf br nr
        allocStr (a ++ b)
      else equality R op dl l r
    | .vec xs, .vec ys =>
      if op = .add then do
        let as ← each valCopy xs
        let bs ← each valCopy ys
        alloc (.vec (as ++ bs))
      else equality R op dl l r
    | .map xs, .map ys =>
      if op = .add then do
        let as ← each copyEntry xs
        let bs ← each copyEntry ys
        alloc (.map (as ++ bs))
      else equality R op dl l r
    | _, _ => unknownOp op.text dl

/-- `parse_binary_expr`, `src/flamingo/grammar/binary_expr.h:67-325`. -/
def evalBin (w : World) (R : Rec) (d : Dest) (op : BinOp) (le re : Expr) : M Res := do
  let l ← R.value le
  let r ← R.value re
  let cl ← getCell l
  let cr ← getCell r
  if cl.data.kind ≠ cr.data.kind ∧ cl.data.kind ≠ .none ∧ cr.data.kind ≠ .none then
    raise (b!"operands have incompatible types: " ++ typeStr cl.data ++ b!" and " ++ typeStr cr.data)
  else if d = .discard then pure {}
  else do
    checkDest d
    let v ← applyBin w R op l r cl.data cr.data
    R.dec l
    R.dec r
    pure { val := some v }

/-- `src/flamingo/grammar/unary_expr.h:64-83`. -/
def applyUn (op : UnOp) (d : Data) : M Nat :=
  match op, d with
  | .neg, .int i => if fits (-i) then alloc (.int (-i)) else M.ub .overflow
  | .not, .bool b => alloc (.bool !b)
  | _, _ => unknownOp op.text d

/-- `parse_unary_expr`, `src/flamingo/grammar/unary_expr.h:42-90`. -/
def evalUn (R : Rec) (d : Dest) (op : UnOp) (e : Expr) : M Res := do
  let c ← R.value e
  let x ← getCell c
  if d = .discard then pure {}
  else do
    checkDest d
    let v ← applyUn op x.data
    R.dec c
    pure { val := some v }

/-- `parse_literal`, `src/flamingo/grammar/literal.h:9-100`. -/
def evalLit (l : Lit) : M Nat :=
  match l with
  | .none => alloc .none
  | .bool b => alloc (.bool b)
  | .num text =>
    match parseNum text 0 with
    | .ok i => alloc (.int i)
    | .bad c => raise (b!"number literals can only contain decimal digits (got '" ++ [c] ++ b!"')")
    | .overflow => M.ub .overflow
  | .str s => allocStr s

/-! ## Other expressions -/

/-- `parse_identifier`, `src/flamingo/grammar/identifier.h:10-30`. -/
def evalIdent (x : Bytes) : M Nat := do
  match ← findVar x with
  | none => raise (b!"could not find identifier: " ++ x)
  | some p => do
    let v ← getVar p
    let c ← M.deref v.val .uninit
    incref c
    pure c

/-- A fresh body node. -/
def allocBody (b : Body) : M Nat := fun s => .ok s.bodies.length { s with bodies := s.bodies ++ [some b] }

/-- `parse_lambda`, `src/flamingo/grammar/lambda.h:44-73`. -/
def evalLambda (params : List Bytes) (body : Body) : M Nat := do
  let env ← closeOver
  let b ← allocBody body
  alloc (.fn { kind := .function, body := some b, params := params, env := some env })

/-- Whether a key is among those already there, `src/flamingo/grammar/map.h:54-61`. -/
def anyKey (eq : Nat → Nat → M Bool) (k : Nat) : List (Nat × Nat) → M Bool
  | [] => pure false
  | (k', _) :: rest => do
    if ← eq k' k then pure true else anyKey eq k rest

/-- The loop at `src/flamingo/grammar/map.h:17-76`; `done` are the entries so far. -/
def evalItems (R : Rec) : List (Expr × Expr) → List (Nat × Nat) → M (List (Nat × Nat))
  | [], done => pure done
  | (ke, ve) :: rest, done => do
    let k ← R.value ke
    if ← anyKey R.eq k done then raise b!"duplicate key in map"
    else do
      let v ← R.value ve
      evalItems R rest (done ++ [(k, v)])

/-- Names of the primitive type members of a kind, with their position among the six, `src/flamingo/primitive_type_member.h:95-101`. -/
def ptmIdx (k : Kind) (name : Bytes) : Option Nat :=
  match k with
  | .str => if name = b!"len" then some 0 else if name = b!"endswith" then some 1 else if name = b!"startswith" then some 2 else none
  | .vec => if name = b!"len" then some 3 else if name = b!"map" then some 4 else if name = b!"where" then some 5 else none
  | _ => none

/-- `access_find_var`, `src/flamingo/grammar/access.h:11-89`: where the variable is (`none`: it is a primitive type member), its value
and the accessed value. -/
def accessFind (R : Rec) (e : Expr) (name : Bytes) : M (Option (Nat × Nat) × Option Nat × Nat) := do
  let a ← R.value e
  let x ← getCell a
  match x.data with
  | .inst i => do
    match ← shallowFind i.scope name with
    | none => raise (b!"member '" ++ name ++ b!"' was never declared")
    | some k => do
      let v ← getVar (i.scope, k)
      if v.isStatic then raise (b!"member '" ++ name ++ b!"' is static and can't be accessed through an instance")
      else pure (some (i.scope, k), v.val, a)
  | d => do
    let cls : Bool := match d with
      | .fn f => f.kind == .cls
      | _ => false
    if cls then do
      let i ← M.deref (match d with
        | .fn f => f.scope
        | _ => none)
      match ← shallowFind i name with
      | none => raise (b!"static member '" ++ name ++ b!"' was never declared")
      | some k => do
        let v ← getVar (i, k)
        pure (some (i, k), v.val, a)
    else
      match ptmIdx d.kind name with
      | none => raise (b!"primitive type member '" ++ name ++ b!"' doesn't exist on expression of type " ++ typeStr d)
      | some k => do
        let s ← M.get
        pure (none, some (s.eng.ptm + k), a)

/-- `parse_access`, `src/flamingo/grammar/access.h:91-115`. -/
def evalAccess (R : Rec) (d : Dest) (e : Expr) (name : Bytes) : M Res := do
  let (_, v, a) ← accessFind R e name
  if d = .discard then pure { acc := some a }
  else do
    checkDest d
    let c ← M.deref v .uninit
    incref c
    pure { val := some c, acc := some a }

/-- Position in a vector of `n` elements, `src/flamingo/grammar/index.h:76-96`.  Negating the smallest integer is undefined. -/
inductive IdxRes where
  | ok (i : Nat)
  | out
  | ub
deriving DecidableEq, Repr

def vecIdx (n : Nat) (i : Int) : IdxRes :=
  if 0 ≤ i then (if n ≤ i.toNat then .out else .ok i.toNat)
  else if fits (-i) then (if n < (-i).toNat then .out else .ok (n - (-i).toNat))
  else .ub

/-- The first entry with a key equal to `k`, `src/flamingo/grammar/index.h:108-117`; the key of the map comes first in the comparison. -/
def lookupKey (eq : Nat → Nat → M Bool) (k : Nat) : List (Nat × Nat) → M (Option Nat)
  | [] => pure none
  | (k', v) :: rest => do
    if ← eq k' k then pure (some v) else lookupKey eq k rest

/-- `parse_index`, `src/flamingo/grammar/index.h:11-127`. -/
def evalIndex (R : Rec) (d : Dest) (e ie : Expr) : M (Option Nat) := do
  let c ← R.value e
  let x ← getCell c
  if x.data.kind ≠ .vec ∧ x.data.kind ≠ .map then
    raise (b!"can only index vectors and maps, got " ++ typeStr x.data)
  else do
    let i ← R.value ie
    let y ← getCell i
    if x.data.kind = .vec ∧ y.data.kind ≠ .int then
      raise (b!"can only use integers as indices, got " ++ typeStr y.data)
    else if d = .discard then pure none
    else do
      checkDest d
      -- The vector or map is looked at only now, as what it was.
      let x' ← getCell c
      M.deref (if x'.data.kind = x.data.kind then some () else none)
      match x'.data, y.data with
      | .vec es, .int k =>
        match vecIdx es.length k with
        | .out => raise (b!"index " ++ decInt k ++ b!" is out of bounds for vector of size " ++ dec es.length)
        | .ub => M.ub .overflow
        | .ok k => do
          let v ← M.deref es[k]?
          incref v
          pure (some v)
      | .map es, _ => do
        match ← lookupKey R.eq i es with
        | some v => do
          incref v
          pure (some v)
        | none => do
          let v ← alloc .none
          pure (some v)
      | _, _ => M.ub

/-- `parse_call`, `src/flamingo/grammar/call.h:13-88`. -/
def evalCall (R : Rec) (d : Dest) (f : Expr) (args : List Expr) : M Res := do
  let r ← R.eval .keep f
  let c ← M.deref r.val
  let x ← getCell c
  match x.data with
  | .fn _ => do
    let as ← each R.value args
    let v ← R.call c r.acc d as
    pure { val := v }
  | d => raise (b!"callable expression is of type " ++ typeStr d ++ b!", which is not callable")

/-- `parse_expr`, `src/flamingo/grammar/expr.h:17-75`. -/
def stepEval (w : World) (R : Rec) (d : Dest) (e : Expr) : M Res :=
  match e with
  | .lit l =>
    if d = .discard then raise b!"unknown expression type: literal"
    else do
      checkDest d
      let c ← evalLit l
      pure { val := some c }
  | .ident x =>
    if d = .discard then raise b!"unknown expression type: identifier"
    else do
      let c ← evalIdent x
      pure { val := some c }
  | .lambda ps b =>
    if d = .discard then raise b!"unknown expression type: lambda"
    else do
      checkDest d
      let c ← evalLambda ps b
      pure { val := some c }
  | .vec es => do
    let cs ← each R.value es
    if d = .discard then pure {}
    else do
      checkDest d
      let c ← alloc (.vec cs)
      pure { val := some c }
  | .map items => do
    let es ← evalItems R items []
    if d = .discard then pure {}
    else do
      checkDest d
      let c ← alloc (.map es)
      pure { val := some c }
  | .call f args => evalCall R d f args
  | .paren e => R.eval d e
  | .un op e => evalUn R d op e
  | .bin op l r => evalBin w R d op l r
  | .access e name => evalAccess R d e name
  | .index e i => do
    let v ← evalIndex R d e i
    pure { val := v }

/-! ## Calls -/

/-- `setup_args_no_param` and the second half of `setup_args`, `src/flamingo/call.h:18-29,38-76`. -/
def bindArgs (i : Nat) : List Bytes → List Nat → M Unit
  | k :: ks, c :: cs => do
    addVar i { key := k }
    setName c k i
    setVar' i c
    bindArgs i ks cs
  | _, _ => pure ()
where
  /-- `var->val = val` for the variable just added. -/
  setVar' (i c : Nat) : M Unit := do
    let x ← getScope i
    setVar (i, x.vars.length - 1) c

/-- `src/flamingo/ptm/str.h:38-42,66-71`. -/
def strCompare (test : Bytes → Bytes → Bool) (buf size b n : Nat) : M Bool :=
  if n ≤ size then do
    let self ← readBuf buf size
    let other ← readBuf b n
    pure (test self other)
  else pure false

/-- `str_startswith`, `str_endswith`, `src/flamingo/ptm/str.h:21-76`, after the check of the argument count. -/
def strTest (what arg : Bytes) (test : Bytes → Bytes → Bool) (buf size : Nat) (c : Nat) : M Nat := do
  let x ← getCell c
  match x.data with
  | .str b n => do
    let t ← strCompare test buf size b n
    alloc (.bool t)
  | d => raise (b!"'str." ++ what ++ b!"' expected '" ++ arg ++ b!"' argument to be a string, got a " ++ roleStr d)

/-- `memcmp(self, start, size of start) == 0`, `src/flamingo/ptm/str.h:41`. -/
def startsWith (self start : Bytes) : Bool := self.take start.length == start

/-- `src/flamingo/ptm/str.h:69-70`. -/
def endsWith (self fin : Bytes) : Bool := (self.drop (self.length - fin.length)).take fin.length == fin

/-- The argument of `vec.map` and `vec.where`, `src/flamingo/ptm/vec.h:28-36,71-79`. -/
def fnArg (what : Bytes) (args : List Nat) : M Nat := do
  match args with
  | [c] => do
    let x ← getCell c
    match x.data with
    | .fn _ => pure c
    | d => raise (b!"'vec." ++ what ++ b!"' expected 'fn' argument to be a function, got a " ++ typeStr d)
  | _ => raise (b!"'vec." ++ what ++ b!"' expected 1 argument, got " ++ dec args.length)

/-- `self->vec`, which is looked at anew in each iteration of the following loops. -/
def getVec (self : Nat) : M (List Nat) := do
  let x ← getCell self
  match x.data with
  | .vec es => pure es
  | _ => M.ub

/-- The remaining `n` iterations of the loop of `vec_map`, `src/flamingo/ptm/vec.h:46-59`, from position `i`. -/
def mapLoop (R : Rec) (self f : Nat) : Nat → Nat → M (List Nat)
  | 0, _ => pure []
  | n + 1, i => do
    let es ← getVec self
    let e ← M.deref es[i]?
    let r ← R.call f none .keep [e]
    let c ← M.deref r
    let cs ← mapLoop R self f n (i + 1)
    pure (c :: cs)

/-- `val_free` of what the function given to `vec.where` returned, `src/flamingo/ptm/vec.h:105`. -/
def freeResult (R : Rec) (k : Nat) (d : Data) : M Unit :=
  if d.kind = .inst then M.blame .whereInst (freeVal R.dec k) else freeVal R.dec k

/-- The loop of `vec_where`, `src/flamingo/ptm/vec.h:88-120`, from position `i`. -/
def stepFilter (R : Rec) (self f i : Nat) : M (List Nat) := do
  let es ← getVec self
  match es[i]? with
  | none => pure []
  | some e => do
    let r ← R.call f none .keep [e]
    let k ← M.deref r
    let x ← getCell k
    match x.data with
    | .bool b =>
      if b then do
        let c ← valCopy e
        let cs ← R.filter self f (i + 1)
        pure (c :: cs)
      else R.filter self f (i + 1)
    | d => do
      freeResult R k d
      let x ← getCell k
      raise (b!"'vec.where' expected 'fn' to return a boolean, got a " ++ typeStr x.data)

/-- `src/flamingo/ptm/str.h`, `src/flamingo/ptm/vec.h`.  `self` is NULL if the member was not called directly on a value. -/
def runPtm (R : Rec) (p : Ptm) (self : Option Nat) (args : List Nat) : M Nat := do
  let c ← M.deref self
  let x ← getCell c
  match p, x.data with
  | .strLen, .str _ size =>
    if args.length = 0 then alloc (.int size)
    else raise (b!"'str.len' expected 0 arguments, got " ++ dec args.length)
  | .strStartswith, .str buf size =>
    match args with
    | [c] => strTest b!"startswith" b!"start" startsWith buf size c
    | _ => raise (b!"'str.startswith' expected 1 argument, got " ++ dec args.length)
  | .strEndswith, .str buf size =>
    match args with
    | [c] => strTest b!"endswith" b!"end" endsWith buf size c
    | _ => raise (b!"'str.endswith' expected 1 argument, got " ++ dec args.length)
  | .vecLen, .vec es =>
    if args.length = 0 then alloc (.int es.length)
    else raise (b!"'vec.len' expected 0 arguments, got " ++ dec args.length)
  | .vecMap, .vec es => do
    let f ← fnArg b!"map" args
    let cs ← mapLoop R c f es.length 0
    alloc (.vec cs)
  | .vecWhere, .vec _ => do
    let f ← fnArg b!"where" args
    let cs ← R.filter c f 0
    alloc (.vec cs)
  | _, _ => M.abort

/-- `parse_block`, `src/flamingo/grammar/block.h:11-34`.  The scope of the block, already detached. -/
def execBlock (R : Rec) (ss : List Stmt) : M Nat := do
  let _ ← pushScope
  forEach R.exec ss
  detach

/-- `*callable->fn.body`. -/
def getBody (b : Option Nat) : M Body := do
  let i ← M.deref b
  let s ← M.get
  match s.bodies[i]? with
  | some (some x) => pure x
  | _ => M.ub

/-- What running the callable itself gives, `src/flamingo/call.h:138-190`: the value of an expression body, or the scope of a
block. -/
inductive Ran where
  | value (v : Option Nat)
  | block (scope : Nat)
  | callback

/-- `src/flamingo/call.h:138-190`.  (The arguments given to callbacks are read back from the argument scope, which holds just
them.) -/
def runBody (w : World) (R : Rec) (callable : Nat) (f : FnData) (acc : Option Nat) (d : Dest) (args : List Nat) : M Ran := do
  match f.kind with
  | .extern => do
    let r ← getRv
    M.assert (r == .none)
    let v ← externFn w callable args
    M.modify fun s => { s with calls := s.calls ++ [{ callable := callable, args := args, result := v }] }
    setRv (.val v)
    pure .callback
  | .ptm p => do
    let r ← getRv
    M.assert (r == .none)
    let v ← runPtm R p acc args
    setRv (.val v)
    pure .callback
  | k => do
    match ← getBody f.body with
    | .expr e => do
      M.assert (k == .function)
      let r ← R.eval d e
      pure (.value r.val)
    | .block ss => do
      let i ← execBlock R ss
      pure (.block i)

/-- `src/flamingo/call.h:219-238`: an instance of the class `callable` whose members are those of `scope`. -/
def makeInst (callable scope : Nat) (d : Dest) (args : List Nat) : M (Option Nat) := do
  checkDest d
  let c ← alloc (.inst { cls := callable, scope := scope })
  let x ← getScope scope
  setScope scope { x with owner := some c }
  classInst c args
  setRv .none
  pure (if d = .ret then none else some c)

/-- `src/flamingo/call.h:244-246`. -/
def dropRv (R : Rec) : Rv → M Unit
  | .none => pure ()
  | .val c => R.dec c
  | .sentinel => M.ub

/-- `src/flamingo/call.h:252-257`. -/
def rvValue : Rv → M Nat
  | .none => alloc .none
  | .val c => pure c
  | .sentinel => M.ub

/-- `src/flamingo/call.h:243-263`.  For `d = .ret` the assertion at line 256 looks at the variable just found or made not to be NULL.
The class sentinel is not a value. -/
def takeRv (R : Rec) (d : Dest) : M (Option Nat) := do
  match d with
  | .ret => M.abort .returnCall
  | .discard => do
    let r ← getRv
    dropRv R r
    setRv .none
    pure none
  | .keep => do
    let r ← getRv
    let c ← rvValue r
    setRv .none
    pure (some c)

/-- `src/flamingo/call.h:212-263`.  Line 214 looks at the callable again, which may have been overwritten; `scope` is `inner_scope`, which is
set only if it was a class before. -/
def finish (R : Rec) (callable : Nat) (scope : Option Nat) (d : Dest) (args : List Nat) : M (Option Nat) := do
  let x ← getCell callable
  match x.data with
  | .fn f =>
    if f.kind = .cls then
      if d = .discard then do
        setRv .none
        pure none
      else do
        let i ← M.deref scope
        makeInst callable i d args
    else takeRv R d
  | _ => M.ub

/-- `src/flamingo/call.h:87,116`: the scope of the instance the callable was accessed on. -/
def instScope : Option Nat → M (Option Nat)
  | none => pure none
  | some a => do
    let y ← getCell a
    match y.data with
    | .inst i => pure (some i.scope)
    | _ => pure none

/-- `src/flamingo/call.h:125-133`. -/
def setupArgs (i : Nat) (f : FnData) (args : List Nat) : M Unit :=
  match f.kind with
  | .ptm _ => bindArgs i (args.map fun _ => []) args
  | _ =>
    if args.length = f.params.length then bindArgs i f.params args
    else raise (b!"callable expected " ++ dec f.params.length ++ b!" arguments, got " ++ dec args.length ++ b!" instead")

/-- `src/flamingo/call.h:104-123`: entering body and environment of a callable; the scope for the arguments. -/
def enter (f : FnData) (inst : Option Nat) : M Nat := do
  M.modify fun s => { s with eng := { s.eng with body := f.body, env := f.env.getD s.eng.env } }
  optIter attach inst
  let i ← pushScope
  let sc ← getScope i
  setScope i { sc with cls := f.kind == .cls }
  pure i

/-- `src/flamingo/call.h:194-204`. -/
def leave (prev : Eng) (inst : Option Nat) : M Unit := do
  let _ ← detach
  optIter (fun _ => do
    let _ ← detach
    pure ()) inst
  M.modify fun s => { s with eng := { s.eng with body := prev.body, env := prev.env } }

/-- `src/flamingo/call.h:206-263`. -/
def afterCall (R : Rec) (callable : Nat) (kind : FnKind) (d : Dest) (args : List Nat) : Ran → M (Option Nat)
  | .value v => do
    setRv .none
    pure (if d = .ret then none else v)
  | .block scope => finish R callable (if kind = .cls then some scope else none) d args
  | .callback => finish R callable none d args

/-- `call`, `src/flamingo/call.h:79-264`. -/
def stepCall (w : World) (R : Rec) (callable : Nat) (acc : Option Nat) (d : Dest) (args : List Nat) : M (Option Nat) := do
  let x ← getCell callable
  match x.data with
  | .fn f => do
    let inst ← instScope acc
    let prev ← M.get
    let i ← enter f inst
    setupArgs i f args
    let ran ← runBody w R callable f acc d args
    leave prev.eng inst
    afterCall R callable f.kind d args ran
  | _ => M.ub

/-! ## Statements -/

/-- `src/flamingo/grammar/var_decl.h:75-84`. -/
def initVal (R : Rec) : Option Expr → M Nat
  | some e => R.value e
  | none => alloc .none

/-- `parse_var_decl`, `src/flamingo/grammar/var_decl.h:58-89`. -/
def declVar (R : Rec) (isStatic : Bool) (name : Bytes) (init : Option Expr) : M Unit := do
  let i ← curScope
  let x ← getScope i
  match findKeyIdx name x.vars with
  | some k => do
    let v ← M.deref x.vars[k]?
    let c ← M.deref v.val .uninit
    let y ← getCell c
    raise (roleStr y.data ++ b!" '" ++ name ++ b!"' already declared in this scope")
  | none => do
    addVar i { key := name, isStatic := isStatic }
    let c ← initVal R init
    setVar (i, x.vars.length) c
    setOwnerOf c i

/-- `src/flamingo/grammar/function_declaration.h:127-131`. -/
def allocBlock : Option (List Stmt) → M (Option Nat)
  | some ss => do
    let b ← allocBody (.block ss)
    pure (some b)
  | none => pure none

/-- `parse_function_declaration`, `src/flamingo/grammar/function_declaration.h:93-159`, with `find_static_members_in_class`,
`src/flamingo/grammar/static.h:39-105`. -/
def declFn (R : Rec) (kind : FnKind) (isStatic : Bool) (name : Bytes) (params : List Bytes) (body : Option (List Stmt)) : M Unit := do
  let i ← curScope
  let x ← getScope i
  match findKeyIdx name x.vars with
  | some k => do
    let v ← M.deref x.vars[k]?
    let c ← M.deref v.val .uninit
    let y ← getCell c
    raise (b!"the " ++ roleStr y.data ++ b!" '" ++ name ++ b!"' has already been declared in this scope")
  | none => do
    addVar i { key := name, isStatic := isStatic }
    let c ← alloc .none
    setVar (i, x.vars.length) c
    setName c name i
    setOwnerOf c i
    let env ← closeOver
    let b ← allocBlock body
    let f : FnData := { kind := kind, body := b, params := params, env := some env }
    let y ← getCell c
    setCell c { y with data := .fn f }
    if kind = .cls then do
      let sc ← allocScope { owner := some c }
      setCell c { y with data := .fn { f with scope := some sc } }
      attach sc
      forEach R.member (body.getD [])
      let _ ← detach
      classDecl c
    else pure ()

/-- One iteration of `find_static_members_in_class`, `src/flamingo/grammar/static.h:45-100`. -/
def stepMember (R : Rec) (s : Stmt) : M Unit :=
  match s with
  | .fn true name params body => declFn R .function true name params (some body)
  | .cls true name params body => declFn R .cls true name params (some body)
  | .line (.decl true name init) => declVar R true name init
  | .line (.proto true name params) => declFn R .extern true name params none
  | _ => pure ()

/-- `src/flamingo/grammar/assignment.h:91-98`. -/
def store (R : Rec) (p : Option (Nat × Nat)) (c r : Nat) : M Unit :=
  match p with
  | some p => do
    R.dec c
    let v ← getVar p
    setVar p r
    setName r v.key p.1
  | none => do
    let y ← getCell r
    setCell c y

/-- `src/flamingo/grammar/assignment.h:71-105`, once variable (`none` for an element) and previous value are known. -/
def assignTo (R : Rec) (p : Option (Nat × Nat)) (val : Option Nat) (text : Bytes) (rhs : Expr) : M Unit := do
  let c ← M.deref val .uninit
  let x ← getCell c
  if x.data.kind = .fn ∧ p.isSome then
    raise (b!"cannot assign to " ++ roleStr x.data ++ b!" '" ++ text ++ b!"'")
  else do
    let r ← R.value rhs
    store R p c r
    let y ← getCell c
    if y.data.kind ≠ x.data.kind ∧ x.data.kind ≠ .none ∧ y.data.kind ≠ .none then
      raise (b!"cannot assign " ++ typeStr y.data ++ b!" to '" ++ text ++ b!"' (" ++ typeStr x.data ++ b!")")
    else pure ()

/-- `parse_assignment`, `src/flamingo/grammar/assignment.h:14-105`. -/
def assign (R : Rec) (lhs : Lhs) (rhs : Expr) : M Unit := do
  match lhs with
  | .ident x => do
    match ← findVar x with
    | none => raise (b!"'" ++ x ++ b!"' was never declared")
    | some p => do
      let v ← getVar p
      assignTo R (some p) v.val x rhs
  | .access e name text => do
    let (p, v, _) ← accessFind R e name
    match p with
    | some p => assignTo R (some p) v (cstr text) rhs
    | none => do
      -- a primitive type member, which is a function
      let c ← M.deref v
      let x ← getCell c
      raise (b!"cannot assign to " ++ roleStr x.data ++ b!" '" ++ cstr text ++ b!"'")
  | .index e i text => do
    let v ← evalIndex R .keep e i
    assignTo R none v (cstr text) rhs

/-- `parse_return`, `src/flamingo/grammar/return.h:12-62`. -/
def doReturn (R : Rec) (e : Option Expr) : M Unit := do
  let st ← curStack
  if st.length < 2 then raise b!"Return can't be used in top-level scope"
  else do
    let i ← curScope
    let x ← getScope i
    if e.isSome && x.cls then raise b!"return statement can't take a return value when inside a class scope"
    else do
      let r ← getRv
      M.assert (r == .none)
      if x.cls then setRv .sentinel
      else
        match e with
        | some e => do
          let r ← R.eval .ret e
          match r.val with
          | some c => setRv (.val c)
          | none => pure ()
        | none => do
          let c ← alloc .none
          setRv (.val c)

/-- `parse_assert`, `src/flamingo/grammar/assert.h:11-43`. -/
def doAssert (R : Rec) (e : Expr) (text : Bytes) : M Unit := do
  let c ← R.value e
  let x ← getCell c
  match x.data with
  | .bool b =>
    if b then R.dec c
    else raise (b!"assertion test '" ++ cstr text ++ b!"' failed")
  | d => raise (b!"expected boolean value for test, got " ++ typeStr d)

/-- `parse_print`, `src/flamingo/grammar/print.h:124-154`. -/
def doPrint (R : Rec) (e : Expr) : M Unit := do
  let c ← R.value e
  let t ← stepRepr R.repr false c
  M.modify fun s => { s with out := s.out ++ [t] }
  R.dec c

/-- The file name of an import, `src/flamingo/grammar/import.h:104-204`. -/
def importName : List Bytes → Bytes
  | [] => b!".fl"
  | [b] => b ++ b!".fl"
  | b :: bs => b ++ b!"/" ++ importName bs

/-- `access(path, F_OK)`. -/
def World.exists (w : World) (path : Bytes) : Bool :=
  match w.file path with
  | .missing _ => false
  | _ => true

/-- `src/flamingo/grammar/import.h:208-224`. -/
def importPath (w : World) (relative : Bool) (name : Bytes) (paths : List Bytes) : Bytes :=
  if relative then name
  else
    match paths.find? fun p => w.exists (p ++ b!"/" ++ name) with
    | some p => p ++ b!"/" ++ name
    | none => name

/-- The members of the primitive types, in the order they are added, `src/flamingo/primitive_type_member.h:95-101`. -/
def ptmCells : List Cell :=
  [(Ptm.strLen, b!"len"), (.strEndswith, b!"endswith"), (.strStartswith, b!"startswith"), (.vecLen, b!"len"), (.vecMap, b!"map"),
    (.vecWhere, b!"where")].map fun p => { data := .fn { kind := .ptm p.1 }, name := p.2 }

/-- If `m`, run by another engine, returns a negative value, so does this, with the message `f` makes of what `flamingo_err` says (`src/flamingo/flamingo.c:209-216`).  The engine is
the one from before. -/
def onErr (m : M α) (f : Bytes → Bytes) : M α := fun s =>
  match m s with
  | .err msg s' =>
    raise (f (match msg with
      | some t => msgPrefix ++ t
      | none => b!"no errors")) { s' with eng := s.eng }
  | o => o

/-- Making a new engine which runs in the environment of the current one, `src/flamingo/grammar/import.h:61-77`, and running `m`
with it. -/
def inEngine (m : M Unit) : M Unit := do
  let prev ← M.get
  M.modify fun s => { s with cells := s.cells ++ ptmCells, eng := { env := s.eng.env, ptm := s.cells.length } }
  m
  M.modify fun s => { s with eng := { prev.eng with env := s.eng.env } }

/-- `import` and `parse_import`, `src/flamingo/grammar/import.h:14-102,158-232`. -/
def doImport (w : World) (R : Rec) (relative : Bool) (bits : List Bytes) : M Unit := do
  let s ← M.get
  let path := importPath w relative (importName bits) s.eng.paths
  let what : Bytes := b!"failed to import '" ++ path ++ b!"': "
  match w.file path with
  | .missing msg => raise (what ++ b!"stat: " ++ msg)
  | .unopenable msg => raise (what ++ b!"fopen: " ++ msg)
  | .unreadable msg => raise (what ++ b!"fread: " ++ msg)
  | .src p => onErr (inEngine (forEach R.exec p)) fun m => what ++ b!"flamingo_run: " ++ m

/-- `src/flamingo/grammar/statement.h:55-90`. -/
def execLine (w : World) (R : Rec) (l : Line) : M Unit :=
  match l with
  | .print e => doPrint R e
  | .ret e => doReturn R e
  | .assert e text => doAssert R e text
  | .decl isStatic name init => declVar R isStatic name init
  | .assign lhs rhs => assign R lhs rhs
  | .proto isStatic name params => declFn R .extern isStatic name params none
  | .expr e => do
    let _ ← R.eval .discard e
    pure ()
  | .import relative bits => doImport w R relative bits

/-- Whether a line is passed over, `src/flamingo/grammar/statement.h:47-53`.  (A body node is never a `statement` node.) -/
def returning : M Bool := do
  let s ← M.get
  match s.eng.body with
  | none => pure false
  | some b =>
    if s.eng.rv = .none then pure false
    else do
      let _ ← getBody (some b)
      pure true

/-- `parse_statement`, `src/flamingo/grammar/statement.h:17-91`. -/
def stepExec (w : World) (R : Rec) (s : Stmt) : M Unit :=
  match s with
  | .skip => pure ()
  | .block ss => do
    let _ ← execBlock R ss
    pure ()
  | .fn isStatic name params body => declFn R .function isStatic name params (some body)
  | .cls isStatic name params body => declFn R .cls isStatic name params (some body)
  | .line l => do
    if ← returning then pure () else execLine w R l

/-- One layer of the interpreter over `R`. -/
def stepRec (w : World) (R : Rec) : Rec where
  eval := stepEval w R
  exec := stepExec w R
  member := stepMember R
  call := stepCall w R
  filter := stepFilter R
  eq := stepEq R.eq
  dec := stepDec R.dec
  repr := stepRepr R.repr true

/-- The interpreter with recursion depth at most `n`. -/
def interp (w : World) : Nat → Rec
  | 0 => {
      eval := fun _ _ => M.timeout
      exec := fun _ => M.timeout
      member := fun _ => M.timeout
      call := fun _ _ _ _ => M.timeout
      filter := fun _ _ _ => M.timeout
      eq := fun _ _ => M.timeout
      dec := fun _ => M.timeout
      repr := fun _ => M.timeout }
  | n + 1 => stepRec w (interp w n)

/-- State after `flamingo_create` and the beginning of `flamingo_run`, `src/flamingo/flamingo.c:63-125,269-280`, with the import paths given
by `src/bsys/bob/main.c:164-171`. -/
def St.init (paths : List Bytes) : St where
  cells := ptmCells
  scopes := [{}]
  envs := [[0]]
  eng := { paths := paths }

/-- `flamingo_run`, `src/flamingo/flamingo.c:243-255,269-283`. -/
def runScript (w : World) (n : Nat) (paths : List Bytes) (p : List Stmt) : Out Unit :=
  forEach (interp w n).exec p (St.init paths)

end Bob.Fl
