import Verif.Model.Flamingo.Heap
import Verif.Model.Cookie
/-!
# bob's classes, as the interpreter sees them

`src/bsys/bob/main.c:38-122` and the request side of `src/class/*.c`.
-/

namespace Bob.Fl

/-- What reading a file for an import can give: `stat`, `fopen` or `fread` failing with a message of `strerror`, or a parsed
script. -/
inductive FileRes where
  | missing (msg : Bytes)
  | unopenable (msg : Bytes)
  | unreadable (msg : Bytes)
  | src (p : List Stmt)

/-- Everything outside the interpreter, which does not change while a script runs.  `list` is the walk of `src/class/fs.c:34-86` (`none`: it
failed), `pow` the conversion of `pow(a, b)` to a 64-bit integer (`none`: out of range, undefined), `outPath` the global
`out_path` and `signed` the signedness of `char`. -/
structure World where
  file : Bytes → FileRes
  list : Bytes → Option (List Bytes)
  pow : Int → Int → Option Int
  outPath : Bytes
  signed : Bool

def modHost (f : Host → Host) : M Unit := M.modify fun s => { s with host := f s.host }

/-- The elements of a vector argument, which must all be strings: `src/class/linker.c:176-193`. -/
def strElems (c : Nat) : M (List Bytes) := do
  let x ← getCell c
  match x.data with
  | .vec es => each (fun e => do
      let y ← getCell e
      match y.data with
      | .str buf size => readBuf buf size
      | _ => M.fail) es
  | _ => M.fail

/-- `add_build_step`. -/
def addStep (u : Uniq) (k : StepKind) (d : ReqData) : M Unit := do
  let s ← M.get
  match addBuildStep s.host.steps u k d with
  | some steps => modHost fun h => { h with steps := steps, nbss := h.nbss + 1 }
  | none => M.abort

/-- One iteration of `src/class/cc.c:318-331`: the object path of a source.  Given a path with a NUL, `gen_cookie` goes past
the end of the text it made if what follows the NUL is longer than `.cookie.`, the hash and `.o`; the model does not count these bytes and
lets it do so for every such path. -/
def objPath (w : World) (c : Nat) : M Nat := do
  let x ← getCell c
  match x.data with
  | .str buf size => do
    let p ← readBuf buf size
    if p.contains NUL then M.ub else allocStr (genCookie w.signed w.outPath p b!"o")
  | _ => M.fail

/-- `prep_compile`, `src/class/cc.c:294-347`. -/
def prepCompile (w : World) (state : Option Nat) (args : List Nat) : M Nat := do
  match args with
  | [srcs] => do
    let x ← getCell srcs
    match x.data with
    | .vec es => do
      let outs ← each (objPath w) es
      let out ← alloc (.vec outs)
      addStep (.state state) .compile { state := state, srcs := srcs, out := out }
      pure out
    | _ => M.fail
  | _ => M.fail

/-- `prep_link`, `src/class/linker.c:163-224`. -/
def prepLink (w : World) (state : Option Nat) (args : List Nat) (archive : Bool) : M Nat := do
  match args with
  | [srcs] => do
    let paths ← strElems srcs
    let out ← allocStr (linkCookie w.signed w.outPath archive paths)
    let s ← M.get
    addStep (.bss s.host.nbss) (if archive then .archive else .link) { state := state, srcs := srcs, out := out }
    pure out
  | _ => M.fail

/-- `list`, `src/class/fs.c:18-91`. -/
def fsList (w : World) (args : List Nat) : M Nat := do
  match args with
  | [c] => do
    let x ← getCell c
    match x.data with
    | .str buf size => do
      let p ← readStr buf size
      match w.list p with
      | none => M.fail
      | some ps => do
        let es ← each allocStr ps
        alloc (.vec es)
    | _ => M.abort .host
  | _ => M.abort .host

/-- Whose function it is: `callable->owner->owner` with the kinds `external_fn_cb` distinguishes, `src/bsys/bob/main.c:42-45`. -/
inductive Owner where
  | nobody
  | cls (c : Nat)
  | inst (i : InstData)
  | other

/-- `src/bsys/bob/main.c:50-56`: a class is passed over if the function belongs to another one. -/
def Owner.skip (o : Owner) (clsVal : Option Nat) : Bool :=
  match o with
  | .cls c => some c != clsVal
  | .inst i => some i.cls != clsVal
  | _ => false

/-- `callable->owner->owner->inst.data`, `src/class/cc.c:352`, `src/class/linker.c:229`.  For an owner that is not an instance the bytes
read are not a host state; `none` says so. -/
def Owner.data : Owner → M (Option (Option Nat))
  | .nobody => M.ub .host
  | .inst i => pure (some i.data)
  | _ => pure none

/-- `call`, `src/class/cc.c:349-360`.  `none`: not consumed. -/
def ccCall (w : World) (o : Owner) (name : Bytes) (args : List Nat) : M (Option Nat) := do
  let d ← o.data
  if name = b!"compile" then do
    let st ← M.deref d .host
    let r ← prepCompile w st args
    pure (some r)
  else pure none

/-- `call`, `src/class/linker.c:226-241`. -/
def linkerCall (w : World) (o : Owner) (name : Bytes) (args : List Nat) : M (Option Nat) := do
  let d ← o.data
  if name = b!"link" then do
    let st ← M.deref d .host
    let r ← prepLink w st args false
    pure (some r)
  else if name = b!"archive" then do
    let st ← M.deref d .host
    let r ← prepLink w st args true
    pure (some r)
  else pure none

def findOwner (callable : Nat) : M Owner := do
  let x ← getCell callable
  let i ← M.deref x.owner
  let sc ← getScope i
  match sc.owner with
  | none => pure .nobody
  | some c => do
    let y ← getCell c
    match y.data with
    | .inst d => pure (.inst d)
    | .fn f => pure (if f.kind = .cls then .cls c else .other)
    | _ => pure .other

/-- `call`, `src/class/fs.c:99-108`. -/
def fsCall (w : World) (callable : Nat) (args : List Nat) : M (Option Nat) := do
  let s ← M.get
  if some callable = s.host.fsList then do
    let r ← fsList w args
    pure (some r)
  else pure none

/-- One iteration of the loop at `src/bsys/bob/main.c:47-67`. -/
def askClass (o : Owner) (clsVal : Option Nat) (call : M (Option Nat)) : M (Option Nat) :=
  if o.skip clsVal then pure none else call

/-- `external_fn_cb`, `src/bsys/bob/main.c:38-70`: `Fs`, `Cc` and `Linker` are asked in that order.  The name is read if neither `Fs` nor
an error stops it first: by a comparison with a name as long, or for the message. -/
def externFn (w : World) (callable : Nat) (args : List Nat) : M Nat := do
  let x ← getCell callable
  let o ← findOwner callable
  let s ← M.get
  match ← askClass o s.host.fsCls (fsCall w callable args) with
  | some r => pure r
  | none => do
    let name ← readName x
    match ← askClass o s.host.ccCls (ccCall w o name args) with
    | some r => pure r
    | none => do
      match ← askClass o s.host.linkerCls (linkerCall w o name args) with
      | some r => pure r
      | none => raise (b!"Bob doesn't support the '" ++ name ++ b!"' external function call (" ++ dec args.length ++ b!" arguments passed)")

/-- `populate` of `Fs`, `src/class/fs.c:93-97`, over all static members. -/
def populateFs : List Var → Host → Host
  | [], h => h
  | v :: vs, h => populateFs vs (if v.key = b!"list" then { h with fsList := v.val } else h)

/-- `class_decl_cb`, `src/bsys/bob/main.c:72-96`.  The name is the one just given by the declaration. -/
def classDecl (c : Nat) : M Unit := do
  let x ← getCell c
  match x.data with
  | .fn f => do
    let i ← M.deref f.scope
    let sc ← getScope i
    if x.name = b!"Fs" then modHost fun h => populateFs sc.vars { h with fsCls := some c }
    else if x.name = b!"Cc" then modHost fun h => { h with ccCls := some c }
    else if x.name = b!"Linker" then modHost fun h => { h with linkerCls := some c }
    else pure ()
  | _ => M.ub

/-- The check of the flags: `src/class/cc.c:375-389`, `src/class/linker.c:256-270`.  It only looks at kinds. -/
def checkFlags (c : Nat) : M Unit := do
  let x ← getCell c
  match x.data with
  | .vec es => forEach (fun e => do
      let y ← getCell e
      match y.data with
      | .str _ _ => pure ()
      | _ => M.fail) es
  | _ => M.fail

/-- `instantiate`, `src/class/cc.c:367-402`, `src/class/linker.c:248-283`. -/
def instantiate (inst : Nat) (args : List Nat) : M Unit := do
  match args with
  | [flags] => do
    checkFlags flags
    let s ← M.get
    modHost fun h => { h with states := h.states ++ [{ flags := flags }] }
    let x ← getCell inst
    match x.data with
    | .inst d => setCell inst { x with data := .inst { d with data := some s.host.states.length } }
    | _ => M.ub
  | _ => M.fail

/-- `flamingo_cstrcmp` with the name of a value, `src/flamingo/flamingo.h:258-268`: only a name of the same length is read. -/
def nameIs (x : Cell) (n : Bytes) : M Bool :=
  if x.name.length = n.length then do
    let m ← readName x
    pure (m == n)
  else pure false

/-- `class_inst_cb`, `src/bsys/bob/main.c:98-122`.  The class is recognised by its current name. -/
def classInst (inst : Nat) (args : List Nat) : M Unit := do
  let x ← getCell inst
  match x.data with
  | .inst d => do
    let k ← getCell d.cls
    if ← nameIs k b!"Cc" then instantiate inst args
    else if ← nameIs k b!"Linker" then instantiate inst args
    else pure ()
  | _ => M.ub

end Bob.Fl
