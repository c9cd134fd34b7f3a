import Verif.Lemmas.FlSim
/-!
# Running scripts that are alike: recursion
-/

namespace Bob.Fl

/-- The recursive functions agree. -/
structure RecSim (loose : Bool) (R R' : Rec) : Prop where
  eval : ∀ d {e e'}, ExprLike loose e e' → Sim loose (R.eval d e) (R'.eval d e')
  exec : ∀ {s s'}, StmtLike loose s s' → Sim loose (R.exec s) (R'.exec s')
  member : ∀ {s s'}, StmtLike loose s s' → Sim loose (R.member s) (R'.member s')
  call : ∀ c a d args, Sim loose (R.call c a d args) (R'.call c a d args)
  filter : ∀ c f i, Sim loose (R.filter c f i) (R'.filter c f i)
  eq : ∀ x y, Sim loose (R.eq x y) (R'.eq x y)
  dec : ∀ c, Sim loose (R.dec c) (R'.dec c)
  repr : ∀ c, Sim loose (R.repr c) (R'.repr c)
  execL : R.exec .skip = pure () ∨ R.exec .skip = M.timeout
  execR : R'.exec .skip = pure ()
  memberL : R.member .skip = pure () ∨ R.member .skip = M.timeout
  memberR : R'.member .skip = pure ()

section
variable {loose : Bool}

theorem Sim.stmts {f f' : Stmt → M Unit} (h : ∀ {s s'}, StmtLike loose s s' → Sim loose (f s) (f' s')) (hl : f .skip = Pure.pure () ∨ f .skip = M.timeout)
    (hr : f' .skip = Pure.pure ()) : ∀ {ss ss' : List Stmt}, StmtsLike loose ss ss' → Sim loose (Fl.forEach f ss) (Fl.forEach f' ss')
  | _, _, .nil => Sim.pure _
  | _, _, .cons h1 h2 => (h h1).bind fun _ => Sim.stmts h hl hr h2
  | .skip :: ss, _, .left _ h1 => by
    have ih := Sim.stmts h hl hr h1
    rcases hl with e | e
    · show Sim loose (f .skip >>= fun _ => Fl.forEach f ss) _
      rw [e]
      exact ih
    · show Sim loose (f .skip >>= fun _ => Fl.forEach f ss) _
      rw [e]
      exact fun _ _ _ => .timeout _
  | _, .skip :: ss', .right _ h1 => by
    have ih := Sim.stmts h hl hr h1
    show Sim loose _ (f' .skip >>= fun _ => Fl.forEach f' ss')
    rw [hr]
    exact ih

/-! ## Values -/

section
variable {dec dec' : Nat → M Unit} (hd : ∀ c, Sim loose (dec c) (dec' c))
include hd

theorem Sim.decVars : ∀ vs, Sim loose (decVars dec vs) (decVars dec' vs)
  | [] => Sim.pure _
  | _ :: vs => (Sim.optIter hd _).bind fun _ => Sim.decVars vs

theorem Sim.freeScope (i : Nat) : Sim loose (freeScope dec i) (freeScope dec' i) :=
  (Sim.getScope _).bind fun _ => (Sim.decVars hd _).bind fun _ => (Sim.getScope _).bind fun _ => Sim.setScope _ _

theorem Sim.freeVal (c : Nat) : Sim loose (freeVal dec c) (freeVal dec' c) := by
  refine (Sim.getCell _).bind fun x => ?_
  cases x.data with
  | str b n => exact Even.freeBuf _
  | fn f => exact Sim.freeBody _
  | inst i => exact (Sim.freeScope hd _).bind fun _ => Even.freeState _
  | _ => exact Sim.pure _

theorem Sim.stepDec (c : Nat) : Sim loose (stepDec dec c) (stepDec dec' c) :=
  (Sim.getCell _).bind fun _ => (Sim.setCell _ _).bind fun _ => Sim.ite (fun _ => Sim.freeVal hd _) fun _ => Sim.pure _

end

section
variable {eq eq' : Nat → Nat → M Bool} (he : ∀ x y, Sim loose (eq x y) (eq' x y))
include he

theorem Sim.eqVec : ∀ xs ys, Sim loose (eqVec eq xs ys) (eqVec eq' xs ys)
  | [], _ => Sim.pure _
  | _ :: _, [] => Sim.pure _
  | _ :: xs, _ :: ys => (he _ _).bind fun _ => Sim.ite (fun _ => Sim.eqVec xs ys) fun _ => Sim.pure _

theorem Sim.findKey (k : Nat) : ∀ es, Sim loose (findKey eq k es) (findKey eq' k es)
  | [] => Sim.pure _
  | (_, _) :: es => (he _ _).bind fun _ => Sim.ite (fun _ => Sim.pure _) fun _ => Sim.findKey k es

theorem Sim.eqMap (ys : List (Nat × Nat)) : ∀ es, Sim loose (eqMap eq ys es) (eqMap eq' ys es)
  | [] => Sim.pure _
  | (k, v) :: es => (Sim.findKey he k ys).bind fun o => by
    cases o with
    | none => exact Sim.pure _
    | some v' => exact (he _ _).bind fun _ => Sim.ite (fun _ => Sim.eqMap ys es) fun _ => Sim.pure _

theorem Sim.stepEq (x y : Nat) : Sim loose (stepEq eq x y) (stepEq eq' x y) := by
  refine (Sim.getCell _).bind fun cx => (Sim.getCell _).bind fun cy => ?_
  cases cx.data <;> cases cy.data
  case str.str =>
    exact Sim.ite (fun _ => Sim.bind (Even.readBuf _ _) fun _ => Sim.bind (Even.readBuf _ _) fun _ => Sim.pure _) fun _ => Sim.pure _
  case vec.vec => exact Sim.ite (fun _ => Sim.eqVec he _ _) fun _ => Sim.pure _
  case map.map => exact Sim.ite (fun _ => Sim.eqMap he _ _) fun _ => Sim.pure _
  all_goals exact Sim.pure _

theorem Sim.anyKey (k : Nat) : ∀ es, Sim loose (anyKey eq k es) (anyKey eq' k es)
  | [] => Sim.pure _
  | (_, _) :: es => (he _ _).bind fun _ => Sim.ite (fun _ => Sim.pure _) fun _ => Sim.anyKey k es

theorem Sim.lookupKey (k : Nat) : ∀ es, Sim loose (lookupKey eq k es) (lookupKey eq' k es)
  | [] => Sim.pure _
  | (_, _) :: es => (he _ _).bind fun _ => Sim.ite (fun _ => Sim.pure _) fun _ => Sim.lookupKey k es

end

theorem Sim.stepRepr {rep rep' : Nat → M Bytes} (h : ∀ c, Sim loose (rep c) (rep' c)) (inner : Bool) (c : Nat) :
    Sim loose (stepRepr rep inner c) (stepRepr rep' inner c) := by
  refine (Sim.getCell _).bind fun x => ?_
  cases x.data with
  | str b n => exact Sim.bind (Even.readStr _ _) fun _ => Sim.pure _
  | vec es => exact (Sim.each h _).bind fun _ => Sim.pure _
  | map es => exact (Sim.each (fun _ => (h _).bind fun _ => (h _).bind fun _ => Sim.pure _) _).bind fun _ => Sim.pure _
  | fn f => exact Sim.ite (fun _ => Sim.pure _) fun _ => Sim.bind (Even.readName _) fun _ => Sim.pure _
  | inst i => exact (Sim.getCell _).bind fun _ => Sim.bind (Even.readName _) fun _ => Sim.pure _
  | _ => exact Sim.pure _

/-! ## Expressions -/

section
variable {R R' : Rec} (h : RecSim loose R R')
include h

theorem RecSim.value {e e' : Expr} (he : ExprLike loose e e') : Sim loose (R.value e) (R'.value e') := (h.eval _ he).bind fun _ => Sim.deref _ _

theorem RecSim.values : ∀ {es es' : List Expr}, ExprsLike loose es es' → Sim loose (each R.value es) (each R'.value es')
  | _, _, .nil => Sim.pure _
  | _, _, .cons h1 h2 => (h.value h1).bind fun _ => (RecSim.values h2).bind fun _ => Sim.pure _

theorem RecSim.equality (op : BinOp) (d : Data) (l r : Nat) : Sim loose (equality R op d l r) (equality R' op d l r) := by
  cases op
  case eq => exact (h.eq _ _).bind fun _ => Sim.alloc _
  case ne => exact (h.eq _ _).bind fun _ => Sim.alloc _
  all_goals exact Sim.raise _

theorem RecSim.applyBin (w : World) (op : BinOp) (l r : Nat) (dl dr : Data) : Sim loose (applyBin w R op l r dl dr) (applyBin w R' op l r dl dr) := by
  unfold Fl.applyBin
  refine Sim.ite (fun _ => ?_) fun _ => ?_
  · cases op
    case eq => exact Sim.alloc _
    case ne => exact Sim.alloc _
    all_goals exact Sim.raise _
  · cases dl <;> cases dr
    case int.int => exact Even.opResult _ _ _
    case bool.bool => exact Even.opResult _ _ _
    case str.str =>
      exact Sim.ite (fun _ => Sim.bind (Even.readBuf _ _) fun _ => Sim.bind (Even.readBuf _ _) fun _ => Even.allocStr _) fun _ => h.equality _ _ _ _
    case vec.vec =>
      exact Sim.ite (fun _ => Sim.bind (Sim.each Even.valCopy _) fun _ => Sim.bind (Sim.each Even.valCopy _) fun _ => Sim.alloc _) fun _ => h.equality _ _ _ _
    case map.map =>
      exact Sim.ite (fun _ => Sim.bind (Sim.each Even.copyEntry _) fun _ => Sim.bind (Sim.each Even.copyEntry _) fun _ => Sim.alloc _) fun _ => h.equality _ _ _ _
    all_goals exact Even.unknownOp _ _

theorem RecSim.evalBin (w : World) (d : Dest) (op : BinOp) {l l' r r' : Expr} (hl : ExprLike loose l l') (hr : ExprLike loose r r') :
    Sim loose (evalBin w R d op l r) (evalBin w R' d op l' r') := by
  refine (h.value hl).bind fun _ => (h.value hr).bind fun _ => (Sim.getCell _).bind fun _ => (Sim.getCell _).bind fun _ => ?_
  refine Sim.ite (fun _ => Sim.raise _) fun _ => Sim.ite (fun _ => Sim.pure _) fun _ => ?_
  exact Sim.bind (Even.checkDest _) fun _ => (h.applyBin _ _ _ _ _ _).bind fun _ => (h.dec _).bind fun _ => (h.dec _).bind fun _ => Sim.pure _

theorem RecSim.evalUn (d : Dest) (op : UnOp) {e e' : Expr} (he : ExprLike loose e e') : Sim loose (evalUn R d op e) (evalUn R' d op e') := by
  refine (h.value he).bind fun _ => (Sim.getCell _).bind fun _ => Sim.ite (fun _ => Sim.pure _) fun _ => ?_
  exact Sim.bind (Even.checkDest _) fun _ => Sim.bind (Even.applyUn _ _) fun _ => (h.dec _).bind fun _ => Sim.pure _

theorem RecSim.evalItems : ∀ {is is' : List (Expr × Expr)} (_ : ItemsLike loose is is') (done : List (Nat × Nat)),
    Sim loose (evalItems R is done) (evalItems R' is' done)
  | _, _, .nil, _ => Sim.pure _
  | _, _, .cons h1 h2 h3, _ => (h.value h1).bind fun _ => (Sim.anyKey h.eq _ _).bind fun _ => Sim.ite (fun _ => Sim.raise _) fun _ =>
    (h.value h2).bind fun _ => RecSim.evalItems h3 _

theorem RecSim.accessFind {e e' : Expr} (he : ExprLike loose e e') (name : Bytes) : Sim loose (accessFind R e name) (accessFind R' e' name) := by
  refine (h.value he).bind fun a => Sim.bind (m := getCell a) (m' := getCell a) (Sim.getCell _) fun x => ?_
  suffices Even loose (match x.data with
    | .inst i => do
      match ← shallowFind i.scope name with
      | none => Fl.raise (b!"member '" ++ name ++ b!"' was never declared")
      | some k => do
        let v ← getVar (i.scope, k)
        if v.isStatic then Fl.raise (b!"member '" ++ name ++ b!"' is static and can't be accessed through an instance")
        else Pure.pure (some (i.scope, k), v.val, a)
    | d => do
      let cls : Bool := match d with
        | .fn f => f.kind == .cls
        | _ => false
      if cls then do
        let i ← M.deref (match d with
          | .fn f => f.scope
          | _ => none)
        match ← shallowFind i name with
        | none => Fl.raise (b!"static member '" ++ name ++ b!"' was never declared")
        | some k => do
          let v ← getVar (i, k)
          Pure.pure (some (i, k), v.val, a)
      else
        match ptmIdx d.kind name with
        | none => Fl.raise (b!"primitive type member '" ++ name ++ b!"' doesn't exist on expression of type " ++ typeStr d)
        | some k => do
          let s ← M.get
          Pure.pure (none, some (s.eng.ptm + k), a)) by exact this
  split
  · refine (Even.shallowFind _ _).bind fun o => ?_
    split
    · exact Sim.raise _
    · exact (Even.getVar _).bind fun _ => Sim.ite (fun _ => Sim.raise _) fun _ => Sim.pure _
  · refine Sim.ite (fun _ => ?_) fun _ => ?_
    · refine Even.bind (Sim.deref _ _) fun _ => (Even.shallowFind _ _).bind fun o => ?_
      split
      · exact Sim.raise _
      · exact (Even.getVar _).bind fun _ => Sim.pure _
    · split
      · exact Sim.raise _
      · exact Even.get (fun _ => Sim.pure _) fun _ _ => rfl

theorem RecSim.evalAccess (d : Dest) {e e' : Expr} (he : ExprLike loose e e') (name : Bytes) : Sim loose (evalAccess R d e name) (evalAccess R' d e' name) := by
  refine (h.accessFind he name).bind fun r => Sim.ite (fun _ => Sim.pure _) fun _ => ?_
  exact Sim.bind (Even.checkDest _) fun _ => (Sim.deref _ _).bind fun _ => Sim.bind (Even.incref _) fun _ => Sim.pure _

theorem RecSim.evalIndex (d : Dest) {e e' i i' : Expr} (he : ExprLike loose e e') (hi : ExprLike loose i i') : Sim loose (evalIndex R d e i) (evalIndex R' d e' i') := by
  refine (h.value he).bind fun _ => (Sim.getCell _).bind fun x => Sim.ite (fun _ => Sim.raise _) fun _ => (h.value hi).bind fun _ => (Sim.getCell _).bind fun y =>
    Sim.ite (fun _ => Sim.raise _) fun _ => Sim.ite (fun _ => Sim.pure _) fun _ => ?_
  refine Sim.bind (Even.checkDest _) fun _ => (Sim.getCell _).bind fun x' => (Sim.deref _ _).bind fun _ => ?_
  have hmap : ∀ (k : Nat) es, Sim loose (Fl.lookupKey R.eq k es >>= fun o => match o with
        | some v => do
          Fl.incref v
          Pure.pure (some v)
        | none => do
          let v ← Fl.alloc .none
          Pure.pure (some v)) (Fl.lookupKey R'.eq k es >>= fun o => match o with
        | some v => do
          Fl.incref v
          Pure.pure (some v)
        | none => do
          let v ← Fl.alloc .none
          Pure.pure (some v)) := fun k es => (Sim.lookupKey h.eq _ _).bind fun o => by
    cases o with
    | none => exact (Sim.alloc _).bind fun _ => Sim.pure _
    | some v => exact Sim.bind (Even.incref _) fun _ => Sim.pure _
  cases x'.data with
  | vec es =>
    cases y.data with
    | int k =>
      dsimp only
      cases vecIdx es.length k with
      | out => exact Sim.raise _
      | ub => exact Sim.ub _
      | ok k => exact (Sim.deref _ _).bind fun _ => Sim.bind (Even.incref _) fun _ => Sim.pure _
    | _ => exact Sim.ub _
  | map es => cases y.data <;> exact hmap _ _
  | _ => exact Sim.ub _

theorem RecSim.evalCall (d : Dest) {f f' : Expr} {es es' : List Expr} (hf : ExprLike loose f f') (he : ExprsLike loose es es') :
    Sim loose (evalCall R d f es) (evalCall R' d f' es') := by
  refine (h.eval _ hf).bind fun _ => (Sim.deref _ _).bind fun _ => (Sim.getCell _).bind fun x => ?_
  cases x.data with
  | fn f => exact (h.values he).bind fun _ => (h.call _ _ _ _).bind fun _ => Sim.pure _
  | _ => exact Sim.raise _

theorem RecSim.stepEval (w : World) (d : Dest) {e e' : Expr} (he : ExprLike loose e e') : Sim loose (stepEval w R d e) (stepEval w R' d e') := by
  cases he with
  | lit l => exact Sim.ite (fun _ => Sim.raise _) fun _ => Sim.bind (Even.checkDest _) fun _ => Sim.bind (Even.evalLit _) fun _ => Sim.pure _
  | ident x => exact Sim.ite (fun _ => Sim.raise _) fun _ => Sim.bind (Even.evalIdent _) fun _ => Sim.pure _
  | lambda ps hb => exact Sim.ite (fun _ => Sim.raise _) fun _ => Sim.bind (Even.checkDest _) fun _ => (Sim.evalLambda ps hb).bind fun _ => Sim.pure _
  | vec hes => exact (h.values hes).bind fun _ => Sim.ite (fun _ => Sim.pure _) fun _ => Sim.bind (Even.checkDest _) fun _ => (Sim.alloc _).bind fun _ => Sim.pure _
  | map his => exact (h.evalItems his _).bind fun _ => Sim.ite (fun _ => Sim.pure _) fun _ => Sim.bind (Even.checkDest _) fun _ => (Sim.alloc _).bind fun _ => Sim.pure _
  | call hf hes => exact h.evalCall d hf hes
  | paren he => exact h.eval d he
  | un op he => exact h.evalUn d op he
  | bin op hl hr => exact h.evalBin w d op hl hr
  | access name he => exact h.evalAccess d he name
  | index he hi => exact (h.evalIndex d he hi).bind fun _ => Sim.pure _

/-! ## Calls -/

theorem RecSim.mapLoop (self f : Nat) : ∀ n i, Sim loose (mapLoop R self f n i) (mapLoop R' self f n i)
  | 0, _ => Sim.pure _
  | n + 1, i => Sim.bind (Even.getVec _) fun _ => (Sim.deref _ _).bind fun _ => (h.call _ _ _ _).bind fun _ => (Sim.deref _ _).bind fun _ =>
    (RecSim.mapLoop self f n (i + 1)).bind fun _ => Sim.pure _

theorem RecSim.freeResult (k : Nat) (d : Data) : Sim loose (freeResult R k d) (freeResult R' k d) :=
  Sim.ite (fun _ => Sim.blame _ (Sim.freeVal h.dec _)) fun _ => Sim.freeVal h.dec _

theorem RecSim.stepFilter (self f i : Nat) : Sim loose (stepFilter R self f i) (stepFilter R' self f i) := by
  refine Sim.bind (Even.getVec _) fun es => ?_
  cases es[i]? with
  | none => exact Sim.pure _
  | some e =>
    refine (h.call _ _ _ _).bind fun _ => (Sim.deref _ _).bind fun _ => (Sim.getCell _).bind fun x => ?_
    cases x.data with
    | bool b => exact Sim.ite (fun _ => Sim.bind (Even.valCopy _) fun _ => (h.filter _ _ _).bind fun _ => Sim.pure _) fun _ => h.filter _ _ _
    | _ => exact (h.freeResult _ _).bind fun _ => (Sim.getCell _).bind fun _ => Sim.raise _

theorem RecSim.runPtm (p : Ptm) (self : Option Nat) (args : List Nat) : Sim loose (runPtm R p self args) (runPtm R' p self args) := by
  refine (Sim.deref _ _).bind fun _ => (Sim.getCell _).bind fun x => ?_
  have test : ∀ (what arg : Bytes) (t : Bytes → Bytes → Bool) (buf size : Nat) (msg : Bytes), Even loose (match args with
    | [c] => strTest what arg t buf size c
    | _ => Fl.raise msg) := by
    intro what arg t buf size msg
    split
    · exact Even.strTest _ _ _ _ _ _
    · exact Sim.raise _
  cases p <;> cases x.data
  case strLen.str => exact Sim.ite (fun _ => Sim.alloc _) fun _ => Sim.raise _
  case strEndswith.str => exact test _ _ _ _ _ _
  case strStartswith.str => exact test _ _ _ _ _ _
  case vecLen.vec => exact Sim.ite (fun _ => Sim.alloc _) fun _ => Sim.raise _
  case vecMap.vec => exact Sim.bind (Even.fnArg _ _) fun _ => (h.mapLoop _ _ _ _).bind fun _ => Sim.alloc _
  case vecWhere.vec => exact Sim.bind (Even.fnArg _ _) fun _ => (h.filter _ _ _).bind fun _ => Sim.alloc _
  all_goals exact Sim.abort _

theorem RecSim.stmts {ss ss' : List Stmt} (hs : StmtsLike loose ss ss') : Sim loose (Fl.forEach R.exec ss) (Fl.forEach R'.exec ss') :=
  Sim.stmts h.exec h.execL h.execR hs

theorem RecSim.execBlock {ss ss' : List Stmt} (hs : StmtsLike loose ss ss') : Sim loose (execBlock R ss) (execBlock R' ss') :=
  Sim.bind Even.pushScope fun _ => (h.stmts hs).bind fun _ => Even.detach

theorem RecSim.runBody (w : World) (c : Nat) (f : FnData) (acc : Option Nat) (d : Dest) (args : List Nat) :
    Sim loose (runBody w R c f acc d args) (runBody w R' c f acc d args) := by
  unfold Fl.runBody
  cases f.kind with
  | extern =>
    refine Sim.getRv.bind fun _ => (Sim.assert _).bind fun _ => Sim.bind (Even.externFn _ _ _) fun _ => ?_
    exact Sim.bind (Sim.modify (fun _ _ => rfl) fun _ => rfl) fun _ => (Sim.setRv _).bind fun _ => Sim.pure _
  | ptm p => exact Sim.getRv.bind fun _ => (Sim.assert _).bind fun _ => (h.runPtm _ _ _).bind fun _ => (Sim.setRv _).bind fun _ => Sim.pure _
  | function =>
    refine Sim.getBody _ fun _ _ hb => ?_
    cases hb with
    | block hs => exact (h.execBlock hs).bind fun _ => Sim.pure _
    | expr he => exact (Sim.assert _).bind fun _ => (h.eval _ he).bind fun _ => Sim.pure _
  | cls =>
    refine Sim.getBody _ fun _ _ hb => ?_
    cases hb with
    | block hs => exact (h.execBlock hs).bind fun _ => Sim.pure _
    | expr he => exact (Sim.assert _).bind fun _ => (h.eval _ he).bind fun _ => Sim.pure _

theorem RecSim.takeRv (d : Dest) : Sim loose (takeRv R d) (takeRv R' d) := by
  cases d with
  | ret => exact Sim.abort _
  | discard =>
    refine Sim.getRv.bind fun r => Sim.bind ?_ fun _ => (Sim.setRv _).bind fun _ => Sim.pure _
    cases r with
    | none => exact Sim.pure _
    | val c => exact h.dec _
    | sentinel => exact Sim.ub _
  | keep => exact Sim.getRv.bind fun r => Sim.bind (Even.rvValue _) fun _ => (Sim.setRv _).bind fun _ => Sim.pure _

theorem RecSim.finish (c : Nat) (sc : Option Nat) (d : Dest) (args : List Nat) : Sim loose (finish R c sc d args) (finish R' c sc d args) := by
  refine (Sim.getCell _).bind fun x => ?_
  cases x.data with
  | fn f =>
    refine Sim.ite (fun _ => Sim.ite (fun _ => (Sim.setRv _).bind fun _ => Sim.pure _) fun _ => ?_) fun _ => h.takeRv _
    exact (Sim.deref _ _).bind fun _ => Even.makeInst _ _ _ _
  | _ => exact Sim.ub _

theorem RecSim.afterCall (c : Nat) (k : FnKind) (d : Dest) (args : List Nat) (r : Ran) : Sim loose (afterCall R c k d args r) (afterCall R' c k d args r) := by
  cases r with
  | value v => exact (Sim.setRv _).bind fun _ => Sim.pure _
  | block i => exact h.finish _ _ _ _
  | callback => exact h.finish _ _ _ _

theorem RecSim.stepCall (w : World) (c : Nat) (acc : Option Nat) (d : Dest) (args : List Nat) : Sim loose (stepCall w R c acc d args) (stepCall w R' c acc d args) := by
  refine (Sim.getCell _).bind fun x => ?_
  cases x.data with
  | fn f =>
    refine Sim.bind (Even.instScope _) fun _ => Sim.get fun s bs => Sim.bind (Even.enter _ _) fun _ => Sim.bind (Even.setupArgs _ _ _) fun _ => ?_
    exact (h.runBody _ _ _ _ _ _).bind fun _ => Sim.bind (Even.leave _ _) fun _ => h.afterCall _ _ _ _ _
  | _ => exact Sim.ub _

/-! ## Statements -/

theorem RecSim.initVal {o o' : Option Expr} (ho : OptLike loose o o') : Sim loose (initVal R o) (initVal R' o') := by
  cases ho with
  | none => exact Sim.alloc _
  | some he => exact h.value he

theorem RecSim.declVar (st : Bool) (name : Bytes) {o o' : Option Expr} (ho : OptLike loose o o') : Sim loose (declVar R st name o) (declVar R' st name o') := by
  refine Sim.bind Even.curScope fun _ => (Sim.getScope _).bind fun x => ?_
  cases findKeyIdx name x.vars with
  | some k => exact (Sim.deref _ _).bind fun _ => (Sim.deref _ _).bind fun _ => (Sim.getCell _).bind fun _ => Sim.raise _
  | none => exact Sim.bind (Even.addVar _ _) fun _ => (h.initVal ho).bind fun _ => Sim.bind (Even.setVar _ _) fun _ => Even.setOwnerOf _ _

/-- The body of a function or class, if it has one. -/
inductive BlockLike (loose : Bool) : Option (List Stmt) → Option (List Stmt) → Prop
  | none : BlockLike loose none none
  | some {ss ss' : List Stmt} : StmtsLike loose ss ss' → BlockLike loose (some ss) (some ss')

omit h in
theorem Sim.allocBlock {b b' : Option (List Stmt)} (hb : BlockLike loose b b') : Sim loose (allocBlock b) (allocBlock b') := by
  cases hb with
  | none => exact Sim.pure _
  | some hs => exact (Sim.allocBody (.block hs)).bind fun _ => Sim.pure _

omit h in
theorem BlockLike.getD {b b' : Option (List Stmt)} (hb : BlockLike loose b b') : StmtsLike loose (b.getD []) (b'.getD []) := by
  cases hb with
  | none => exact .nil
  | some hs => exact hs

theorem RecSim.declFn (k : FnKind) (st : Bool) (name : Bytes) (ps : List Bytes) {b b' : Option (List Stmt)} (hb : BlockLike loose b b') :
    Sim loose (declFn R k st name ps b) (declFn R' k st name ps b') := by
  refine Sim.bind Even.curScope fun _ => (Sim.getScope _).bind fun x => ?_
  cases findKeyIdx name x.vars with
  | some k => exact (Sim.deref _ _).bind fun _ => (Sim.deref _ _).bind fun _ => (Sim.getCell _).bind fun _ => Sim.raise _
  | none =>
    refine Sim.bind (Even.addVar _ _) fun _ => (Sim.alloc _).bind fun _ => Sim.bind (Even.setVar _ _) fun _ => Sim.bind (Even.setName _ _ _) fun _ =>
      Sim.bind (Even.setOwnerOf _ _) fun _ => Sim.bind Even.closeOver fun _ => (Sim.allocBlock hb).bind fun _ => (Sim.getCell _).bind fun _ =>
      (Sim.setCell _ _).bind fun _ => Sim.ite (fun _ => ?_) fun _ => Sim.pure _
    refine (Sim.allocScope _).bind fun _ => (Sim.setCell _ _).bind fun _ => Sim.bind (Even.attach _) fun _ => ?_
    exact (Sim.stmts h.member h.memberL h.memberR hb.getD).bind fun _ => Sim.bind Even.detach fun _ => Even.classDecl _

theorem RecSim.stepMember {s s' : Stmt} (hs : StmtLike loose s s') : Sim loose (stepMember R s) (stepMember R' s') := by
  cases hs with
  | skip => exact Sim.pure _
  | block _ => exact Sim.pure _
  | fn st name ps hb =>
    cases st with
    | true => exact h.declFn _ _ _ _ (.some hb)
    | false => exact Sim.pure _
  | cls st name ps hb =>
    cases st with
    | true => exact h.declFn _ _ _ _ (.some hb)
    | false => exact Sim.pure _
  | line hl =>
    cases hl with
    | decl st name ho =>
      cases st with
      | true => exact h.declVar _ _ ho
      | false => exact Sim.pure _
    | proto st name ps =>
      cases st with
      | true => exact h.declFn _ _ _ _ .none
      | false => exact Sim.pure _
    | _ => exact Sim.pure _

theorem RecSim.store (p : Option (Nat × Nat)) (c r : Nat) : Sim loose (store R p c r) (store R' p c r) := by
  cases p with
  | some p => exact (h.dec _).bind fun _ => Sim.bind (Even.getVar _) fun _ => Sim.bind (Even.setVar _ _) fun _ => Even.setName _ _ _
  | none => exact (Sim.getCell _).bind fun _ => Sim.setCell _ _

theorem RecSim.assignTo (p : Option (Nat × Nat)) (v : Option Nat) (text : Bytes) {e e' : Expr} (he : ExprLike loose e e') :
    Sim loose (assignTo R p v text e) (assignTo R' p v text e') := by
  refine (Sim.deref _ _).bind fun _ => (Sim.getCell _).bind fun _ => Sim.ite (fun _ => Sim.raise _) fun _ => ?_
  exact (h.value he).bind fun _ => (h.store _ _ _).bind fun _ => (Sim.getCell _).bind fun _ => Sim.ite (fun _ => Sim.raise _) fun _ => Sim.pure _

theorem RecSim.assign {l l' : Lhs} {e e' : Expr} (hl : LhsLike loose l l') (he : ExprLike loose e e') : Sim loose (assign R l e) (assign R' l' e') := by
  cases hl with
  | ident x =>
    refine Sim.bind (Even.findVar _) fun o => ?_
    cases o with
    | none => exact Sim.raise _
    | some p => exact Sim.bind (Even.getVar _) fun _ => h.assignTo _ _ _ he
  | access name text ha =>
    refine (h.accessFind ha name).bind fun r => ?_
    obtain ⟨p, v, a⟩ := r
    cases p with
    | some p => exact h.assignTo _ _ _ he
    | none => exact (Sim.deref _ _).bind fun _ => (Sim.getCell _).bind fun _ => Sim.raise _
  | index text ha hi => exact (h.evalIndex _ ha hi).bind fun _ => h.assignTo _ _ _ he

theorem RecSim.doReturn {o o' : Option Expr} (ho : OptLike loose o o') : Sim loose (doReturn R o) (doReturn R' o') := by
  have hsome : o'.isSome = o.isSome := by cases ho <;> rfl
  unfold Fl.doReturn
  rw [hsome]
  refine Sim.bind Even.curStack fun _ => Sim.ite (fun _ => Sim.raise _) fun _ => Sim.bind Even.curScope fun _ => (Sim.getScope _).bind fun _ =>
    Sim.ite (fun _ => Sim.raise _) fun _ => Sim.getRv.bind fun _ => (Sim.assert _).bind fun _ => Sim.ite (fun _ => Sim.setRv _) fun _ => ?_
  cases ho with
  | none => exact (Sim.alloc _).bind fun _ => Sim.setRv _
  | some he =>
    refine (h.eval _ he).bind fun r => ?_
    cases r.val with
    | some c => exact Sim.setRv _
    | none => exact Sim.pure _

theorem RecSim.doAssert {e e' : Expr} (he : ExprLike loose e e') (text : Bytes) : Sim loose (doAssert R e text) (doAssert R' e' text) := by
  refine (h.value he).bind fun _ => (Sim.getCell _).bind fun x => ?_
  cases x.data with
  | bool b => exact Sim.ite (fun _ => h.dec _) fun _ => Sim.raise _
  | _ => exact Sim.raise _

theorem RecSim.doPrint {e e' : Expr} (he : ExprLike loose e e') : Sim loose (doPrint R e) (doPrint R' e') :=
  (h.value he).bind fun _ => (Sim.stepRepr h.repr _ _).bind fun _ => Sim.bind (Sim.modify (fun _ _ => rfl) fun _ => rfl) fun _ => h.dec _

end

/-! ## Imports -/

theorem Sim.onErr {α : Type} {m m' : M α} (h : Sim loose m m') (f : Bytes → Bytes) : Sim loose (onErr m f) (onErr m' f) := by
  intro s s' hs
  have h1 := h s s' hs
  have e : s'.eng = s.eng := by rw [hs.same]
  unfold Fl.onErr
  rw [e]
  generalize m s = o at h1 ⊢
  generalize m' s' = o' at h1 ⊢
  cases h1 with
  | timeout o => exact .timeout _
  | ok a h => exact .ok a h
  | err msg h => exact Sim.raise _ _ _ ⟨by rw [h.same], h.bodies⟩
  | abort h => exact .abort h
  | ub h => exact .ub h

theorem Sim.inEngine {m m' : M Unit} (h : Sim loose m m') : Sim loose (inEngine m) (inEngine m') :=
  Sim.get fun _ _ => Sim.bind (Sim.modify (fun _ _ => rfl) fun _ => rfl) fun _ => h.bind fun _ => Sim.modify (fun _ _ => rfl) fun _ => rfl

theorem WorldLike.exists {w w' : World} (hw : WorldLike loose w w') (path : Bytes) : w'.exists path = w.exists path := by
  have := hw.file path
  unfold World.exists
  generalize w.file path = f at this ⊢
  generalize w'.file path = f' at this ⊢
  cases this <;> rfl

theorem WorldLike.importPath {w w' : World} (hw : WorldLike loose w w') (rel : Bool) (name : Bytes) (paths : List Bytes) :
    importPath w' rel name paths = importPath w rel name paths := by
  unfold Fl.importPath
  simp only [hw.exists]

/-- Other parts of the world than files. -/
theorem WorldLike.same {w w' : World} (hw : WorldLike loose w w') : w' = { w with file := w'.file } := by
  rw [← hw.list, ← hw.pow, ← hw.outPath, ← hw.signed]

theorem stepEval_world (w : World) (f : Bytes → FileRes) (R : Rec) (d : Dest) (e : Expr) : stepEval { w with file := f } R d e = stepEval w R d e := by
  cases e <;> rfl

theorem stepCall_world (w : World) (f : Bytes → FileRes) (R : Rec) (c : Nat) (a : Option Nat) (d : Dest) (args : List Nat) :
    stepCall { w with file := f } R c a d args = stepCall w R c a d args := rfl

/-! ## Scripts are like themselves -/

mutual
theorem ExprLike.refl : ∀ e : Expr, ExprLike loose e e
  | .lit l => .lit l
  | .ident x => .ident x
  | .lambda ps b => .lambda ps (BodyLike.refl b)
  | .vec es => .vec (ExprsLike.refl es)
  | .map is => .map (ItemsLike.refl is)
  | .call f es => .call (ExprLike.refl f) (ExprsLike.refl es)
  | .paren e => .paren (ExprLike.refl e)
  | .un op e => .un op (ExprLike.refl e)
  | .bin op l r => .bin op (ExprLike.refl l) (ExprLike.refl r)
  | .access e name => .access name (ExprLike.refl e)
  | .index e i => .index (ExprLike.refl e) (ExprLike.refl i)

theorem ExprsLike.refl : ∀ es : List Expr, ExprsLike loose es es
  | [] => .nil
  | e :: es => .cons (ExprLike.refl e) (ExprsLike.refl es)

theorem ItemsLike.refl : ∀ is : List (Expr × Expr), ItemsLike loose is is
  | [] => .nil
  | (k, v) :: is => .cons (ExprLike.refl k) (ExprLike.refl v) (ItemsLike.refl is)

theorem BodyLike.refl : ∀ b : Body, BodyLike loose b b
  | .block ss => .block (StmtsLike.refl ss)
  | .expr e => .expr (ExprLike.refl e)

theorem OptLike.refl : ∀ o : Option Expr, OptLike loose o o
  | none => .none
  | some e => .some (ExprLike.refl e)

theorem LhsLike.refl : ∀ l : Lhs, LhsLike loose l l
  | .ident x => .ident x
  | .access e name text => .access name text (ExprLike.refl e)
  | .index e i text => .index text (ExprLike.refl e) (ExprLike.refl i)

theorem LineLike.refl : ∀ l : Line, LineLike loose l l
  | .print e => .print (ExprLike.refl e)
  | .ret o => .ret (OptLike.refl o)
  | .assert e text => .assert text (ExprLike.refl e)
  | .decl st name o => .decl st name (OptLike.refl o)
  | .assign l e => .assign (LhsLike.refl l) (ExprLike.refl e)
  | .proto st name ps => .proto st name ps
  | .expr e => .expr (ExprLike.refl e)
  | .import rel path => .import rel path

theorem StmtLike.refl : ∀ s : Stmt, StmtLike loose s s
  | .skip => .skip
  | .block ss => .block (StmtsLike.refl ss)
  | .fn st name ps ss => .fn st name ps (StmtsLike.refl ss)
  | .cls st name ps ss => .cls st name ps (StmtsLike.refl ss)
  | .line l => .line (LineLike.refl l)

theorem StmtsLike.refl : ∀ ss : List Stmt, StmtsLike loose ss ss
  | [] => .nil
  | s :: ss => .cons (StmtLike.refl s) (StmtsLike.refl ss)
end

/-! ## The interpreter -/

section
variable {R R' : Rec} {w w' : World} (h : RecSim loose R R') (hw : WorldLike loose w w')
include h hw

theorem RecSim.doImport (rel : Bool) (bits : List Bytes) : Sim loose (doImport w R rel bits) (doImport w' R' rel bits) := by
  refine Sim.get fun s bs => ?_
  dsimp only
  rw [hw.importPath]
  have := hw.file (importPath w rel (importName bits) s.eng.paths)
  generalize w.file (importPath w rel (importName bits) s.eng.paths) = f at this ⊢
  generalize w'.file (importPath w rel (importName bits) s.eng.paths) = f' at this ⊢
  cases this with
  | src hs => exact Sim.onErr (Sim.inEngine (h.stmts hs)) _
  | refl f =>
    cases f with
    | src ss => exact Sim.onErr (Sim.inEngine (h.stmts (StmtsLike.refl ss))) _
    | _ => exact Sim.raise _

theorem RecSim.execLine {l l' : Line} (hl : LineLike loose l l') : Sim loose (execLine w R l) (execLine w' R' l') := by
  cases hl with
  | print he => exact h.doPrint he
  | ret ho => exact h.doReturn ho
  | assert text he => exact h.doAssert he text
  | decl st name ho => exact h.declVar st name ho
  | assign hl he => exact h.assign hl he
  | proto st name ps => exact h.declFn _ _ _ _ .none
  | expr he => exact (h.eval _ he).bind fun _ => Sim.pure _
  | «import» rel path => exact h.doImport hw rel path

theorem RecSim.stepExec {s s' : Stmt} (hs : StmtLike loose s s') : Sim loose (stepExec w R s) (stepExec w' R' s') := by
  cases hs with
  | skip => exact Sim.pure _
  | block hs => exact (h.execBlock hs).bind fun _ => Sim.pure _
  | fn st name ps hs => exact h.declFn _ _ _ _ (.some hs)
  | cls st name ps hs => exact h.declFn _ _ _ _ (.some hs)
  | line hl => exact Sim.bind Even.returning fun _ => Sim.ite (fun _ => Sim.pure _) fun _ => h.execLine hw hl

theorem RecSim.step : RecSim loose (stepRec w R) (stepRec w' R') where
  eval d e e' he := by
    show Sim loose (Fl.stepEval w R d e) (Fl.stepEval w' R' d e')
    rw [hw.same, stepEval_world]
    exact h.stepEval w d he
  exec hs := h.stepExec hw hs
  member hs := h.stepMember hs
  call c a d args := by
    show Sim loose (Fl.stepCall w R c a d args) (Fl.stepCall w' R' c a d args)
    rw [hw.same, stepCall_world]
    exact h.stepCall w c a d args
  filter := h.stepFilter
  eq := Sim.stepEq h.eq
  dec := Sim.stepDec h.dec
  repr := Sim.stepRepr h.repr true
  execL := .inl rfl
  execR := rfl
  memberL := .inl rfl
  memberR := rfl

end

theorem RecSim.interp {w w' : World} (hw : WorldLike loose w w') : ∀ {n n' : Nat}, n < n' → RecSim loose (interp w n) (interp w' n')
  | 0, _ + 1, _ => {
      eval := fun _ _ _ _ => Sim.timeout
      exec := fun _ => Sim.timeout
      member := fun _ => Sim.timeout
      call := fun _ _ _ _ => Sim.timeout
      filter := fun _ _ _ => Sim.timeout
      eq := fun _ _ => Sim.timeout
      dec := fun _ => Sim.timeout
      repr := fun _ => Sim.timeout
      execL := .inr rfl
      execR := rfl
      memberL := .inr rfl
      memberR := rfl }
  | _ + 1, _ + 1, hn => (RecSim.interp hw (Nat.lt_of_succ_lt_succ hn)).step hw

/-- Running scripts that are alike. -/
theorem runScript_like {w w' : World} (hw : WorldLike loose w w') {n n' : Nat} (hn : n < n') (paths : List Bytes) {p p' : List Stmt} (hp : StmtsLike loose p p') :
    OutLike loose (runScript w n paths p) (runScript w' n' paths p') :=
  (RecSim.interp hw hn).stmts hp _ _ ⟨rfl, .nil⟩

end

end Bob.Fl
