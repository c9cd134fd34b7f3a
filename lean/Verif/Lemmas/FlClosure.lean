import Verif.Lemmas.FlFrame
/-!
# One pass over the interpreter

A relation between pieces of the interpreter that is compatible with sequencing carries over from the recursive functions to the layer above them.
-/

namespace Bob.Fl

/-- No build step was registered, and no call of an external function recorded. -/
def NoReq (s s' : St) : Prop := s'.calls = s.calls ∧ s'.host.steps = s.host.steps ∧ s'.host.nbss = s.host.nbss

theorem trnN : Trn NoReq := ⟨fun _ => ⟨rfl, rfl, rfl⟩, fun h1 h2 => ⟨h2.1.trans h1.1, h2.2.1.trans h1.2.1, h2.2.2.trans h1.2.2⟩⟩

/-- What a relation needs, for external functions in the world `w`. -/
structure Cl (w : World) (P : {α : Type} → M α → M α → Prop) : Prop where
  leaf : ∀ {α : Type} (m : M α), Keeps NoReq m → P m m
  bind : ∀ {α β : Type} {m m' : M α} {f f' : α → M β}, P m m' → (∀ a, P (f a) (f' a)) → P (m >>= f) (m' >>= f')
  onErr : ∀ {α : Type} {m m' : M α} (g : Bytes → Bytes), P m m' → P (onErr m g) (onErr m' g)
  blame : ∀ {α : Type} {m m' : M α} (c : Cause), P m m' → P (M.blame c m) (M.blame c m')
  extern : ∀ {α : Type} (c : Nat) (args : List Nat) (k : Nat → M α), (∀ v, P (k v) (k v)) →
    P (externFn w c args >>= fun v => M.modify (fun s => { s with calls := s.calls ++ [{ callable := c, args := args, result := v }] }) >>= fun _ => k v)
      (externFn w c args >>= fun v => M.modify (fun s => { s with calls := s.calls ++ [{ callable := c, args := args, result := v }] }) >>= fun _ => k v)

/-- The relation between all the recursive functions. -/
structure RecP (P : {α : Type} → M α → M α → Prop) (R R' : Rec) : Prop where
  eval : ∀ d e, P (R.eval d e) (R'.eval d e)
  exec : ∀ s, P (R.exec s) (R'.exec s)
  member : ∀ s, P (R.member s) (R'.member s)
  call : ∀ c a d args, P (R.call c a d args) (R'.call c a d args)
  filter : ∀ c f i, P (R.filter c f i) (R'.filter c f i)
  eq : ∀ x y, P (R.eq x y) (R'.eq x y)
  dec : ∀ c, P (R.dec c) (R'.dec c)
  repr : ∀ c, P (R.repr c) (R'.repr c)

/-! ## Operations that register nothing -/

theorem n_modify {f : St → St} (h : ∀ s, NoReq s (f s)) : Keeps NoReq (M.modify f) := by
  refine ⟨fun {s a s'} hm => ?_⟩
  cases hm
  exact h s

theorem n_setCell (c : Nat) (x : Cell) : Keeps NoReq (setCell c x) := n_modify fun _ => ⟨rfl, rfl, rfl⟩
theorem n_setScope (i : Nat) (x : Scope) : Keeps NoReq (setScope i x) := n_modify fun _ => ⟨rfl, rfl, rfl⟩
theorem n_setStack (st : List Nat) : Keeps NoReq (setStack st) := n_modify fun _ => ⟨rfl, rfl, rfl⟩
theorem n_setRv (r : Rv) : Keeps NoReq (setRv r) := n_modify fun _ => ⟨rfl, rfl, rfl⟩

theorem n_alloc (d : Data) : Keeps NoReq (alloc d) := ⟨fun h => by cases h; exact ⟨rfl, rfl, rfl⟩⟩
theorem n_allocBuf (d : Bytes) : Keeps NoReq (allocBuf d) := ⟨fun h => by cases h; exact ⟨rfl, rfl, rfl⟩⟩
theorem n_allocBody (d : Body) : Keeps NoReq (allocBody d) := ⟨fun h => by cases h; exact ⟨rfl, rfl, rfl⟩⟩
theorem n_allocScope (d : Scope) : Keeps NoReq (allocScope d) := ⟨fun h => by cases h; exact ⟨rfl, rfl, rfl⟩⟩
theorem n_append (x : List Cell) (c : St → Nat) : Keeps NoReq (fun s => .ok (c s) { s with cells := s.cells ++ x } : M Nat) :=
  ⟨fun h => by cases h; exact ⟨rfl, rfl, rfl⟩⟩
theorem n_newEnv (st : List Nat) : Keeps NoReq (fun s => .ok s.envs.length { s with envs := s.envs ++ [st] } : M Nat) :=
  ⟨fun h => by cases h; exact ⟨rfl, rfl, rfl⟩⟩

syntax "keepsN" : tactic
macro_rules
  | `(tactic| keepsN) => `(tactic| repeat' (first
      | assumption
      | exact keeps_pure trnN _
      | exact n_setCell _ _
      | exact n_setScope _ _
      | exact n_setStack _
      | exact n_setRv _
      | exact n_alloc _
      | exact n_allocBuf _
      | exact n_allocBody _
      | exact n_allocScope _
      | exact n_newEnv _
      | exact n_append _ _
      | exact n_modify (fun _ => ⟨rfl, rfl, rfl⟩)
      | exact keeps_get trnN
      | exact keeps_assert trnN _
      | exact keeps_deref trnN _
      | exact keeps_getCell trnN _
      | exact keeps_getScope trnN _
      | exact keeps_getRv trnN
      | exact keeps_curStack trnN
      | exact keeps_curScope trnN
      | exact keeps_abort
      | exact keeps_ub
      | exact keeps_fail
      | exact keeps_raise _
      | exact keeps_readBuf trnN _ _
      | exact keeps_readStr trnN _ _
      | exact keeps_shallowFind trnN _ _
      | exact keeps_findVar trnN _
      | exact keeps_getVar trnN _
      | exact keeps_getBody trnN _
      | exact keeps_topCls trnN
      | exact keeps_checkDest trnN _
      | exact keeps_getVec trnN _
      | exact keeps_instScope trnN _
      | exact keeps_strElems trnN _
      | exact keeps_checkFlags trnN _
      | exact keeps_returning trnN
      | exact keeps_fnArg trnN _ _
      | exact keeps_strCompare trnN _ _ _ _ _
      | exact keeps_unknownOp _ _
      | refine keeps_bind trnN ?_ ?_
      | refine keeps_each trnN ?_ _
      | refine keeps_forEach trnN ?_ _
      | refine keeps_optIter trnN ?_ _
      | intro _
      | split))

theorem n_allocStr (b : Bytes) : Keeps NoReq (allocStr b) := by unfold allocStr; keepsN
theorem n_incref (c : Nat) : Keeps NoReq (incref c) := by unfold incref; keepsN
theorem n_freeBuf (c : Nat) : Keeps NoReq (freeBuf c) := by unfold freeBuf; keepsN
theorem n_freeBody (c : Option Nat) : Keeps NoReq (freeBody c) := by unfold freeBody; keepsN
theorem n_freeState (c : Option Nat) : Keeps NoReq (freeState c) := by unfold freeState; keepsN
theorem n_attach (i : Nat) : Keeps NoReq (attach i) := by unfold attach; keepsN
theorem n_detach : Keeps NoReq detach := by unfold detach; keepsN
theorem n_pushScope : Keeps NoReq pushScope := by
  have := n_attach
  unfold pushScope
  exact keeps_bind trnN (keeps_topCls trnN) fun _ => keeps_bind trnN (n_allocScope _) fun _ => keeps_bind trnN (n_attach _) fun _ => keeps_pure trnN _
theorem n_setVar (p : Nat × Nat) (c : Nat) : Keeps NoReq (setVar p c) := by unfold setVar; keepsN
theorem n_addVar (i : Nat) (v : Var) : Keeps NoReq (addVar i v) := by unfold addVar; keepsN
theorem n_setName (c : Nat) (n : Bytes) (i : Nat) : Keeps NoReq (setName c n i) := by unfold setName; keepsN
theorem n_setOwnerOf (c : Nat) (n : Nat) : Keeps NoReq (setOwnerOf c n) := by unfold setOwnerOf; keepsN
theorem n_closeOver : Keeps NoReq closeOver := by unfold closeOver; keepsN
theorem n_valCopy (c : Nat) : Keeps NoReq (valCopy c) := by
  unfold valCopy
  refine keeps_bind trnN (keeps_getCell trnN _) fun x => keeps_bind trnN (keeps_readName trnN _) fun _ =>
    keeps_bind trnN ?_ fun d => ⟨fun h => by cases h; exact ⟨rfl, rfl, rfl⟩⟩
  unfold copyData strndup
  keepsN
theorem n_copyEntry (e : Nat × Nat) : Keeps NoReq (copyEntry e) :=
  keeps_bind trnN (n_valCopy _) fun _ => keeps_bind trnN (n_valCopy _) fun _ => keeps_pure trnN _
theorem n_evalLit (l : Lit) : Keeps NoReq (evalLit l) := by
  have := n_allocStr
  unfold evalLit
  split
  · exact n_alloc _
  · exact n_alloc _
  · split
    · exact n_alloc _
    · exact keeps_raise _
    · exact keeps_ub
  · exact n_allocStr _
theorem n_evalIdent (x : Bytes) : Keeps NoReq (evalIdent x) := by
  unfold evalIdent
  refine keeps_bind trnN (keeps_findVar trnN _) fun _ => ?_
  split
  · exact keeps_raise _
  · exact keeps_bind trnN (keeps_getVar trnN _) fun _ => keeps_bind trnN (keeps_deref trnN _) fun _ =>
      keeps_bind trnN (n_incref _) fun _ => keeps_pure trnN _
theorem n_evalLambda (ps : List Bytes) (b : Body) : Keeps NoReq (evalLambda ps b) :=
  keeps_bind trnN n_closeOver fun _ => keeps_bind trnN (n_allocBody _) fun _ => n_alloc _
theorem n_opResult (op : BinOp) (d : Data) (o : OpRes) : Keeps NoReq (opResult op d o) := by
  unfold opResult
  split
  · exact n_alloc _
  · exact n_alloc _
  · exact keeps_raise _
  · exact keeps_ub
  · exact keeps_raise _
theorem n_applyUn (op : UnOp) (d : Data) : Keeps NoReq (applyUn op d) := by
  unfold applyUn
  split
  · split
    · exact n_alloc _
    · exact keeps_ub
  · exact n_alloc _
  · exact keeps_raise _
theorem n_strTest (a b : Bytes) (t : Bytes → Bytes → Bool) (n m c : Nat) : Keeps NoReq (strTest a b t n m c) := by
  unfold strTest
  refine keeps_bind trnN (keeps_getCell trnN _) fun _ => ?_
  split
  · exact keeps_bind trnN (keeps_strCompare trnN _ _ _ _ _) fun _ => n_alloc _
  · exact keeps_raise _
theorem n_bindArgs (i : Nat) : ∀ ks cs, Keeps NoReq (bindArgs i ks cs)
  | [], _ => keeps_pure trnN _
  | _ :: _, [] => keeps_pure trnN _
  | k :: ks, c :: cs => by
    have ih := n_bindArgs i ks cs
    unfold bindArgs
    exact keeps_bind trnN (n_addVar _ _) fun _ => keeps_bind trnN (n_setName _ _ _) fun _ => keeps_bind trnN
      (keeps_bind trnN (keeps_getScope trnN _) fun _ => n_setVar _ _) fun _ => ih
theorem n_setupArgs (i : Nat) (f : FnData) (args : List Nat) : Keeps NoReq (setupArgs i f args) := by
  unfold setupArgs
  split
  · exact n_bindArgs _ _ _
  · split
    · exact n_bindArgs _ _ _
    · exact keeps_raise _
theorem n_enter (f : FnData) (inst : Option Nat) : Keeps NoReq (enter f inst) := by
  unfold enter
  exact keeps_bind trnN (n_modify fun _ => ⟨rfl, rfl, rfl⟩) fun _ => keeps_bind trnN (keeps_optIter trnN n_attach _) fun _ =>
    keeps_bind trnN n_pushScope fun _ => keeps_bind trnN (keeps_getScope trnN _) fun _ => keeps_bind trnN (n_setScope _ _) fun _ => keeps_pure trnN _
theorem n_leave (prev : Eng) (inst : Option Nat) : Keeps NoReq (leave prev inst) := by
  unfold leave
  exact keeps_bind trnN n_detach fun _ => keeps_bind trnN (keeps_optIter trnN (fun _ => keeps_bind trnN n_detach fun _ => keeps_pure trnN _) _) fun _ =>
    n_modify fun _ => ⟨rfl, rfl, rfl⟩
theorem n_instantiate (c : Nat) (args : List Nat) : Keeps NoReq (instantiate c args) := by
  unfold instantiate modHost
  keepsN
theorem n_classInst (c : Nat) (args : List Nat) : Keeps NoReq (classInst c args) := by
  unfold classInst
  refine keeps_bind trnN (keeps_getCell trnN _) fun _ => ?_
  split
  · exact keeps_bind trnN (keeps_getCell trnN _) fun _ => keeps_bind trnN (keeps_nameIs trnN _ _) fun _ =>
      keeps_ite (n_instantiate _ _) (keeps_bind trnN (keeps_nameIs trnN _ _) fun _ => keeps_ite (n_instantiate _ _) (keeps_pure trnN _))
  · exact keeps_ub
theorem populateFs_steps : ∀ vs h, (populateFs vs h).steps = h.steps ∧ (populateFs vs h).nbss = h.nbss
  | [], _ => ⟨rfl, rfl⟩
  | v :: vs, h => by
    unfold populateFs
    obtain ⟨h1, h2⟩ := populateFs_steps vs (if v.key = b!"list" then { h with fsList := v.val } else h)
    rw [h1, h2]
    split <;> exact ⟨rfl, rfl⟩
theorem n_classDecl (c : Nat) : Keeps NoReq (classDecl c) := by
  unfold classDecl
  refine keeps_bind trnN (keeps_getCell trnN _) fun _ => ?_
  split
  · refine keeps_bind trnN (keeps_deref trnN _) fun _ => keeps_bind trnN (keeps_getScope trnN _) fun sc => ?_
    refine keeps_ite ?_ (keeps_ite (n_modify fun _ => ⟨rfl, rfl, rfl⟩) (keeps_ite (n_modify fun _ => ⟨rfl, rfl, rfl⟩) (keeps_pure trnN _)))
    exact n_modify fun s => ⟨rfl, populateFs_steps _ _⟩
  · exact keeps_ub
theorem n_makeInst (c scope : Nat) (d : Dest) (args : List Nat) : Keeps NoReq (makeInst c scope d args) := by
  unfold makeInst
  exact keeps_bind trnN (keeps_checkDest trnN _) fun _ => keeps_bind trnN (n_alloc _) fun _ => keeps_bind trnN (keeps_getScope trnN _) fun _ =>
    keeps_bind trnN (n_setScope _ _) fun _ => keeps_bind trnN (n_classInst _ _) fun _ => keeps_bind trnN (n_setRv _) fun _ => keeps_pure trnN _
theorem n_rvValue (r : Rv) : Keeps NoReq (rvValue r) := by
  unfold rvValue
  keepsN
theorem n_allocBlock (b : Option (List Stmt)) : Keeps NoReq (allocBlock b) := by
  unfold allocBlock
  keepsN

/-! ## The pass -/

section
variable {w₀ : World} {P : {α : Type} → M α → M α → Prop} (hP : Cl w₀ P)
include hP

theorem cl_pure (a : α) : P (pure a : M α) (pure a) := hP.leaf _ (keeps_pure trnN _)
theorem cl_raise (msg : Bytes) : P (raise msg : M α) (raise msg) := hP.leaf _ (keeps_raise _)

omit hP in
theorem cl_ite {c : Prop} [Decidable c] {m m' n n' : M α} (h : P m m') (h' : P n n') : P (if c then m else n) (if c then m' else n') := by
  by_cases hc : c
  · rw [if_pos hc, if_pos hc]
    exact h
  · rw [if_neg hc, if_neg hc]
    exact h'

theorem cl_each {f f' : α → M β} (hf : ∀ a, P (f a) (f' a)) : ∀ as, P (each f as) (each f' as)
  | [] => cl_pure hP _
  | a :: as => hP.bind (hf a) fun _ => hP.bind (cl_each hf as) fun _ => cl_pure hP _

theorem cl_forEach {f f' : α → M Unit} (hf : ∀ a, P (f a) (f' a)) : ∀ as, P (forEach f as) (forEach f' as)
  | [] => cl_pure hP _
  | a :: as => hP.bind (hf a) fun _ => cl_forEach hf as

theorem cl_optIter {f f' : α → M Unit} (hf : ∀ a, P (f a) (f' a)) : ∀ o, P (optIter f o) (optIter f' o)
  | none => cl_pure hP _
  | some a => hf a

theorem cl_getCell {f f' : Cell → M α} (c : Nat) (hf : ∀ x, P (f x) (f' x)) : P (getCell c >>= f) (getCell c >>= f') :=
  hP.bind (hP.leaf _ (keeps_getCell trnN _)) hf

theorem cl_deref {f f' : β → M α} (o : Option β) {c : Cause} (hf : ∀ x, P (f x) (f' x)) : P (M.deref o c >>= f) (M.deref o c >>= f') :=
  hP.bind (hP.leaf _ (keeps_deref trnN _)) hf

theorem cl_getScope {f f' : Scope → M α} (c : Nat) (hf : ∀ x, P (f x) (f' x)) : P (getScope c >>= f) (getScope c >>= f') :=
  hP.bind (hP.leaf _ (keeps_getScope trnN _)) hf

theorem cl_get {f f' : St → M α} (hf : ∀ x, P (f x) (f' x)) : P (M.get >>= f) (M.get >>= f') := hP.bind (hP.leaf _ (keeps_get trnN)) hf

theorem cl_getRv {f f' : Rv → M α} (hf : ∀ x, P (f x) (f' x)) : P (getRv >>= f) (getRv >>= f') := hP.bind (hP.leaf _ (keeps_getRv trnN)) hf

theorem cl_checkDest {f f' : Unit → M α} (d : Dest) (hf : ∀ x, P (f x) (f' x)) : P (checkDest d >>= f) (checkDest d >>= f') :=
  hP.bind (hP.leaf _ (keeps_checkDest trnN _)) hf

theorem cl_alloc (d : Data) : P (alloc d) (alloc d) := hP.leaf _ (n_alloc d)

variable {R R' : Rec} (hR : RecP P R R')
include hR

theorem cl_value (e : Expr) : P (R.value e) (R'.value e) := hP.bind (hR.eval _ _) fun _ => hP.leaf _ (keeps_deref trnN _)

theorem cl_decVars : ∀ vs, P (decVars R.dec vs) (decVars R'.dec vs)
  | [] => cl_pure hP _
  | _ :: vs => hP.bind (cl_optIter hP hR.dec _) fun _ => cl_decVars vs

theorem cl_freeScope (i : Nat) : P (freeScope R.dec i) (freeScope R'.dec i) := by
  unfold freeScope
  exact cl_getScope hP _ fun _ => hP.bind (cl_decVars hP hR _) fun _ => cl_getScope hP _ fun _ => hP.leaf _ (n_setScope _ _)

theorem cl_freeVal (c : Nat) : P (freeVal R.dec c) (freeVal R'.dec c) := by
  unfold freeVal
  refine cl_getCell hP _ fun x => ?_
  cases x.data with
  | str buf _ => exact hP.leaf _ (n_freeBuf _)
  | fn f => exact hP.leaf _ (n_freeBody _)
  | inst i => exact hP.bind (cl_freeScope hP hR _) fun _ => hP.leaf _ (n_freeState _)
  | _ => exact cl_pure hP _

theorem cl_stepDec (c : Nat) : P (stepDec R.dec c) (stepDec R'.dec c) := by
  unfold stepDec
  exact cl_getCell hP _ fun _ => hP.bind (hP.leaf _ (n_setCell _ _)) fun _ => cl_ite (cl_freeVal hP hR _) (cl_pure hP _)

theorem cl_eqVec : ∀ xs ys, P (eqVec R.eq xs ys) (eqVec R'.eq xs ys)
  | [], _ => cl_pure hP _
  | _ :: _, [] => cl_pure hP _
  | x :: xs, y :: ys => hP.bind (hR.eq x y) fun _ => cl_ite (cl_eqVec xs ys) (cl_pure hP _)

theorem cl_findKey (k : Nat) : ∀ es, P (findKey R.eq k es) (findKey R'.eq k es)
  | [] => cl_pure hP _
  | (_, _) :: es => hP.bind (hR.eq _ _) fun _ => cl_ite (cl_pure hP _) (cl_findKey k es)

theorem cl_eqMap (ys : List (Nat × Nat)) : ∀ es, P (eqMap R.eq ys es) (eqMap R'.eq ys es)
  | [] => cl_pure hP _
  | (k, v) :: es => by
    unfold eqMap
    refine hP.bind (cl_findKey hP hR _ _) fun o => ?_
    cases o with
    | none => exact cl_pure hP _
    | some v' => exact hP.bind (hR.eq _ _) fun _ => cl_ite (cl_eqMap ys es) (cl_pure hP _)

theorem cl_stepEq (x y : Nat) : P (stepEq R.eq x y) (stepEq R'.eq x y) := by
  unfold stepEq
  refine cl_getCell hP _ fun cx => cl_getCell hP _ fun cy => ?_
  split
  · exact cl_pure hP _
  · exact cl_pure hP _
  · exact cl_pure hP _
  · refine cl_ite ?_ (cl_pure hP _)
    exact hP.bind (hP.leaf _ (keeps_readBuf trnN _ _)) fun _ => hP.bind (hP.leaf _ (keeps_readBuf trnN _ _)) fun _ => cl_pure hP _
  · exact cl_ite (cl_eqVec hP hR _ _) (cl_pure hP _)
  · exact cl_ite (cl_eqMap hP hR _ _) (cl_pure hP _)
  · exact cl_pure hP _
  · exact cl_pure hP _
  · exact cl_pure hP _

theorem cl_stepRepr (inner : Bool) (c : Nat) : P (stepRepr R.repr inner c) (stepRepr R'.repr inner c) := by
  unfold stepRepr
  refine cl_getCell hP _ fun x => ?_
  cases x.data with
  | str buf size => exact hP.bind (hP.leaf _ (keeps_readStr trnN _ _)) fun _ => cl_pure hP _
  | vec es => exact hP.bind (cl_each hP hR.repr _) fun _ => cl_pure hP _
  | map es => exact hP.bind (cl_each hP (fun kv => hP.bind (hR.repr _) fun _ => hP.bind (hR.repr _) fun _ => cl_pure hP _) _) fun _ => cl_pure hP _
  | fn f => exact cl_ite (cl_pure hP _) (hP.bind (hP.leaf _ (keeps_readName trnN _)) fun _ => cl_pure hP _)
  | inst i => exact cl_getCell hP _ fun _ => hP.bind (hP.leaf _ (keeps_readName trnN _)) fun _ => cl_pure hP _
  | _ => exact cl_pure hP _

theorem cl_equality (op : BinOp) (d : Data) (l r : Nat) : P (equality R op d l r) (equality R' op d l r) := by
  cases op with
  | eq => exact hP.bind (hR.eq _ _) fun _ => cl_alloc hP _
  | ne => exact hP.bind (hR.eq _ _) fun _ => cl_alloc hP _
  | _ => exact cl_raise hP _

theorem cl_applyBin (w : World) (op : BinOp) (l r : Nat) (dl dr : Data) : P (applyBin w R op l r dl dr) (applyBin w R' op l r dl dr) := by
  have he := cl_equality hP hR op
  unfold applyBin
  refine cl_ite ?_ ?_
  · cases op with
    | eq => exact cl_alloc hP _
    | ne => exact cl_alloc hP _
    | _ => exact cl_raise hP _
  · split
    · exact hP.leaf _ (n_opResult _ _ _)
    · exact hP.leaf _ (n_opResult _ _ _)
    · exact cl_ite (hP.leaf _ (keeps_bind trnN (keeps_readBuf trnN _ _) fun _ => keeps_bind trnN (keeps_readBuf trnN _ _) fun _ => n_allocStr _)) (he _ _ _)
    · exact cl_ite (hP.leaf _ (keeps_bind trnN (keeps_each trnN n_valCopy _) fun _ => keeps_bind trnN (keeps_each trnN n_valCopy _) fun _ => n_alloc _)) (he _ _ _)
    · exact cl_ite (hP.leaf _ (keeps_bind trnN (keeps_each trnN n_copyEntry _) fun _ => keeps_bind trnN (keeps_each trnN n_copyEntry _) fun _ => n_alloc _)) (he _ _ _)
    · exact hP.leaf _ (keeps_unknownOp _ _)

theorem cl_evalBin (w : World) (d : Dest) (op : BinOp) (l r : Expr) : P (evalBin w R d op l r) (evalBin w R' d op l r) := by
  unfold evalBin
  refine hP.bind (cl_value hP hR _) fun _ => hP.bind (cl_value hP hR _) fun _ => cl_getCell hP _ fun _ => cl_getCell hP _ fun _ => ?_
  refine cl_ite (cl_raise hP _) (cl_ite (cl_pure hP _) ?_)
  exact cl_checkDest hP _ fun _ => hP.bind (cl_applyBin hP hR _ _ _ _ _ _) fun _ => hP.bind (hR.dec _) fun _ => hP.bind (hR.dec _) fun _ => cl_pure hP _

theorem cl_evalUn (d : Dest) (op : UnOp) (e : Expr) : P (evalUn R d op e) (evalUn R' d op e) := by
  unfold evalUn
  refine hP.bind (cl_value hP hR _) fun _ => cl_getCell hP _ fun _ => cl_ite (cl_pure hP _) ?_
  exact cl_checkDest hP _ fun _ => hP.bind (hP.leaf _ (n_applyUn _ _)) fun _ => hP.bind (hR.dec _) fun _ => cl_pure hP _

theorem cl_anyKey (k : Nat) : ∀ es, P (anyKey R.eq k es) (anyKey R'.eq k es)
  | [] => cl_pure hP _
  | (_, _) :: es => hP.bind (hR.eq _ _) fun _ => cl_ite (cl_pure hP _) (cl_anyKey k es)

theorem cl_lookupKey (k : Nat) : ∀ es, P (lookupKey R.eq k es) (lookupKey R'.eq k es)
  | [] => cl_pure hP _
  | (_, _) :: es => hP.bind (hR.eq _ _) fun _ => cl_ite (cl_pure hP _) (cl_lookupKey k es)

theorem cl_evalItems : ∀ items done, P (evalItems R items done) (evalItems R' items done)
  | [], _ => cl_pure hP _
  | (_, _) :: rest, _ => hP.bind (cl_value hP hR _) fun _ => hP.bind (cl_anyKey hP hR _ _) fun _ =>
    cl_ite (cl_raise hP _) (hP.bind (cl_value hP hR _) fun _ => cl_evalItems rest _)

/-- What `accessFind` does once the value is known does not depend on the recursive functions. -/
theorem cl_accessFind (e : Expr) (name : Bytes) : P (accessFind R e name) (accessFind R' e name) := by
  unfold accessFind
  refine hP.bind (cl_value hP hR _) fun a => hP.leaf _ ?_
  refine keeps_bind trnN (keeps_getCell trnN _) fun _ => ?_
  split
  · refine keeps_bind trnN (keeps_shallowFind trnN _ _) fun _ => ?_
    split
    · exact keeps_raise _
    · refine keeps_bind trnN (keeps_getVar trnN _) fun _ => ?_
      split
      · exact keeps_raise _
      · exact keeps_pure trnN _
  · refine keeps_ite ?_ ?_
    · refine keeps_bind trnN (keeps_deref trnN _) fun _ => keeps_bind trnN (keeps_shallowFind trnN _ _) fun _ => ?_
      split
      · exact keeps_raise _
      · exact keeps_bind trnN (keeps_getVar trnN _) fun _ => keeps_pure trnN _
    · split
      · exact keeps_raise _
      · exact keeps_bind trnN (keeps_get trnN) fun _ => keeps_pure trnN _

theorem cl_evalAccess (d : Dest) (e : Expr) (name : Bytes) : P (evalAccess R d e name) (evalAccess R' d e name) := by
  unfold evalAccess
  refine hP.bind (cl_accessFind hP hR _ _) fun x => ?_
  obtain ⟨_, v, a⟩ := x
  refine cl_ite (cl_pure hP _) ?_
  exact cl_checkDest hP _ fun _ => cl_deref hP _ fun _ => hP.bind (hP.leaf _ (n_incref _)) fun _ => cl_pure hP _

theorem cl_evalIndex (d : Dest) (e i : Expr) : P (evalIndex R d e i) (evalIndex R' d e i) := by
  unfold evalIndex
  refine hP.bind (cl_value hP hR _) fun _ => cl_getCell hP _ fun _ => cl_ite (cl_raise hP _) ?_
  refine hP.bind (cl_value hP hR _) fun _ => cl_getCell hP _ fun _ => cl_ite (cl_raise hP _) (cl_ite (cl_pure hP _) ?_)
  refine cl_checkDest hP _ fun _ => cl_getCell hP _ fun _ => cl_deref hP _ fun _ => ?_
  split
  · split
    · exact cl_raise hP _
    · exact hP.leaf _ keeps_ub
    · exact cl_deref hP _ fun _ => hP.bind (hP.leaf _ (n_incref _)) fun _ => cl_pure hP _
  · refine hP.bind (cl_lookupKey hP hR _ _) fun o => ?_
    cases o with
    | none => exact hP.bind (cl_alloc hP _) fun _ => cl_pure hP _
    | some v => exact hP.bind (hP.leaf _ (n_incref _)) fun _ => cl_pure hP _
  · exact hP.leaf _ keeps_ub

theorem cl_evalCall (d : Dest) (f : Expr) (args : List Expr) : P (evalCall R d f args) (evalCall R' d f args) := by
  unfold evalCall
  refine hP.bind (hR.eval _ _) fun _ => cl_deref hP _ fun _ => cl_getCell hP _ fun x => ?_
  cases x.data with
  | fn f => exact hP.bind (cl_each hP (cl_value hP hR) _) fun _ => hP.bind (hR.call _ _ _ _) fun _ => cl_pure hP _
  | _ => exact cl_raise hP _

theorem cl_stepEval (w : World) (d : Dest) (e : Expr) : P (stepEval w R d e) (stepEval w R' d e) := by
  cases e with
  | lit l => exact cl_ite (cl_raise hP _) (cl_checkDest hP _ fun _ => hP.bind (hP.leaf _ (n_evalLit _)) fun _ => cl_pure hP _)
  | ident x => exact cl_ite (cl_raise hP _) (hP.bind (hP.leaf _ (n_evalIdent _)) fun _ => cl_pure hP _)
  | lambda ps b => exact cl_ite (cl_raise hP _) (cl_checkDest hP _ fun _ => hP.bind (hP.leaf _ (n_evalLambda _ _)) fun _ => cl_pure hP _)
  | vec es => exact hP.bind (cl_each hP (cl_value hP hR) _) fun _ => cl_ite (cl_pure hP _) (cl_checkDest hP _ fun _ => hP.bind (cl_alloc hP _) fun _ => cl_pure hP _)
  | map es => exact hP.bind (cl_evalItems hP hR _ _) fun _ => cl_ite (cl_pure hP _) (cl_checkDest hP _ fun _ => hP.bind (cl_alloc hP _) fun _ => cl_pure hP _)
  | call f args => exact cl_evalCall hP hR _ _ _
  | paren e => exact hR.eval _ _
  | un op e => exact cl_evalUn hP hR _ _ _
  | bin op l r => exact cl_evalBin hP hR _ _ _ _ _
  | access e name => exact cl_evalAccess hP hR _ _ _
  | index e i => exact hP.bind (cl_evalIndex hP hR _ _ _) fun _ => cl_pure hP _

theorem cl_mapLoop (c f : Nat) : ∀ n i, P (mapLoop R c f n i) (mapLoop R' c f n i)
  | 0, _ => cl_pure hP _
  | n + 1, i => hP.bind (hP.leaf _ (keeps_getVec trnN _)) fun _ => cl_deref hP _ fun _ => hP.bind (hR.call _ _ _ _) fun _ => cl_deref hP _ fun _ =>
    hP.bind (cl_mapLoop c f n (i + 1)) fun _ => cl_pure hP _

theorem cl_stepFilter (c f i : Nat) : P (stepFilter R c f i) (stepFilter R' c f i) := by
  unfold stepFilter
  refine hP.bind (hP.leaf _ (keeps_getVec trnN _)) fun es => ?_
  cases es[i]? with
  | none => exact cl_pure hP _
  | some e =>
    refine hP.bind (hR.call _ _ _ _) fun _ => cl_deref hP _ fun _ => cl_getCell hP _ fun x => ?_
    cases x.data with
    | bool b => exact cl_ite (hP.bind (hP.leaf _ (n_valCopy _)) fun _ => hP.bind (hR.filter _ _ _) fun _ => cl_pure hP _) (hR.filter _ _ _)
    | _ => exact hP.bind (cl_ite (hP.blame _ (cl_freeVal hP hR _)) (cl_freeVal hP hR _)) fun _ => cl_getCell hP _ fun _ => cl_raise hP _

theorem cl_runPtm (p : Ptm) (self : Option Nat) (args : List Nat) : P (runPtm R p self args) (runPtm R' p self args) := by
  unfold runPtm
  refine cl_deref hP _ fun _ => cl_getCell hP _ fun _ => ?_
  split
  · exact cl_ite (cl_alloc hP _) (cl_raise hP _)
  · split
    · exact hP.leaf _ (n_strTest _ _ _ _ _ _)
    · exact cl_raise hP _
  · split
    · exact hP.leaf _ (n_strTest _ _ _ _ _ _)
    · exact cl_raise hP _
  · exact cl_ite (cl_alloc hP _) (cl_raise hP _)
  · exact hP.bind (hP.leaf _ (keeps_fnArg trnN _ _)) fun _ => hP.bind (cl_mapLoop hP hR _ _ _ _) fun _ => cl_alloc hP _
  · exact hP.bind (hP.leaf _ (keeps_fnArg trnN _ _)) fun _ => hP.bind (hR.filter _ _ _) fun _ => cl_alloc hP _
  · exact hP.leaf _ keeps_abort

theorem cl_execBlock (ss : List Stmt) : P (execBlock R ss) (execBlock R' ss) := by
  unfold execBlock
  exact hP.bind (hP.leaf _ n_pushScope) fun _ => hP.bind (cl_forEach hP hR.exec _) fun _ => hP.leaf _ n_detach

omit hR in
theorem cl_assert {f f' : Unit → M α} (b : Bool) (hf : ∀ x, P (f x) (f' x)) : P (M.assert b >>= f) (M.assert b >>= f') :=
  hP.bind (hP.leaf _ (keeps_assert trnN _)) hf

theorem cl_runBody (c : Nat) (f : FnData) (acc : Option Nat) (d : Dest) (args : List Nat) :
    P (runBody w₀ R c f acc d args) (runBody w₀ R' c f acc d args) := by
  have hbody : ∀ k : FnKind, P (do
      match ← getBody f.body with
      | .expr e => do
        M.assert (k == .function)
        let r ← R.eval d e
        pure (.value r.val)
      | .block ss => do
        let i ← execBlock R ss
        pure (.block i) : M Ran) (do
      match ← getBody f.body with
      | .expr e => do
        M.assert (k == .function)
        let r ← R'.eval d e
        pure (.value r.val)
      | .block ss => do
        let i ← execBlock R' ss
        pure (.block i) : M Ran) := by
    intro k
    refine hP.bind (hP.leaf _ (keeps_getBody trnN _)) fun b => ?_
    cases b with
    | expr e => exact cl_assert hP _ fun _ => hP.bind (hR.eval _ _) fun _ => cl_pure hP _
    | block ss => exact hP.bind (cl_execBlock hP hR _) fun _ => cl_pure hP _
  unfold runBody
  cases f.kind with
  | extern =>
    exact cl_getRv hP fun _ => cl_assert hP _ fun _ => hP.extern c args _ fun _ => hP.bind (hP.leaf _ (n_setRv _)) fun _ => cl_pure hP _
  | ptm p =>
    exact cl_getRv hP fun _ => cl_assert hP _ fun _ => hP.bind (cl_runPtm hP hR _ _ _) fun _ => hP.bind (hP.leaf _ (n_setRv _)) fun _ => cl_pure hP _
  | function => exact hbody _
  | cls => exact hbody _

theorem cl_dropRv (r : Rv) : P (dropRv R r) (dropRv R' r) := by
  cases r with
  | none => exact cl_pure hP _
  | val c => exact hR.dec _
  | sentinel => exact hP.leaf _ keeps_ub

theorem cl_takeRv (d : Dest) : P (takeRv R d) (takeRv R' d) := by
  cases d with
  | ret => exact hP.leaf _ keeps_abort
  | discard => exact cl_getRv hP fun _ => hP.bind (cl_dropRv hP hR _) fun _ => hP.bind (hP.leaf _ (n_setRv _)) fun _ => cl_pure hP _
  | keep => exact cl_getRv hP fun _ => hP.bind (hP.leaf _ (n_rvValue _)) fun _ => hP.bind (hP.leaf _ (n_setRv _)) fun _ => cl_pure hP _

theorem cl_finish (c : Nat) (sc : Option Nat) (d : Dest) (args : List Nat) : P (finish R c sc d args) (finish R' c sc d args) := by
  unfold finish
  refine cl_getCell hP _ fun x => ?_
  cases x.data with
  | fn f =>
    refine cl_ite (cl_ite ?_ ?_) (cl_takeRv hP hR _)
    · exact hP.bind (hP.leaf _ (n_setRv _)) fun _ => cl_pure hP _
    · exact cl_deref hP _ fun _ => hP.leaf _ (n_makeInst _ _ _ _)
  | _ => exact hP.leaf _ keeps_ub

theorem cl_afterCall (c : Nat) (k : FnKind) (d : Dest) (args : List Nat) (ran : Ran) : P (afterCall R c k d args ran) (afterCall R' c k d args ran) := by
  cases ran with
  | value v => exact hP.bind (hP.leaf _ (n_setRv _)) fun _ => cl_pure hP _
  | block sc => exact cl_finish hP hR _ _ _ _
  | callback => exact cl_finish hP hR _ _ _ _

theorem cl_stepCall (c : Nat) (acc : Option Nat) (d : Dest) (args : List Nat) : P (stepCall w₀ R c acc d args) (stepCall w₀ R' c acc d args) := by
  unfold stepCall
  refine cl_getCell hP _ fun x => ?_
  cases x.data with
  | fn f =>
    exact hP.bind (hP.leaf _ (keeps_instScope trnN _)) fun _ => cl_get hP fun _ => hP.bind (hP.leaf _ (n_enter _ _)) fun _ =>
      hP.bind (hP.leaf _ (n_setupArgs _ _ _)) fun _ => hP.bind (cl_runBody hP hR _ _ _ _ _) fun _ => hP.bind (hP.leaf _ (n_leave _ _)) fun _ =>
      cl_afterCall hP hR _ _ _ _ _
  | _ => exact hP.leaf _ keeps_ub

theorem cl_declVar (st : Bool) (name : Bytes) (e : Option Expr) : P (declVar R st name e) (declVar R' st name e) := by
  unfold declVar
  refine hP.bind (hP.leaf _ (keeps_curScope trnN)) fun i => cl_getScope hP _ fun x => ?_
  cases findKeyIdx name x.vars with
  | some k => exact cl_deref hP _ fun _ => cl_deref hP _ fun _ => cl_getCell hP _ fun _ => cl_raise hP _
  | none =>
    refine hP.bind (hP.leaf _ (n_addVar _ _)) fun _ => hP.bind ?_ fun _ => hP.bind (hP.leaf _ (n_setVar _ _)) fun _ => hP.leaf _ (n_setOwnerOf _ _)
    cases e with
    | some e => exact cl_value hP hR _
    | none => exact cl_alloc hP _

theorem cl_declFn (kind : FnKind) (st : Bool) (name : Bytes) (ps : List Bytes) (body : Option (List Stmt)) :
    P (declFn R kind st name ps body) (declFn R' kind st name ps body) := by
  unfold declFn
  refine hP.bind (hP.leaf _ (keeps_curScope trnN)) fun i => cl_getScope hP _ fun x => ?_
  cases findKeyIdx name x.vars with
  | some k => exact cl_deref hP _ fun _ => cl_deref hP _ fun _ => cl_getCell hP _ fun _ => cl_raise hP _
  | none =>
    refine hP.bind (hP.leaf _ (n_addVar _ _)) fun _ => hP.bind (cl_alloc hP _) fun _ => hP.bind (hP.leaf _ (n_setVar _ _)) fun _ =>
      hP.bind (hP.leaf _ (n_setName _ _ _)) fun _ => hP.bind (hP.leaf _ (n_setOwnerOf _ _)) fun _ => hP.bind (hP.leaf _ n_closeOver) fun _ =>
      hP.bind (hP.leaf _ (n_allocBlock _)) fun _ => cl_getCell hP _ fun _ => hP.bind (hP.leaf _ (n_setCell _ _)) fun _ => ?_
    refine cl_ite ?_ (cl_pure hP _)
    exact hP.bind (hP.leaf _ (n_allocScope _)) fun _ => hP.bind (hP.leaf _ (n_setCell _ _)) fun _ => hP.bind (hP.leaf _ (n_attach _)) fun _ =>
      hP.bind (cl_forEach hP hR.member _) fun _ => hP.bind (hP.leaf _ n_detach) fun _ => hP.leaf _ (n_classDecl _)

theorem cl_stepMember (s : Stmt) : P (stepMember R s) (stepMember R' s) := by
  unfold stepMember
  split
  · exact cl_declFn hP hR _ _ _ _ _
  · exact cl_declFn hP hR _ _ _ _ _
  · exact cl_declVar hP hR _ _ _
  · exact cl_declFn hP hR _ _ _ _ _
  · exact cl_pure hP _

theorem cl_store (p : Option (Nat × Nat)) (c r : Nat) : P (store R p c r) (store R' p c r) := by
  cases p with
  | some p => exact hP.bind (hR.dec _) fun _ => hP.bind (hP.leaf _ (keeps_getVar trnN _)) fun _ => hP.bind (hP.leaf _ (n_setVar _ _)) fun _ => hP.leaf _ (n_setName _ _ _)
  | none => exact cl_getCell hP _ fun _ => hP.leaf _ (n_setCell _ _)

theorem cl_assignTo (p : Option (Nat × Nat)) (v : Option Nat) (t : Bytes) (e : Expr) : P (assignTo R p v t e) (assignTo R' p v t e) := by
  unfold assignTo
  exact cl_deref hP _ fun _ => cl_getCell hP _ fun _ => cl_ite (cl_raise hP _) (hP.bind (cl_value hP hR _) fun _ => hP.bind (cl_store hP hR _ _ _) fun _ =>
    cl_getCell hP _ fun _ => cl_ite (cl_raise hP _) (cl_pure hP _))

theorem cl_assign (l : Lhs) (e : Expr) : P (assign R l e) (assign R' l e) := by
  cases l with
  | ident x =>
    refine hP.bind (hP.leaf _ (keeps_findVar trnN _)) fun o => ?_
    cases o with
    | none => exact cl_raise hP _
    | some p => exact hP.bind (hP.leaf _ (keeps_getVar trnN _)) fun _ => cl_assignTo hP hR _ _ _ _
  | access e name t =>
    refine hP.bind (cl_accessFind hP hR _ _) fun x => ?_
    obtain ⟨p, v, _⟩ := x
    cases p with
    | some p => exact cl_assignTo hP hR _ _ _ _
    | none => exact cl_deref hP _ fun _ => cl_getCell hP _ fun _ => cl_raise hP _
  | index e i t => exact hP.bind (cl_evalIndex hP hR _ _ _) fun _ => cl_assignTo hP hR _ _ _ _

theorem cl_doReturn (e : Option Expr) : P (doReturn R e) (doReturn R' e) := by
  unfold doReturn
  refine hP.bind (hP.leaf _ (keeps_curStack trnN)) fun _ => cl_ite (cl_raise hP _) ?_
  refine hP.bind (hP.leaf _ (keeps_curScope trnN)) fun _ => cl_getScope hP _ fun x => cl_ite (cl_raise hP _) ?_
  refine cl_getRv hP fun _ => cl_assert hP _ fun _ => cl_ite (hP.leaf _ (n_setRv _)) ?_
  cases e with
  | none => exact hP.bind (cl_alloc hP _) fun _ => hP.leaf _ (n_setRv _)
  | some e =>
    refine hP.bind (hR.eval _ _) fun r => ?_
    cases r.val with
    | none => exact cl_pure hP _
    | some c => exact hP.leaf _ (n_setRv _)

theorem cl_doAssert (e : Expr) (t : Bytes) : P (doAssert R e t) (doAssert R' e t) := by
  unfold doAssert
  refine hP.bind (cl_value hP hR _) fun _ => cl_getCell hP _ fun x => ?_
  cases x.data with
  | bool b => exact cl_ite (hR.dec _) (cl_raise hP _)
  | _ => exact cl_raise hP _

theorem cl_doPrint (e : Expr) : P (doPrint R e) (doPrint R' e) := by
  unfold doPrint
  exact hP.bind (cl_value hP hR _) fun _ => hP.bind (cl_stepRepr hP hR _ _) fun _ => hP.bind (hP.leaf _ (n_modify fun _ => ⟨rfl, rfl, rfl⟩)) fun _ => hR.dec _

theorem cl_doImport (w : World) (rel : Bool) (bits : List Bytes) : P (doImport w R rel bits) (doImport w R' rel bits) := by
  unfold doImport
  refine cl_get hP fun s => ?_
  simp only
  cases w.file (importPath w rel (importName bits) s.eng.paths) with
  | src p =>
    refine hP.onErr _ ?_
    unfold inEngine
    exact cl_get hP fun _ => hP.bind (hP.leaf _ (n_modify fun _ => ⟨rfl, rfl, rfl⟩)) fun _ => hP.bind (cl_forEach hP hR.exec _) fun _ =>
      hP.leaf _ (n_modify fun _ => ⟨rfl, rfl, rfl⟩)
  | _ => exact cl_raise hP _

theorem cl_stepExec (w : World) (s : Stmt) : P (stepExec w R s) (stepExec w R' s) := by
  cases s with
  | skip => exact cl_pure hP _
  | block ss => exact hP.bind (cl_execBlock hP hR _) fun _ => cl_pure hP _
  | fn st name ps body => exact cl_declFn hP hR _ _ _ _ _
  | cls st name ps body => exact cl_declFn hP hR _ _ _ _ _
  | line l =>
    refine hP.bind (hP.leaf _ (keeps_returning trnN)) fun _ => cl_ite (cl_pure hP _) ?_
    cases l with
    | print e => exact cl_doPrint hP hR _
    | ret e => exact cl_doReturn hP hR _
    | assert e t => exact cl_doAssert hP hR _ _
    | decl st name e => exact cl_declVar hP hR _ _ _
    | assign l e => exact cl_assign hP hR _ _
    | proto st name ps => exact cl_declFn hP hR _ _ _ _ _
    | expr e => exact hP.bind (hR.eval _ _) fun _ => cl_pure hP _
    | «import» rel bits => exact cl_doImport hP hR _ _ _

/-- One layer up. -/
theorem cl_stepRec : RecP P (stepRec w₀ R) (stepRec w₀ R') where
  eval := cl_stepEval hP hR w₀
  exec := cl_stepExec hP hR w₀
  member := cl_stepMember hP hR
  call := cl_stepCall hP hR
  filter := cl_stepFilter hP hR
  eq := cl_stepEq hP hR
  dec := cl_stepDec hP hR
  repr := cl_stepRepr hP hR true

end

end Bob.Fl
