import Verif.Model.Flamingo.Interp
import Verif.Spec.FlLike
import Mathlib.Data.List.Forall2
/-!
# Running scripts that are alike: expressions

Two pieces of the interpreter agree if, begun in states that differ only in the scripts stored in them, the second one does the same as the first, unless the first runs out of fuel.
-/

namespace Bob.Fl

/-- The memory behind `fn.body`. -/
inductive SlotLike (loose : Bool) : Option Body → Option Body → Prop
  | none : SlotLike loose none none
  | some {b b' : Body} : BodyLike loose b b' → SlotLike loose (some b) (some b')

structure Alike (loose : Bool) (s s' : St) : Prop where
  same : s' = { s with bodies := s'.bodies }
  bodies : List.Forall₂ (SlotLike loose) s.bodies s'.bodies

inductive OutLike (loose : Bool) {α : Type} : Out α → Out α → Prop
  | timeout (o : Out α) : OutLike loose .timeout o
  | ok (a : α) {s s' : St} : Alike loose s s' → OutLike loose (.ok a s) (.ok a s')
  | err (msg : Option Bytes) {s s' : St} : Alike loose s s' → OutLike loose (.err msg s) (.err msg s')
  | abort {s s' : St} : Alike loose s s' → OutLike loose (.abort s) (.abort s')
  | ub {s s' : St} : Alike loose s s' → OutLike loose (.ub s) (.ub s')

def Sim (loose : Bool) {α : Type} (m m' : M α) : Prop := ∀ s s', Alike loose s s' → OutLike loose (m s) (m' s')

section
variable {loose : Bool} {α β : Type}

/-- For operations that do not look at the scripts. -/
theorem Sim.of {m m' : M α} (h : ∀ s bs, List.Forall₂ (SlotLike loose) s.bodies bs → OutLike loose (m s) (m' { s with bodies := bs })) : Sim loose m m' := by
  intro s s' ⟨h1, h2⟩
  rw [h1]
  exact h s _ h2

theorem Alike.of {s : St} {bs : List (Option Body)} (h : List.Forall₂ (SlotLike loose) s.bodies bs) : Alike loose s { s with bodies := bs } := ⟨rfl, h⟩

theorem Sim.bind {m m' : M α} {f f' : α → M β} (h : Sim loose m m') (hf : ∀ a, Sim loose (f a) (f' a)) : Sim loose (m >>= f) (m' >>= f') := by
  intro s s' hs
  have h1 := h s s' hs
  show OutLike loose (M.bind m f s) (M.bind m' f' s')
  unfold M.bind
  generalize m s = o at h1 ⊢
  generalize m' s' = o' at h1 ⊢
  cases h1 with
  | timeout o => exact .timeout _
  | ok a h => exact hf a _ _ h
  | err msg h => exact .err msg h
  | abort h => exact .abort h
  | ub h => exact .ub h

theorem Sim.pure (a : α) : Sim loose (pure a : M α) (pure a) := fun _ _ h => .ok a h

/-- Looking at the state. -/
theorem Sim.get {f f' : St → M β} (h : ∀ s bs, Sim loose (f s) (f' { s with bodies := bs })) : Sim loose (M.get >>= f) (M.get >>= f') := by
  intro s s' hs
  have := h s s'.bodies
  rw [← hs.same] at this
  exact this s s' hs

theorem Sim.modify {f f' : St → St} (h : ∀ s bs, f' { s with bodies := bs } = { f s with bodies := bs }) (hb : ∀ s, (f s).bodies = s.bodies) :
    Sim loose (M.modify f) (M.modify f') := Sim.of fun s bs hbs => by
  show OutLike loose (.ok () (f s)) (.ok () (f' { s with bodies := bs }))
  rw [h]
  exact .ok () ⟨rfl, by rw [hb]; exact hbs⟩

theorem Sim.abort (c : Cause) : Sim loose (M.abort c : M α) (M.abort c) := Sim.of fun _ _ h => .abort ⟨rfl, h⟩

theorem Sim.ub (c : Cause) : Sim loose (M.ub c : M α) (M.ub c) := Sim.of fun _ _ h => .ub ⟨rfl, h⟩

theorem Sim.fail : Sim loose (M.fail : M α) M.fail := fun _ _ h => .err none h

theorem Sim.timeout {m : M α} : Sim loose M.timeout m := fun _ _ _ => .timeout _

theorem Sim.blame (c : Cause) {m m' : M α} (h : Sim loose m m') : Sim loose (M.blame c m) (M.blame c m') := by
  intro s s' hs
  have h1 := h s s' hs
  unfold M.blame
  generalize m s = o at h1 ⊢
  generalize m' s' = o' at h1 ⊢
  cases h1 with
  | timeout o => exact .timeout _
  | ok a h => exact .ok a h
  | err msg h => exact .err msg h
  | abort h => exact .abort ⟨by rw [h.same], h.bodies⟩
  | ub h => exact .ub ⟨by rw [h.same], h.bodies⟩

theorem Sim.assert (b : Bool) : Sim loose (M.assert b) (M.assert b) := by
  cases b with
  | true => exact Sim.pure _
  | false => exact Sim.abort _

theorem Sim.deref (o : Option α) (c : Cause) : Sim loose (M.deref o c) (M.deref o c) := by
  cases o with
  | some a => exact Sim.pure _
  | none => exact Sim.ub _

theorem Sim.ite {c : Prop} [Decidable c] {m m' k k' : M α} (h : c → Sim loose m m') (h' : ¬c → Sim loose k k') : Sim loose (if c then m else k) (if c then m' else k') := by
  by_cases hc : c
  · rw [if_pos hc, if_pos hc]
    exact h hc
  · rw [if_neg hc, if_neg hc]
    exact h' hc

theorem Sim.raise (msg : Bytes) : Sim loose (raise msg : M α) (raise msg) := by
  unfold Fl.raise
  exact Sim.ite (fun _ _ _ h => .err _ h) fun _ => Sim.abort _

theorem Sim.getCell (c : Nat) : Sim loose (getCell c) (getCell c) := Sim.of fun s bs h => by
  unfold Fl.getCell
  dsimp only
  cases s.cells[c]? with
  | some x => exact .ok _ (.of h)
  | none => exact .ub (.of h)

theorem Sim.getScope (c : Nat) : Sim loose (getScope c) (getScope c) := Sim.of fun s bs h => by
  unfold Fl.getScope
  dsimp only
  cases s.scopes[c]? with
  | some x =>
    dsimp only
    split
    · exact .ub (.of h)
    · exact .ok _ (.of h)
  | none => exact .ub (.of h)

theorem Sim.setCell (c : Nat) (x : Cell) : Sim loose (setCell c x) (setCell c x) := Sim.modify (fun _ _ => rfl) fun _ => rfl
theorem Sim.setScope (c : Nat) (x : Scope) : Sim loose (setScope c x) (setScope c x) := Sim.modify (fun _ _ => rfl) fun _ => rfl
theorem Sim.alloc (d : Data) : Sim loose (alloc d) (alloc d) := Sim.of fun _ _ h => .ok _ ⟨rfl, h⟩
theorem Sim.allocBuf (d : Bytes) : Sim loose (allocBuf d) (allocBuf d) := Sim.of fun _ _ h => .ok _ ⟨rfl, h⟩
theorem Sim.allocScope (x : Scope) : Sim loose (allocScope x) (allocScope x) := Sim.of fun _ _ h => .ok _ ⟨rfl, h⟩
theorem Sim.setStack (st : List Nat) : Sim loose (setStack st) (setStack st) := Sim.modify (fun _ _ => rfl) fun _ => rfl
theorem Sim.setRv (r : Rv) : Sim loose (setRv r) (setRv r) := Sim.modify (fun _ _ => rfl) fun _ => rfl
theorem Sim.getRv : Sim loose getRv getRv := Sim.of fun _ _ h => .ok _ ⟨rfl, h⟩
theorem Sim.modHost (f : Host → Host) : Sim loose (modHost f) (modHost f) := Sim.modify (fun _ _ => rfl) fun _ => rfl

theorem Sim.allocBody {b b' : Body} (hb : BodyLike loose b b') : Sim loose (allocBody b) (allocBody b') := Sim.of fun s bs h => by
  unfold Fl.allocBody
  dsimp only
  rw [h.length_eq]
  exact .ok _ ⟨rfl, List.rel_append h (.cons (.some hb) .nil)⟩

theorem slot_get {xs ys : List (Option Body)} (h : List.Forall₂ (SlotLike loose) xs ys) (i : Nat) :
    (xs[i]? = none ∧ ys[i]? = none) ∨ ∃ x y, xs[i]? = some x ∧ ys[i]? = some y ∧ SlotLike loose x y := by
  induction h generalizing i with
  | nil => exact .inl ⟨rfl, rfl⟩
  | cons hx _ ih =>
    cases i with
    | zero => exact .inr ⟨_, _, rfl, rfl, hx⟩
    | succ i => exact ih i

theorem slot_set {xs ys : List (Option Body)} (h : List.Forall₂ (SlotLike loose) xs ys) (i : Nat) :
    List.Forall₂ (SlotLike loose) (xs.set i none) (ys.set i none) := by
  induction h generalizing i with
  | nil => exact .nil
  | cons hx ht ih =>
    cases i with
    | zero => exact .cons .none ht
    | succ i => exact .cons hx (ih i)

theorem Sim.freeBody (o : Option Nat) : Sim loose (freeBody o) (freeBody o) := by
  cases o with
  | none => exact Sim.pure _
  | some i =>
    refine Sim.of fun s bs h => ?_
    simp only [Fl.freeBody, Bind.bind, M.bind, M.get]
    rcases slot_get h i with ⟨h1, h2⟩ | ⟨x, y, h1, h2, h3⟩
    · rw [h1, h2]
      exact .ub ⟨rfl, h⟩
    · rw [h1, h2]
      cases h3 with
      | none => exact .ub ⟨rfl, h⟩
      | some _ => exact .ok () ⟨rfl, slot_set h i⟩

/-- Looking at a script. -/
theorem Sim.getBody (o : Option Nat) {f f' : Body → M β} (hf : ∀ b b', BodyLike loose b b' → Sim loose (f b) (f' b')) : Sim loose (getBody o >>= f) (getBody o >>= f') := by
  cases o with
  | none => exact fun s s' h => .ub ⟨by rw [h.same], h.bodies⟩
  | some i =>
    refine Sim.of fun s bs h => ?_
    show OutLike loose (M.bind (Fl.getBody (some i)) f s) (M.bind (Fl.getBody (some i)) f' _)
    have e : ∀ s : St, Fl.getBody (some i) s = match s.bodies[i]? with
      | some (some x) => .ok x s
      | _ => .ub { s with cause := .other } := by
      intro s
      show (match s.bodies[i]? with
        | some (some x) => Pure.pure x
        | _ => M.ub : M Body) s = _
      rcases s.bodies[i]? with _ | (_ | _) <;> rfl
    unfold M.bind
    rw [e, e]
    rcases slot_get h i with ⟨h1, h2⟩ | ⟨x, y, h1, h2, h3⟩
    · dsimp only
      rw [h1, h2]
      exact .ub ⟨rfl, h⟩
    · dsimp only
      rw [h1, h2]
      cases h3 with
      | none => exact .ub ⟨rfl, h⟩
      | some h3 => exact hf _ _ h3 _ _ (.of h)

theorem Sim.each {f f' : α → M β} (h : ∀ a, Sim loose (f a) (f' a)) : ∀ as, Sim loose (each f as) (each f' as)
  | [] => Sim.pure _
  | a :: as => (h a).bind fun _ => (Sim.each h as).bind fun _ => Sim.pure _

theorem Sim.forEach {f f' : α → M Unit} (h : ∀ a, Sim loose (f a) (f' a)) : ∀ as, Sim loose (forEach f as) (forEach f' as)
  | [] => Sim.pure _
  | a :: as => (h a).bind fun _ => Sim.forEach h as

theorem Sim.optIter {f f' : α → M Unit} (h : ∀ a, Sim loose (f a) (f' a)) : ∀ o, Sim loose (optIter f o) (optIter f' o)
  | some a => h a
  | none => Sim.pure _

end

/-- Operations that look at no script. -/
abbrev Even (loose : Bool) (m : M α) : Prop := Sim loose m m

section
variable {loose : Bool} {α β : Type}

theorem Even.bind {m : M α} {f : α → M β} (h : Even loose m) (hf : ∀ a, Even loose (f a)) : Even loose (m >>= f) := Sim.bind h hf

/-- Looking at the state, but for the scripts. -/
theorem Even.get {f : St → M β} (h : ∀ s, Even loose (f s)) (hf : ∀ (s : St) bs, f { s with bodies := bs } = f s) : Even loose (M.get >>= f) :=
  Sim.get fun s bs => by rw [hf s bs]; exact h s

end

/-- Operations made of those above. -/
macro "alikeRun" : tactic => `(tactic| repeat' (first
  | assumption
  | with_reducible exact Sim.pure _
  | with_reducible exact Sim.raise _
  | with_reducible exact Sim.abort _
  | with_reducible exact Sim.ub _
  | with_reducible exact Sim.fail
  | with_reducible exact Sim.assert _
  | with_reducible exact Sim.deref _ _
  | with_reducible exact Sim.getCell _
  | with_reducible exact Sim.setCell _ _
  | with_reducible exact Sim.getScope _
  | with_reducible exact Sim.setScope _ _
  | with_reducible exact Sim.alloc _
  | with_reducible exact Sim.allocBuf _
  | with_reducible exact Sim.allocScope _
  | with_reducible exact Sim.setStack _
  | with_reducible exact Sim.setRv _
  | with_reducible exact Sim.getRv
  | with_reducible exact Sim.modHost _
  | with_reducible refine Even.get (fun _ => ?_) ?_
  | with_reducible refine Even.bind ?_ fun _ => ?_
  | exact fun (_ : St) (_ : List (Option Body)) => rfl
  | split))

section
variable {loose : Bool}

theorem Even.readBuf (b n : Nat) : Even loose (readBuf b n) := by
  unfold Fl.readBuf
  alikeRun

theorem Even.readStr (b n : Nat) : Even loose (readStr b n) := by
  unfold Fl.readStr
  alikeRun

theorem Even.allocStr (b : Bytes) : Even loose (allocStr b) := by
  unfold Fl.allocStr
  alikeRun

theorem Even.incref (c : Nat) : Even loose (incref c) := by
  unfold Fl.incref
  alikeRun

theorem Even.freeBuf (c : Nat) : Even loose (freeBuf c) := by
  unfold Fl.freeBuf
  refine Even.get (fun _ => ?_) (fun _ _ => rfl)
  split
  · exact Sim.modify (fun _ _ => rfl) fun _ => rfl
  · exact Sim.ub _

theorem Even.freeState (o : Option Nat) : Even loose (freeState o) := by
  cases o with
  | none => exact Sim.pure _
  | some i =>
    refine Even.get (fun _ => ?_) (fun _ _ => rfl)
    split
    · split
      · exact Sim.ub _
      · exact Sim.modify (fun _ _ => rfl) fun _ => rfl
    · exact Sim.ub _

theorem Even.strndup (b n : Nat) : Even loose (strndup b n) := (Even.readStr b n).bind fun _ => Sim.allocBuf _

theorem Even.copyData (d : Data) : Even loose (copyData d) := by
  unfold Fl.copyData
  split
  · exact (Even.strndup _ _).bind fun _ => Sim.pure _
  · exact Sim.pure _

theorem Even.readName (x : Cell) : Even loose (readName x) := by
  unfold Fl.readName
  alikeRun

theorem Even.valCopy (c : Nat) : Even loose (valCopy c) := by
  unfold Fl.valCopy
  exact (Sim.getCell _).bind fun _ => (Even.readName _).bind fun _ => (Even.copyData _).bind fun _ => Sim.of fun _ _ h => .ok _ ⟨rfl, h⟩

theorem Even.curStack : Even loose curStack := by
  unfold Fl.curStack
  alikeRun

theorem Even.closeOver : Even loose closeOver := Even.curStack.bind fun _ => Sim.of fun _ _ h => .ok _ ⟨rfl, h⟩

theorem Even.curScope : Even loose curScope := Even.curStack.bind fun _ => by alikeRun

theorem Even.attach (i : Nat) : Even loose (attach i) := Even.curStack.bind fun _ => by alikeRun

theorem Even.detach : Even loose detach := Even.curStack.bind fun _ => by alikeRun

theorem Even.topCls : Even loose topCls := Even.curStack.bind fun _ => by alikeRun

theorem Even.pushScope : Even loose pushScope := Even.topCls.bind fun _ => (Sim.allocScope _).bind fun _ => (Even.attach _).bind fun _ => Sim.pure _

theorem Even.shallowFind (i : Nat) (key : Bytes) : Even loose (shallowFind i key) := by
  unfold Fl.shallowFind
  alikeRun

theorem Even.findIn (key : Bytes) : ∀ st, Even loose (findIn key st)
  | [] => Sim.pure _
  | i :: st => (Even.shallowFind i key).bind fun o => by
    have := Even.findIn key st
    alikeRun

theorem Even.findVar (key : Bytes) : Even loose (findVar key) := Even.curStack.bind fun _ => Even.findIn _ _

theorem Even.getVar (p : Nat × Nat) : Even loose (getVar p) := by
  unfold Fl.getVar
  alikeRun

theorem Even.setVar (p : Nat × Nat) (c : Nat) : Even loose (setVar p c) := by
  unfold Fl.setVar
  alikeRun

theorem Even.addVar (i : Nat) (v : Var) : Even loose (addVar i v) := by
  unfold Fl.addVar
  alikeRun

theorem Even.setName (c : Nat) (k : Bytes) (i : Nat) : Even loose (setName c k i) := by
  unfold Fl.setName
  alikeRun

theorem Even.setOwnerOf (c i : Nat) : Even loose (setOwnerOf c i) := by
  unfold Fl.setOwnerOf
  alikeRun

end

/-! ## bob's classes -/

section
variable {loose : Bool}

theorem Even.strElems (c : Nat) : Even loose (strElems c) := by
  unfold Fl.strElems
  refine (Sim.getCell _).bind fun _ => ?_
  split
  · refine Sim.each (fun e => ?_) _
    have := @Even.readBuf loose
    refine Even.bind (Sim.getCell _) fun _ => ?_
    split
    · exact this _ _
    · exact Sim.fail
  · exact Sim.fail

theorem Even.addStep (u : Uniq) (k : StepKind) (d : ReqData) : Even loose (addStep u k d) := by
  unfold Fl.addStep
  alikeRun

theorem Even.objPath (w : World) (c : Nat) : Even loose (objPath w c) := by
  unfold Fl.objPath
  refine (Sim.getCell _).bind fun _ => ?_
  split
  · refine (Even.readBuf _ _).bind fun _ => ?_
    split
    · exact Sim.ub _
    · exact Even.allocStr _
  · exact Sim.fail

theorem Even.prepCompile (w : World) (st : Option Nat) (args : List Nat) : Even loose (prepCompile w st args) := by
  unfold Fl.prepCompile
  split
  · refine (Sim.getCell _).bind fun _ => ?_
    split
    · exact (Sim.each (Even.objPath w) _).bind fun _ => (Sim.alloc _).bind fun _ => (Even.addStep _ _ _).bind fun _ => Sim.pure _
    · exact Sim.fail
  · exact Sim.fail

theorem Even.prepLink (w : World) (st : Option Nat) (args : List Nat) (ar : Bool) : Even loose (prepLink w st args ar) := by
  unfold Fl.prepLink
  split
  · exact (Even.strElems _).bind fun _ => (Even.allocStr _).bind fun _ => Even.get (fun _ => (Even.addStep _ _ _).bind fun _ => Sim.pure _) fun _ _ => rfl
  · exact Sim.fail

theorem Even.fsList (w : World) (args : List Nat) : Even loose (fsList w args) := by
  unfold Fl.fsList
  split
  · refine (Sim.getCell _).bind fun _ => ?_
    split
    · refine (Even.readStr _ _).bind fun _ => ?_
      split
      · exact Sim.fail
      · exact (Sim.each Even.allocStr _).bind fun _ => Sim.alloc _
    · exact Sim.abort _
  · exact Sim.abort _

theorem Even.data (o : Owner) : Even loose o.data := by
  cases o with
  | nobody => exact Sim.ub _
  | _ => exact Sim.pure _

theorem Even.ccCall (w : World) (o : Owner) (name : Bytes) (args : List Nat) : Even loose (ccCall w o name args) := by
  unfold Fl.ccCall
  refine (Even.data o).bind fun _ => Sim.ite (fun _ => ?_) fun _ => Sim.pure _
  exact (Sim.deref _ _).bind fun _ => (Even.prepCompile _ _ _).bind fun _ => Sim.pure _

theorem Even.linkerCall (w : World) (o : Owner) (name : Bytes) (args : List Nat) : Even loose (linkerCall w o name args) := by
  unfold Fl.linkerCall
  refine (Even.data o).bind fun _ => Sim.ite (fun _ => ?_) fun _ => Sim.ite (fun _ => ?_) fun _ => Sim.pure _
  · exact (Sim.deref _ _).bind fun _ => (Even.prepLink _ _ _ _).bind fun _ => Sim.pure _
  · exact (Sim.deref _ _).bind fun _ => (Even.prepLink _ _ _ _).bind fun _ => Sim.pure _

theorem Even.findOwner (c : Nat) : Even loose (findOwner c) := by
  unfold Fl.findOwner
  alikeRun

theorem Even.fsCall (w : World) (c : Nat) (args : List Nat) : Even loose (fsCall w c args) := by
  unfold Fl.fsCall
  exact Even.get (fun _ => Sim.ite (fun _ => (Even.fsList _ _).bind fun _ => Sim.pure _) fun _ => Sim.pure _) fun _ _ => rfl

theorem Even.askClass (o : Owner) (k : Option Nat) {m : M (Option Nat)} (h : Even loose m) : Even loose (askClass o k m) := Sim.ite (fun _ => Sim.pure _) fun _ => h

theorem Even.externFn (w : World) (c : Nat) (args : List Nat) : Even loose (externFn w c args) := by
  unfold Fl.externFn
  refine (Sim.getCell _).bind fun _ => (Even.findOwner _).bind fun _ => Even.get (fun _ => ?_) fun _ _ => rfl
  refine (Even.askClass _ _ (Even.fsCall _ _ _)).bind fun o => ?_
  split
  · exact Sim.pure _
  · refine (Even.readName _).bind fun _ => (Even.askClass _ _ (Even.ccCall _ _ _ _)).bind fun o => ?_
    split
    · exact Sim.pure _
    · refine (Even.askClass _ _ (Even.linkerCall _ _ _ _)).bind fun o => ?_
      split
      · exact Sim.pure _
      · exact Sim.raise _

theorem Even.classDecl (c : Nat) : Even loose (classDecl c) := by
  unfold Fl.classDecl
  alikeRun

theorem Even.checkFlags (c : Nat) : Even loose (checkFlags c) := by
  unfold Fl.checkFlags
  refine (Sim.getCell _).bind fun _ => ?_
  split
  · refine Sim.forEach (fun e => ?_) _
    refine Even.bind (Sim.getCell _) fun _ => ?_
    split
    · exact Sim.pure _
    · exact Sim.fail
  · exact Sim.fail

theorem Even.instantiate (c : Nat) (args : List Nat) : Even loose (instantiate c args) := by
  unfold Fl.instantiate
  split
  · refine (Even.checkFlags _).bind fun _ => Even.get (fun _ => ?_) fun _ _ => rfl
    alikeRun
  · exact Sim.fail

theorem Even.nameIs (x : Cell) (n : Bytes) : Even loose (nameIs x n) := Sim.ite (fun _ => (Even.readName _).bind fun _ => Sim.pure _) fun _ => Sim.pure _

theorem Even.classInst (c : Nat) (args : List Nat) : Even loose (classInst c args) := by
  unfold Fl.classInst
  refine (Sim.getCell _).bind fun _ => ?_
  split
  · refine (Sim.getCell _).bind fun _ => (Even.nameIs _ _).bind fun _ => Sim.ite (fun _ => Even.instantiate _ _) fun _ => ?_
    exact (Even.nameIs _ _).bind fun _ => Sim.ite (fun _ => Even.instantiate _ _) fun _ => Sim.pure _
  · exact Sim.ub _

/-! ## The interpreter, without recursion -/

theorem Even.checkDest (d : Dest) : Even loose (checkDest d) := by
  unfold Fl.checkDest
  alikeRun

theorem Even.unknownOp {α : Type} (t : Bytes) (d : Data) : Even loose (unknownOp t d : M α) := Sim.raise _

theorem Even.opResult (op : BinOp) (d : Data) (r : OpRes) : Even loose (opResult op d r) := by
  unfold Fl.opResult
  have := @Even.unknownOp loose Nat
  split
  any_goals exact this _ _
  all_goals alikeRun

theorem Even.copyEntry (e : Nat × Nat) : Even loose (copyEntry e) := (Even.valCopy _).bind fun _ => (Even.valCopy _).bind fun _ => Sim.pure _

theorem Even.applyUn (op : UnOp) (d : Data) : Even loose (applyUn op d) := by
  unfold Fl.applyUn
  split
  · alikeRun
  · alikeRun
  · exact Even.unknownOp _ _

theorem Even.evalLit (l : Lit) : Even loose (evalLit l) := by
  unfold Fl.evalLit
  split
  · alikeRun
  · alikeRun
  · alikeRun
  · exact Even.allocStr _

theorem Even.evalIdent (x : Bytes) : Even loose (evalIdent x) := by
  unfold Fl.evalIdent
  refine (Even.findVar _).bind fun o => ?_
  split
  · exact Sim.raise _
  · exact (Even.getVar _).bind fun _ => (Sim.deref _ _).bind fun _ => (Even.incref _).bind fun _ => Sim.pure _

theorem Sim.evalLambda (ps : List Bytes) {b b' : Body} (h : BodyLike loose b b') : Sim loose (evalLambda ps b) (evalLambda ps b') :=
  Sim.bind Even.closeOver fun _ => (Sim.allocBody h).bind fun _ => Sim.alloc _

theorem Even.bindArgs (i : Nat) : ∀ ks cs, Even loose (bindArgs i ks cs)
  | [], _ => Sim.pure _
  | _ :: _, [] => Sim.pure _
  | k :: ks, c :: cs => by
    unfold Fl.bindArgs
    refine (Even.addVar _ _).bind fun _ => (Even.setName _ _ _).bind fun _ => Even.bind ?_ fun _ => Even.bindArgs i ks cs
    unfold Fl.bindArgs.setVar'
    exact (Sim.getScope _).bind fun _ => Even.setVar _ _

theorem Even.strCompare (t : Bytes → Bytes → Bool) (a b c d : Nat) : Even loose (strCompare t a b c d) :=
  Sim.ite (fun _ => (Even.readBuf _ _).bind fun _ => (Even.readBuf _ _).bind fun _ => Sim.pure _) fun _ => Sim.pure _

theorem Even.strTest (what arg : Bytes) (t : Bytes → Bytes → Bool) (buf size c : Nat) : Even loose (strTest what arg t buf size c) := by
  unfold Fl.strTest
  refine (Sim.getCell _).bind fun _ => ?_
  split
  · exact (Even.strCompare _ _ _ _ _).bind fun _ => Sim.alloc _
  · exact Sim.raise _

theorem Even.fnArg (what : Bytes) (args : List Nat) : Even loose (fnArg what args) := by
  unfold Fl.fnArg
  alikeRun

theorem Even.getVec (c : Nat) : Even loose (getVec c) := by
  unfold Fl.getVec
  alikeRun

theorem Even.makeInst (c i : Nat) (d : Dest) (args : List Nat) : Even loose (makeInst c i d args) := by
  unfold Fl.makeInst
  exact (Even.checkDest _).bind fun _ => (Sim.alloc _).bind fun _ => (Sim.getScope _).bind fun _ => (Sim.setScope _ _).bind fun _ =>
    (Even.classInst _ _).bind fun _ => (Sim.setRv _).bind fun _ => Sim.pure _

theorem Even.rvValue (r : Rv) : Even loose (rvValue r) := by
  unfold Fl.rvValue
  alikeRun

theorem Even.instScope (o : Option Nat) : Even loose (instScope o) := by
  unfold Fl.instScope
  alikeRun

theorem Even.setupArgs (i : Nat) (f : FnData) (args : List Nat) : Even loose (setupArgs i f args) := by
  unfold Fl.setupArgs
  split
  · exact Even.bindArgs _ _ _
  · exact Sim.ite (fun _ => Even.bindArgs _ _ _) fun _ => Sim.raise _

theorem Even.enter (f : FnData) (inst : Option Nat) : Even loose (enter f inst) := by
  unfold Fl.enter
  refine Even.bind (Sim.modify (fun _ _ => rfl) fun _ => rfl) fun _ => ?_
  exact (Sim.optIter Even.attach _).bind fun _ => Even.pushScope.bind fun _ => (Sim.getScope _).bind fun _ => (Sim.setScope _ _).bind fun _ => Sim.pure _

theorem Even.leave (prev : Eng) (inst : Option Nat) : Even loose (leave prev inst) := by
  unfold Fl.leave
  refine Even.detach.bind fun _ => Even.bind ?_ fun _ => Sim.modify (fun _ _ => rfl) fun _ => rfl
  exact Sim.optIter (fun _ => Even.detach.bind fun _ => Sim.pure _) _

theorem Even.returning : Even loose returning := by
  unfold Fl.returning
  refine Even.get (fun s => ?_) fun _ _ => rfl
  split
  · exact Sim.pure _
  · refine Sim.ite (fun _ => Sim.pure _) fun _ => ?_
    exact Sim.getBody _ fun _ _ _ => Sim.pure _

end

end Bob.Fl
