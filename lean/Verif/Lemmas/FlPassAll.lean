import Verif.Lemmas.FlPass
import Verif.Lemmas.FlFrameRun
/-!
# What holds throughout a run: statements and calls
-/

namespace Bob.Fl

/-- What is needed of the elementary operations of declarations and assignments. -/
structure Ly (T : St → St → Prop) : Prop extends Lv T where
  allocScope : ∀ x, Keeps T (allocScope x)
  setStack : ∀ st, Keeps T (setStack st)
  addVar : ∀ i v, Keeps T (addVar i v)
  setVar : ∀ p c, Keeps T (setVar p c)
  setName : ∀ c k i, Keeps T (setName c k i)
  setOwnerOf : ∀ c i, Keeps T (setOwnerOf c i)
  overwrite : ∀ (c r : Nat) (y : Cell) (s : St), s.cells[r]? = some y → T s { s with cells := s.cells.set c y }
  setFn : ∀ (c : Nat) (y : Cell) (f : FnData) (s : St), y.data = .fn f → T s { s with cells := s.cells.set c y }
  host : ∀ (s : St) h, T s { s with host := h }
  out : ∀ (s : St) l, T s { s with out := s.out ++ l }

/-- What is needed of the elementary operations of calls and imports. -/
structure Lx (w : World) (T : St → St → Prop) : Prop extends Ly T where
  eng : ∀ (s : St) g, T s { s with eng := g }
  setCls : ∀ (i : Nat) (x : Scope) (b : Bool) (s : St), s.scopes[i]? = some x → T s { s with scopes := s.scopes.set i { x with cls := b } }
  makeInst : ∀ c i d args, Keeps T (makeInst c i d args)
  calls : ∀ (s : St) l, T s { s with calls := s.calls ++ l }
  members : ∀ (s : St), T s { s with cells := s.cells ++ ptmCells }

/-- What is needed of the recursive functions for declarations. -/
structure RecMem (T : St → St → Prop) (R : Rec) : Prop extends RecT T R where
  member : ∀ s, Keeps T (R.member s)

/-- What is needed of all recursive functions. -/
structure RecAll (T : St → St → Prop) (R : Rec) : Prop extends RecMem T R where
  exec : ∀ s, Keeps T (R.exec s)

theorem Ly.modHost {T : St → St → Prop} (hT : Ly T) (f : Host → Host) : Keeps T (modHost f) := ⟨fun h => by cases h; exact hT.host _ _⟩

syntax "keepsH " term:max : tactic
macro_rules
  | `(tactic| keepsH $t) => `(tactic| repeat' (first
      | exact Ly.modHost $t _
      | exact Lv.allocStr (Ly.toLv $t) _
      | keepsT (Ly.toLv $t)))

section
variable {T : St → St → Prop} (hT : Ly T)
include hT

theorem p_attach (i : Nat) : Keeps T (attach i) := keeps_bind hT.trn (keeps_curStack hT.trn) fun _ => hT.setStack _

theorem p_detach : Keeps T detach := by
  unfold detach
  refine keeps_bind hT.trn (keeps_curStack hT.trn) fun _ => ?_
  split
  · exact keeps_abort
  · exact keeps_bind hT.trn (hT.setStack _) fun _ => keeps_pure hT.trn _

theorem p_pushScope : Keeps T pushScope :=
  keeps_bind hT.trn (keeps_topCls hT.trn) fun _ => keeps_bind hT.trn (hT.allocScope _) fun _ => keeps_bind hT.trn (p_attach hT _) fun _ => keeps_pure hT.trn _

theorem p_addStep (u : Uniq) (k : StepKind) (d : ReqData) : Keeps T (addStep u k d) := by
  unfold addStep
  keepsH hT

theorem p_prepCompile (w : World) (st : Option Nat) (args : List Nat) : Keeps T (prepCompile w st args) := by
  have h := p_addStep hT
  have ho : ∀ c, Keeps T (objPath w c) := by
    intro c
    unfold objPath
    refine keeps_bind hT.trn (keeps_getCell hT.trn _) fun x => ?_
    split
    · refine keeps_bind hT.trn (keeps_readBuf hT.trn _ _) fun p => ?_
      split
      · exact keeps_ub
      · exact hT.toLv.allocStr _
    · exact keeps_fail
  unfold prepCompile
  split
  · refine keeps_bind hT.trn (keeps_getCell hT.trn _) fun x => ?_
    split
    · exact keeps_bind hT.trn (keeps_each hT.trn ho _) fun _ =>
        keeps_bind hT.trn (hT.alloc _ nofun) fun _ => keeps_bind hT.trn (h _ _ _) fun _ => keeps_pure hT.trn _
    · exact keeps_fail
  · exact keeps_fail

theorem p_prepLink (w : World) (st : Option Nat) (args : List Nat) (a : Bool) : Keeps T (prepLink w st args a) := by
  have h := p_addStep hT
  unfold prepLink
  split
  · exact keeps_bind hT.trn (keeps_strElems hT.trn _) fun _ => keeps_bind hT.trn (hT.toLv.allocStr _) fun _ =>
      keeps_bind hT.trn (keeps_get hT.trn) fun _ => keeps_bind hT.trn (h _ _ _) fun _ => keeps_pure hT.trn _
  · exact keeps_fail

theorem p_fsList (w : World) (args : List Nat) : Keeps T (fsList w args) := by
  unfold fsList
  keepsH hT

theorem p_externFn (w : World) (c : Nat) (args : List Nat) : Keeps T (externFn w c args) := by
  have h1 := p_prepCompile hT w
  have h2 := p_prepLink hT w
  have h3 := p_fsList hT w
  have h4 := @keeps_ownerData T hT.trn
  have hfs : Keeps T (fsCall w c args) := by
    unfold fsCall
    refine keeps_bind hT.trn (keeps_get hT.trn) fun s => ?_
    split
    · exact keeps_bind hT.trn (h3 _) fun _ => keeps_pure hT.trn _
    · exact keeps_pure hT.trn _
  have hcc : ∀ o n, Keeps T (ccCall w o n args) := by
    intro o n
    unfold ccCall
    refine keeps_bind hT.trn (h4 o) fun d => ?_
    split
    · exact keeps_bind hT.trn (keeps_deref hT.trn _) fun _ => keeps_bind hT.trn (h1 _ _) fun _ => keeps_pure hT.trn _
    · exact keeps_pure hT.trn _
  have hl : ∀ o n, Keeps T (linkerCall w o n args) := by
    intro o n
    unfold linkerCall
    refine keeps_bind hT.trn (h4 o) fun d => ?_
    split
    · exact keeps_bind hT.trn (keeps_deref hT.trn _) fun _ => keeps_bind hT.trn (h2 _ _ _) fun _ => keeps_pure hT.trn _
    · split
      · exact keeps_bind hT.trn (keeps_deref hT.trn _) fun _ => keeps_bind hT.trn (h2 _ _ _) fun _ => keeps_pure hT.trn _
      · exact keeps_pure hT.trn _
  have ha : ∀ o v m, Keeps T m → Keeps T (askClass o v m) := by
    intro o v m hm
    unfold askClass
    split
    · exact keeps_pure hT.trn _
    · exact hm
  unfold externFn
  refine keeps_bind hT.trn (keeps_getCell hT.trn _) fun x => keeps_bind hT.trn (keeps_findOwner hT.trn _) fun o =>
    keeps_bind hT.trn (keeps_get hT.trn) fun s => keeps_bind hT.trn (ha _ _ _ hfs) fun r => ?_
  split
  · exact keeps_pure hT.trn _
  · refine keeps_bind hT.trn (keeps_readName hT.trn _) fun _ => keeps_bind hT.trn (ha _ _ _ (hcc _ _)) fun r => ?_
    split
    · exact keeps_pure hT.trn _
    · refine keeps_bind hT.trn (ha _ _ _ (hl _ _)) fun r => ?_
      split
      · exact keeps_pure hT.trn _
      · exact keeps_raise _

theorem p_classDecl (c : Nat) : Keeps T (classDecl c) := by
  unfold classDecl
  keepsH hT

theorem p_bindArgs (i : Nat) : ∀ ks cs, Keeps T (bindArgs i ks cs)
  | [], _ => keeps_pure hT.trn _
  | _ :: _, [] => keeps_pure hT.trn _
  | k :: ks, c :: cs => by
    have ih := p_bindArgs i ks cs
    unfold bindArgs
    exact keeps_bind hT.trn (hT.addVar _ _) fun _ => keeps_bind hT.trn (hT.setName _ _ _) fun _ => keeps_bind hT.trn
      (keeps_bind hT.trn (keeps_getScope hT.trn _) fun _ => hT.setVar _ _) fun _ => ih

theorem p_setupArgs (i : Nat) (f : FnData) (args : List Nat) : Keeps T (setupArgs i f args) := by
  unfold setupArgs
  split
  · exact p_bindArgs hT _ _ _
  · exact keeps_ite (p_bindArgs hT _ _ _) (keeps_raise _)

variable {R : Rec} (hR : RecMem T R)
include hR

theorem p_initVal (e : Option Expr) : Keeps T (initVal R e) := by
  cases e with
  | none => exact hT.alloc _ nofun
  | some e => exact p_value hT.toLv hR.toRecT e

theorem p_declVar (st : Bool) (name : Bytes) (e : Option Expr) : Keeps T (declVar R st name e) := by
  unfold declVar
  refine keeps_bind hT.trn (keeps_curScope hT.trn) fun i => keeps_bind hT.trn (keeps_getScope hT.trn _) fun _ => ?_
  split
  · exact keeps_bind hT.trn (keeps_deref hT.trn _) fun _ => keeps_bind hT.trn (keeps_deref hT.trn _) fun _ => keeps_bind hT.trn (keeps_getCell hT.trn _) fun _ => keeps_raise _
  · exact keeps_bind hT.trn (hT.addVar _ _) fun _ => keeps_bind hT.trn (p_initVal hT hR _) fun _ => keeps_bind hT.trn (hT.setVar _ _) fun _ => hT.setOwnerOf _ _

theorem p_declFn (kind : FnKind) (st : Bool) (name : Bytes) (ps : List Bytes) (body : Option (List Stmt)) : Keeps T (declFn R kind st name ps body) := by
  have hblock : Keeps T (allocBlock body) := by
    cases body with
    | none => exact keeps_pure hT.trn _
    | some ss => exact keeps_bind hT.trn (hT.allocBody _) fun _ => keeps_pure hT.trn _
  unfold declFn
  refine keeps_bind hT.trn (keeps_curScope hT.trn) fun i => keeps_bind hT.trn (keeps_getScope hT.trn _) fun _ => ?_
  split
  · exact keeps_bind hT.trn (keeps_deref hT.trn _) fun _ => keeps_bind hT.trn (keeps_deref hT.trn _) fun _ => keeps_bind hT.trn (keeps_getCell hT.trn _) fun _ => keeps_raise _
  · refine keeps_bind hT.trn (hT.addVar _ _) fun _ => keeps_bind hT.trn (hT.alloc _ nofun) fun _ => keeps_bind hT.trn (hT.setVar _ _) fun _ =>
      keeps_bind hT.trn (hT.setName _ _ _) fun _ => keeps_bind hT.trn (hT.setOwnerOf _ _) fun _ => keeps_bind hT.trn hT.closeOver fun _ =>
      keeps_bind hT.trn hblock fun _ => keeps_bind hT.trn (keeps_getCell hT.trn _) fun _ => keeps_bind hT.trn ⟨fun h => by cases h; exact hT.setFn _ _ _ _ rfl⟩ fun _ =>
      keeps_ite ?_ (keeps_pure hT.trn _)
    exact keeps_bind hT.trn (hT.allocScope _) fun _ => keeps_bind hT.trn ⟨fun h => by cases h; exact hT.setFn _ _ _ _ rfl⟩ fun _ => keeps_bind hT.trn (p_attach hT _) fun _ =>
      keeps_bind hT.trn (keeps_forEach hT.trn hR.member _) fun _ => keeps_bind hT.trn (p_detach hT) fun _ => p_classDecl hT _

theorem p_stepMember (s : Stmt) : Keeps T (stepMember R s) := by
  unfold stepMember
  split
  · exact p_declFn hT hR _ _ _ _ _
  · exact p_declFn hT hR _ _ _ _ _
  · exact p_declVar hT hR _ _ _
  · exact p_declFn hT hR _ _ _ _ _
  · exact keeps_pure hT.trn _

theorem p_store (p : Option (Nat × Nat)) (c r : Nat) : Keeps T (store R p c r) := by
  unfold store
  split
  · exact keeps_bind hT.trn (hR.dec _) fun _ => keeps_bind hT.trn (keeps_getVar hT.trn _) fun _ => keeps_bind hT.trn (hT.setVar _ _) fun _ => hT.setName _ _ _
  · refine ⟨fun {s a s'} h => ?_⟩
    simp only [bind_ok_iff, getCell_ok_iff, setCell_apply, Out.ok.injEq] at h
    obtain ⟨y, s1, ⟨hy, rfl⟩, _, rfl⟩ := h
    exact hT.overwrite _ _ _ _ hy

theorem p_assignTo (p : Option (Nat × Nat)) (v : Option Nat) (t : Bytes) (e : Expr) : Keeps T (assignTo R p v t e) := by
  unfold assignTo
  refine keeps_bind hT.trn (keeps_deref hT.trn _) fun _ => keeps_bind hT.trn (keeps_getCell hT.trn _) fun _ => keeps_ite (keeps_raise _) ?_
  refine keeps_bind hT.trn (p_value hT.toLv hR.toRecT _) fun _ => keeps_bind hT.trn (p_store hT hR _ _ _) fun _ => keeps_bind hT.trn (keeps_getCell hT.trn _) fun _ => ?_
  exact keeps_ite (keeps_raise _) (keeps_pure hT.trn _)

theorem p_assign (l : Lhs) (e : Expr) : Keeps T (assign R l e) := by
  unfold assign
  split
  · refine keeps_bind hT.trn (keeps_findVar hT.trn _) fun _ => ?_
    split
    · exact keeps_raise _
    · exact keeps_bind hT.trn (keeps_getVar hT.trn _) fun _ => p_assignTo hT hR _ _ _ _
  · refine keeps_bind hT.trn (p_accessFind hT.toLv hR.toRecT _ _) fun _ => ?_
    split
    split
    · exact p_assignTo hT hR _ _ _ _
    · exact keeps_bind hT.trn (keeps_deref hT.trn _) fun _ => keeps_bind hT.trn (keeps_getCell hT.trn _) fun _ => keeps_raise _
  · exact keeps_bind hT.trn (p_evalIndex hT.toLv hR.toRecT _ _ _) fun _ => p_assignTo hT hR _ _ _ _

theorem p_doAssert (e : Expr) (t : Bytes) : Keeps T (doAssert R e t) := by
  unfold doAssert
  refine keeps_bind hT.trn (p_value hT.toLv hR.toRecT _) fun _ => keeps_bind hT.trn (keeps_getCell hT.trn _) fun _ => ?_
  split
  · exact keeps_ite (hR.dec _) (keeps_raise _)
  · exact keeps_raise _

theorem p_doPrint (e : Expr) : Keeps T (doPrint R e) := by
  unfold doPrint
  refine keeps_bind hT.trn (p_value hT.toLv hR.toRecT _) fun _ => keeps_bind hT.trn (p_stepRepr hT.toLv hR.repr _ _) fun _ => keeps_bind hT.trn ⟨fun h => ?_⟩ fun _ => hR.dec _
  cases h
  exact hT.out _ _

end

section
variable {w : World} {T : St → St → Prop} (hT : Lx w T)
include hT

theorem p_setRv (r : Rv) : Keeps T (setRv r) := ⟨fun h => by cases h; exact hT.eng _ _⟩

theorem p_enter (f : FnData) (inst : Option Nat) : Keeps T (enter f inst) := by
  unfold enter
  refine keeps_bind hT.trn ⟨fun h => by cases h; exact hT.eng _ _⟩ fun _ => keeps_bind hT.trn (keeps_optIter hT.trn (p_attach hT.toLy) _) fun _ =>
    keeps_bind hT.trn (p_pushScope hT.toLy) fun i => ⟨fun {s a s'} h => ?_⟩
  simp only [bind_ok_iff, getScope_ok_iff, setScope_apply, Out.ok.injEq, pure_apply] at h
  obtain ⟨x, s1, ⟨hx, _, rfl⟩, _, s2, ⟨_, rfl⟩, _, rfl⟩ := h
  exact hT.setCls _ _ _ _ hx

theorem p_leave (prev : Eng) (inst : Option Nat) : Keeps T (leave prev inst) := by
  unfold leave
  exact keeps_bind hT.trn (p_detach hT.toLy) fun _ => keeps_bind hT.trn (keeps_optIter hT.trn (fun _ => keeps_bind hT.trn (p_detach hT.toLy) fun _ => keeps_pure hT.trn _) _) fun _ =>
    ⟨fun h => by cases h; exact hT.eng _ _⟩

variable {R : Rec} (hR : RecAll T R)
include hR

theorem p_execBlock (ss : List Stmt) : Keeps T (execBlock R ss) := by
  unfold execBlock
  exact keeps_bind hT.trn (p_pushScope hT.toLy) fun _ => keeps_bind hT.trn (keeps_forEach hT.trn hR.exec _) fun _ => p_detach hT.toLy

theorem p_runBody (c : Nat) (f : FnData) (acc : Option Nat) (d : Dest) (args : List Nat) : Keeps T (runBody w R c f acc d args) := by
  unfold runBody
  split
  · exact keeps_bind hT.trn (keeps_getRv hT.trn) fun _ => keeps_bind hT.trn (keeps_assert hT.trn _) fun _ =>
      keeps_bind hT.trn (p_externFn hT.toLy _ _ _) fun _ => keeps_bind hT.trn ⟨fun h => by cases h; exact hT.calls _ _⟩ fun _ => keeps_bind hT.trn (p_setRv hT _) fun _ => keeps_pure hT.trn _
  · exact keeps_bind hT.trn (keeps_getRv hT.trn) fun _ => keeps_bind hT.trn (keeps_assert hT.trn _) fun _ =>
      keeps_bind hT.trn (p_runPtm hT.toLv hR.toRecT _ _ _) fun _ => keeps_bind hT.trn (p_setRv hT _) fun _ => keeps_pure hT.trn _
  · refine keeps_bind hT.trn (keeps_getBody hT.trn _) fun _ => ?_
    split
    · exact keeps_bind hT.trn (keeps_assert hT.trn _) fun _ => keeps_bind hT.trn (hR.eval _ _) fun _ => keeps_pure hT.trn _
    · exact keeps_bind hT.trn (p_execBlock hT hR _) fun _ => keeps_pure hT.trn _

theorem p_takeRv (d : Dest) : Keeps T (takeRv R d) := by
  unfold takeRv
  split
  · exact keeps_abort
  · refine keeps_bind hT.trn (keeps_getRv hT.trn) fun _ => keeps_bind hT.trn ?_ fun _ => keeps_bind hT.trn (p_setRv hT _) fun _ => keeps_pure hT.trn _
    unfold dropRv
    split
    · exact keeps_pure hT.trn _
    · exact hR.dec _
    · exact keeps_ub
  · refine keeps_bind hT.trn (keeps_getRv hT.trn) fun _ => keeps_bind hT.trn ?_ fun _ => keeps_bind hT.trn (p_setRv hT _) fun _ => keeps_pure hT.trn _
    unfold rvValue
    split
    · exact hT.alloc _ nofun
    · exact keeps_pure hT.trn _
    · exact keeps_ub

theorem p_finish (c : Nat) (sc : Option Nat) (d : Dest) (args : List Nat) : Keeps T (finish R c sc d args) := by
  unfold finish
  refine keeps_bind hT.trn (keeps_getCell hT.trn _) fun _ => ?_
  split
  · refine keeps_ite (keeps_ite ?_ ?_) (p_takeRv hT hR _)
    · exact keeps_bind hT.trn (p_setRv hT _) fun _ => keeps_pure hT.trn _
    · exact keeps_bind hT.trn (keeps_deref hT.trn _) fun _ => hT.makeInst _ _ _ _
  · exact keeps_ub

theorem p_afterCall (c : Nat) (k : FnKind) (d : Dest) (args : List Nat) (ran : Ran) : Keeps T (afterCall R c k d args ran) := by
  unfold afterCall
  split
  · exact keeps_bind hT.trn (p_setRv hT _) fun _ => keeps_pure hT.trn _
  · exact p_finish hT hR _ _ _ _
  · exact p_finish hT hR _ _ _ _

theorem p_stepCall (c : Nat) (acc : Option Nat) (d : Dest) (args : List Nat) : Keeps T (stepCall w R c acc d args) := by
  unfold stepCall
  refine keeps_bind hT.trn (keeps_getCell hT.trn _) fun x => ?_
  split
  · exact keeps_bind hT.trn (keeps_instScope hT.trn _) fun _ => keeps_bind hT.trn (keeps_get hT.trn) fun _ => keeps_bind hT.trn (p_enter hT _ _) fun _ =>
      keeps_bind hT.trn (p_setupArgs hT.toLy _ _ _) fun _ => keeps_bind hT.trn (p_runBody hT hR _ _ _ _ _) fun _ => keeps_bind hT.trn (p_leave hT _ _) fun _ =>
      p_afterCall hT hR _ _ _ _ _
  · exact keeps_ub

theorem p_doReturn (e : Option Expr) : Keeps T (doReturn R e) := by
  unfold doReturn
  refine keeps_bind hT.trn (keeps_curStack hT.trn) fun _ => keeps_ite (keeps_raise _) ?_
  refine keeps_bind hT.trn (keeps_curScope hT.trn) fun _ => keeps_bind hT.trn (keeps_getScope hT.trn _) fun _ => keeps_ite (keeps_raise _) ?_
  refine keeps_bind hT.trn (keeps_getRv hT.trn) fun _ => keeps_bind hT.trn (keeps_assert hT.trn _) fun _ => keeps_ite (p_setRv hT _) ?_
  split
  · refine keeps_bind hT.trn (hR.eval _ _) fun _ => ?_
    split
    · exact p_setRv hT _
    · exact keeps_pure hT.trn _
  · exact keeps_bind hT.trn (hT.alloc _ nofun) fun _ => p_setRv hT _

theorem p_doImport (rel : Bool) (bits : List Bytes) : Keeps T (doImport w R rel bits) := by
  unfold doImport
  refine keeps_bind hT.trn (keeps_get hT.trn) fun _ => ?_
  dsimp only
  split
  · exact keeps_raise _
  · exact keeps_raise _
  · exact keeps_raise _
  · refine ⟨fun {s a s'} h => ?_⟩
    have h := onErr_ok h
    refine Keeps.out (m := inEngine (forEach R.exec _)) (keeps_bind hT.trn (keeps_get hT.trn) fun _ => keeps_bind hT.trn ⟨fun h => ?_⟩ fun _ =>
      keeps_bind hT.trn (keeps_forEach hT.trn hR.exec _) fun _ => ⟨fun h => ?_⟩) h
    · cases h
      exact hT.trn.trans (hT.members _) (hT.eng _ _)
    · cases h
      exact hT.eng _ _

theorem p_stepExec (s : Stmt) : Keeps T (stepExec w R s) := by
  unfold stepExec
  split
  · exact keeps_pure hT.trn _
  · exact keeps_bind hT.trn (p_execBlock hT hR _) fun _ => keeps_pure hT.trn _
  · exact p_declFn hT.toLy hR.toRecMem _ _ _ _ _
  · exact p_declFn hT.toLy hR.toRecMem _ _ _ _ _
  · refine keeps_bind hT.trn (keeps_returning hT.trn) fun _ => keeps_ite (keeps_pure hT.trn _) ?_
    unfold execLine
    split
    · exact p_doPrint hT.toLy hR.toRecMem _
    · exact p_doReturn hT hR _
    · exact p_doAssert hT.toLy hR.toRecMem _ _
    · exact p_declVar hT.toLy hR.toRecMem _ _ _
    · exact p_assign hT.toLy hR.toRecMem _ _
    · exact p_declFn hT.toLy hR.toRecMem _ _ _ _ _
    · exact keeps_bind hT.trn (hR.eval _ _) fun _ => keeps_pure hT.trn _
    · exact p_doImport hT hR _ _

omit hR in
/-- All of the interpreter respects `T`. -/
theorem recAll : ∀ n, RecAll T (interp w n)
  | 0 => {
      eval := fun _ _ => keeps_timeout
      exec := fun _ => keeps_timeout
      member := fun _ => keeps_timeout
      call := fun _ _ _ _ => keeps_timeout
      filter := fun _ _ _ => keeps_timeout
      eq := fun _ _ => keeps_timeout
      dec := fun _ => keeps_timeout
      repr := fun _ => keeps_timeout }
  | n + 1 =>
    have hR := recAll n
    { eval := fun _ _ => p_stepEval hT.toLv hR.toRecT w _ _
      exec := fun _ => p_stepExec hT hR _
      member := fun _ => p_stepMember hT.toLy hR.toRecMem _
      call := fun _ _ _ _ => p_stepCall hT hR _ _ _ _
      filter := fun _ _ _ => p_stepFilter hT.toLv hR.toRecT _ _ _
      eq := fun _ _ => p_stepEq hT.toLv hR.eq _ _
      dec := fun _ => p_stepDec hT.toLv hR.dec _
      repr := fun _ => p_stepRepr hT.toLv hR.repr _ _ }


end

end Bob.Fl
