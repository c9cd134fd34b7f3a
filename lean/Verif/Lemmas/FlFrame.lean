import Verif.Spec.Flamingo
import Verif.Lemmas.FlBasic
/-!
# What the interpreter leaves as it was
-/

namespace Bob.Fl

/-- The names declared in a scope, in order, with their `static`. -/
def Scope.keys (x : Scope) : List (Bytes × Bool) := x.vars.map fun v => (v.key, v.isStatic)

/-- From `s` to `s'`: context and all scope stacks are the same, and names were only added to scopes in `F` (at their end). -/
structure Frame (F : Nat → Prop) (s s' : St) : Prop where
  env : s'.eng.env = s.eng.env
  body : s'.eng.body = s.eng.body
  ptm : s'.eng.ptm = s.eng.ptm
  paths : s'.eng.paths = s.eng.paths
  envs : ∀ (j : Nat) (st : List Nat), s.envs[j]? = some st → s'.envs[j]? = some st
  scopes : ∀ (i : Nat) (x : Scope), s.scopes[i]? = some x → ∃ x', s'.scopes[i]? = some x' ∧ x.keys <+: x'.keys ∧ (¬ F i → x'.keys = x.keys)

theorem trn_frame (F : Nat → Prop) : Trn (Frame F) where
  refl s := ⟨rfl, rfl, rfl, rfl, fun _ _ h => h, fun _ x h => ⟨x, h, List.prefix_refl _, fun _ => rfl⟩⟩
  trans h1 h2 := {
    env := h2.env.trans h1.env
    body := h2.body.trans h1.body
    ptm := h2.ptm.trans h1.ptm
    paths := h2.paths.trans h1.paths
    envs := fun j st h => h2.envs j st (h1.envs j st h)
    scopes := fun i x h => by
      obtain ⟨x1, hx1, p1, k1⟩ := h1.scopes i x h
      obtain ⟨x2, hx2, p2, k2⟩ := h2.scopes i x1 hx1
      exact ⟨x2, hx2, p1.trans p2, fun hF => (k2 hF).trans (k1 hF)⟩ }

theorem Frame.mono {F G : Nat → Prop} {s s' : St} (h : Frame F s s') (hFG : ∀ i, F i → G i) : Frame G s s' :=
  ⟨h.env, h.body, h.ptm, h.paths, h.envs, fun i x hx => by
    obtain ⟨x', h1, h2, h3⟩ := h.scopes i x hx
    exact ⟨x', h1, h2, fun hG => h3 fun hF => hG (hFG i hF)⟩⟩

/-- No names were added anywhere. -/
def FrE : St → St → Prop := Frame fun _ => False

/-- The current environment exists. -/
def St.valid (s : St) : Prop := ∃ st, s.envs[s.eng.env]? = some st

/-- `i` is the innermost scope. -/
def St.top (s : St) (i : Nat) : Prop := ∃ st, s.envs[s.eng.env]? = some (i :: st)

/-- Names were only added to the innermost scope. -/
def FrX (s s' : St) : Prop := s.valid → Frame s.top s s'

theorem trnE : Trn FrE := trn_frame _

theorem Frame.valid {F : Nat → Prop} {s s' : St} (h : Frame F s s') (hv : s.valid) : s'.valid := by
  obtain ⟨st, hst⟩ := hv
  exact ⟨st, by rw [h.env]; exact h.envs _ _ hst⟩

theorem Frame.top_iff {F : Nat → Prop} {s s' : St} (h : Frame F s s') (hv : s.valid) (i : Nat) : s'.top i ↔ s.top i := by
  obtain ⟨st, hst⟩ := hv
  have h' := h.envs _ _ hst
  unfold St.top
  rw [h.env, h', hst]

theorem FrE.toX {s s' : St} (h : FrE s s') : FrX s s' := fun _ => h.mono fun _ h => h.elim

theorem trnX : Trn FrX where
  refl s := (trnE.refl s).toX
  trans h1 h2 hv := by
    have f1 := h1 hv
    have f2 := h2 (f1.valid hv)
    exact (trn_frame _).trans f1 (f2.mono fun i h => (f1.top_iff hv i).1 h)

theorem keepsX {m : M α} (h : Keeps FrE m) : Keeps FrX m := ⟨fun hm => (h.out hm).toX⟩

theorem keyFreed_iff {s : St} {x : Cell} : s.keyFreed x = false ↔ s.NameKept x := by
  unfold St.keyFreed St.NameKept
  cases hk : x.keyIn with
  | none => exact ⟨fun _ _ _ h => (nomatch h), fun _ => rfl⟩
  | some i =>
    cases hs : s.scopes[i]? with
    | none => exact ⟨fun _ j sc h h' => (by cases h; rw [hs] at h'; cases h'), fun _ => by simp only [hs]⟩
    | some sc =>
      refine ⟨fun h j sc' hj h' => ?_, fun h => ?_⟩
      · cases hj
        rw [hs] at h'
        cases h'
        simpa only [hs] using h
      · simpa only [hs] using h i sc rfl hs

theorem readName_ok_iff {x : Cell} {s s' : St} {b : Bytes} : readName x s = .ok b s' ↔ s.NameKept x ∧ b = x.name ∧ s' = s := by
  refine ⟨fun h => ?_, fun ⟨h1, h2, h3⟩ => ?_⟩
  · obtain ⟨h1, h2, h3⟩ := readName_ok h
    exact ⟨keyFreed_iff.1 h2, h3, h1⟩
  · subst h2 h3
    unfold readName
    rw [bind_of_ok (get_apply _), keyFreed_iff.2 h1]
    rfl

theorem readName_kept {s : St} {x : Cell} (h : s.NameKept x) : readName x s = .ok x.name s := readName_ok_iff.2 ⟨h, rfl, rfl⟩

theorem nameIs_kept {s : St} {x : Cell} (h : s.NameKept x) (n : Bytes) : nameIs x n s = .ok (x.name == n) s := by
  unfold nameIs
  by_cases hl : x.name.length = n.length
  · rw [if_pos hl, bind_of_ok (readName_kept h)]
    rfl
  · rw [if_neg hl]
    have : (x.name == n) = false := by
      rw [beq_eq_false_iff_ne]
      exact fun he => hl (by rw [he])
    rw [this]
    rfl

/-! ## Simple operations -/

/-- Operations which touch neither scopes nor environments nor the context. -/
theorem frame_of_eq {F : Nat → Prop} {s s' : St} (he : s'.eng = { s.eng with rv := s'.eng.rv }) (h1 : s'.envs = s.envs)
    (h2 : s'.scopes = s.scopes) : Frame F s s' where
  env := by rw [he]
  body := by rw [he]
  ptm := by rw [he]
  paths := by rw [he]
  envs := fun _ _ h => by rw [h1]; exact h
  scopes := fun _ x h => ⟨x, by rw [h2]; exact h, List.prefix_refl _, fun _ => rfl⟩

theorem kE_setCell (c : Nat) (x : Cell) : Keeps FrE (setCell c x) := by
  refine ⟨fun {s a s'} h => ?_⟩
  cases h
  exact frame_of_eq rfl rfl rfl

theorem kE_alloc (d : Data) : Keeps FrE (alloc d) := by
  refine ⟨fun {s a s'} h => ?_⟩
  cases h
  exact frame_of_eq rfl rfl rfl

theorem kE_allocBuf (d : Bytes) : Keeps FrE (allocBuf d) := by
  refine ⟨fun {s a s'} h => ?_⟩
  cases h
  exact frame_of_eq rfl rfl rfl

theorem kE_allocBody (d : Body) : Keeps FrE (allocBody d) := by
  refine ⟨fun {s a s'} h => ?_⟩
  cases h
  exact frame_of_eq rfl rfl rfl

theorem kE_setRv (r : Rv) : Keeps FrE (setRv r) := by
  refine ⟨fun {s a s'} h => ?_⟩
  cases h
  exact frame_of_eq rfl rfl rfl

theorem kE_modHost (f : Host → Host) : Keeps FrE (modHost f) := by
  refine ⟨fun {s a s'} h => ?_⟩
  cases h
  exact frame_of_eq rfl rfl rfl

theorem kE_allocScope (x : Scope) : Keeps FrE (allocScope x) := by
  refine ⟨fun {s a s'} h => ?_⟩
  cases h
  refine ⟨rfl, rfl, rfl, rfl, fun _ _ h => h, fun i y hy => ⟨y, ?_, List.prefix_refl _, fun _ => rfl⟩⟩
  rw [List.getElem?_append_left (List.getElem?_eq_some_iff.1 hy).1]
  exact hy

/-- Replacing a scope by one with the same names. -/
theorem frame_setScope {F : Nat → Prop} {s : St} {i : Nat} {x y : Scope} (hx : s.scopes[i]? = some x) (hp : x.keys <+: y.keys)
    (hF : ¬ F i → y.keys = x.keys) : Frame F s { s with scopes := s.scopes.set i y } := by
  refine ⟨rfl, rfl, rfl, rfl, fun _ _ h => h, fun k z hz => ?_⟩
  by_cases hk : k = i
  · subst hk
    rw [hx] at hz
    cases hz
    refine ⟨y, ?_, hp, hF⟩
    show (s.scopes.set k y)[k]? = some y
    rw [List.getElem?_set_self (List.getElem?_eq_some_iff.1 hx).1]
  · refine ⟨z, ?_, List.prefix_refl _, fun _ => rfl⟩
    show (s.scopes.set i y)[k]? = some z
    rw [List.getElem?_set_ne (Ne.symm hk)]
    exact hz

theorem keys_set (vars : List Var) (k : Nat) (v : Var) (c : Option Nat) (h : vars[k]? = some v) :
    (vars.set k { v with val := c }).map (fun v => (v.key, v.isStatic)) = vars.map fun v => (v.key, v.isStatic) := by
  rw [List.map_set]
  apply List.ext_getElem?
  intro n
  by_cases hn : k = n
  · subst hn
    rw [List.getElem?_set_self (by simpa using (List.getElem?_eq_some_iff.1 h).1)]
    simp [h]
  · rw [List.getElem?_set_ne hn]

theorem kE_setVar (p : Nat × Nat) (c : Nat) : Keeps FrE (setVar p c) := by
  refine ⟨fun {s a s'} h => ?_⟩
  simp only [setVar, bind_ok_iff, getScope_ok_iff, deref_ok_iff, setScope_apply, Out.ok.injEq] at h
  obtain ⟨x, s1, ⟨hx, _, rfl⟩, v, s2, ⟨hv, rfl⟩, _, rfl⟩ := h
  have hk := keys_set x.vars p.2 v (some c) hv
  exact frame_setScope hx (by unfold Scope.keys; rw [hk]; exact List.prefix_refl _) fun _ => hk

theorem kX_addVar {i : Nat} (v : Var) : Keeps (Frame fun k => k = i) (addVar i v) := by
  refine ⟨fun {s a s'} h => ?_⟩
  simp only [addVar, bind_ok_iff, getScope_ok_iff, setScope_apply, Out.ok.injEq] at h
  obtain ⟨x, s1, ⟨hx, _, rfl⟩, _, rfl⟩ := h
  refine frame_setScope hx ?_ fun hF => (hF rfl).elim
  unfold Scope.keys
  rw [List.map_append]
  exact List.prefix_append _ _

theorem kE_closeOver : Keeps FrE closeOver := by
  refine ⟨fun {s a s'} h => ?_⟩
  obtain ⟨st, s1, h1, h2⟩ := (bind_ok_iff ..).1 h
  obtain ⟨hst, rfl⟩ := (curStack_ok_iff ..).1 h1
  cases h2
  refine ⟨rfl, rfl, rfl, rfl, fun j st' hj => ?_, fun i y hy => ⟨y, hy, List.prefix_refl _, fun _ => rfl⟩⟩
  show (s1.envs ++ [st])[j]? = some st'
  rw [List.getElem?_append_left (List.getElem?_eq_some_iff.1 hj).1]
  exact hj

/-- Deciding `Keeps T m` by the shape of `m`. -/
syntax "keeps " term:max : tactic
macro_rules
  | `(tactic| keeps $t) => `(tactic| repeat' (first
      | assumption
      | exact keeps_pure $t _
      | exact keeps_get $t
      | exact keeps_assert $t _
      | exact keeps_deref $t _
      | exact keeps_getCell $t _
      | exact keeps_getScope $t _
      | exact keeps_getRv $t
      | exact keeps_curStack $t
      | exact keeps_curScope $t
      | exact keeps_abort
      | exact keeps_ub
      | exact keeps_fail
      | exact keeps_raise _
      | refine keeps_bind $t ?_ ?_
      | refine keeps_each $t ?_ _
      | refine keeps_forEach $t ?_ _
      | refine keeps_optIter $t ?_ _
      | intro _
      | split))

section
variable {T : St → St → Prop} (tT : Trn T)
include tT

theorem keeps_readBuf (b n : Nat) : Keeps T (readBuf b n) := by
  unfold readBuf
  keeps tT

theorem keeps_readStr (b n : Nat) : Keeps T (readStr b n) := by
  unfold readStr
  keeps tT

theorem keeps_readName (x : Cell) : Keeps T (readName x) := by
  unfold readName
  keeps tT

theorem keeps_shallowFind (i : Nat) (k : Bytes) : Keeps T (shallowFind i k) := by
  unfold shallowFind
  keeps tT

theorem keeps_findIn (k : Bytes) : ∀ st, Keeps T (findIn k st)
  | [] => keeps_pure tT _
  | i :: st => by
    have h1 := keeps_shallowFind tT i k
    have h2 := keeps_findIn k st
    unfold findIn
    keeps tT

theorem keeps_findVar (k : Bytes) : Keeps T (findVar k) := by
  have h := keeps_findIn tT k
  unfold findVar
  keeps tT

theorem keeps_getVar (p : Nat × Nat) : Keeps T (getVar p) := by
  unfold getVar
  keeps tT

theorem keeps_getBody (b : Option Nat) : Keeps T (getBody b) := by
  unfold getBody
  keeps tT

theorem keeps_topCls : Keeps T topCls := by
  unfold topCls
  keeps tT

theorem keeps_checkDest (d : Dest) : Keeps T (checkDest d) := by
  unfold checkDest
  keeps tT

theorem keeps_getVec (c : Nat) : Keeps T (getVec c) := by
  unfold getVec
  keeps tT

theorem keeps_instScope (c : Option Nat) : Keeps T (instScope c) := by
  unfold instScope
  keeps tT

theorem keeps_strElems (c : Nat) : Keeps T (strElems c) := by
  unfold strElems
  keeps tT

theorem keeps_checkFlags (c : Nat) : Keeps T (checkFlags c) := by
  unfold checkFlags
  keeps tT

theorem keeps_nameIs (x : Cell) (n : Bytes) : Keeps T (nameIs x n) := by
  have h := keeps_readName tT x
  unfold nameIs
  keeps tT

theorem keeps_findOwner (c : Nat) : Keeps T (findOwner c) := by
  unfold findOwner
  keeps tT

theorem keeps_returning : Keeps T returning := by
  unfold returning
  keeps tT

theorem keeps_ownerData (o : Owner) : Keeps T o.data := by
  unfold Owner.data
  keeps tT

theorem keeps_fnArg (what : Bytes) (args : List Nat) : Keeps T (fnArg what args) := by
  unfold fnArg
  keeps tT

theorem keeps_strCompare (t : Bytes → Bytes → Bool) (a b c d : Nat) : Keeps T (strCompare t a b c d) := by
  unfold strCompare
  keeps tT

omit tT in
theorem keeps_unknownOp (t : Bytes) (d : Data) : Keeps T (unknownOp t d : M α) := by
  exact keeps_raise _

end

/-! ## Functions that add no names -/

syntax "keepsE" : tactic
macro_rules
  | `(tactic| keepsE) => `(tactic| repeat' (first
      | assumption
      | exact keeps_pure trnE _
      | exact kE_setCell _ _
      | exact kE_alloc _
      | exact kE_allocBuf _
      | exact kE_allocBody _
      | exact kE_setRv _
      | exact kE_modHost _
      | exact kE_allocScope _
      | exact kE_setVar _ _
      | exact kE_closeOver
      | exact keeps_get trnE
      | exact keeps_assert trnE _
      | exact keeps_deref trnE _
      | exact keeps_getCell trnE _
      | exact keeps_getScope trnE _
      | exact keeps_getRv trnE
      | exact keeps_curStack trnE
      | exact keeps_curScope trnE
      | exact keeps_abort
      | exact keeps_ub
      | exact keeps_fail
      | exact keeps_raise _
      | exact keeps_findVar trnE _
      | refine keeps_bind trnE ?_ ?_
      | refine keeps_each trnE ?_ _
      | refine keeps_forEach trnE ?_ _
      | refine keeps_optIter trnE ?_ _
      | intro _
      | split))

theorem kE_allocStr (b : Bytes) : Keeps FrE (allocStr b) := by
  unfold allocStr
  keepsE

theorem kE_incref (c : Nat) : Keeps FrE (incref c) := by
  unfold incref
  keepsE

theorem kE_freeBuf (c : Nat) : Keeps FrE (freeBuf c) := by
  have h : ∀ f : List (Option Bytes) → List (Option Bytes), Keeps FrE (M.modify fun s => { s with bufs := f s.bufs }) :=
    fun f => ⟨fun h => by cases h; exact frame_of_eq rfl rfl rfl⟩
  unfold freeBuf
  keepsE
  exact h fun b => b.set c none

theorem kE_freeBody (b : Option Nat) : Keeps FrE (freeBody b) := by
  have h : ∀ f : List (Option Body) → List (Option Body), Keeps FrE (M.modify fun s => { s with bodies := f s.bodies }) :=
    fun f => ⟨fun h => by cases h; exact frame_of_eq rfl rfl rfl⟩
  unfold freeBody
  keepsE
  exact h fun b => b.set _ none

theorem kE_freeState (i : Option Nat) : Keeps FrE (freeState i) := by
  have h : ∀ f : Host → Host, Keeps FrE (M.modify fun s => { s with host := f s.host }) :=
    fun f => ⟨fun h => by cases h; exact frame_of_eq rfl rfl rfl⟩
  unfold freeState
  keepsE
  exact h fun h => { h with states := h.states.set _ _ }

theorem kE_decVars {dec : Nat → M Unit} (hd : ∀ c, Keeps FrE (dec c)) : ∀ vs, Keeps FrE (decVars dec vs)
  | [] => keeps_pure trnE _
  | v :: vs => by
    have ih := kE_decVars hd vs
    unfold decVars
    keepsE

theorem kE_freeScope {dec : Nat → M Unit} (hd : ∀ c, Keeps FrE (dec c)) (i : Nat) : Keeps FrE (freeScope dec i) := by
  refine keeps_bind trnE (keeps_getScope trnE i) fun x => keeps_bind trnE (kE_decVars hd _) fun _ => ⟨fun {s a s'} h => ?_⟩
  simp only [bind_ok_iff, getScope_ok_iff, setScope_apply, Out.ok.injEq] at h
  obtain ⟨x, s1, ⟨hx, _, rfl⟩, _, rfl⟩ := h
  exact frame_setScope hx (List.prefix_refl _) fun _ => rfl

theorem kE_freeVal {dec : Nat → M Unit} (hd : ∀ c, Keeps FrE (dec c)) (c : Nat) : Keeps FrE (freeVal dec c) := by
  have h1 := kE_freeBuf
  have h2 := kE_freeBody
  have h3 := kE_freeState
  have h4 := kE_freeScope hd
  unfold freeVal
  refine keeps_bind trnE (keeps_getCell trnE _) fun x => ?_
  split
  · exact h1 _
  · exact h2 _
  · exact keeps_bind trnE (h4 _) fun _ => h3 _
  · exact keeps_pure trnE _

theorem kE_stepDec {dec : Nat → M Unit} (hd : ∀ c, Keeps FrE (dec c)) (c : Nat) : Keeps FrE (stepDec dec c) := by
  have h := kE_freeVal hd c
  unfold stepDec
  keepsE

theorem kE_valCopy (c : Nat) : Keeps FrE (valCopy c) := by
  unfold valCopy
  refine keeps_bind trnE (keeps_getCell trnE _) fun x => keeps_bind trnE (keeps_readName trnE _) fun _ =>
    keeps_bind trnE ?_ fun d => ⟨fun h => ?_⟩
  · unfold copyData
    keepsE
  · cases h
    exact frame_of_eq rfl rfl rfl

theorem kE_eqVec {eq : Nat → Nat → M Bool} (he : ∀ x y, Keeps FrE (eq x y)) : ∀ xs ys, Keeps FrE (eqVec eq xs ys)
  | [], _ => keeps_pure trnE _
  | _ :: _, [] => keeps_pure trnE _
  | x :: xs, y :: ys => by
    have ih := kE_eqVec he xs ys
    unfold eqVec
    refine keeps_bind trnE (he x y) fun b => ?_
    keepsE

theorem kE_findKey {eq : Nat → Nat → M Bool} (he : ∀ x y, Keeps FrE (eq x y)) (k : Nat) : ∀ es, Keeps FrE (findKey eq k es)
  | [] => keeps_pure trnE _
  | (k', v) :: es => by
    have ih := kE_findKey he k es
    unfold findKey
    refine keeps_bind trnE (he _ _) fun b => ?_
    keepsE

theorem kE_eqMap {eq : Nat → Nat → M Bool} (he : ∀ x y, Keeps FrE (eq x y)) (ys : List (Nat × Nat)) : ∀ es, Keeps FrE (eqMap eq ys es)
  | [] => keeps_pure trnE _
  | (k, v) :: es => by
    have ih := kE_eqMap he ys es
    have hf := kE_findKey he k ys
    unfold eqMap
    refine keeps_bind trnE hf fun o => ?_
    split
    · exact keeps_pure trnE _
    · refine keeps_bind trnE (he _ _) fun b => ?_
      keepsE

theorem kE_stepEq {eq : Nat → Nat → M Bool} (he : ∀ x y, Keeps FrE (eq x y)) (x y : Nat) : Keeps FrE (stepEq eq x y) := by
  have h1 := kE_eqVec he
  have h2 := kE_eqMap he
  unfold stepEq
  refine keeps_bind trnE (keeps_getCell trnE _) fun cx => keeps_bind trnE (keeps_getCell trnE _) fun cy => ?_
  split
  case h_5 => split; exact h1 _ _; exact keeps_pure trnE _
  case h_6 => split; exact h2 _ _; exact keeps_pure trnE _
  all_goals keepsE

theorem kE_stepRepr {rep : Nat → M Bytes} (hr : ∀ c, Keeps FrE (rep c)) (inner : Bool) (c : Nat) : Keeps FrE (stepRepr rep inner c) := by
  unfold stepRepr
  refine keeps_bind trnE (keeps_getCell trnE _) fun x => ?_
  split
  case h_5 => exact keeps_bind trnE (keeps_each trnE hr _) fun _ => keeps_pure trnE _
  case h_6 =>
    exact keeps_bind trnE (keeps_each trnE (fun kv => keeps_bind trnE (hr _) fun _ => keeps_bind trnE (hr _) fun _ =>
      keeps_pure trnE _) _) fun _ => keeps_pure trnE _
  case h_7 =>
    split
    · exact keeps_pure trnE _
    · exact keeps_bind trnE (keeps_readName trnE _) fun _ => keeps_pure trnE _
  case h_8 =>
    exact keeps_bind trnE (keeps_getCell trnE _) fun _ => keeps_bind trnE (keeps_readName trnE _) fun _ => keeps_pure trnE _
  all_goals keepsE

/-! ### The host -/

theorem kE_addStep (u : Uniq) (k : StepKind) (d : ReqData) : Keeps FrE (addStep u k d) := by
  unfold addStep
  keepsE

theorem kE_objPath (w : World) (c : Nat) : Keeps FrE (objPath w c) := by
  unfold objPath
  refine keeps_bind trnE (keeps_getCell trnE _) fun x => ?_
  split
  · refine keeps_bind trnE (keeps_readBuf trnE _ _) fun p => ?_
    split
    · exact keeps_ub
    · exact kE_allocStr _
  · exact keeps_fail

theorem kE_prepCompile (w : World) (st : Option Nat) (args : List Nat) : Keeps FrE (prepCompile w st args) := by
  have h := kE_addStep
  unfold prepCompile
  split
  · refine keeps_bind trnE (keeps_getCell trnE _) fun x => ?_
    split
    · exact keeps_bind trnE (keeps_each trnE (kE_objPath w) _) fun _ =>
        keeps_bind trnE (kE_alloc _) fun _ => keeps_bind trnE (h _ _ _) fun _ => keeps_pure trnE _
    · exact keeps_fail
  · exact keeps_fail

theorem kE_prepLink (w : World) (st : Option Nat) (args : List Nat) (a : Bool) : Keeps FrE (prepLink w st args a) := by
  have h := kE_addStep
  unfold prepLink
  split
  · exact keeps_bind trnE (keeps_strElems trnE _) fun _ => keeps_bind trnE (kE_allocStr _) fun _ =>
      keeps_bind trnE (keeps_get trnE) fun _ => keeps_bind trnE (h _ _ _) fun _ => keeps_pure trnE _
  · exact keeps_fail

theorem kE_fsList (w : World) (args : List Nat) : Keeps FrE (fsList w args) := by
  unfold fsList
  keepsE

theorem kE_externFn (w : World) (c : Nat) (args : List Nat) : Keeps FrE (externFn w c args) := by
  have h1 := kE_prepCompile w
  have h2 := kE_prepLink w
  have h3 := kE_fsList w
  have h4 := @keeps_ownerData FrE trnE
  have hfs : Keeps FrE (fsCall w c args) := by
    unfold fsCall
    refine keeps_bind trnE (keeps_get trnE) fun s => ?_
    split
    · exact keeps_bind trnE (h3 _) fun _ => keeps_pure trnE _
    · exact keeps_pure trnE _
  have hcc : ∀ o n, Keeps FrE (ccCall w o n args) := by
    intro o n
    unfold ccCall
    refine keeps_bind trnE (h4 o) fun d => ?_
    split
    · exact keeps_bind trnE (keeps_deref trnE _) fun _ => keeps_bind trnE (h1 _ _) fun _ => keeps_pure trnE _
    · exact keeps_pure trnE _
  have hl : ∀ o n, Keeps FrE (linkerCall w o n args) := by
    intro o n
    unfold linkerCall
    refine keeps_bind trnE (h4 o) fun d => ?_
    split
    · exact keeps_bind trnE (keeps_deref trnE _) fun _ => keeps_bind trnE (h2 _ _ _) fun _ => keeps_pure trnE _
    · split
      · exact keeps_bind trnE (keeps_deref trnE _) fun _ => keeps_bind trnE (h2 _ _ _) fun _ => keeps_pure trnE _
      · exact keeps_pure trnE _
  have ha : ∀ o v m, Keeps FrE m → Keeps FrE (askClass o v m) := by
    intro o v m hm
    unfold askClass
    split
    · exact keeps_pure trnE _
    · exact hm
  unfold externFn
  refine keeps_bind trnE (keeps_getCell trnE _) fun x => keeps_bind trnE (keeps_findOwner trnE _) fun o =>
    keeps_bind trnE (keeps_get trnE) fun s => keeps_bind trnE (ha _ _ _ hfs) fun r => ?_
  split
  · exact keeps_pure trnE _
  · refine keeps_bind trnE (keeps_readName trnE _) fun name => keeps_bind trnE (ha _ _ _ (hcc _ _)) fun r => ?_
    split
    · exact keeps_pure trnE _
    · refine keeps_bind trnE (ha _ _ _ (hl _ _)) fun r => ?_
      split
      · exact keeps_pure trnE _
      · exact keeps_raise _

theorem kE_classDecl (c : Nat) : Keeps FrE (classDecl c) := by
  unfold classDecl
  keepsE

theorem kE_classInst (c : Nat) (args : List Nat) : Keeps FrE (classInst c args) := by
  have h : Keeps FrE (instantiate c args) := by
    unfold instantiate
    keepsE
  have hn := fun x n => keeps_nameIs trnE x n
  unfold classInst
  refine keeps_bind trnE (keeps_getCell trnE _) fun x => ?_
  split
  · refine keeps_bind trnE (keeps_getCell trnE _) fun k => keeps_bind trnE (hn _ _) fun b => ?_
    split
    · exact h
    · refine keeps_bind trnE (hn _ _) fun b => ?_
      split
      · exact h
      · exact keeps_pure trnE _
  · exact keeps_ub

end Bob.Fl
