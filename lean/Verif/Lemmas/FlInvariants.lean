import Verif.Lemmas.FlPassAll
import Verif.Spec.Flamingo
/-!
# Two things that hold throughout
-/

namespace Bob.Fl

/-! ## Nothing to return -/

/-- If there was nothing to return, there still is not. -/
def RvN (s s' : St) : Prop := s.eng.rv = .none → s'.eng.rv = .none

theorem rvN_of_eng {m : M α} (h : ∀ {s a s'}, m s = .ok a s' → s'.eng = s.eng) : Keeps RvN m := ⟨fun hm hr => by rw [h hm]; exact hr⟩

theorem eng_modify {f : St → St} (hf : ∀ s, (f s).eng = s.eng) : Keeps RvN (M.modify f) := rvN_of_eng fun h => by cases h; exact hf _

theorem trnR : Trn RvN := ⟨fun _ h => h, fun h1 h2 h => h2 (h1 h)⟩

theorem lyRvN : Ly RvN where
  trn := trnR
  alloc := fun _ _ => rvN_of_eng fun h => by cases h; rfl
  allocBuf := fun _ => rvN_of_eng fun h => by cases h; rfl
  incref := fun _ => keeps_bind trnR (keeps_getCell trnR _) fun _ => keeps_bind trnR (keeps_assert trnR _) fun _ => eng_modify fun _ => rfl
  decCell := fun _ _ _ _ _ h => h
  valCopy := fun _ => by
    refine keeps_bind trnR (keeps_getCell trnR _) fun x => keeps_bind trnR (keeps_readName trnR _) fun _ => keeps_bind trnR ?_ fun _ => rvN_of_eng fun h => by cases h; rfl
    unfold copyData
    split
    · exact keeps_bind trnR (keeps_bind trnR (keeps_readStr trnR _ _) fun _ => rvN_of_eng fun h => by cases h; rfl) fun _ => keeps_pure trnR _
    · exact keeps_pure trnR _
  closeOver := keeps_bind trnR (keeps_curStack trnR) fun _ => rvN_of_eng fun h => by cases h; rfl
  allocBody := fun _ => rvN_of_eng fun h => by cases h; rfl
  freeBuf := fun _ => by
    unfold freeBuf
    refine keeps_bind trnR (keeps_get trnR) fun _ => ?_
    split
    · exact eng_modify fun _ => rfl
    · exact keeps_ub
  freeBody := fun _ => by
    unfold freeBody
    split
    · exact keeps_pure trnR _
    · refine keeps_bind trnR (keeps_get trnR) fun _ => ?_
      split
      · exact eng_modify fun _ => rfl
      · exact keeps_ub
  freeState := fun _ => by
    unfold freeState
    split
    · exact keeps_pure trnR _
    · refine keeps_bind trnR (keeps_get trnR) fun _ => ?_
      split
      · exact keeps_ite keeps_ub (eng_modify fun _ => rfl)
      · exact keeps_ub
  freed := fun _ _ _ _ h => h
  allocScope := fun _ => rvN_of_eng fun h => by cases h; rfl
  setStack := fun _ => eng_modify fun _ => rfl
  addVar := fun _ _ => keeps_bind trnR (keeps_getScope trnR _) fun _ => eng_modify fun _ => rfl
  setVar := fun _ _ => keeps_bind trnR (keeps_getScope trnR _) fun _ => keeps_bind trnR (keeps_deref trnR _) fun _ => eng_modify fun _ => rfl
  setName := fun _ _ _ => keeps_bind trnR (keeps_getCell trnR _) fun _ => eng_modify fun _ => rfl
  setOwnerOf := fun _ _ => keeps_bind trnR (keeps_getCell trnR _) fun _ => eng_modify fun _ => rfl
  overwrite := fun _ _ _ _ _ h => h
  setFn := fun _ _ _ _ _ h => h
  host := fun _ _ h => h
  out := fun _ _ h => h

/-- A call that comes back leaves nothing to return. -/
theorem stepCall_rv {w : World} {R : Rec} {c : Nat} {acc : Option Nat} {d : Dest} {args : List Nat} {s s' : St} {r : Option Nat}
    (h : stepCall w R c acc d args s = .ok r s') : s'.eng.rv = .none := by
  unfold stepCall at h
  obtain ⟨x, s1, h1, h⟩ := (bind_ok_iff ..).1 h
  cases hx : x.data <;> rw [hx] at h <;> try (cases h)
  rename_i f
  obtain ⟨_, _, _, h⟩ := (bind_ok_iff ..).1 h
  obtain ⟨_, _, _, h⟩ := (bind_ok_iff ..).1 h
  obtain ⟨_, _, _, h⟩ := (bind_ok_iff ..).1 h
  obtain ⟨_, _, _, h⟩ := (bind_ok_iff ..).1 h
  obtain ⟨ran, _, _, h⟩ := (bind_ok_iff ..).1 h
  obtain ⟨_, _, _, h⟩ := (bind_ok_iff ..).1 h
  have fin : ∀ {sc : Option Nat} {t t' : St} {r : Option Nat}, finish R c sc d args t = .ok r t' → t'.eng.rv = .none := by
    intro sc t t' r h
    unfold finish at h
    obtain ⟨y, t1, _, h⟩ := (bind_ok_iff ..).1 h
    cases hy : y.data <;> rw [hy] at h <;> try (cases h)
    rename_i g
    by_cases hk : g.kind = .cls
    · simp only [if_pos hk] at h
      by_cases hd : d = .discard
      · simp only [if_pos hd] at h
        cases h
        rfl
      · simp only [if_neg hd] at h
        obtain ⟨_, _, _, h⟩ := (bind_ok_iff ..).1 h
        unfold makeInst at h
        obtain ⟨_, _, _, h⟩ := (bind_ok_iff ..).1 h
        obtain ⟨_, _, _, h⟩ := (bind_ok_iff ..).1 h
        obtain ⟨_, _, _, h⟩ := (bind_ok_iff ..).1 h
        obtain ⟨_, _, _, h⟩ := (bind_ok_iff ..).1 h
        obtain ⟨_, _, _, h⟩ := (bind_ok_iff ..).1 h
        cases h
        rfl
    · simp only [if_neg hk] at h
      unfold takeRv at h
      cases d with
      | ret => cases h
      | discard =>
        obtain ⟨_, _, _, h⟩ := (bind_ok_iff ..).1 h
        obtain ⟨_, _, _, h⟩ := (bind_ok_iff ..).1 h
        cases h
        rfl
      | keep =>
        obtain ⟨_, _, _, h⟩ := (bind_ok_iff ..).1 h
        obtain ⟨_, _, _, h⟩ := (bind_ok_iff ..).1 h
        cases h
        rfl
  cases ran with
  | value v =>
    cases h
    rfl
  | block i => exact fin h
  | callback => exact fin h

theorem recRvN (w : World) : ∀ n, RecMem RvN (interp w n)
  | 0 => {
      eval := fun _ _ => keeps_timeout
      member := fun _ => keeps_timeout
      call := fun _ _ _ _ => keeps_timeout
      filter := fun _ _ _ => keeps_timeout
      eq := fun _ _ => keeps_timeout
      dec := fun _ => keeps_timeout
      repr := fun _ => keeps_timeout }
  | n + 1 =>
    have hR := recRvN w n
    { eval := fun _ _ => p_stepEval lyRvN.toLv hR.toRecT w _ _
      member := fun _ => p_stepMember lyRvN hR _
      call := fun _ _ _ _ => ⟨fun h _ => stepCall_rv h⟩
      filter := fun _ _ _ => p_stepFilter lyRvN.toLv hR.toRecT _ _ _
      eq := fun _ _ => p_stepEq lyRvN.toLv hR.eq _ _
      dec := fun _ => p_stepDec lyRvN.toLv hR.dec _
      repr := fun _ => p_stepRepr lyRvN.toLv hR.repr _ _ }

/-! ## Instances have scopes -/

/-- The scopes of all instances exist. -/
def St.InstScopes (s : St) : Prop := ∀ (c : Nat) (i : InstData), s.Holds c (.inst i) → i.scope < s.scopes.length

/-- Scopes and values are only added, and instances keep having scopes. -/
def InstT (s s' : St) : Prop := s.scopes.length ≤ s'.scopes.length ∧ s.cells.length ≤ s'.cells.length ∧ (s.InstScopes → s'.InstScopes)

theorem trnI : Trn InstT :=
  ⟨fun _ => ⟨Nat.le_refl _, Nat.le_refl _, fun h => h⟩, fun h1 h2 => ⟨Nat.le_trans h1.1 h2.1, Nat.le_trans h1.2.1 h2.2.1, fun h => h2.2.2 (h1.2.2 h)⟩⟩

theorem instT_cells {s s' : St} (hc : s'.cells = s.cells) (hs : s.scopes.length ≤ s'.scopes.length) : InstT s s' :=
  ⟨hs, by rw [hc]; exact Nat.le_refl _, fun h c i ⟨x, hx, hd⟩ => Nat.lt_of_lt_of_le (h c i ⟨x, by rw [← hc]; exact hx, hd⟩) hs⟩

theorem instT_set {s : St} (c : Nat) {y : Cell} (hy : s.InstScopes → ∀ i, y.data = .inst i → i.scope < s.scopes.length) : InstT s { s with cells := s.cells.set c y } := by
  refine ⟨Nat.le_refl _, by simp, fun h k i ⟨x, hx, hd⟩ => ?_⟩
  by_cases hk : k = c
  · subst hk
    have hx : (s.cells.set k y)[k]? = some x := hx
    have hlt : k < s.cells.length := by
      have := (List.getElem?_eq_some_iff.1 hx).1
      simpa using this
    rw [List.getElem?_set_self hlt] at hx
    cases hx
    exact hy h i hd
  · have hx : (s.cells.set c y)[k]? = some x := hx
    rw [List.getElem?_set_ne (Ne.symm hk)] at hx
    exact h k i ⟨x, hx, hd⟩

theorem instT_append {s : St} {ys : List Cell} (hy : s.InstScopes → ∀ y ∈ ys, ∀ i, y.data = .inst i → i.scope < s.scopes.length) :
    InstT s { s with cells := s.cells ++ ys } := by
  refine ⟨Nat.le_refl _, by simp, fun h k i ⟨x, hx, hd⟩ => ?_⟩
  have hx : (s.cells ++ ys)[k]? = some x := hx
  rw [List.getElem?_append] at hx
  split at hx
  · exact h k i ⟨x, hx, hd⟩
  · exact hy h x (List.mem_of_getElem? hx) i hd

theorem instT_modify {f : St → St} (hc : ∀ s, (f s).cells = s.cells) (hs : ∀ s, s.scopes.length ≤ (f s).scopes.length) : Keeps InstT (M.modify f) :=
  ⟨fun h => by cases h; exact instT_cells (hc _) (hs _)⟩

theorem instT_scopeSet {s : St} (i : Nat) (x : Scope) : InstT s { s with scopes := s.scopes.set i x } := instT_cells rfl (by simp)

theorem instT_cellOf {s : St} {c : Nat} {x y : Cell} (hx : s.cells[c]? = some x) (hd : y.data = x.data) (k : Nat) : InstT s { s with cells := s.cells.set k y } :=
  instT_set k fun h i hi => h c i ⟨x, hx, by rw [← hd]; exact hi⟩

theorem lyInst : Ly InstT where
  trn := trnI
  alloc := fun d hd => ⟨fun h => by
    cases h
    exact instT_append fun _ y hy i hi => by
      rw [List.mem_singleton] at hy
      subst hy
      exact absurd hi (hd i)⟩
  allocBuf := fun _ => ⟨fun h => by cases h; exact instT_cells rfl (Nat.le_refl _)⟩
  incref := fun c => ⟨fun {s a s'} h => by
    simp only [incref, bind_ok_iff, getCell_ok_iff, assert_ok_iff, setCell_apply, Out.ok.injEq] at h
    obtain ⟨x, s1, ⟨hx, rfl⟩, _, s2, ⟨_, rfl⟩, _, rfl⟩ := h
    exact instT_cellOf (y := { x with refs := x.refs + 1 }) hx rfl c⟩
  decCell := fun c x r s hx => instT_cellOf (y := { x with refs := r }) hx rfl c
  valCopy := fun c => ⟨fun {s a s'} h => by
    unfold valCopy at h
    obtain ⟨x, s1, h1, h'⟩ := (bind_ok_iff ..).1 h
    clear h
    obtain ⟨hx, rfl⟩ := (getCell_ok_iff ..).1 h1
    obtain ⟨_, s2', h2, h''⟩ := (bind_ok_iff ..).1 h'
    clear h'
    obtain ⟨e, -⟩ := readName_ok h2
    subst s2'
    clear h2
    obtain ⟨d, s2, h2, h3⟩ := (bind_ok_iff ..).1 h''
    clear h''
    cases h3
    have hsame : s2.cells = s1.cells ∧ s2.scopes = s1.scopes ∧ ∀ i, d = .inst i → x.data = .inst i := by
      by_cases hstr : ∃ b n, x.data = .str b n
      · obtain ⟨b, n, hb⟩ := hstr
        rw [hb] at h2
        obtain ⟨b', s3, h3, h2⟩ := (bind_ok_iff ..).1 h2
        cases h2
        simp only [strndup, bind_ok_iff, allocBuf_apply, Out.ok.injEq] at h3
        obtain ⟨t, s4, h4, _, rfl⟩ := h3
        have := (keeps_readStr (T := fun a b => a = b) ⟨fun _ => rfl, fun h1 h2 => h1.trans h2⟩ b n).out h4
        subst this
        exact ⟨rfl, rfl, nofun⟩
      · cases hb : x.data <;> rw [hb] at h2 <;> first | exact (hstr ⟨_, _, hb⟩).elim | (cases h2; exact ⟨rfl, rfl, fun _ h => by rw [hb] at *; exact h⟩)
    refine trnI.trans (instT_cells hsame.1 (by rw [hsame.2.1]; exact Nat.le_refl _)) (instT_append fun hs y hy i hi => ?_)
    rw [List.mem_singleton] at hy
    subst hy
    exact hs c i ⟨x, by rw [hsame.1]; exact hx, hsame.2.2 i hi⟩⟩
  closeOver := keeps_bind trnI (keeps_curStack trnI) fun _ => ⟨fun h => by cases h; exact instT_cells rfl (Nat.le_refl _)⟩
  allocBody := fun _ => ⟨fun h => by cases h; exact instT_cells rfl (Nat.le_refl _)⟩
  freeBuf := fun _ => by
    unfold freeBuf
    refine keeps_bind trnI (keeps_get trnI) fun _ => ?_
    split
    · exact instT_modify (fun _ => rfl) fun _ => Nat.le_refl _
    · exact keeps_ub
  freeBody := fun _ => by
    unfold freeBody
    split
    · exact keeps_pure trnI _
    · refine keeps_bind trnI (keeps_get trnI) fun _ => ?_
      split
      · exact instT_modify (fun _ => rfl) fun _ => Nat.le_refl _
      · exact keeps_ub
  freeState := fun _ => by
    unfold freeState
    split
    · exact keeps_pure trnI _
    · refine keeps_bind trnI (keeps_get trnI) fun _ => ?_
      split
      · exact keeps_ite keeps_ub (instT_modify (fun _ => rfl) fun _ => Nat.le_refl _)
      · exact keeps_ub
  freed := fun _ _ _ _ => instT_scopeSet _ _
  allocScope := fun _ => ⟨fun h => by cases h; exact instT_cells rfl (by simp)⟩
  setStack := fun _ => instT_modify (fun _ => rfl) fun _ => Nat.le_refl _
  addVar := fun _ _ => keeps_bind trnI (keeps_getScope trnI _) fun _ => ⟨fun h => by cases h; exact instT_scopeSet _ _⟩
  setVar := fun _ _ => keeps_bind trnI (keeps_getScope trnI _) fun _ => keeps_bind trnI (keeps_deref trnI _) fun _ => ⟨fun h => by cases h; exact instT_scopeSet _ _⟩
  setName := fun c k i => ⟨fun {s a s'} h => by
    simp only [setName, bind_ok_iff, getCell_ok_iff, setCell_apply, Out.ok.injEq] at h
    obtain ⟨x, s1, ⟨hx, rfl⟩, _, rfl⟩ := h
    exact instT_cellOf (y := { x with name := k, keyIn := some i }) hx rfl c⟩
  setOwnerOf := fun c k => ⟨fun {s a s'} h => by
    simp only [setOwnerOf, bind_ok_iff, getCell_ok_iff, setCell_apply, Out.ok.injEq] at h
    obtain ⟨x, s1, ⟨hx, rfl⟩, _, rfl⟩ := h
    exact instT_cellOf (y := { x with owner := some k }) hx rfl c⟩
  overwrite := fun c _ _ _ hy => instT_cellOf hy rfl c
  setFn := fun c _ _ _ hf => instT_set c fun _ i hi => by rw [hf] at hi; cases hi
  host := fun _ _ => instT_cells rfl (Nat.le_refl _)
  out := fun _ _ => instT_cells rfl (Nat.le_refl _)

theorem instT_classInst (c : Nat) (args : List Nat) : Keeps InstT (classInst c args) := by
  have hinst : Keeps InstT (instantiate c args) := by
    unfold instantiate
    split
    · refine keeps_bind trnI (keeps_checkFlags trnI _) fun _ => keeps_bind trnI (keeps_get trnI) fun st => keeps_bind trnI (lyInst.modHost _) fun _ => ⟨fun {s a s'} h => ?_⟩
      obtain ⟨x, s1, h1, h'⟩ := (bind_ok_iff ..).1 h
      clear h
      obtain ⟨hx, rfl⟩ := (getCell_ok_iff ..).1 h1
      cases hd : x.data <;> rw [hd] at h' <;> try (cases h')
      rename_i d
      exact instT_set c fun hs i hi => by
        cases hi
        exact hs c d ⟨x, hx, hd⟩
    · exact keeps_fail
  unfold classInst
  refine keeps_bind trnI (keeps_getCell trnI _) fun _ => ?_
  split
  · exact keeps_bind trnI (keeps_getCell trnI _) fun _ => keeps_bind trnI (keeps_nameIs trnI _ _) fun _ => keeps_ite hinst
      (keeps_bind trnI (keeps_nameIs trnI _ _) fun _ => keeps_ite hinst (keeps_pure trnI _))
  · exact keeps_ub

theorem lxInst (w : World) : Lx w InstT where
  toLy := lyInst
  eng := fun _ _ => instT_cells rfl (Nat.le_refl _)
  setCls := fun _ _ _ _ _ => instT_scopeSet _ _
  makeInst := fun c i d args => ⟨fun {s a s'} h => by
    unfold makeInst at h
    obtain ⟨_, s1, h1, h⟩ := (bind_ok_iff ..).1 h
    have h1 := (keeps_checkDest trnI d).out h1
    obtain ⟨v, s2, h2, h⟩ := (bind_ok_iff ..).1 h
    cases h2
    obtain ⟨x, s3, h3, h⟩ := (bind_ok_iff ..).1 h
    obtain ⟨hx, _, rfl⟩ := (getScope_ok_iff ..).1 h3
    have hlt : i < s1.scopes.length := (List.getElem?_eq_some_iff.1 hx).1
    refine trnI.trans h1 (trnI.trans (instT_append (ys := [{ data := .inst { cls := c, scope := i } }]) fun _ y hy j hj => ?_) ?_)
    · rw [List.mem_singleton] at hy
      subst hy
      cases hj
      exact hlt
    · refine Keeps.out (m := (setScope i { x with owner := some s1.cells.length } >>= fun _ => classInst s1.cells.length args >>= fun _ => setRv .none >>= fun _ =>
        pure (if d = .ret then none else some s1.cells.length) : M (Option Nat))) ?_ h
      exact keeps_bind trnI ⟨fun h => by cases h; exact instT_scopeSet _ _⟩ fun _ => keeps_bind trnI (instT_classInst _ _) fun _ =>
        keeps_bind trnI ⟨fun h => by cases h; exact instT_cells rfl (Nat.le_refl _)⟩ fun _ => keeps_pure trnI _⟩
  calls := fun _ _ => instT_cells rfl (Nat.le_refl _)
  members := fun _ => instT_append fun _ y hy i hi => by
    simp only [ptmCells, List.map_cons, List.map_nil, List.mem_cons, List.not_mem_nil, or_false] at hy
    rcases hy with rfl | rfl | rfl | rfl | rfl | rfl <;> cases hi

/-- In every state a script gets to, all instances have scopes. -/
theorem script_instScopes (w : World) (n : Nat) (paths : List Bytes) (p : List Stmt) {s : St} (h : runScript w n paths p = .ok () s) : s.InstScopes := by
  refine ((keeps_forEach trnI (recAll (lxInst w) n).exec p).out h).2.2 fun c i ⟨x, hx, hd⟩ => ?_
  have hx := List.mem_of_getElem? hx
  simp only [St.init, ptmCells, List.map_cons, List.map_nil, List.mem_cons, List.not_mem_nil, or_false] at hx
  rcases hx with rfl | rfl | rfl | rfl | rfl | rfl <;> cases hd

end Bob.Fl
