import Verif.Lemmas.FlMem
/-!
# Well-formed states
-/

namespace Bob.Fl

/-! ## Counting references -/

/-- Variables among `vs` which hold `c` and will give it up. -/
def cntVars (L : Discipline) (vs : List Var) (c : Nat) : Nat := vs.countP fun v => v.val == some c && L.assigned.contains v.key

/-- The same over all scopes. -/
def heldVars (L : Discipline) (scopes : List Scope) (c : Nat) : Nat := (scopes.map fun x => cntVars L x.vars c).sum

section
variable {L : Discipline}

theorem heldVars_push (scopes : List Scope) (x : Scope) (c : Nat) : heldVars L (scopes ++ [x]) c = heldVars L scopes c + cntVars L x.vars c := by
  simp [heldVars]

theorem heldVars_set {scopes : List Scope} {i : Nat} {x : Scope} (hx : scopes[i]? = some x) (y : Scope) (c : Nat) :
    heldVars L (scopes.set i y) c + cntVars L x.vars c = heldVars L scopes c + cntVars L y.vars c := by
  induction scopes generalizing i with
  | nil => cases hx
  | cons z zs ih =>
    cases i with
    | zero =>
      cases hx
      simp only [heldVars, List.set_cons_zero, List.map_cons, List.sum_cons]
      omega
    | succ i =>
      have := ih (i := i) hx
      simp only [heldVars, List.set_cons_succ, List.map_cons, List.sum_cons] at this ⊢
      omega

theorem cntVars_le {scopes : List Scope} {i : Nat} {x : Scope} (hx : scopes[i]? = some x) (c : Nat) : cntVars L x.vars c ≤ heldVars L scopes c := by
  have := heldVars_set (L := L) hx {} c
  have h0 : cntVars L ({} : Scope).vars c = 0 := rfl
  omega

theorem cntVars_pos {vs : List Var} {v : Var} (hv : v ∈ vs) {c : Nat} (hc : v.val = some c) (hk : v.key ∈ L.assigned) : 1 ≤ cntVars L vs c := by
  unfold cntVars
  exact List.countP_pos_iff.2 ⟨v, hv, by simp [hc, hk]⟩

theorem cntVars_zero {vs : List Var} {c : Nat} (h : ∀ v ∈ vs, v.val ≠ some c) : cntVars L vs c = 0 := by
  unfold cntVars
  rw [List.countP_eq_zero]
  intro v hv
  simp [h v hv]

theorem heldVars_zero {scopes : List Scope} {c : Nat} (h : ∀ (i : Nat) (x : Scope), scopes[i]? = some x → ∀ v ∈ x.vars, v.val ≠ some c) : heldVars L scopes c = 0 := by
  unfold heldVars
  rw [List.sum_eq_zero_iff_forall_eq_nat]
  intro n hn
  obtain ⟨x, hx, rfl⟩ := List.mem_map.1 hn
  obtain ⟨i, hi⟩ := List.getElem?_of_mem hx
  exact cntVars_zero (h i x hi)

/-- What one variable counts for. -/
def Var.counts (L : Discipline) (v : Var) (c : Nat) : Nat := if v.val = some c ∧ v.key ∈ L.assigned then 1 else 0

theorem cntVars_cons (v : Var) (vs : List Var) (c : Nat) : cntVars L (v :: vs) c = cntVars L vs c + v.counts L c := by
  unfold cntVars Var.counts
  rw [List.countP_cons]
  congr 1
  simp only [Bool.and_eq_true, beq_iff_eq, List.contains_iff_mem]

theorem cntVars_append (vs : List Var) (v : Var) (c : Nat) : cntVars L (vs ++ [v]) c = cntVars L vs c + v.counts L c := by
  unfold cntVars
  rw [List.countP_append]
  exact congrArg _ ((cntVars_cons v [] c).trans (Nat.zero_add _))

theorem cntVars_set {vs : List Var} {k : Nat} {v : Var} (hv : vs[k]? = some v) (v' : Var) (c : Nat) :
    cntVars L (vs.set k v') c + v.counts L c = cntVars L vs c + v'.counts L c := by
  induction vs generalizing k with
  | nil => cases hv
  | cons z zs ih =>
    cases k with
    | zero =>
      cases hv
      rw [List.set_cons_zero, cntVars_cons, cntVars_cons]
      omega
    | succ k =>
      have := ih (k := k) hv
      rw [List.set_cons_succ, cntVars_cons, cntVars_cons]
      omega

end

/-- All references that will be given up: of variables, of the temporary values in `T`, and of the value to be returned. -/
def held (L : Discipline) (T : List Nat) (s : St) (c : Nat) : Nat := heldVars L s.scopes c + T.count c + (if s.eng.rv = .val c then 1 else 0)

/-! ## Cells that are kept -/

/-- An element of a vector or map. -/
def Elem (cells : List Cell) (c : Nat) : Prop := ∃ (k : Nat) (y : Cell), cells[k]? = some y ∧ c ∈ y.data.parts

/-- Kept for good.  `C` are copies which are not elements yet. -/
def Hard (C : List Nat) (cells : List Cell) (c : Nat) : Prop := c ∈ C ∨ Elem cells c ∨ ∃ x, cells[c]? = some x ∧ x.data.Fixed

/-- Held by a variable which is never assigned to. -/
def Soft (L : Discipline) (scopes : List Scope) (c : Nat) : Prop :=
  ∃ (i : Nat) (x : Scope) (v : Var), scopes[i]? = some x ∧ v ∈ x.vars ∧ v.val = some c ∧ v.key ∉ L.assigned

/-- What bob will read once the script has ended: flags of compilers and linkers, and the sources of requests. -/
def Host.Uses (h : Host) (c : Nat) : Prop := (∃ st ∈ h.states, st.flags = c) ∨ ∃ st ∈ h.steps, ∃ d ∈ st.data, d.srcs = c

/-- Kept.  `P` are values somebody keeps for now. -/
def Pinned (L : Discipline) (C P : List Nat) (s : St) (c : Nat) : Prop := Hard C s.cells c ∨ c ∈ P ∨ Soft L s.scopes c ∨ s.host.Uses c

/-! ## What states look like -/

/-- A value which is neither a class nor a member of strings or vectors. -/
def Plain (cells : List Cell) (c : Nat) : Prop := ∃ y, cells[c]? = some y ∧ y.data.Plain

/-- The parts of a function value, of a cell with owner `o`. -/
def fnOk (L : Discipline) (nenvs nscopes : Nat) (o : Option Nat) (f : FnData) : Prop :=
  (∀ p ∈ f.params, L.param p = true) ∧ (∀ e, f.env = some e → e < nenvs) ∧
  match f.kind with
  | .function => ∃ b, f.body = some b
  | .cls => (∃ b, f.body = some b) ∧ ∃ sc, f.scope = some sc ∧ sc < nscopes
  | .extern => f.body = none ∧ ∃ i, o = some i ∧ i < nscopes
  | .ptm _ => f.body = none

def DataOk (L : Discipline) (s : St) (x : Cell) : Prop :=
  (∀ c ∈ x.data.parts, Plain s.cells c) ∧
  match x.data with
  | .fn f => fnOk L s.envs.length s.scopes.length x.owner f
  | .inst i => i.cls < s.cells.length ∧ i.scope < s.scopes.length ∧ ∀ k, i.data = some k → k < s.host.states.length
  | _ => True

structure VarOk (L : Discipline) (cells : List Cell) (v : Var) : Prop where
  key : v.key ∉ memberNames
  val : ∀ c, v.val = some c → ∃ y, cells[c]? = some y ∧ y.data.NotPtm ∧ (v.key ∉ L.classes → y.data.Plain)

structure ScopeOk (L : Discipline) (cells : List Cell) (x : Scope) : Prop where
  freed : x.freed = false
  owner : ∀ c, x.owner = some c → c < cells.length
  vars : ∀ v ∈ x.vars, VarOk L cells v

/-- Build steps whose address is that of a `state_t` compile; others have an address used once, and one request. -/
def StepsOk (h : Host) : Prop :=
  ∀ st ∈ h.steps, (∃ o, st.unique = .state o ∧ st.kind = .compile) ∨
    ∃ n, st.unique = .bss n ∧ n < h.nbss ∧ st.kind ≠ .compile ∧ ∃ d, st.data = [d]

/-- A vector of `n` strings, where `D` says what the values are. -/
def StrsAt (D : Nat → Data → Prop) (c n : Nat) : Prop := ∃ es, D c (.vec es) ∧ es.length = n ∧ ∀ e ∈ es, ∃ b m, D e (.str b m)

/-- A request of a step of kind `k`, when there are `n` compilers and linkers. -/
def ReqOk (D : Nat → Data → Prop) (n : Nat) (k : StepKind) (d : ReqData) : Prop :=
  (∀ i, d.state = some i → i < n) ∧ ∃ m, StrsAt D d.srcs m ∧ if k = .compile then StrsAt D d.out m else ∃ b l, D d.out (.str b l)

/-- What bob keeps is in order: it uses `U` only, nothing of it was released, and `D` says that it is what it should be. -/
structure HostOk (D : Nat → Data → Prop) (U : Nat → Prop) (h : Host) : Prop where
  steps : StepsOk h
  uses : ∀ c, h.Uses c → U c
  states : ∀ st ∈ h.states, st.freed = false
  flags : ∀ st ∈ h.states, ∃ n, StrsAt D st.flags n
  reqs : ∀ st ∈ h.steps, ∀ d ∈ st.data, ReqOk D h.states.length st.kind d

theorem StrsAt.mono {D E : Nat → Data → Prop} {c n : Nat} (h : StrsAt D c n) (hDE : ∀ c d, D c d → E c d) : StrsAt E c n := by
  obtain ⟨es, h1, h2, h3⟩ := h
  exact ⟨es, hDE _ _ h1, h2, fun e he => (h3 e he).imp fun _ => .imp fun _ => hDE _ _⟩

theorem ReqOk.mono {D E : Nat → Data → Prop} {n n' : Nat} {k : StepKind} {d : ReqData} (h : ReqOk D n k d) (hDE : ∀ c d, D c d → E c d) (hn : n ≤ n') :
    ReqOk E n' k d := by
  obtain ⟨h1, m, h2, h3⟩ := h
  refine ⟨fun i hi => Nat.lt_of_lt_of_le (h1 i hi) hn, m, h2.mono hDE, ?_⟩
  split at h3
  · rename_i hk
    rw [if_pos hk]
    exact h3.mono hDE
  · rename_i hk
    rw [if_neg hk]
    exact h3.imp fun _ => .imp fun _ => hDE _ _

theorem HostOk.mono {D E : Nat → Data → Prop} {U V : Nat → Prop} {h : Host} (hh : HostOk D U h) (hUV : ∀ c, U c → V c) (hDE : ∀ c d, D c d → E c d) : HostOk E V h :=
  ⟨hh.steps, fun c hc => hUV c (hh.uses c hc), hh.states, fun st hs => (hh.flags st hs).imp fun _ h => h.mono hDE,
    fun st hs d hd => (hh.reqs st hs d hd).mono hDE (Nat.le_refl _)⟩

structure Shape (L : Discipline) (s : St) : Prop where
  data : ∀ (c : Nat) (x : Cell), s.cells[c]? = some x → DataOk L s x
  scopes : ∀ (i : Nat) (x : Scope), s.scopes[i]? = some x → ScopeOk L s.cells x
  envs : ∀ (j : Nat) (st : List Nat), s.envs[j]? = some st → ∀ i ∈ st, i < s.scopes.length
  cur : s.eng.env < s.envs.length
  ptm : ∀ (k : Nat) (p : Ptm), members[k]? = some p → ∃ x, s.cells[s.eng.ptm + k]? = some x ∧ x.data = .fn { kind := .ptm p }
  rv : ∀ c, s.eng.rv = .val c → Plain s.cells c
  rvs : s.eng.rv ≠ .sentinel
  host : HostOk s.Holds (· < s.cells.length) s.host

/-- The invariant: `C` are copies not yet elements, `P` values kept by somebody, `T` references held for now. -/
structure Wf (L : Discipline) (C P T : List Nat) (s : St) : Prop where
  mem : Mem L (held L T s) (Pinned L C P s) (Hard C s.cells) s.cells s.bufs s.bodies
  shape : Shape L s
  inC : ∀ c ∈ C, c < s.cells.length
  inP : ∀ c ∈ P, c < s.cells.length
  inT : ∀ c ∈ T, c < s.cells.length

/-! ## Going from one state to another -/

/-- Values stay what they are. -/
structure Sup (s s' : St) : Prop where
  cells : ∀ (c : Nat) (x : Cell), s.cells[c]? = some x → ∃ x', s'.cells[c]? = some x' ∧ x'.data = x.data
  envs : s.envs.length ≤ s'.envs.length
  scopes : s.scopes.length ≤ s'.scopes.length
  states : s.host.states.length ≤ s'.host.states.length

/-- Values stay what they are, and variables with names not in `F` keep their values. -/
structure Grow (F : List Bytes) (s s' : St) : Prop extends Sup s s' where
  vars : ∀ (i : Nat) (x : Scope), s.scopes[i]? = some x → ∃ x', s'.scopes[i]? = some x' ∧ x'.cls = x.cls ∧
    ∀ (k : Nat) (v : Var), x.vars[k]? = some v → ∃ v', x'.vars[k]? = some v' ∧ v'.key = v.key ∧ (v.key ∉ F → ∀ c, v.val = some c → v'.val = some c)

theorem Sup.refl (s : St) : Sup s s := ⟨fun _ x h => ⟨x, h, rfl⟩, Nat.le_refl _, Nat.le_refl _, Nat.le_refl _⟩

theorem Sup.trans {s s1 s2 : St} (h1 : Sup s s1) (h2 : Sup s1 s2) : Sup s s2 := by
  refine ⟨fun c x hx => ?_, h1.envs.trans h2.envs, h1.scopes.trans h2.scopes, h1.states.trans h2.states⟩
  obtain ⟨x1, hx1, e1⟩ := h1.cells c x hx
  obtain ⟨x2, hx2, e2⟩ := h2.cells c x1 hx1
  exact ⟨x2, hx2, e2.trans e1⟩

theorem Sup.lt {s s' : St} (h : Sup s s') {c : Nat} (hc : c < s.cells.length) : c < s'.cells.length := by
  obtain ⟨x', hx', _⟩ := h.cells c _ (List.getElem?_eq_getElem hc)
  exact lt_of_get hx'

theorem Sup.holds {s s' : St} (h : Sup s s') {c : Nat} {d : Data} (hc : s.Holds c d) : s'.Holds c d := by
  obtain ⟨y, hy, rfl⟩ := hc
  obtain ⟨y', hy', hd⟩ := h.cells c y hy
  exact ⟨y', hy', hd⟩

theorem Sup.plain {s s' : St} (h : Sup s s') {c : Nat} (hc : Plain s.cells c) : Plain s'.cells c := by
  obtain ⟨y, hy, hp⟩ := hc
  obtain ⟨y', hy', hd⟩ := h.cells c y hy
  exact ⟨y', hy', hd ▸ hp⟩

theorem Grow.refl (F : List Bytes) (s : St) : Grow F s s :=
  ⟨Sup.refl s, fun _ x h => ⟨x, h, rfl, fun _ v hv => ⟨v, hv, rfl, fun _ _ h => h⟩⟩⟩

theorem Grow.trans {F : List Bytes} {s s1 s2 : St} (h1 : Grow F s s1) (h2 : Grow F s1 s2) : Grow F s s2 := by
  refine ⟨h1.toSup.trans h2.toSup, fun i x hx => ?_⟩
  obtain ⟨x1, hx1, e1, v1⟩ := h1.vars i x hx
  obtain ⟨x2, hx2, e2, v2⟩ := h2.vars i x1 hx1
  refine ⟨x2, hx2, e2.trans e1, fun k v hv => ?_⟩
  obtain ⟨w1, hw1, k1, c1⟩ := v1 k v hv
  obtain ⟨w2, hw2, k2, c2⟩ := v2 k w1 hw1
  exact ⟨w2, hw2, k2.trans k1, fun hF c hc => c2 (by rw [k1]; exact hF) c (c1 hF c hc)⟩

theorem Grow.mono {F G : List Bytes} {s s' : St} (h : Grow F s s') (hFG : ∀ x ∈ F, x ∈ G) : Grow G s s' := by
  refine ⟨h.toSup, fun i x hx => ?_⟩
  obtain ⟨x1, hx1, e1, v1⟩ := h.vars i x hx
  refine ⟨x1, hx1, e1, fun k v hv => ?_⟩
  obtain ⟨w1, hw1, k1, c1⟩ := v1 k v hv
  exact ⟨w1, hw1, k1, fun hF => c1 fun h => hF (hFG _ h)⟩

/-- Changes outside of scopes. -/
theorem Grow.of_scopes {F : List Bytes} {s s' : St} (h : Sup s s') (hs : s'.scopes = s.scopes) : Grow F s s' :=
  ⟨h, fun i x hx => ⟨x, by rw [hs]; exact hx, rfl, fun _ v hv => ⟨v, hv, rfl, fun _ _ h => h⟩⟩⟩

theorem Grow.of_set {F : List Bytes} {s : St} {i : Nat} {x y : Scope} (hx : s.scopes[i]? = some x) (hc : y.cls = x.cls)
    (hv : ∀ (k : Nat) (v : Var), x.vars[k]? = some v → ∃ v', y.vars[k]? = some v' ∧ v'.key = v.key ∧ (v.key ∉ F → ∀ c, v.val = some c → v'.val = some c)) :
    Grow F s { s with scopes := s.scopes.set i y } := by
  refine ⟨⟨fun _ x h => ⟨x, h, rfl⟩, Nat.le_refl _, by rw [List.length_set], Nat.le_refl _⟩, fun j z hz => ?_⟩
  by_cases hj : j = i
  · subst hj
    rw [hx] at hz
    cases hz
    exact ⟨y, List.getElem?_set_self (lt_of_get hx), hc, hv⟩
  · exact ⟨z, by show (s.scopes.set i y)[j]? = _; rw [List.getElem?_set_ne (Ne.symm hj)]; exact hz, rfl, fun _ v hv => ⟨v, hv, rfl, fun _ _ h => h⟩⟩

theorem DataOk.sup {L : Discipline} {s s' : St} (h : Sup s s') {x : Cell} (hx : DataOk L s x) : DataOk L s' x := by
  refine ⟨fun c hc => h.plain (hx.1 c hc), ?_⟩
  have h2 := hx.2
  cases hd : x.data <;> rw [hd] at h2 <;> try trivial
  · simp only at h2 ⊢
    obtain ⟨p1, p2, p3⟩ := h2
    refine ⟨p1, fun e he => Nat.lt_of_lt_of_le (p2 e he) h.envs, ?_⟩
    split at p3
    · exact p3
    · obtain ⟨hb, sc, hs, hlt⟩ := p3
      exact ⟨hb, sc, hs, Nat.lt_of_lt_of_le hlt h.scopes⟩
    · obtain ⟨hb, sc, hs, hlt⟩ := p3
      exact ⟨hb, sc, hs, Nat.lt_of_lt_of_le hlt h.scopes⟩
    · exact p3
  · exact ⟨h.lt h2.1, Nat.lt_of_lt_of_le h2.2.1 h.scopes, fun k hk => Nat.lt_of_lt_of_le (h2.2.2 k hk) h.states⟩

theorem VarOk.sup {L : Discipline} {s s' : St} (h : Sup s s') {v : Var} (hv : VarOk L s.cells v) : VarOk L s'.cells v := by
  refine ⟨hv.key, fun c hc => ?_⟩
  obtain ⟨y, hy, h1, h2⟩ := hv.val c hc
  obtain ⟨y', hy', hd⟩ := h.cells c y hy
  exact ⟨y', hy', hd ▸ h1, fun hk => hd ▸ h2 hk⟩

theorem ScopeOk.sup {L : Discipline} {s s' : St} (h : Sup s s') {x : Scope} (hx : ScopeOk L s.cells x) : ScopeOk L s'.cells x :=
  ⟨hx.freed, fun c hc => h.lt (hx.owner c hc), fun v hv => (hx.vars v hv).sup h⟩

end Bob.Fl
