import Verif.Lemmas.FlSafeCall
/-!
# Statements do not go wrong
-/

namespace Bob.Fl

section
variable {L : Discipline} {C P T : List Nat} {s s' : St} {w : World} {n : Nat} {p : Place}

/-- Setting a variable that was not there in the beginning. -/
theorem Grow.setNew {F : List Bytes} {s1 : St} {i k : Nat} {x y : Scope} {v : Var} (h : Grow F s s1) (hx : s.scopes[i]? = some x) (hk : x.vars.length ≤ k) (hy : s1.scopes[i]? = some y) :
    Grow F s { s1 with scopes := s1.scopes.set i { y with vars := y.vars.set k v } } := by
  refine ⟨⟨h.cells, h.toSup.envs, by show _ ≤ (s1.scopes.set i _).length; rw [List.length_set]; exact h.toSup.scopes, h.toSup.states⟩, fun j z hz => ?_⟩
  obtain ⟨z', hz', hc, hv⟩ := h.vars j z hz
  by_cases hj : j = i
  · subst hj
    cases hx.symm.trans hz
    cases hy.symm.trans hz'
    refine ⟨_, List.getElem?_set_self (lt_of_get hy), hc, fun k' u hu => ?_⟩
    obtain ⟨u', hu', h1⟩ := hv k' u hu
    refine ⟨u', ?_, h1⟩
    show (y.vars.set k v)[k']? = _
    rw [List.getElem?_set_ne]
    · exact hu'
    · have := lt_of_get hu
      omega
  · exact ⟨z', by show (s1.scopes.set i _)[j]? = _; rw [List.getElem?_set_ne (Ne.symm hj)]; exact hz', hc, hv⟩

theorem Grow.touch {F : List Bytes} {c : Nat} {x y : Cell} (hx : s.cells[c]? = some x) (hd : y.data = x.data) : Grow F s { s with cells := s.cells.set c y } :=
  Grow.of_scopes (Sup.of_same (bufs := s.bufs) (bodies := s.bodies) (SameData.set hx hd)) rfl

/-- Refusing to declare a name again. -/
theorem safe_redecl (h : Wf L C P T s) {i k : Nat} {x : Scope} {name : Bytes} {m : Cell → Bytes} {Q : Unit → St → Prop} (hx : s.scopes[i]? = some x) (hk : findKeyIdx name x.vars = some k) :
    Safe (M.deref x.vars[k]? >>= fun v => M.deref v.val .uninit >>= fun c => getCell c >>= fun y => raise (m y)) s Q := by
  obtain ⟨v, hv, _⟩ := findKeyIdx_some hk
  refine Safe.deref (fun hn => absurd hn (by rw [hv]; simp)) fun v' hv' => Safe.deref (fun _ => by decide) fun c hc => ?_
  obtain ⟨y, hy, _⟩ := ((h.shape.scopes i x hx).vars v' (List.mem_of_getElem? hv')).val c hc
  exact Safe.getCell hy Safe.raise

theorem touched_reach (L : Discipline) (q : Bool) (p : Place) : ∀ x ∈ L.touched q, x ∈ L.reach p := fun x hx => L.inside_reach p x (L.touched_le q x hx)

theorem freeName_iff {x : Bytes} : freeName x = true ↔ x ∉ memberNames := by
  unfold freeName
  simp

theorem safe_initVal (hE : SafeE L (interp w n)) {init : Option Expr} {name : Bytes} (hok : ∀ e, init = some e → (e.ok L false = true ∧ e.isVal L = true) ∧ (e.isNew L = true → name ∉ L.assigned))
    (h : Wf L C P T s) (hr : s.eng.rv = .none) :
    Safe (initVal (interp w n) init) s fun c s' => (Wf L C P (c :: T) s' ∨ Wf L C (c :: P) T s' ∧ name ∉ L.assigned) ∧ Plain s'.cells c ∧ Grow L.inside s s' ∧ s'.eng.rv = .none := by
  unfold initVal
  cases init with
  | none => exact Safe.of_ok (alloc_apply ..) ⟨.inl (h.alloc (ps := []) trivial fun c hc => (nomatch hc)), ⟨_, List.getElem?_concat_length, trivial⟩, Grow.push _ _ _, hr⟩
  | some e =>
    obtain ⟨⟨h1, h2⟩, h3⟩ := hok e rfl
    refine (safe_value hE h1 h hr).mono fun c s1 ⟨hw, ⟨acc, hv⟩, hg, hq⟩ => ⟨?_, hv.plain h2, hg, hq.2⟩
    split at hw
    · rename_i hn
      exact .inr ⟨hw, h3 hn⟩
    · exact .inl hw

theorem safe_declVar (hE : SafeE L (interp w n)) (st : Bool) {name : Bytes} {init : Option Expr} (hn : freeName name = true)
    (hok : ∀ e, init = some e → (e.ok L false = true ∧ e.isVal L = true) ∧ (e.isNew L = true → name ∉ L.assigned)) (h : Wf L C P T s) (hp : InPlace p P s) (hr : s.eng.rv = .none) :
    Safe (declVar (interp w n) st name init) s fun _ s' => Execd L C P T p s s' := by
  obtain ⟨i, stk, hst, _⟩ := hp.stack
  have hi := h.shape.envs _ _ hst i List.mem_cons_self
  have hx := List.getElem?_eq_getElem hi
  have hfr := (h.shape.scopes i _ hx).freed
  generalize s.scopes[i] = x at hx hfr
  unfold declVar
  refine Safe.bind_ok (curScope_stack hst) (Safe.getScope hx hfr ?_)
  cases hk : findKeyIdx name x.vars with
  | some k => exact safe_redecl h hx hk
  | none =>
    dsimp only
    refine Safe.bind_ok (addVar_alive ⟨hx, hfr⟩ _) ?_
    have hw1 := h.addVar hx (v := { key := name, isStatic := st }) (freeName_iff.1 hn) rfl
    have hg1 : ∀ F, Grow F s { s with scopes := s.scopes.set i { x with vars := x.vars ++ [{ key := name, isStatic := st }] } } := fun F => Grow.addVar hx _
    have hx1 : (s.scopes.set i { x with vars := x.vars ++ [{ key := name, isStatic := st }] })[i]? = some { x with vars := x.vars ++ [{ key := name, isStatic := st }] } := List.getElem?_set_self hi
    refine Safe.bind ((safe_initVal hE hok hw1 hr).mono fun c s2 ⟨hw2, hp2, hg2, hr2⟩ => ?_)
    obtain ⟨y, hy, _, hv⟩ := hg2.vars i _ hx1
    obtain ⟨v, hv, hvk, _⟩ := hv x.vars.length { key := name, isStatic := st } List.getElem?_concat_length
    have hfr2 : y.freed = false := by
      rcases hw2 with hw2 | ⟨hw2, _⟩ <;> exact (hw2.shape.scopes i y hy).freed
    refine Safe.bind_ok (setVar_alive ⟨hy, hfr2⟩ hv c) ?_
    obtain ⟨z, hz, hzp⟩ := hp2
    have hw3 : Wf L C P T { s2 with scopes := s2.scopes.set i { y with vars := y.vars.set x.vars.length { v with val := some c } } } := by
      rcases hw2 with hw2 | ⟨hw2, hna⟩
      · exact hw2.setVar hy hv hz hzp.notPtm (fun _ => hzp) (.inl rfl)
      · exact (hw2.setVar hy hv hz hzp.notPtm (fun _ => hzp) (.inr ⟨rfl, .inr (.inl List.mem_cons_self), by rw [hvk]; exact hna⟩)).subP fun c hc => List.mem_cons_of_mem _ hc
    refine Safe.of_ok (setOwnerOf_cell (s := { s2 with scopes := s2.scopes.set i { y with vars := y.vars.set x.vars.length { v with val := some c } } }) hz i) ⟨?_, ?_, fun _ => hr2⟩
    · exact hw3.touch hz rfl rfl (.inr ⟨i, rfl, by simpa using lt_of_get hy⟩)
    · exact ((((hg1 _).trans hg2).mono (L.inside_reach p)).setNew hx (Nat.le_refl _) hy).trans (Grow.touch (s := { s2 with scopes := _ }) hz rfl)

/-! ## Lines without effects on scopes -/

theorem Quit.rvn {s' : St} (h : Quit s s') : p ≠ .fn → s'.eng.rv = .none := fun _ => h.2

theorem safe_doPrint (hE : SafeE L (interp w n)) {e : Expr} (he : e.ok L false = true) (ho : e.isOwn L = true) (h : Wf L C P T s) (hr : s.eng.rv = .none) :
    Safe (doPrint (interp w n) e) s fun _ s' => Execd L C P T p s s' := by
  unfold doPrint
  refine Safe.bind ((safe_own hE he ho h hr).mono fun c s1 ⟨hw, hpl, hg, hq⟩ => ?_)
  refine Safe.still_bind (safe_stepRepr hw (fun hc => safe_repr w hw n hc) false (hw.live_T List.mem_cons_self)) fun t _ => ?_
  refine Safe.bind_ok (modify_apply ..) ?_
  refine (Wf.safe_dec (s := { s1 with out := s1.out ++ [t] }) (hw.host rfl rfl rfl rfl rfl rfl (Nat.le_refl _) hw.hostOk) w n).mono fun _ s2 ⟨h1, h2, h3⟩ => ⟨h1, ?_, fun _ => by rw [h3]; exact hq.2⟩
  have hout : Grow (L.reach p) s1 { s1 with out := s1.out ++ [t] } := Grow.of_scopes ⟨fun _ x hx => ⟨x, hx, rfl⟩, Nat.le_refl _, Nat.le_refl _, Nat.le_refl _⟩ rfl
  exact (hg.mono (touched_reach L _ p)).trans (hout.trans (h2 _))

theorem safe_doAssert (hE : SafeE L (interp w n)) {e : Expr} {text : Bytes} (he : e.ok L false = true) (ho : e.isOwn L = true) (h : Wf L C P T s) (hr : s.eng.rv = .none) :
    Safe (doAssert (interp w n) e text) s fun _ s' => Execd L C P T p s s' := by
  unfold doAssert
  refine Safe.bind ((safe_own hE he ho h hr).mono fun c s1 ⟨hw, hpl, hg, hq⟩ => ?_)
  obtain ⟨x, hx, _⟩ := hpl
  refine Safe.getCell hx ?_
  split
  · split
    · exact (hw.safe_dec w n).mono fun _ s2 ⟨h1, h2, h3⟩ => ⟨h1, (hg.mono (touched_reach L _ p)).trans (h2 _), fun _ => by rw [h3]; exact hq.2⟩
    · exact Safe.raise
  · exact Safe.raise

theorem safe_exprLine (hE : SafeE L (interp w n)) {e : Expr} (he : e.ok L false = true) (h : Wf L C P T s) (hr : s.eng.rv = .none) :
    Safe ((interp w n).eval .discard e >>= fun _ => pure ()) s fun _ s' => Execd L C P T p s s' := by
  refine Safe.bind ((hE.eval .discard he h hr).mono fun r s1 ⟨hv, hq⟩ => Safe.pure ⟨?_, hv.grow.mono (touched_reach L _ p), fun _ => hq.2⟩)
  have := hv.wf
  split at this
  · exact Wf.subP (P := r.val.toList ++ (r.acc.toList ++ P)) this fun c hc => List.mem_append_right _ (List.mem_append_right _ hc)
  · exact (Wf.subP (P := r.acc.toList ++ P) this fun c hc => List.mem_append_right _ hc).drop

theorem safe_doReturn (hE : SafeE L (interp w n)) {e : Option Expr} (he : ∀ x, e = some x → x.ok L false = true ∧ x.isOwn L = true) (h : Wf L C P T s) (hp : InPlace .fn P s) (hr : s.eng.rv = .none) :
    Safe (doReturn (interp w n) e) s fun _ s' => Execd L C P T .fn s s' := by
  obtain ⟨i, stk, hst, hcls⟩ := hp.stack
  have hi := h.shape.envs _ _ hst i List.mem_cons_self
  have hx := List.getElem?_eq_getElem hi
  have hfr := (h.shape.scopes i _ hx).freed
  generalize s.scopes[i] = x at hx hfr
  have hcx := hcls rfl x hx
  unfold doReturn
  refine Safe.bind_ok ((curStack_ok_iff ..).2 ⟨hst, rfl⟩) ?_
  split
  · exact Safe.raise
  · refine Safe.bind_ok (curScope_stack hst) (Safe.getScope hx hfr ?_)
    rw [hcx, Bool.and_false]
    simp only [Bool.false_eq_true, if_false]
    refine Safe.bind_ok (getRv_apply s) ?_
    rw [hr]
    refine Safe.bind_ok (a := ()) (s1 := s) rfl ?_
    cases e with
    | some e =>
      obtain ⟨h1, h2⟩ := he e rfl
      obtain ⟨h3, h4⟩ := (isOwn_iff e).1 h2
      refine Safe.bind ((hE.eval .ret h1 h hr).mono fun r s1 ⟨hv, hq⟩ => ?_)
      have hw := hv.wf
      rw [h4] at hw
      have hw : Wf L C P (r.val.toList ++ T) s1 := Wf.subP (P := r.acc.toList ++ P) hw fun c hc => List.mem_append_right _ hc
      have hg := hv.grow.mono (touched_reach L _ .fn)
      split
      · rename_i c hc
        rw [hc] at hw
        refine Safe.of_ok (setRv_apply ..) ⟨Wf.setRv (T := T) hw ((hv.val c hc).plain h3) hq.2, hg.trans (Grow.context s1.envs _ (Nat.le_refl _)), fun h => absurd rfl h⟩
      · exact Safe.pure ⟨hw.drop, hg, fun h => absurd rfl h⟩
    | none =>
      refine Safe.bind_ok (alloc_apply ..) (Safe.of_ok (setRv_apply ..) ⟨?_, ?_, fun h => absurd rfl h⟩)
      · exact (h.alloc (d := .none) (ps := []) trivial fun c hc => (nomatch hc)).setRv ⟨_, List.getElem?_concat_length, trivial⟩ hr
      · exact (Grow.push (s := s) [{ data := .none }] s.bufs s.bodies).trans (Grow.context s.envs _ (Nat.le_refl _))

/-! ## Assignments -/

theorem safe_store (w : World) (n : Nat) {i k c r : Nat} {x : Scope} {v : Var} {y : Cell} (h : Wf L C P (r :: T) s) (hx : s.scopes[i]? = some x) (hv : x.vars[k]? = some v) (hc : v.val = some c)
    (hy : s.cells[r]? = some y) (hpl : y.data.Plain) (hk : v.key ∈ L.assigned) {F : List Bytes} (hF : v.key ∈ F) :
    Safe (store (interp w n) (some (i, k)) c r) s fun _ s' => Wf L C P T s' ∧ Grow F s s' ∧ s'.eng = s.eng := by
  have hfr := (h.shape.scopes i x hx).freed
  unfold store
  dsimp only
  rcases h.store hx hv hc hy hpl hk w n with ht | ⟨cells, bufs, bodies, h1, h2, h3⟩
  · exact Safe.of_timeout (by rw [bind_apply, ht])
  · obtain ⟨y', hy', hd⟩ := h2.get hy
    refine Safe.bind_ok h1 (Safe.bind_ok (a := v) (s1 := { s with cells := cells, bufs := bufs, bodies := bodies }) ?_ ?_)
    · unfold getVar
      exact (bind_of_ok (getScope_alive (s := { s with cells := cells, bufs := bufs, bodies := bodies }) ⟨hx, hfr⟩)).trans ((deref_ok_iff ..).2 ⟨hv, rfl⟩)
    · refine Safe.bind_ok (setVar_alive (s := { s with cells := cells, bufs := bufs, bodies := bodies }) ⟨hx, hfr⟩ hv r) ?_
      refine Safe.of_ok (setName_cell (s := { s with cells := cells, bufs := bufs, bodies := bodies, scopes := _ }) hy' v.key i) ⟨h3.touch hy' rfl rfl (.inl rfl), ?_, rfl⟩
      have g1 : Grow F s { s with cells := cells, bufs := bufs, bodies := bodies } := Grow.of_scopes (Sup.of_same h2) rfl
      have g2 : Grow F { s with cells := cells, bufs := bufs, bodies := bodies }
          { s with cells := cells, bufs := bufs, bodies := bodies, scopes := s.scopes.set i { x with vars := x.vars.set k { v with val := some r } } } := by
        refine Grow.of_set (s := { s with cells := cells, bufs := bufs, bodies := bodies }) (y := { x with vars := x.vars.set k { v with val := some r } }) hx rfl fun k' v' hv' => ?_
        by_cases hkk : k' = k
        · subst hkk
          cases hv.symm.trans hv'
          exact ⟨_, List.getElem?_set_self (lt_of_get hv), rfl, fun h => absurd hF h⟩
        · exact ⟨v', by show (x.vars.set k _)[k']? = _; rw [List.getElem?_set_ne (Ne.symm hkk)]; exact hv', rfl, fun _ _ h => h⟩
      exact (g1.trans g2).trans (Grow.touch (s := { s with cells := cells, bufs := bufs, bodies := bodies, scopes := _ }) hy' rfl)

theorem safe_assignTo (hE : SafeE L (interp w n)) {name text : Bytes} {q : Nat × Nat} {v : Var} {rhs : Expr} (hv : IsVar s name q v) (hk : name ∈ L.assigned) (hF : name ∈ L.reach p)
    (he : rhs.ok L (L.inside.contains name) = true) (ho : rhs.isOwn L = true) (h : Wf L C P T s) (hr : s.eng.rv = .none) :
    Safe (assignTo (interp w n) (some q) v.val text rhs) s fun _ s' => Execd L C P T p s s' := by
  unfold assignTo
  refine Safe.deref (fun _ => by decide) fun c hc => ?_
  obtain ⟨_, y, hy, _⟩ := hv.val h hc
  refine Safe.getCell hy (Safe.ite Safe.raise ?_)
  refine Safe.bind ((safe_own hE he ho h hr).mono fun r s1 ⟨hw, hpl, hg, hq⟩ => ?_)
  obtain ⟨x, hx, hvx, hkey⟩ := hv
  obtain ⟨x1, hx1, _, hvs⟩ := hg.vars _ x hx
  obtain ⟨v1, hv1, hk1, hc1⟩ := hvs _ v hvx
  have hnt : name ∉ L.touched (L.inside.contains name) := by
    cases hb : L.inside.contains name
    · show name ∉ L.inside
      simpa using hb
    · exact List.not_mem_nil
  have hc1 := hc1 (by rw [hkey]; exact hnt) c hc
  obtain ⟨z, hz, hzp⟩ := hpl
  refine Safe.bind ((safe_store w n hw hx1 hv1 hc1 hz hzp (by rw [hk1, hkey]; exact hk) (F := L.reach p) (by rw [hk1, hkey]; exact hF)).mono fun _ s2 ⟨h1, h2, h3⟩ => ?_)
  have hgr := (hg.mono (touched_reach L _ p)).trans h2
  obtain ⟨y2, hy2, _⟩ := hgr.toSup.cells c y hy
  refine Safe.getCell hy2 (Safe.ite Safe.raise (Safe.pure ⟨h1, hgr, fun _ => by rw [h3]; exact hq.2⟩))

theorem lhs_ok {name : Bytes} (h : (L.assigned.contains name && (p == .top || L.inside.contains name)) = true) : name ∈ L.assigned ∧ name ∈ L.reach p := by
  rw [ok_and] at h
  have h1 : name ∈ L.assigned := by simpa using h.1
  refine ⟨h1, ?_⟩
  unfold Discipline.reach
  split
  · exact List.mem_append_left _ h1
  · rename_i hp
    simpa [hp] using h.2

theorem safe_assign (hE : SafeE L (interp w n)) {lhs : Lhs} {rhs : Expr} (hok : (Line.assign lhs rhs).ok L p = true) (h : Wf L C P T s) (hr : s.eng.rv = .none) :
    Safe (assign (interp w n) lhs rhs) s fun _ s' => Execd L C P T p s s' := by
  unfold assign
  cases lhs with
  | ident x =>
    unfold Line.ok Lhs.ok at hok
    simp only [ok_and] at hok
    obtain ⟨⟨hl, he⟩, ho⟩ := hok
    obtain ⟨h1, h2⟩ := lhs_ok (ok_and.2 hl)
    refine Safe.bind ((safe_findVar h x).mono fun o s1 ⟨hs, hv⟩ => ?_)
    subst hs
    cases o with
    | none => exact Safe.raise
    | some q =>
      obtain ⟨v, hv⟩ := hv q rfl
      exact Safe.bind_ok (getVar_isVar h hv) (safe_assignTo hE hv h1 h2 he ho h hr)
  | access b x t =>
    unfold Line.ok Lhs.ok at hok
    simp only [ok_and] at hok
    obtain ⟨⟨⟨⟨⟨hb, _⟩, hl1⟩, hl2⟩, he⟩, ho⟩ := hok
    obtain ⟨h1, h2⟩ := lhs_ok (ok_and.2 ⟨hl1, hl2⟩)
    refine Safe.bind ((safe_accessFind hE hb x h hr).mono fun ⟨q, v, a⟩ s1 hf => ?_)
    have hw := hf.wf.subP (P' := P) fun c hc => List.mem_cons_of_mem _ hc
    cases q with
    | some q =>
      obtain ⟨u, hu, hval⟩ := hf.var q rfl
      have hval : u.val = v := hval
      subst hval
      exact (safe_assignTo hE hu h1 h2 he ho hw hf.quit.2).mono fun _ s2 h3 => ⟨h3.wf, (hf.grow.mono (touched_reach L _ p)).trans h3.grow, h3.rv⟩
    | none =>
      obtain ⟨k, z, _, hk, hv⟩ := hf.ptm rfl
      obtain ⟨_, m, hm, _⟩ := ptmIdx_mem hk
      obtain ⟨y, hy, _⟩ := hf.wf.shape.ptm k m hm
      have hv : v = some (s1.eng.ptm + k) := hv
      subst hv
      exact Safe.bind_ok rfl (Safe.getCell hy Safe.raise)
  | index e i t => cases hok

/-! ## Declaring functions and classes -/

/-- The body a function gets. -/
def blockId (s : St) : Option (List Stmt) → Option Nat
  | some _ => some s.bodies.length
  | none => none

def blockOf : Option (List Stmt) → List (Option Body)
  | some ss => [some (.block ss)]
  | none => []

/-- The state after a function was declared. -/
def declSt (s : St) (i : Nat) (stk : List Nat) (x : Scope) (st : Bool) (name : Bytes) (f : FnData) (body : Option (List Stmt)) : St :=
  { s with scopes := s.scopes.set i { x with vars := x.vars ++ [{ key := name, isStatic := st, val := some s.cells.length }] },
           cells := s.cells ++ [{ data := .fn f, name := name, keyIn := some i, owner := some i }], envs := s.envs ++ [i :: stk], bodies := s.bodies ++ blockOf body }

theorem declFn_eq {R : Rec} {kind : FnKind} {st : Bool} {name : Bytes} {ps : List Bytes} {body : Option (List Stmt)} {i : Nat} {stk : List Nat} {x : Scope}
    (hst : s.Stack (i :: stk)) (hx : s.scopes[i]? = some x) (hfr : x.freed = false) (hk : findKeyIdx name x.vars = none) :
    declFn R kind st name ps body s = (if kind = .cls then do
        let sc ← allocScope { owner := some s.cells.length }
        setCell s.cells.length { data := .fn { kind := kind, body := blockId s body, params := ps, env := some s.envs.length, scope := some sc }, name := name, keyIn := some i, owner := some i }
        attach sc
        forEach R.member (body.getD [])
        let _ ← detach
        classDecl s.cells.length
      else pure () : M Unit) (declSt s i stk x st name { kind := kind, body := blockId s body, params := ps, env := some s.envs.length } body) := by
  have hlt := lt_of_get hx
  unfold declFn
  rw [bind_of_ok (curScope_stack hst), bind_of_ok (getScope_alive ⟨hx, hfr⟩), hk]
  dsimp only
  rw [bind_of_ok (addVar_alive ⟨hx, hfr⟩ _)]
  rw [bind_of_ok (alloc_apply ..)]
  rw [bind_of_ok (setVar_alive (x := { x with vars := x.vars ++ [{ key := name, isStatic := st }] })
    ⟨List.getElem?_set_self hlt, hfr⟩ (List.getElem?_concat_length ..) _)]
  rw [bind_of_ok (setName_cell (List.getElem?_concat_length ..) _ _)]
  rw [bind_of_ok (setOwnerOf_cell (List.getElem?_set_self (by simp)) _)]
  rw [bind_of_ok (closeOver_stack (st := i :: stk) ?hs)]
  case hs => exact hst
  cases body with
  | none =>
    rw [bind_of_ok (show allocBlock none _ = .ok _ _ from rfl)]
    rw [bind_of_ok ((getCell_ok_iff ..).2 ⟨List.getElem?_set_self (by simp), rfl⟩)]
    rw [bind_of_ok (setCell_apply ..)]
    simp only [set_concat, List.set_set]
    simp only [declSt, blockId, blockOf, List.append_nil]
  | some ss =>
    rw [bind_of_ok (show allocBlock (some ss) _ = .ok _ _ from rfl)]
    rw [bind_of_ok ((getCell_ok_iff ..).2 ⟨List.getElem?_set_self (by simp), rfl⟩)]
    rw [bind_of_ok (setCell_apply ..)]
    simp only [set_concat, List.set_set]
    simp only [declSt, blockId, blockOf]

theorem Wf.declSt {kind : FnKind} {i : Nat} {stk : List Nat} {x : Scope} {st : Bool} {name : Bytes} {ps : List Bytes} {sc : Option Nat} {body : Option (List Stmt)} (h : Wf L C P T s)
    (hst : ∀ j ∈ i :: stk, j < s.scopes.length) (hx : s.scopes[i]? = some x) (hn : name ∉ memberNames) (hps : ∀ p ∈ ps, L.param p = true)
    (hb : ∀ ss, body = some ss → bodyOk L kind (.block ss)) (hk : (kind = .function ∧ body.isSome) ∨ (kind = .extern ∧ body = none) ∨
      (kind = .cls ∧ body.isSome ∧ name ∈ L.classes ∧ ∃ j, sc = some j ∧ j < s.scopes.length)) :
    Wf L C P T (declSt s i stk x st name { kind := kind, body := blockId s body, params := ps, env := some s.envs.length, scope := sc } body) := by
  have hi := lt_of_get hx
  have h1 := (h.newEnv hst).addVar (v := { key := name, isStatic := st }) hx hn rfl
  have hnp : ∀ p, kind ≠ .ptm p := by
    rintro p rfl
    rcases hk with ⟨hk, _⟩ | ⟨hk, _⟩ | ⟨hk, _⟩ <;> cases hk
  have hfn : ∀ n, s.scopes.length ≤ n → fnOk L (s.envs ++ [i :: stk]).length n (some i) { kind := kind, body := blockId s body, params := ps, env := some s.envs.length, scope := sc } := by
    intro n hle
    refine ⟨hps, fun e he => ?_, ?_⟩
    · cases he
      simp
    · rcases hk with ⟨rfl, hk⟩ | ⟨rfl, rfl⟩ | ⟨rfl, hk, _, j, rfl, hj⟩
      · obtain ⟨ss, rfl⟩ := Option.isSome_iff_exists.1 hk
        exact ⟨_, rfl⟩
      · exact ⟨rfl, i, rfl, by omega⟩
      · obtain ⟨ss, rfl⟩ := Option.isSome_iff_exists.1 hk
        exact ⟨⟨_, rfl⟩, j, rfl, by omega⟩
  have h2 : Wf L C P (s.cells.length :: T)
      { s with scopes := s.scopes.set i { x with vars := x.vars ++ [{ key := name, isStatic := st }] },
               cells := s.cells ++ [{ data := .fn { kind := kind, body := blockId s body, params := ps, env := some s.envs.length, scope := sc }, name := name, keyIn := some i, owner := some i }], envs := s.envs ++ [i :: stk], bodies := s.bodies ++ blockOf body } := by
    cases body with
    | none =>
      rw [show s.bodies ++ blockOf none = s.bodies from List.append_nil _]
      exact h1.allocExtern (f := { kind := kind, body := none, params := ps, env := some s.envs.length, scope := sc }) (o := some i) (nm := name) (ky := some i) (hfn _ (by simp)) rfl hnp
    | some ss => exact h1.allocFn (f := { kind := kind, body := some s.bodies.length, params := ps, env := some s.envs.length, scope := sc }) (o := some i) (nm := name) (ky := some i) (b := .block ss) (hfn _ (by simp)) rfl (hb ss rfl) hnp
  have h3 := h2.setVar (i := i) (k := x.vars.length) (c := s.cells.length) (List.getElem?_set_self hi) List.getElem?_concat_length List.getElem?_concat_length hnp (fun hc => ?_) (.inl rfl)
  · simp only [set_concat, List.set_set] at h3
    exact h3
  · rcases hk with ⟨rfl, _⟩ | ⟨rfl, _⟩ | ⟨_, _, hk, _⟩
    · exact .inl rfl
    · exact .inr rfl
    · exact absurd hk hc

theorem Grow.declSt {F : List Bytes} {i : Nat} {stk : List Nat} {x : Scope} {st : Bool} {name : Bytes} {f : FnData} {body : Option (List Stmt)} (hx : s.scopes[i]? = some x) :
    Grow F s (declSt s i stk x st name f body) := by
  have h1 : Grow F s { s with scopes := s.scopes.set i { x with vars := x.vars ++ [{ key := name, isStatic := st, val := some s.cells.length }] } } := Grow.addVar hx _
  refine h1.trans (Grow.of_scopes ⟨fun c y hy => ⟨y, getElem?_pushed hy, rfl⟩, ?_, Nat.le_refl _, Nat.le_refl _⟩ rfl)
  show s.envs.length ≤ (s.envs ++ [i :: stk]).length
  simp

theorem safe_declFn (hX : SafeX L (interp w n)) {kind : FnKind} (st : Bool) {name : Bytes} {ps : List Bytes} {body : Option (List Stmt)} (hn : freeName name = true) (hps : ps.all L.param = true)
    (hb : ∀ ss, body = some ss → bodyOk L kind (.block ss)) (hk : (kind = .function ∧ body.isSome) ∨ (kind = .extern ∧ body = none) ∨ (kind = .cls ∧ body.isSome ∧ name ∈ L.classes ∧ p ≠ .fn))
    (h : Wf L C P T s) (hp : InPlace p P s) :
    Safe (declFn (interp w n) kind st name ps body) s fun _ s' => Execd L C P T p s s' := by
  obtain ⟨i, stk, hst, _⟩ := hp.stack
  have hlt := h.shape.envs _ _ hst
  have hi := hlt i List.mem_cons_self
  have hx := List.getElem?_eq_getElem hi
  have hfr := (h.shape.scopes i _ hx).freed
  generalize s.scopes[i] = x at hx hfr
  have hps : ∀ p ∈ ps, L.param p = true := List.all_eq_true.1 hps
  cases hf : findKeyIdx name x.vars with
  | some k =>
    unfold declFn
    refine Safe.bind_ok (curScope_stack hst) (Safe.getScope hx hfr ?_)
    rw [hf]
    exact safe_redecl h hx hf
  | none =>
    refine Safe.of_eq (declFn_eq hst hx hfr hf) ?_
    by_cases hkc : kind = .cls
    · subst hkc
      rw [if_pos rfl]
      obtain ⟨hbs, hcn, hpf⟩ : body.isSome ∧ name ∈ L.classes ∧ p ≠ .fn := by
        rcases hk with ⟨hk, _⟩ | ⟨hk, _⟩ | ⟨_, hk⟩
        · cases hk
        · cases hk
        · exact hk
      obtain ⟨ss, rfl⟩ := Option.isSome_iff_exists.1 hbs
      have hlen : (Bob.Fl.declSt s i stk x st name { kind := .cls, body := blockId s (some ss), params := ps, env := some s.envs.length } (some ss)).scopes.length = s.scopes.length := List.length_set
      refine Safe.bind_ok (allocScope_apply ..) ?_
      rw [hlen]
      refine Safe.bind_ok (setCell_apply ..) ?_
      have hst1 : (s.envs ++ [i :: stk])[s.eng.env]? = some (i :: stk) := getElem?_pushed hst
      refine Safe.bind_ok (a := ()) ((attach_ok_iff ..).2 ⟨_, hst1, rfl⟩) ?_
      generalize hfd : ({ kind := .cls, body := blockId s (some ss), params := ps, env := some s.envs.length, scope := some s.scopes.length } : FnData) = fd
      have hw1 : Wf L C P T { Bob.Fl.declSt s i stk x st name fd (some ss) with
          scopes := s.scopes.set i { x with vars := x.vars ++ [{ key := name, isStatic := st, val := some s.cells.length }] } ++ [{ owner := some s.cells.length }],
          envs := (s.envs ++ [i :: stk]).set s.eng.env (s.scopes.length :: i :: stk) } := by
        subst hfd
        have h0 := h.newScope {} rfl rfl (fun c hc => (nomatch hc))
        have h1 := h0.declSt (i := i) (stk := stk) (x := x) (st := st) (name := name) (ps := ps) (sc := some s.scopes.length) (kind := .cls) (body := some ss)
          (fun j hj => by have := hlt j hj; simp; omega) (getElem?_pushed hx) (freeName_iff.1 hn) hps hb (.inr (.inr ⟨rfl, rfl, hcn, _, rfl, by simp⟩))
        have h2 := h1.flagScope (i := s.scopes.length) (x := {}) (y := { owner := some s.cells.length }) (by
          show ((s.scopes ++ [({} : Scope)]).set i _)[s.scopes.length]? = _
          rw [List.getElem?_set_ne (Nat.ne_of_lt hi)]
          exact List.getElem?_concat_length) rfl rfl (fun c hc => by
            cases hc
            show s.cells.length < (s.cells ++ [_]).length
            simp)
        have h3 := h2.setStack (e := s.eng.env) (st := s.scopes.length :: i :: stk) (fun j hj => by
          show j < (((s.scopes ++ [({} : Scope)]).set i _).set _ _).length
          simp only [List.length_set, List.length_append, List.length_singleton]
          rcases List.mem_cons.1 hj with rfl | hj
          · omega
          · have := hlt j hj
            omega)
        have hsc : ∀ y z : Scope, ((s.scopes ++ [({} : Scope)]).set i y).set s.scopes.length z = s.scopes.set i y ++ [z] := by
          intro y z
          rw [List.set_append_left _ _ hi]
          have := set_concat (s.scopes.set i y) {} z
          rw [List.length_set] at this
          exact this
        simp only [Bob.Fl.declSt, hsc] at h3
        exact h3
      have hg1 : Grow (L.reach p) s { Bob.Fl.declSt s i stk x st name fd (some ss) with
          scopes := s.scopes.set i { x with vars := x.vars ++ [{ key := name, isStatic := st, val := some s.cells.length }] } ++ [{ owner := some s.cells.length }],
          envs := (s.envs ++ [i :: stk]).set s.eng.env (s.scopes.length :: i :: stk) } := by
        refine (Grow.declSt (stk := stk) (st := st) (name := name) (f := fd) (body := some ss) hx).trans ?_
        exact Grow.newScope (s := Bob.Fl.declSt s i stk x st name fd (some ss)) _ _ _ (by show (s.envs ++ [i :: stk]).length ≤ _; simp)
      have hc1 : (Bob.Fl.declSt s i stk x st name fd (some ss)).cells[s.cells.length]? = some { data := .fn fd, name := name, keyIn := some i, owner := some i } := List.getElem?_concat_length
      have hst2 : ((s.envs ++ [i :: stk]).set s.eng.env (s.scopes.length :: i :: stk))[s.eng.env]? = some (s.scopes.length :: i :: stk) := by
        refine List.getElem?_set_self ?_
        have := h.shape.cur
        simp
        omega
      have heq : ({ Bob.Fl.declSt s i stk x st name { kind := .cls, body := blockId s (some ss), params := ps, env := some s.envs.length } (some ss) with
          scopes := (Bob.Fl.declSt s i stk x st name { kind := .cls, body := blockId s (some ss), params := ps, env := some s.envs.length } (some ss)).scopes ++ [{ owner := some s.cells.length }],
          cells := (Bob.Fl.declSt s i stk x st name { kind := .cls, body := blockId s (some ss), params := ps, env := some s.envs.length } (some ss)).cells.set s.cells.length { data := .fn fd, name := name, keyIn := some i, owner := some i },
          envs := (s.envs ++ [i :: stk]).set s.eng.env (s.scopes.length :: i :: stk) } : St) = { Bob.Fl.declSt s i stk x st name fd (some ss) with
          scopes := s.scopes.set i { x with vars := x.vars ++ [{ key := name, isStatic := st, val := some s.cells.length }] } ++ [{ owner := some s.cells.length }],
          envs := (s.envs ++ [i :: stk]).set s.eng.env (s.scopes.length :: i :: stk) } := by
        simp only [Bob.Fl.declSt, set_concat]
      refine Safe.of_eq (congrArg _ heq) ?_
      have hr1 := hp.rv hpf
      generalize hs1 : ({ Bob.Fl.declSt s i stk x st name fd (some ss) with
          scopes := s.scopes.set i { x with vars := x.vars ++ [{ key := name, isStatic := st, val := some s.cells.length }] } ++ [{ owner := some s.cells.length }],
          envs := (s.envs ++ [i :: stk]).set s.eng.env (s.scopes.length :: i :: stk) } : St) = s1 at hw1 hg1
      have hp1 : InPlace .cls P s1 := by
        subst hs1
        exact ⟨⟨_, _, hst2, fun hh => (nomatch hh)⟩, fun _ => hr1, fun hh => (nomatch hh)⟩
      have hst1' : s1.envs[s1.eng.env]? = some (s.scopes.length :: i :: stk) := by
        subst hs1
        exact hst2
      have hc1' : s1.cells[s.cells.length]? = some { data := .fn fd, name := name, keyIn := some i, owner := some i } := by
        subst hs1
        exact hc1
      refine Safe.bind ((safe_stmts hX.member (hb ss rfl) hw1 hp1).mono fun _ s2 ⟨he, hfx⟩ => ?_)
      have hfx := hfx ⟨_, hst1'⟩
      have hst2' : s2.envs[s2.eng.env]? = some (s.scopes.length :: i :: stk) := by
        rw [hfx.env]
        exact hfx.envs _ _ hst1'
      have hlt2 := he.wf.shape.envs _ _ hst2'
      refine Safe.bind_ok ((detach_ok_iff ..).2 ⟨_, hst2', rfl⟩) ?_
      have hw3 := he.wf.setStack (e := s2.eng.env) (st := i :: stk) fun j hj => hlt2 j (List.mem_cons_of_mem _ hj)
      obtain ⟨y, hy, hyd⟩ := he.grow.toSup.cells _ _ hc1'
      refine (safe_classDecl hw3 (f := fd) (i := s.scopes.length) hy hyd (by subst hfd; rfl) (hlt2 _ List.mem_cons_self)).mono fun _ s3 ⟨h1, h2, h3⟩ => ?_
      refine ⟨h1, ?_, fun _ => by rw [h3]; exact he.rv (by rintro ⟨⟩)⟩
      have hg2 : Grow (L.reach p) s1 s2 := he.grow.mono fun z hz => L.inside_reach p z (by simpa [Discipline.reach] using hz)
      exact (hg1.trans hg2).trans ((Grow.context _ s2.eng (by simp)).trans (h2 _))
    · rw [if_neg hkc]
      refine Safe.pure ⟨?_, Grow.declSt hx, hp.rv⟩
      refine h.declSt hlt hx (freeName_iff.1 hn) hps hb ?_
      rcases hk with hk | hk | ⟨hk, _⟩
      · exact .inl hk
      · exact .inr (.inl hk)
      · exact absurd hk hkc

/-! ## Imports -/

theorem Safe.onErr {α : Type} {m : M α} {f : Bytes → Bytes} {Q : α → St → Prop} (h : Safe m s Q) : Safe (Bob.Fl.onErr m f) s Q := by
  unfold Safe at h ⊢
  unfold Bob.Fl.onErr
  cases hm : m s <;> rw [hm] at h <;> first | exact h | exact Safe.raise (Q := Q)

theorem Wf.allocPtm (h : Wf L C P T s) (p : Ptm) (nm : Bytes) : Wf L C P T { s with cells := s.cells ++ [{ data := .fn { kind := .ptm p }, name := nm }] } := by
  have := h.push (C' := C) (P' := P) (T' := T) { data := .fn { kind := .ptm p }, name := nm } [] [] ⟨fun c hc => (nomatch hc), fun p hp => (nomatch hp), fun e he => (nomatch he), rfl⟩
    (fun c hc => (nomatch hc)) (fun _ h => .inl h) (fun _ h => .inl h) (fun _ h => .inl h) (fun c hc => Nat.le_refl _) (fun c hc => Nat.le_of_lt (h.inT c hc)) ?_ ?_
    (fun b' n hb' => (nomatch hb')) (fun f b hf hb => ?_)
  · simpa using this
  · rw [count_new h]
    exact Nat.zero_le _
  · intro _
    rw [count_new h]
  · cases hf
    cases hb

theorem Wf.allocPtms : ∀ (l : List (Ptm × Bytes)) {s : St}, Wf L C P T s → Wf L C P T { s with cells := s.cells ++ l.map fun p => { data := .fn { kind := .ptm p.1 }, name := p.2 } }
  | [], s, h => by simpa using h
  | a :: l, s, h => by
    have := Wf.allocPtms l (h.allocPtm a.1 a.2)
    simpa using this

theorem ptm_new (cells : List Cell) (k : Nat) (p : Ptm) (hk : members[k]? = some p) : ∃ x, (cells ++ ptmCells)[cells.length + k]? = some x ∧ x.data = .fn { kind := .ptm p } := by
  rw [List.getElem?_append_right (Nat.le_add_right _ _), Nat.add_sub_cancel_left]
  unfold members at hk
  match k, hk with
  | 0, hk => cases hk; exact ⟨_, rfl, rfl⟩
  | 1, hk => cases hk; exact ⟨_, rfl, rfl⟩
  | 2, hk => cases hk; exact ⟨_, rfl, rfl⟩
  | 3, hk => cases hk; exact ⟨_, rfl, rfl⟩
  | 4, hk => cases hk; exact ⟨_, rfl, rfl⟩
  | 5, hk => cases hk; exact ⟨_, rfl, rfl⟩
  | k + 6, hk => cases hk

theorem safe_inEngine {ss : List Stmt} (hX : SafeX L (interp w n)) (hok : okStmts L .top ss = true) (h : Wf L C P T s) (hp : InPlace .top P s) :
    Safe (inEngine (forEach (interp w n).exec ss)) s fun _ s' => Execd L C P T .top s s' := by
  obtain ⟨i, stk, hst, _⟩ := hp.stack
  have hr := hp.rv (by rintro ⟨⟩)
  unfold inEngine
  refine Safe.get (Safe.bind_ok (modify_apply ..) ?_)
  have h0 : Wf L C P T { s with cells := s.cells ++ ptmCells } := h.allocPtms _
  have h1 : Wf L C P T { s with cells := s.cells ++ ptmCells, eng := { env := s.eng.env, ptm := s.cells.length } } :=
    h0.context (E := s.envs) h0.shape.envs (Nat.le_refl _) h.shape.cur (ptm_new s.cells) (fun c hc => (nomatch hc)) (by rintro ⟨⟩) (fun c => by
      rw [hr]) h0.inT
  have hg1 : Grow (L.reach .top) s { s with cells := s.cells ++ ptmCells, eng := { env := s.eng.env, ptm := s.cells.length } } :=
    (Grow.push ptmCells s.bufs s.bodies).trans (Grow.context (s := { s with cells := s.cells ++ ptmCells }) s.envs _ (Nat.le_refl _))
  have hp1 : InPlace .top P { s with cells := s.cells ++ ptmCells, eng := { env := s.eng.env, ptm := s.cells.length } } :=
    ⟨⟨i, stk, hst, fun h => (nomatch h)⟩, fun _ => rfl, fun h => (nomatch h)⟩
  refine Safe.bind ((safe_stmts hX.exec hok h1 hp1).mono fun _ s2 ⟨he, hf⟩ => ?_)
  have hr2 := he.rv (by rintro ⟨⟩)
  have hg2 := hg1.trans he.grow
  refine Safe.of_ok (modify_apply ..) ⟨?_, hg2.trans (Grow.context s2.envs _ (Nat.le_refl _)), fun _ => hr⟩
  refine he.wf.context (E := s2.envs) he.wf.shape.envs (Nat.le_refl _) he.wf.shape.cur (fun k m hk => ?_) (fun c hc => ?_) ?_ (fun c => ?_) he.wf.inT
  · obtain ⟨x, hx, hd⟩ := h.shape.ptm k m hk
    obtain ⟨x', hx', hd'⟩ := hg2.toSup.cells _ x hx
    exact ⟨x', hx', hd'.trans hd⟩
  · rw [show ({ s.eng with env := s2.eng.env } : Eng).rv = .none from hr] at hc
    cases hc
  · exact h.shape.rvs
  · rw [hr2, show ({ s.eng with env := s2.eng.env } : Eng).rv = .none from hr]

theorem safe_doImport (hX : SafeX L (interp w n)) (hW : w.Ok L) (rel : Bool) (bits : List Bytes) (h : Wf L C P T s) (hp : InPlace .top P s) :
    Safe (doImport w (interp w n) rel bits) s fun _ s' => Execd L C P T .top s s' := by
  unfold doImport
  refine Safe.get ?_
  dsimp only
  split
  · exact Safe.raise
  · exact Safe.raise
  · exact Safe.raise
  · rename_i hf
    exact (safe_inEngine hX (hW.file _ _ hf) h hp).onErr

/-! ## Statements -/

theorem safe_returning (h : Wf L C P T s) (hp : InPlace p P s) : Safe returning s fun b s' => s' = s ∧ (b = false → s.eng.rv = .none ∨ s.eng.body = none) := by
  unfold returning
  refine Safe.get ?_
  cases hb : s.eng.body with
  | none => exact Safe.pure ⟨rfl, fun _ => .inr rfl⟩
  | some b =>
    dsimp only
    split
    · rename_i hr
      exact Safe.pure ⟨rfl, fun _ => .inl hr⟩
    · rename_i hr
      by_cases hpf : p = .fn
      · obtain ⟨b', c, f, h1, h2, ⟨x, hx, hd⟩, h4⟩ := hp.body hpf
        cases hb.symm.trans h1
        obtain ⟨_, hy⟩ := h.mem.body c x f b hx hd h4
        obtain ⟨y, hy, _⟩ := hy (h.live hx (.inl (.inr (.inl h2))))
        refine Safe.bind_ok (a := y) (s1 := s) ?_ (Safe.pure ⟨rfl, fun h => (nomatch h)⟩)
        unfold getBody
        rw [bind_of_ok (show M.deref (some b) _ s = .ok b s from rfl), bind_of_ok (get_apply s), hy]
        rfl
      · exact absurd (hp.rv hpf) hr

theorem safe_execLine (hX : SafeX L (interp w n)) (hW : w.Ok L) {l : Line} (hok : l.ok L p = true) (h : Wf L C P T s) (hp : InPlace p P s) (hr : s.eng.rv = .none) :
    Safe (execLine w (interp w n) l) s fun _ s' => Execd L C P T p s s' := by
  cases l with
  | print e =>
    unfold Line.ok at hok
    rw [ok_and] at hok
    exact safe_doPrint hX.toSafeE hok.1 hok.2 h hr
  | ret e =>
    cases e with
    | none =>
      unfold Line.ok at hok
      have hpf : p = .fn := by simpa using hok
      subst hpf
      exact safe_doReturn hX.toSafeE (fun x hx => (nomatch hx)) h hp hr
    | some e =>
      unfold Line.ok at hok
      simp only [ok_and] at hok
      have hpf : p = .fn := by simpa using hok.1.1
      subst hpf
      exact safe_doReturn hX.toSafeE (fun x hx => by cases hx; exact ⟨hok.1.2, hok.2⟩) h hp hr
  | assert e t =>
    unfold Line.ok at hok
    rw [ok_and] at hok
    exact safe_doAssert hX.toSafeE hok.1 hok.2 h hr
  | decl st x e =>
    cases e with
    | none =>
      unfold Line.ok at hok
      exact safe_declVar hX.toSafeE st hok (fun x hx => (nomatch hx)) h hp hr
    | some e =>
      unfold Line.ok at hok
      simp only [ok_and] at hok
      refine safe_declVar hX.toSafeE st hok.1.1.1 (fun y hy => ?_) h hp hr
      cases hy
      refine ⟨⟨hok.1.1.2, hok.1.2⟩, fun hn => ?_⟩
      simpa [hn] using hok.2
  | assign lhs rhs => exact safe_assign hX.toSafeE hok h hr
  | proto st x ps =>
    unfold Line.ok at hok
    rw [ok_and] at hok
    exact safe_declFn hX st hok.1 hok.2 (fun ss hs => (nomatch hs)) (.inr (.inl ⟨rfl, rfl⟩)) h hp
  | expr e =>
    unfold Line.ok at hok
    exact safe_exprLine hX.toSafeE hok h hr
  | «import» rel bits =>
    unfold Line.ok at hok
    have hpt : p = .top := by simpa using hok
    subst hpt
    exact safe_doImport hX hW rel bits h hp

theorem safe_fnStmt (hX : SafeX L (interp w n)) {st : Bool} {x : Bytes} {ps : List Bytes} {ss : List Stmt} (hok : (Stmt.fn st x ps ss).ok L p = true) (h : Wf L C P T s) (hp : InPlace p P s) :
    Safe (declFn (interp w n) .function st x ps (some ss)) s fun _ s' => Execd L C P T p s s' := by
  unfold Stmt.ok at hok
  simp only [ok_and] at hok
  refine safe_declFn hX st hok.1.1 hok.1.2 (fun ss' hs => ?_) (.inl ⟨rfl, rfl⟩) h hp
  cases hs
  show Body.ok L (.block ss) = true
  unfold Body.ok
  exact hok.2

theorem safe_clsStmt (hX : SafeX L (interp w n)) {st : Bool} {x : Bytes} {ps : List Bytes} {ss : List Stmt} (hok : (Stmt.cls st x ps ss).ok L p = true) (h : Wf L C P T s) (hp : InPlace p P s) :
    Safe (declFn (interp w n) .cls st x ps (some ss)) s fun _ s' => Execd L C P T p s s' := by
  unfold Stmt.ok at hok
  simp only [ok_and] at hok
  refine safe_declFn hX st hok.1.1.2 hok.1.2 (fun ss' hs => ?_) (.inr (.inr ⟨rfl, rfl, ?_, ?_⟩)) h hp
  · cases hs
    exact hok.2
  · simpa using hok.1.1.1.2
  · simpa using hok.1.1.1.1

theorem safe_stepExec (hX : SafeX L (interp w n)) (hW : w.Ok L) {st : Stmt} (hok : st.ok L p = true) (h : Wf L C P T s) (hp : InPlace p P s) :
    Safe (stepExec w (interp w n) st) s fun _ s' => Execd L C P T p s s' := by
  cases st with
  | skip => exact Safe.pure (Execd.refl h hp.rv)
  | block ss =>
    unfold Stmt.ok at hok
    exact Safe.bind ((safe_execBlock hX hok h hp).mono fun _ s1 ⟨⟨he, _⟩, _⟩ => Safe.pure he)
  | fn st x ps ss => exact safe_fnStmt hX hok h hp
  | cls st x ps ss => exact safe_clsStmt hX hok h hp
  | line l =>
    unfold Stmt.ok at hok
    refine Safe.bind ((safe_returning h hp).mono fun b s1 ⟨hs, hb⟩ => ?_)
    subst hs
    cases b with
    | true => exact Safe.pure (Execd.refl h hp.rv)
    | false =>
      refine safe_execLine hX hW hok h hp ?_
      rcases hb rfl with hr | hb
      · exact hr
      · by_cases hpf : p = .fn
        · obtain ⟨b, _, _, h1, _⟩ := hp.body hpf
          rw [hb] at h1
          cases h1
        · exact hp.rv hpf

theorem safe_stepMember (hX : SafeX L (interp w n)) {st : Stmt} (hok : st.ok L .cls = true) (h : Wf L C P T s) (hp : InPlace .cls P s) :
    Safe (stepMember (interp w n) st) s fun _ s' => Execd L C P T .cls s s' := by
  have hr := hp.rv (by rintro ⟨⟩)
  unfold stepMember
  split
  · exact safe_fnStmt hX hok h hp
  · exact safe_clsStmt hX hok h hp
  · rename_i x init
    unfold Stmt.ok at hok
    cases init with
    | none =>
      unfold Line.ok at hok
      exact safe_declVar hX.toSafeE true hok (fun x hx => (nomatch hx)) h hp hr
    | some e =>
      unfold Line.ok at hok
      simp only [ok_and] at hok
      refine safe_declVar hX.toSafeE true hok.1.1.1 (fun y hy => ?_) h hp hr
      cases hy
      refine ⟨⟨hok.1.1.2, hok.1.2⟩, fun hn => ?_⟩
      simpa [hn] using hok.2
  · unfold Stmt.ok Line.ok at hok
    rw [ok_and] at hok
    exact safe_declFn hX true hok.1 hok.2 (fun ss hs => (nomatch hs)) (.inr (.inl ⟨rfl, rfl⟩)) h hp
  · exact Safe.pure (Execd.refl h hp.rv)

/-! ## The whole interpreter -/

theorem Safe.quit {α : Type} {m : M α} {Q : α → St → Prop} (hf : Keeps FrE m) (hk : Keeps RvN m) (hr : s.eng.rv = .none) (h : Safe m s Q) : Safe m s fun a s' => Q a s' ∧ Quit s s' :=
  (h.keeps hf |>.keeps hk).mono fun _ _ ⟨⟨h1, h2⟩, h3⟩ => ⟨h1, h2, h3 hr⟩

theorem safeX (hW : w.Ok L) : ∀ n, SafeX L (interp w n)
  | 0 => {
      eval := fun {_} _ {_ _ _ _ _} _ _ _ => trivial
      call := fun {_ _ _} _ {_ _ _ _ _} _ _ _ => trivial
      filter := fun {_ _ _ _ _ _ _ _ _} _ _ _ _ _ _ => trivial
      exec := fun {_ _ _ _ _ _} _ _ _ => trivial
      member := fun {_ _ _ _ _} _ _ _ => trivial }
  | n + 1 => {
      eval := fun {_} d {_ _ _ _ _} hok h hr => Safe.quit ((recFr w (n + 1)).eval d _) ((recRvN w (n + 1)).eval d _) hr (safe_stepEval (safeX hW n).toSafeE d hok h hr)
      call := fun {_ _ _} d {_ _ _ _ _} hc h hr => Safe.quit ((recFr w (n + 1)).call _ _ d _) ((recRvN w (n + 1)).call _ _ d _) hr (safe_stepCall (safeX hW n) hW d hc h hr)
      filter := fun {_ _ _ _ _ _ _ _ _} hv hf hpf hfd h hr => Safe.quit ((recFr w (n + 1)).filter _ _ _) ((recRvN w (n + 1)).filter _ _ _) hr (safe_stepFilter (safeX hW n).toSafeE hv hf hpf hfd h hr)
      exec := fun {_ _ _ _ _ _} hok h hp => Safe.keeps (kX_stepExec (recFr w n) w _) (safe_stepExec (safeX hW n) hW hok h hp)
      member := fun {_ _ _ _ _} hok h hp => Safe.keeps (kX_stepMember (recFr w n) _) (safe_stepMember (safeX hW n) hok h hp) }

theorem ptmCells_get {c : Nat} {x : Cell} (h : ptmCells[c]? = some x) : x.refs = 1 ∧ ∃ p, x.data = .fn { kind := .ptm p } := by
  obtain ⟨a, _, rfl⟩ := List.mem_map.1 (List.mem_of_getElem? h)
  exact ⟨rfl, _, rfl⟩

theorem wf_init (L : Discipline) (paths : List Bytes) : Wf L [] [] [] (St.init paths) where
  mem := by
    have hN : ∀ c, held L [] (St.init paths) c = 0 := fun c => rfl
    refine ⟨fun c x hx => ?_, fun c x hx _ => ?_, fun c x b n hx hd => ?_, fun c c' x x' b n n' hx hx' hd => ?_, fun c x f b hx hd hb => ?_, fun c c' x x' f f' b hx hx' hd hd' hb => ?_, fun c x i hx hd => ?_,
      fun c h => .inl h⟩
    · rw [hN]
      exact Nat.zero_le _
    · rw [hN, (ptmCells_get hx).1]
    all_goals
      obtain ⟨_, p, hp⟩ := ptmCells_get hx
      rw [hp] at hd
      cases hd
    · cases hb
    · cases hb
  shape := by
    refine ⟨fun c x hx => ?_, fun i x hx => ?_, fun j st hj i hi => ?_, Nat.zero_lt_one, fun k p hk => ?_, fun c hc => (nomatch hc), by rintro ⟨⟩,
      fun st hst => (nomatch hst), fun c hc => ?_, fun st hst => (nomatch hst), fun st hst => (nomatch hst), fun st hst => (nomatch hst)⟩
    · obtain ⟨_, p, hp⟩ := ptmCells_get hx
      unfold DataOk
      rw [hp]
      exact ⟨fun c hc => (nomatch hc), fun p hp => (nomatch hp), fun e he => (nomatch he), rfl⟩
    · cases List.mem_singleton.1 (List.mem_of_getElem? (l := [({} : Scope)]) hx)
      exact ⟨rfl, fun c hc => (nomatch hc), fun v hv => (nomatch hv)⟩
    · cases List.mem_singleton.1 (List.mem_of_getElem? (l := [[0]]) hj)
      cases List.mem_singleton.1 hi
      exact Nat.zero_lt_one
    · exact (ptm_new [] k p hk)
    · rcases hc with ⟨st, hst, _⟩ | ⟨st, hst, _⟩ <;> cases hst
  inC := fun c hc => (nomatch hc)
  inP := fun c hc => (nomatch hc)
  inT := fun c hc => (nomatch hc)

end

end Bob.Fl
