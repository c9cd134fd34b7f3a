import Verif.Lemmas.FlSafePtm
/-!
# Calls do not go wrong
-/

namespace Bob.Fl

/-- Names of the variables that a statement may assign to. -/
def Discipline.reach (L : Discipline) (p : Place) : List Bytes := if p = .top then L.assigned ++ L.inside else L.inside

/-- The context a statement at such a place runs in. -/
structure InPlace (p : Place) (P : List Nat) (s : St) : Prop where
  stack : ∃ i st, s.envs[s.eng.env]? = some (i :: st) ∧ (p = .fn → ∀ x, s.scopes[i]? = some x → x.cls = false)
  rv : p ≠ .fn → s.eng.rv = .none
  body : p = .fn → ∃ b c f, s.eng.body = some b ∧ c ∈ P ∧ s.Holds c (.fn f) ∧ f.body = some b

/-- A statement ended well. -/
structure Execd (L : Discipline) (C P T : List Nat) (p : Place) (s s' : St) : Prop where
  wf : Wf L C P T s'
  grow : Grow (L.reach p) s s'
  rv : p ≠ .fn → s'.eng.rv = .none

/-- What is claimed of the functions programs consist of. -/
structure SafeX (L : Discipline) (R : Rec) : Prop extends SafeE L R where
  exec : ∀ {p : Place} {st : Stmt} {C P T : List Nat} {s : St}, st.ok L p = true → Wf L C P T s → InPlace p P s → Safe (R.exec st) s fun _ s' => Execd L C P T p s s' ∧ FrX s s'
  member : ∀ {st : Stmt} {C P T : List Nat} {s : St}, st.ok L .cls = true → Wf L C P T s → InPlace .cls P s → Safe (R.member st) s fun _ s' => Execd L C P T .cls s s' ∧ FrX s s'

section
variable {L : Discipline} {C P T : List Nat} {s s' : St} {w : World} {n : Nat} {p : Place}

theorem Discipline.inside_reach (L : Discipline) (p : Place) : ∀ x ∈ L.inside, x ∈ L.reach p := by
  intro x hx
  unfold Discipline.reach
  split
  · exact List.mem_append_right _ hx
  · exact hx

theorem Execd.refl (h : Wf L C P T s) (hr : p ≠ .fn → s.eng.rv = .none) : Execd L C P T p s s := ⟨h, Grow.refl _ s, hr⟩

theorem Execd.trans {s2 : St} (h1 : Execd L C P T p s s') (h2 : Execd L C P T p s' s2) : Execd L C P T p s s2 := ⟨h2.wf, h1.grow.trans h2.grow, h2.rv⟩

theorem InPlace.next (h : InPlace p P s) (hw : Wf L C P T s) {C' P' T' : List Nat} (he : Execd L C' P' T' p s s') (hf : FrX s s') : InPlace p P s' := by
  obtain ⟨i, st, hst, hcls⟩ := h.stack
  have hf := hf ⟨_, hst⟩
  refine ⟨⟨i, st, by rw [hf.env]; exact hf.envs _ _ hst, fun hp x hx => ?_⟩, he.rv, fun hp => ?_⟩
  · have hi := List.getElem?_eq_getElem (hw.shape.envs _ _ hst i List.mem_cons_self)
    obtain ⟨x', hx', hc', _⟩ := he.grow.vars i _ hi
    cases hx.symm.trans hx'
    exact hc'.trans (hcls hp _ hi)
  · obtain ⟨b, c, f, h1, h2, h3, h4⟩ := h.body hp
    exact ⟨b, c, f, by rw [hf.body]; exact h1, h2, he.grow.toSup.holds h3, h4⟩

theorem safe_stmts {f : Stmt → M Unit} (hf : ∀ {st : Stmt} {s : St}, st.ok L p = true → Wf L C P T s → InPlace p P s → Safe (f st) s fun _ s' => Execd L C P T p s s' ∧ FrX s s') :
    ∀ {ss : List Stmt} {s : St}, okStmts L p ss = true → Wf L C P T s → InPlace p P s → Safe (forEach f ss) s fun _ s' => Execd L C P T p s s' ∧ FrX s s'
  | [], s, _, h, hp => ⟨Execd.refl h hp.rv, trnX.refl s⟩
  | st :: ss, s, hok, h, hp => by
    unfold okStmts at hok
    simp only [ok_and] at hok
    unfold forEach
    refine Safe.bind ((hf hok.1 h hp).mono fun _ s1 ⟨he, hx⟩ => ?_)
    exact (safe_stmts hf hok.2 he.wf (hp.next h he hx)).mono fun _ s2 ⟨he2, hx2⟩ => ⟨he.trans he2, trnX.trans hx hx2⟩

/-! ## Scopes -/

theorem Grow.newScope {F : List Bytes} (x : Scope) (envs : List (List Nat)) (g : Eng) (he : s.envs.length ≤ envs.length) :
    Grow F s { s with scopes := s.scopes ++ [x], envs := envs, eng := g } :=
  ⟨⟨fun _ x hx => ⟨x, hx, rfl⟩, he, by simp, Nat.le_refl _⟩, fun i y hy => ⟨y, getElem?_pushed hy, rfl, fun _ v hv => ⟨v, hv, rfl, fun _ _ h => h⟩⟩⟩

theorem Grow.context {F : List Bytes} (envs : List (List Nat)) (g : Eng) (he : s.envs.length ≤ envs.length) : Grow F s { s with envs := envs, eng := g } :=
  Grow.of_scopes ⟨fun _ x hx => ⟨x, hx, rfl⟩, he, Nat.le_refl _, Nat.le_refl _⟩ rfl

theorem Wf.topAlive (h : Wf L C P T s) {st : List Nat} (hst : ∀ i ∈ st, i < s.scopes.length) : TopAlive s st := by
  cases st with
  | nil => trivial
  | cons i st =>
    have hx := List.getElem?_eq_getElem (hst i List.mem_cons_self)
    exact ⟨_, hx, (h.shape.scopes i _ hx).freed⟩

/-- A block; the scope it ran in exists. -/
theorem safe_execBlock (hX : SafeX L (interp w n)) {ss : List Stmt} (hok : okStmts L p ss = true) (h : Wf L C P T s) (hp : InPlace p P s) :
    Safe (execBlock (interp w n) ss) s fun i s' => (Execd L C P T p s s' ∧ i < s'.scopes.length) ∧ FrE s s' := by
  refine Safe.keeps (kE_execBlock (recFr w n) ss) ?_
  obtain ⟨i, st, hst, hcls⟩ := hp.stack
  have hlt := h.shape.envs _ _ hst
  obtain ⟨cls, h1, h2⟩ := pushScope_eq hst (h.topAlive hlt)
  have hi := List.getElem?_eq_getElem (hlt i List.mem_cons_self)
  have hcl := h2 i _ st rfl ⟨hi, (h.shape.scopes i _ hi).freed⟩
  unfold execBlock
  refine Safe.bind_ok h1 ?_
  have hw1 : Wf L C P T { s with scopes := s.scopes ++ [{ cls := cls }], envs := s.envs.set s.eng.env (s.scopes.length :: i :: st) } := by
    refine (h.newScope { cls := cls } rfl rfl (fun c hc => (nomatch hc))).setStack (fun j hj => ?_)
    show j < (s.scopes ++ [({ cls := cls } : Scope)]).length
    simp only [List.length_append, List.length_singleton]
    rcases List.mem_cons.1 hj with rfl | hj
    · omega
    · have := hlt j hj
      omega
  have hg1 : Grow (L.reach p) s { s with scopes := s.scopes ++ [{ cls := cls }], envs := s.envs.set s.eng.env (s.scopes.length :: i :: st) } := Grow.newScope _ _ _ (by simp)
  have hst1 : (s.envs.set s.eng.env (s.scopes.length :: i :: st))[s.eng.env]? = some (s.scopes.length :: i :: st) := List.getElem?_set_self h.shape.cur
  generalize hs1 : ({ s with scopes := s.scopes ++ [{ cls := cls }], envs := s.envs.set s.eng.env (s.scopes.length :: i :: st) } : St) = s1 at hw1 hg1
  have hp1 : InPlace p P s1 := by
    subst hs1
    refine ⟨⟨_, _, hst1, fun hpf x hx => ?_⟩, hp.rv, fun hpf => hp.body hpf⟩
    cases (List.getElem?_concat_length).symm.trans hx
    exact hcl.trans (hcls hpf _ hi)
  refine Safe.bind ((safe_stmts hX.exec hok hw1 hp1).mono fun _ s2 ⟨he, hx⟩ => ?_)
  have hst1' : s1.envs[s1.eng.env]? = some (s.scopes.length :: i :: st) := by
    subst hs1
    exact hst1
  have hx := hx ⟨_, hst1'⟩
  have hst2 : s2.envs[s2.eng.env]? = some (s.scopes.length :: i :: st) := by
    rw [hx.env]
    exact hx.envs _ _ hst1'
  have hlen2 : s.scopes.length < s2.scopes.length := he.wf.shape.envs _ _ hst2 _ List.mem_cons_self
  refine Safe.of_ok ((detach_ok_iff ..).2 ⟨_, hst2, rfl⟩) ⟨⟨?_, ?_, he.rv⟩, hlen2⟩
  · exact he.wf.setStack fun j hj => he.wf.shape.envs _ _ hst2 j (List.mem_cons_of_mem _ hj)
  · exact (hg1.trans he.grow).trans (Grow.context _ _ (by simp))

/-! ## Arguments -/

/-- Setting a variable that had no value. -/
theorem Grow.initVar {F : List Bytes} {i k c : Nat} {x : Scope} {v : Var} (hx : s.scopes[i]? = some x) (hv : x.vars[k]? = some v) (hn : v.val = none) :
    Grow F s { s with scopes := s.scopes.set i { x with vars := x.vars.set k { v with val := some c } } } := by
  refine Grow.of_set hx rfl fun k' v' hv' => ?_
  by_cases hk : k' = k
  · subst hk
    cases hv.symm.trans hv'
    exact ⟨_, List.getElem?_set_self (lt_of_get hv), rfl, fun _ c hc => by rw [hn] at hc; cases hc⟩
  · exact ⟨v', by show (x.vars.set k _)[k']? = _; rw [List.getElem?_set_ne (Ne.symm hk)]; exact hv', rfl, fun _ _ h => h⟩

theorem Grow.addVar {F : List Bytes} {i : Nat} {x : Scope} (hx : s.scopes[i]? = some x) (v : Var) :
    Grow F s { s with scopes := s.scopes.set i { x with vars := x.vars ++ [v] } } :=
  Grow.of_set hx rfl fun _ v' hv' => ⟨v', getElem?_pushed hv', rfl, fun _ _ h => h⟩

theorem safe_bindArgs {i : Nat} : ∀ {ks : List Bytes} {cs : List Nat} {s : St}, (∀ k ∈ ks, k ∉ memberNames ∧ k ∉ L.assigned) → (∀ c ∈ cs, c ∈ P ∧ Plain s.cells c) → i < s.scopes.length →
    Wf L C P T s → Safe (bindArgs i ks cs) s fun _ s' => Wf L C P T s' ∧ (∀ F, Grow F s s') ∧ s'.eng = s.eng ∧ s'.envs = s.envs
  | [], cs, s, _, _, _, h => by
    cases cs <;> exact ⟨h, fun F => Grow.refl F s, rfl, rfl⟩
  | k :: ks, [], s, _, _, _, h => ⟨h, fun F => Grow.refl F s, rfl, rfl⟩
  | k :: ks, c :: cs, s, hk, hc, hi, h => by
    obtain ⟨hk1, hk2⟩ := hk k List.mem_cons_self
    obtain ⟨hc1, hc2⟩ := hc c List.mem_cons_self
    have hx := List.getElem?_eq_getElem hi
    have hfr := (h.shape.scopes i _ hx).freed
    generalize s.scopes[i] = x at hx hfr
    have hwa := h.addVar hx (v := { key := k }) hk1 rfl
    have hga : ∀ F, Grow F s { s with scopes := s.scopes.set i { x with vars := x.vars ++ [{ key := k }] } } := fun F => Grow.addVar hx _
    unfold bindArgs
    refine Safe.bind_ok (addVar_alive ⟨hx, hfr⟩ { key := k }) ?_
    · obtain ⟨y, hy, hyp⟩ := hc2
      have hwb := hwa.touch (y := { y with name := k, keyIn := some i }) hy rfl rfl (.inl rfl)
      refine Safe.bind_ok (setName_cell (s := { s with scopes := s.scopes.set i { x with vars := x.vars ++ [{ key := k }] } }) hy k i) ?_
      · have hxb : (s.scopes.set i { x with vars := x.vars ++ [{ key := k }] })[i]? = some { x with vars := x.vars ++ [{ key := k }] } := List.getElem?_set_self hi
        have hv : ({ x with vars := x.vars ++ [{ key := k }] } : Scope).vars[x.vars.length]? = some { key := k } := List.getElem?_concat_length
        have hyb : (s.cells.set c { y with name := k, keyIn := some i })[c]? = some { y with name := k, keyIn := some i } := List.getElem?_set_self (lt_of_get hy)
        have hwc := hwb.setVar hxb hv hyb hyp.notPtm (fun _ => hyp) (.inr ⟨rfl, .inr (.inl hc1), hk2⟩)
        have hgc : ∀ F, Grow F s { s with
            scopes := (s.scopes.set i { x with vars := x.vars ++ [{ key := k }] }).set i { x with vars := (x.vars ++ [({ key := k } : Var)]).set x.vars.length { key := k, val := some c } }
            cells := s.cells.set c { y with name := k, keyIn := some i } } := fun F =>
          ((hga F).trans (Grow.of_scopes (Sup.of_same (bufs := s.bufs) (bodies := s.bodies) (SameData.set hy (y := { y with name := k, keyIn := some i }) rfl)) rfl)).trans
            (Grow.initVar (s := { s with scopes := s.scopes.set i { x with vars := x.vars ++ [{ key := k }] }, cells := s.cells.set c { y with name := k, keyIn := some i } }) hxb hv rfl)
        generalize hs2 : ({ s with scopes := s.scopes.set i { x with vars := x.vars ++ [{ key := k }] }, cells := s.cells.set c { y with name := k, keyIn := some i } } : St) = s2
        have hal : s2.Alive i { x with vars := x.vars ++ [{ key := k }] } := by
          subst hs2
          exact ⟨hxb, hfr⟩
        refine Safe.bind_ok (a := ()) (s1 := { s with
            scopes := (s.scopes.set i { x with vars := x.vars ++ [{ key := k }] }).set i { x with vars := (x.vars ++ [({ key := k } : Var)]).set x.vars.length { key := k, val := some c } }
            cells := s.cells.set c { y with name := k, keyIn := some i } }) ?_ ?_
        · unfold bindArgs.setVar'
          have hl : ({ x with vars := x.vars ++ [({ key := k } : Var)] } : Scope).vars.length - 1 = x.vars.length := by simp
          rw [bind_of_ok (getScope_alive hal), hl, setVar_alive hal hv]
          subst hs2
          rfl
        · refine (safe_bindArgs (fun k hk' => hk k (List.mem_cons_of_mem _ hk')) (fun c' hc' => ?_) ?_ hwc).mono fun _ s2 ⟨h1, h2, h3, h4⟩ => ⟨h1, fun F => (hgc F).trans (h2 F), h3, h4⟩
          · obtain ⟨h1, h2⟩ := hc c' (List.mem_cons_of_mem _ hc')
            exact ⟨h1, (hgc []).toSup.plain h2⟩
          · simpa using hi

theorem safe_setupArgs (hW : w.Ok L) {i : Nat} {f : FnData} {args : List Nat} (hps : ∀ p ∈ f.params, L.param p = true) (hc : ∀ c ∈ args, c ∈ P ∧ Plain s.cells c) (hi : i < s.scopes.length) (h : Wf L C P T s) :
    Safe (setupArgs i f args) s fun _ s' => Wf L C P T s' ∧ (∀ F, Grow F s s') ∧ s'.eng = s.eng ∧ s'.envs = s.envs := by
  unfold setupArgs
  split
  · refine safe_bindArgs (fun k hk => ?_) hc hi h
    obtain ⟨_, _, rfl⟩ := List.mem_map.1 hk
    exact ⟨by decide, hW.empty⟩
  · split
    · refine safe_bindArgs (fun k hk => ?_) hc hi h
      have := hps k hk
      unfold Discipline.param at this
      simpa using this
    · exact Safe.raise

/-! ## New instances -/

theorem set_concat {α : Type} (l : List α) (a b : α) : (l ++ [a]).set l.length b = l ++ [b] := by
  rw [List.set_append_right _ _ (Nat.le_refl _), Nat.sub_self]
  rfl

/-- The state after making an instance, and telling bob about it. -/
def instSt (s : St) (i : InstData) (j : Nat) (x : Scope) (h : Host) : St :=
  { s with cells := s.cells ++ [{ data := .inst i }], scopes := s.scopes.set j { x with owner := some s.cells.length }, host := h }

theorem Wf.instSt (h : Wf L C P T s) {i : InstData} {j : Nat} {x : Scope} {hst : Host} (hc : i.cls < s.cells.length) (hs : i.scope < s.scopes.length)
    (hk : ∀ k, i.data = some k → k < hst.states.length) (hx : s.scopes[j]? = some x) (hn : s.host.states.length ≤ hst.states.length)
    (hst' : HostOk s.Holds (fun c => c ∈ P ∨ s.host.Uses c) hst) :
    Wf L C (s.cells.length :: P) T (instSt s i j x hst) := by
  have h0 : Wf L C P T { s with host := hst } := h.host rfl rfl rfl rfl rfl rfl hn (hst'.mono (fun c hc => hc.elim (fun hc => .inr (.inl hc)) fun hc => .inr (.inr (.inr hc))) fun _ _ h => h)
  exact (h0.allocInst (i := i) hc hs hk).flagScope (y := { x with owner := some s.cells.length }) hx rfl (h.shape.scopes j x hx).freed (fun c hc => by
    cases hc
    show s.cells.length < (s.cells ++ [_]).length
    simp)

theorem Grow.instSt {F : List Bytes} {i : InstData} {j : Nat} {x : Scope} {hst : Host} (hx : s.scopes[j]? = some x) (hn : s.host.states.length ≤ hst.states.length) :
    Grow F s (instSt s i j x hst) :=
  (Grow.push (s := s) [{ data := .inst i }] s.bufs s.bodies).trans
    ((Grow.of_set (s := { s with cells := s.cells ++ [{ data := .inst i }] }) (y := { x with owner := some s.cells.length }) hx rfl fun _ v hv => ⟨v, hv, rfl, fun _ _ h => h⟩).trans
      (Grow.of_scopes ⟨fun _ x hx => ⟨x, hx, rfl⟩, Nat.le_refl _, Nat.le_refl _, hn⟩ rfl))

theorem safe_classInst {i : InstData} {j : Nat} {x : Scope} {args : List Nat} (h : Wf L C P T s) (hc : i.cls < s.cells.length) (hs : i.scope < s.scopes.length) (hk : i.data = none)
    (hx : s.scopes[j]? = some x) (ha : ∀ c ∈ args, c ∈ P) :
    Safe (classInst s.cells.length args) (instSt s i j x s.host) fun _ s' => ∃ i' h', s' = instSt s i' j x h' ∧ i'.cls = i.cls ∧ i'.scope = i.scope ∧ (∀ k, i'.data = some k → k < h'.states.length) ∧
        s.host.states.length ≤ h'.states.length ∧ HostOk s.Holds (fun c => c ∈ P ∨ s.host.Uses c) h' := by
  have hst : HostOk s.Holds (fun c => c ∈ P ∨ s.host.Uses c) s.host := ⟨h.shape.host.steps, fun _ => .inr, h.shape.host.states, h.shape.host.flags, h.shape.host.reqs⟩
  have hk' : ∀ k, i.data = some k → k < s.host.states.length := by rw [hk]; exact fun _ h => nomatch h
  have hw := h.instSt hc hs hk' hx (Nat.le_refl _) hst
  have hcell : (instSt s i j x s.host).cells[s.cells.length]? = some { data := .inst i } := List.getElem?_concat_length
  unfold classInst
  refine Safe.getCell hcell ?_
  dsimp only
  have hk := List.getElem?_eq_getElem hc
  refine Safe.getCell (x := s.cells[i.cls]) (getElem?_pushed hk) ?_
  have hinst : Safe (instantiate s.cells.length args) (instSt s i j x s.host) fun _ s' =>
      ∃ i' h', s' = instSt s i' j x h' ∧ i'.cls = i.cls ∧ i'.scope = i.scope ∧ (∀ k, i'.data = some k → k < h'.states.length) ∧
        s.host.states.length ≤ h'.states.length ∧ HostOk s.Holds (fun c => c ∈ P ∨ s.host.Uses c) h' := by
    unfold instantiate
    split
    · rename_i flags
      have hl : Live (instSt s i j x s.host) flags := hw.live_P (List.mem_cons_of_mem _ (ha flags List.mem_cons_self))
      refine Safe.bind ((safe_checkFlags hw hl).mono fun _ s1 ⟨h1, m, hm⟩ => ?_)
      subst h1
      refine Safe.get (Safe.bind_ok (a := ()) (s1 := instSt s i j x { s.host with states := s.host.states ++ [{ flags := flags }] }) rfl ?_)
      refine Safe.getCell (x := { data := .inst i }) List.getElem?_concat_length ?_
      refine Safe.of_ok (a := ()) (s1 := instSt s { i with data := some s.host.states.length } j x { s.host with states := s.host.states ++ [{ flags := flags }] }) ?_ ⟨_, _, rfl, rfl, rfl, fun k hk => ?_, ?_, ?_⟩
      · dsimp only
        rw [setCell_apply]
        unfold instSt
        simp only [set_concat]
      · cases hk
        show s.host.states.length < (s.host.states ++ [_]).length
        simp
      · show s.host.states.length ≤ (s.host.states ++ [_]).length
        simp
      have hold : ∀ c d, (∀ i, d ≠ .inst i) → (Bob.Fl.instSt s i j x s.host).Holds c d → s.Holds c d := by
        rintro c d hd ⟨y, hy, rfl⟩
        rcases getElem?_push hy with ⟨_, hy⟩ | ⟨_, rfl⟩
        · exact ⟨y, hy, rfl⟩
        · exact absurd rfl (hd i)
      have hflags : StrsAt s.Holds flags m := by
        obtain ⟨es, h1, h2, h3⟩ := hm
        exact ⟨es, hold _ _ (fun _ h => nomatch h) h1, h2, fun e he => (h3 e he).imp fun _ => .imp fun _ => hold _ _ fun _ h => nomatch h⟩
      clear hm
      refine ⟨hst.steps, fun c hc => ?_, fun st hm => ?_, fun st hm => ?_, fun st hm d hd => (hst.reqs st hm d hd).mono (fun _ _ h => h) (by simp)⟩
      · rcases hc with ⟨st, hm, hc⟩ | hc
        · rcases List.mem_append.1 hm with hm | hm
          · exact .inr (.inl ⟨st, hm, hc⟩)
          · cases List.mem_singleton.1 hm
            exact .inl (hc ▸ ha flags List.mem_cons_self)
        · exact .inr (.inr hc)
      · rcases List.mem_append.1 hm with hm | hm
        · exact hst.states st hm
        · cases List.mem_singleton.1 hm
          rfl
      · rcases List.mem_append.1 hm with hm | hm
        · exact hst.flags st hm
        · cases List.mem_singleton.1 hm
          exact ⟨m, hflags⟩
    · exact Safe.fail
  refine Safe.bind_ok (nameIs_kept (hw.nameKept _) _) (Safe.ite hinst (Safe.bind_ok (nameIs_kept (hw.nameKept _) _) (Safe.ite hinst ?_)))
  exact ⟨i, s.host, rfl, rfl, rfl, hk', Nat.le_refl _, hst⟩

theorem safe_makeInst {callable scope : Nat} (d : Dest) {args : List Nat} (h : Wf L C P T s) (hr : s.eng.rv = .none) (hc : callable < s.cells.length) (hi : scope < s.scopes.length)
    (ha : ∀ c ∈ args, c ∈ P) :
    Safe (makeInst callable scope d args) s fun r s' => Wf L C (r.toList ++ P) T s' ∧ (∀ c, r = some c → Plain s'.cells c) ∧ (d = .keep → ∃ c, r = some c) ∧ ∀ F, Grow F s s' := by
  have hx := List.getElem?_eq_getElem hi
  have hfr := (h.shape.scopes scope _ hx).freed
  generalize s.scopes[scope] = x at hx hfr
  unfold makeInst
  refine Safe.checkDest hr (Safe.bind_ok (alloc_apply ..) (Safe.getScope (x := x) hx hfr (Safe.bind_ok (setScope_apply ..) ?_)))
  have h1 := safe_classInst (i := { cls := callable, scope := scope }) (j := scope) h hc hi rfl hx ha
  refine Safe.bind (Safe.mono h1 fun _ s1 ⟨i', h', hs1, e1, e2, e4, e5, e3⟩ => ?_)
  have hw := (h.instSt (i := i') (by rw [e1]; exact hc) (by rw [e2]; exact hi) e4 hx e5 e3)
  have hg : ∀ F, Grow F s (instSt s i' scope x h') := fun F => Grow.instSt hx e5
  rw [← hs1] at hw hg
  have hpl : Plain s1.cells s.cells.length := by
    rw [hs1]
    exact ⟨_, List.getElem?_concat_length, trivial⟩
  refine Safe.bind_ok (setRv_apply ..) (Safe.pure ?_)
  have hw2 := hw.clearRv
  have hg2 : ∀ F, Grow F s { s1 with eng := { s1.eng with rv := .none } } := fun F => (hg F).trans (Grow.context s1.envs _ (Nat.le_refl _))
  split
  · rename_i hd
    exact ⟨hw2.subP fun c hc => List.mem_cons_of_mem _ hc, fun c hc => (nomatch hc), fun hk => (by rw [hd] at hk; cases hk), hg2⟩
  · refine ⟨hw2, fun c hc => ?_, fun _ => ⟨_, rfl⟩, hg2⟩
    cases hc
    exact hpl

/-! ## Results -/

theorem safe_takeRv (d : Dest) (h : Wf L C P T s) :
    Safe (takeRv (interp w n) d) s fun r s' => Wf L C P (r.toList ++ T) s' ∧ (∀ c, r = some c → Plain s'.cells c) ∧ (d = .keep → ∃ c, r = some c) ∧ ∀ F, Grow F s s' := by
  have hsame : ∀ {s1 : St} F, Grow F s1 { s1 with eng := { s1.eng with rv := .none } } := fun {s1} F => Grow.context s1.envs _ (Nat.le_refl _)
  unfold takeRv
  cases d with
  | ret => exact Safe.abort (by decide)
  | keep =>
    dsimp only
    refine Safe.bind_ok (getRv_apply s) ?_
    cases hr : s.eng.rv with
    | none =>
      unfold rvValue
      refine Safe.bind ((made_alloc h (d := .none) trivial rfl).mono fun c s1 ⟨h1, h2, h3⟩ => ?_)
      exact Safe.bind_ok (setRv_apply ..) (Safe.pure ⟨h1.clearRv, fun c' hc' => by cases hc'; exact h2, fun _ => ⟨_, rfl⟩, fun F => (h3 F).trans (hsame F)⟩)
    | val c =>
      unfold rvValue
      refine Safe.bind_ok rfl (Safe.bind_ok (setRv_apply ..) (Safe.pure ⟨h.takeRv hr, fun c' hc' => by cases hc'; exact h.shape.rv _ hr, fun _ => ⟨_, rfl⟩, hsame⟩))
    | sentinel => exact absurd hr h.shape.rvs
  | discard =>
    dsimp only
    refine Safe.bind_ok (getRv_apply s) ?_
    cases hr : s.eng.rv with
    | none =>
      unfold dropRv
      exact Safe.bind_ok rfl (Safe.bind_ok (setRv_apply ..) (Safe.pure ⟨h.clearRv, fun c' hc' => (nomatch hc'), fun hd => (nomatch hd), hsame⟩))
    | val c =>
      unfold dropRv
      have h' := h.takeRv hr
      cases n with
      | zero => exact Safe.of_timeout rfl
      | succ n =>
        obtain ⟨cells, bufs, bodies, h1, h2, h3, h4⟩ := stepDec_mem (s := s) (N' := held L T { s with eng := { s.eng with rv := .none } }) (interp w n).dec (h'.inT c List.mem_cons_self) h'.mem
          fun c' => by rw [held_cons]
        have hw : Wf L C P T { s with eng := { s.eng with rv := .none }, cells := cells, bufs := bufs, bodies := bodies } :=
          h'.same (s := { s with eng := { s.eng with rv := .none } }) h2 (fun k x hx => by
            obtain ⟨x', hx', ho⟩ := h3 k x hx
            exact ⟨x', hx', .inl ho⟩) h4 fun c' hc' => h'.inT c' (List.mem_cons_of_mem _ hc')
        refine Safe.bind_ok h1 (Safe.bind_ok (setRv_apply ..) (Safe.pure ⟨hw, fun c' hc' => (nomatch hc'), fun hd => (nomatch hd), fun F => ?_⟩))
        exact (Grow.of_scopes (Sup.of_same h2) rfl).trans (hsame F)
    | sentinel => exact absurd hr h.shape.rvs

/-- What is known after running a callable. -/
inductive RanOk (L : Discipline) (C P T : List Nat) (f : FnData) (d : Dest) (s : St) : Ran → Prop where
  | value {v : Option Nat} : f.kind = .function → Wf L C P (v.toList ++ T) s → (∀ c, v = some c → Plain s.cells c) → (d = .keep → ∃ c, v = some c) → RanOk L C P T f d s (.value v)
  | block {i : Nat} : Wf L C P T s → i < s.scopes.length → (f.kind = .cls → s.eng.rv = .none) → RanOk L C P T f d s (.block i)
  | callback : Wf L C P T s → f.kind ≠ .cls → RanOk L C P T f d s .callback

theorem safe_finish {callable : Nat} {scope : Option Nat} {f : FnData} (d : Dest) {args : List Nat} (h : Wf L C P T s) (hf : s.Holds callable (.fn f)) (ha : ∀ c ∈ args, c ∈ P)
    (hs : f.kind = .cls → s.eng.rv = .none ∧ ∃ i, scope = some i ∧ i < s.scopes.length) :
    Safe (finish (interp w n) callable scope d args) s fun r s' => (if f.kind = .cls then Wf L C (r.toList ++ P) T s' else Wf L C P (r.toList ++ T) s') ∧
      (∀ c, r = some c → Plain s'.cells c) ∧ (d = .keep → ∃ c, r = some c) ∧ ∀ F, Grow F s s' := by
  obtain ⟨x, hx, hd⟩ := hf
  unfold finish
  refine Safe.getCell hx ?_
  rw [hd]
  dsimp only
  split
  · rename_i hk
    obtain ⟨hr, i, hi, hlt⟩ := hs hk
    split
    · rename_i hdd
      exact Safe.bind_ok (setRv_apply ..) (Safe.pure ⟨h.clearRv, fun c hc => (nomatch hc), fun hd => (by rw [hdd] at hd; cases hd), fun F => Grow.context s.envs _ (Nat.le_refl _)⟩)
    · subst hi
      exact Safe.bind_ok rfl (safe_makeInst d h hr (lt_of_get hx) hlt ha)
  · exact safe_takeRv d h

theorem safe_afterCall {callable : Nat} {f : FnData} (d : Dest) {args : List Nat} {ran : Ran} (h : RanOk L C P T f d s ran) (hf : s.Holds callable (.fn f)) (ha : ∀ c ∈ args, c ∈ P) :
    Safe (afterCall (interp w n) callable f.kind d args ran) s fun r s' => (if f.kind = .cls then Wf L C (r.toList ++ P) T s' else Wf L C P (r.toList ++ T) s') ∧
      (∀ c, r = some c → Plain s'.cells c) ∧ (d = .keep → ∃ c, r = some c) ∧ ∀ F, Grow F s s' := by
  unfold afterCall
  cases h with
  | value hk hw hp hv =>
    refine Safe.bind_ok (setRv_apply ..) (Safe.pure ?_)
    rw [if_neg (by rw [hk]; decide)]
    have hg : ∀ F, Grow F s { s with eng := { s.eng with rv := .none } } := fun F => Grow.context s.envs _ (Nat.le_refl _)
    split
    · rename_i hd
      exact ⟨hw.clearRv.drop, fun c hc => (nomatch hc), fun hk => (by rw [hd] at hk; cases hk), hg⟩
    · exact ⟨hw.clearRv, hp, hv, hg⟩
  | block hw hi hr =>
    refine safe_finish d hw hf ha fun hk => ⟨hr hk, _, if_pos hk, hi⟩
  | callback hw hk => exact safe_finish d hw hf ha fun hk' => absurd hk' hk

/-! ## Calls -/

theorem safe_runBody (hX : SafeX L (interp w n)) (hW : w.Ok L) {callable : Nat} {f : FnData} {acc : Option Nat} (d : Dest) {args : List Nat} (hc : CallOk P callable f acc args s) (h : Wf L C P T s)
    (hr : s.eng.rv = .none) (hb : s.eng.body = f.body) (hst : ∃ i st, s.envs[s.eng.env]? = some (i :: st) ∧ ∀ x, s.scopes[i]? = some x → x.cls = (f.kind == .cls)) :
    Safe (runBody w (interp w n) callable f acc d args) s fun ran s' => RanOk L C P T f d s' ran ∧ Grow (L.touched f.kind.calm) s s' := by
  obtain ⟨x, hx, hd⟩ := hc.fn
  obtain ⟨y, hy, hl⟩ := h.live_P hc.kept
  cases hx.symm.trans hy
  have hok := (h.shape.data _ x hx).2
  rw [hd] at hok
  obtain ⟨_, _, hok⟩ := hok
  have hset : ∀ {v : Nat} {s1 : St}, s1.eng.rv = .none → Wf L C P (v :: T) s1 → Plain s1.cells v → Wf L C P T { s1 with eng := { s1.eng with rv := .val v } } := fun h1 h2 h3 => h2.setRv h3 h1
  have hgr : ∀ {F : List Bytes} {v : Nat} {s1 : St}, Grow F s1 { s1 with eng := { s1.eng with rv := .val v } } := fun {F v s1} => Grow.context s1.envs _ (Nat.le_refl _)
  unfold runBody
  cases hk : f.kind with
  | extern =>
    dsimp only
    refine Safe.bind_ok (getRv_apply s) ?_
    rw [hr]
    refine Safe.bind_ok rfl (Safe.bind ((safe_externFn hW h (fun c hc' => (hc.argd c hc').1) hx hd hk).mono fun v s1 ⟨⟨h1, h2, h3⟩, h4⟩ => ?_))
    refine Safe.bind_ok (modify_apply ..) (Safe.bind_ok (setRv_apply ..) (Safe.pure ⟨.callback ?_ (by rw [hk]; decide), ?_⟩))
    · exact hset (s1 := { s1 with calls := _ }) (by show s1.eng.rv = _; rw [h4]; exact hr) (h1.host rfl rfl rfl rfl rfl rfl (Nat.le_refl _) h1.hostOk) h2
    · exact (h3 _).trans (Grow.of_scopes ⟨fun _ x hx => ⟨x, hx, rfl⟩, Nat.le_refl _, Nat.le_refl _, Nat.le_refl _⟩ rfl)
  | ptm p =>
    dsimp only
    obtain ⟨a, z, name, ha, hz, hm⟩ := hc.ptm p hk
    subst ha
    refine Safe.bind_ok (getRv_apply s) ?_
    rw [hr]
    refine Safe.bind_ok rfl (Safe.bind ((safe_runPtm hX.toSafeE hz hm (hc.accd a rfl) hc.argd h hr).mono fun v s1 ⟨⟨h1, h2, h3⟩, h4⟩ => ?_))
    exact Safe.bind_ok (setRv_apply ..) (Safe.pure ⟨.callback (hset h4 h1 h2) (by rw [hk]; rintro ⟨⟩), h3.trans hgr⟩)
  | function =>
    rw [hk] at hok
    obtain ⟨b, hfb⟩ := hok
    obtain ⟨_, hbd⟩ := h.mem.body _ x f b hx hd hfb
    obtain ⟨bd, hbd, hbok⟩ := hbd hl
    rw [hk] at hbok
    have hget : getBody f.body s = .ok bd s := by
      unfold getBody
      rw [hfb]
      refine (bind_of_ok (a := b) (s1 := s) rfl).trans ((bind_of_ok (get_apply s)).trans ?_)
      rw [hbd]
      rfl
    dsimp only
    refine Safe.bind_ok hget ?_
    cases bd with
    | expr e =>
      have hbok : (e.ok L false && e.isOwn L) = true := hbok
      rw [ok_and] at hbok
      obtain ⟨h1, h2⟩ := (isOwn_iff e).1 hbok.2
      refine Safe.bind_ok (a := ()) (s1 := s) rfl (Safe.bind ((hX.eval d hbok.1 h hr).mono fun r s1 ⟨he, _⟩ => Safe.pure ⟨.value hk ?_ ?_ ?_, he.grow⟩))
      · have := he.wf
        rw [h2] at this
        exact Wf.subP (P := r.acc.toList ++ P) this fun c hc => List.mem_append_right _ hc
      · exact fun c hc => (he.val c hc).plain h1
      · exact he.keep
    | block ss =>
      obtain ⟨i, st, hst, hcls⟩ := hst
      refine Safe.bind ((safe_execBlock (p := .fn) hX hbok h ⟨⟨i, st, hst, fun _ x hx => ?_⟩, fun h => absurd rfl h, fun _ => ⟨b, callable, f, by rw [hb]; exact hfb, hc.kept, ⟨x, hx, hd⟩, hfb⟩⟩).mono
        fun i s1 ⟨⟨he, hi⟩, _⟩ => Safe.pure ⟨.block he.wf hi fun h => (by rw [hk] at h; cases h), he.grow⟩)
      rw [hcls x hx, hk]
      rfl
  | cls =>
    rw [hk] at hok
    obtain ⟨⟨b, hfb⟩, _⟩ := hok
    obtain ⟨_, hbd⟩ := h.mem.body _ x f b hx hd hfb
    obtain ⟨bd, hbd, hbok⟩ := hbd hl
    rw [hk] at hbok
    have hget : getBody f.body s = .ok bd s := by
      unfold getBody
      rw [hfb]
      refine (bind_of_ok (a := b) (s1 := s) rfl).trans ((bind_of_ok (get_apply s)).trans ?_)
      rw [hbd]
      rfl
    dsimp only
    refine Safe.bind_ok hget ?_
    cases bd with
    | expr e => exact hbok.elim
    | block ss =>
      obtain ⟨i, st, hst, _⟩ := hst
      exact Safe.bind ((safe_execBlock (p := .cls) hX hbok h ⟨⟨i, st, hst, fun h => (nomatch h)⟩, fun _ => hr, fun h => (nomatch h)⟩).mono
        fun i s1 ⟨⟨he, hi⟩, _⟩ => Safe.pure ⟨.block he.wf hi fun _ => he.rv (by decide), he.grow⟩)

theorem safe_instScope {acc : Option Nat} (h : Wf L C P T s) (ha : ∀ a, acc = some a → a ∈ P) : Safe (instScope acc) s fun o s' => s' = s ∧ ∀ i, o = some i → i < s.scopes.length := by
  cases acc with
  | none => exact ⟨rfl, fun i h => (nomatch h)⟩
  | some a =>
    obtain ⟨y, hy, _⟩ := h.live_P (ha a rfl)
    unfold instScope
    refine Safe.getCell hy ?_
    have hok := (h.shape.data a y hy).2
    split
    · rename_i i hd
      rw [hd] at hok
      exact ⟨rfl, fun j hj => by cases hj; exact hok.2.1⟩
    · exact ⟨rfl, fun i h => (nomatch h)⟩

theorem CallOk.sup {callable : Nat} {f : FnData} {acc : Option Nat} {args : List Nat} (h : CallOk P callable f acc args s) (hs : Sup s s') : CallOk P callable f acc args s' := by
  refine ⟨hs.holds h.fn, h.kept, h.accd, fun c hc => ⟨(h.argd c hc).1, hs.plain (h.argd c hc).2⟩, fun p hp => ?_⟩
  obtain ⟨a, z, name, h1, h2, h3⟩ := h.ptm p hp
  obtain ⟨z', hz', hd⟩ := hs.cells a z h2
  exact ⟨a, z', name, h1, hz', hd ▸ h3⟩

theorem safe_stepCall (hX : SafeX L (interp w n)) (hW : w.Ok L) {callable : Nat} {f : FnData} {acc : Option Nat} (d : Dest) {args : List Nat} (hc : CallOk P callable f acc args s) (h : Wf L C P T s)
    (hr : s.eng.rv = .none) : Safe (stepCall w (interp w n) callable acc d args) s (Called L C P T f d s) := by
  obtain ⟨x, hx, hd⟩ := hc.fn
  have hok := (h.shape.data _ x hx).2
  rw [hd] at hok
  obtain ⟨hps, henv, _⟩ := hok
  unfold stepCall
  refine Safe.getCell hx ?_
  rw [hd]
  dsimp only
  refine Safe.bind ((safe_instScope h hc.accd).mono fun inst s0 ⟨hs0, hinst⟩ => ?_)
  subst hs0
  refine Safe.get ?_
  have hlt : f.env.getD s0.eng.env < s0.envs.length := by
    cases he : f.env with
    | none => exact h.shape.cur
    | some e => exact henv e he
  have hst := List.getElem?_eq_getElem hlt
  generalize s0.envs[f.env.getD s0.eng.env] = st at hst
  have hin : ∀ i ∈ inst.toList ++ st, i < s0.scopes.length := by
    intro i hi
    rcases List.mem_append.1 hi with hi | hi
    · exact hinst i (Option.mem_toList.1 hi)
    · exact h.shape.envs _ _ hst i hi
  refine Safe.bind_ok (enter_eq hst (h.topAlive hin)) ?_
  have hw1 : Wf L C P T (enterSt f inst st s0) := by
    refine (h.newScope { cls := f.kind == .cls } rfl rfl (fun c hc => (nomatch hc))).context (E := s0.envs.set (f.env.getD s0.eng.env) (s0.scopes.length :: (inst.toList ++ st)))
      (g := { s0.eng with body := f.body, env := f.env.getD s0.eng.env }) (fun j st' hj i hi => ?_) (by simp) (by simpa using hlt) h.shape.ptm h.shape.rv h.shape.rvs (fun _ => Nat.le_refl _) h.inT
    show i < (s0.scopes ++ [_]).length
    rw [List.length_append, List.length_singleton]
    rcases getElem?_set hj with ⟨_, rfl, _⟩ | ⟨_, hj⟩
    · rcases List.mem_cons.1 hi with rfl | hi
      · omega
      · have := hin i hi
        omega
    · have := h.shape.envs j st' hj i hi
      omega
  have hg1 : ∀ F, Grow F s0 (enterSt f inst st s0) := fun F => Grow.newScope _ _ _ (by simp)
  have hst1 : (enterSt f inst st s0).envs[(enterSt f inst st s0).eng.env]? = some (s0.scopes.length :: (inst.toList ++ st)) := List.getElem?_set_self hlt
  have hsc1 : (enterSt f inst st s0).scopes[s0.scopes.length]? = some { cls := f.kind == .cls } := List.getElem?_concat_length
  have heng1 : (enterSt f inst st s0).eng = { s0.eng with body := f.body, env := f.env.getD s0.eng.env } := rfl
  have henv1 : (enterSt f inst st s0).envs = s0.envs.set (f.env.getD s0.eng.env) (s0.scopes.length :: (inst.toList ++ st)) := rfl
  generalize enterSt f inst st s0 = s1 at hw1 hg1 hst1 hsc1 heng1 henv1
  have hc1 := hc.sup (hg1 []).toSup
  refine Safe.bind ((safe_setupArgs hW hps hc1.argd (lt_of_get hsc1) hw1).mono fun _ s2 ⟨hw2, hg2, he2, hv2⟩ => ?_)
  have hc2 := hc1.sup (hg2 []).toSup
  have hst2 : s2.envs[s2.eng.env]? = some (s0.scopes.length :: (inst.toList ++ st)) := by
    rw [he2, hv2]
    exact hst1
  have hcls2 : ∀ x, s2.scopes[s0.scopes.length]? = some x → x.cls = (f.kind == .cls) := by
    intro x hx
    obtain ⟨x', hx', hc', _⟩ := (hg2 []).vars _ _ hsc1
    cases hx.symm.trans hx'
    exact hc'
  have hr2 : s2.eng.rv = .none := by
    rw [he2, heng1]
    exact hr
  refine Safe.bind (((safe_runBody hX hW d hc2 hw2 hr2 (by rw [he2, heng1]) ⟨_, _, hst2, hcls2⟩).keeps (kE_runBody (recFr w n) w callable f acc d args)).mono fun ran s3 ⟨⟨hran, hg3⟩, hf3⟩ => ?_)
  have hst3 : s3.envs[s3.eng.env]? = some (s0.scopes.length :: (inst.toList ++ st)) := by
    rw [hf3.env]
    exact hf3.envs _ _ hst2
  refine Safe.bind_ok (leave_eq hst3) ?_
  have hback : ∀ {C P T : List Nat}, Wf L C P T s3 → Wf L C P T { s3 with envs := s3.envs.set s3.eng.env st, eng := { s3.eng with body := s0.eng.body, env := s0.eng.env } } := by
    intro C P T h3
    refine (h3.setStack (e := s3.eng.env) (st := st) fun i hi => h3.shape.envs _ _ hst3 i (List.mem_cons_of_mem _ (List.mem_append_right _ hi))).setEng ?_
    show s0.eng.env < (s3.envs.set s3.eng.env st).length
    rw [List.length_set]
    have := (hg1 []).toSup.envs
    have := (hg2 []).toSup.envs
    have := hg3.toSup.envs
    have := h.shape.cur
    omega
  have hg4 : ∀ F, Grow F s3 { s3 with envs := s3.envs.set s3.eng.env st, eng := { s3.eng with body := s0.eng.body, env := s0.eng.env } } := fun F => Grow.context _ _ (by simp)
  have hgall : Grow (L.touched f.kind.calm) s0 { s3 with envs := s3.envs.set s3.eng.env st, eng := { s3.eng with body := s0.eng.body, env := s0.eng.env } } :=
    (((hg1 _).trans (hg2 _)).trans hg3).trans (hg4 _)
  generalize hs4 : ({ s3 with envs := s3.envs.set s3.eng.env st, eng := { s3.eng with body := s0.eng.body, env := s0.eng.env } } : St) = s4 at hback hgall hg4
  have hran4 : RanOk L C P T f d s4 ran := by
    cases hran with
    | value h1 h2 h3 h4 => exact .value h1 (hback h2) (fun c hc => (hg4 []).toSup.plain (h3 c hc)) h4
    | block h1 h2 h3 => exact .block (hback h1) (by subst hs4; exact h2) (by subst hs4; exact h3)
    | callback h1 h2 => exact .callback (hback h1) h2
  exact (safe_afterCall d hran4 (hgall.toSup.holds hc.fn) fun c hc' => (hc.argd c hc').1).mono fun r s5 ⟨h1, h2, h3, h4⟩ => ⟨h1, h2, h3, hgall.trans (h4 _)⟩

end

end Bob.Fl
