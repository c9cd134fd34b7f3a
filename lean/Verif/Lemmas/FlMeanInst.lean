import Verif.Lemmas.FlMeanHost
/-!
# Compilers and linkers are what they should be
-/

namespace Bob.Fl

section
variable {L : Discipline} {C P T : List Nat} {s s0 s' : St} {w : World} {X : List Nat} {r : List Ask} {st : List Nat} {ρ : Names}

/-- In this scope, the name stands for a function of bob's declared there. -/
def Offers (s : St) (j : Nat) (name : Bytes) (l : Nat) (g : FnData) : Prop := ∃ x k v y, s.scopes[j]? = some x ∧ findKeyIdx name x.vars = some k ∧ x.vars[k]? = some v ∧ v.isStatic = false ∧ v.val = some l ∧
  s.cells[l]? = some y ∧ y.name = name ∧ y.owner = some j ∧ y.data = .fn g ∧ g.kind = .extern ∧ g.params.length = 1

theorem Offers.kept {j : Nat} {name : Bytes} {l : Nat} {g : FnData} (h : Offers s j name l g) (hp : Stays s s') : Offers s' j name l g := by
  obtain ⟨x, k, v, y, h1, h2, h3, h4, h5, h6, h7, h8, h9, h10, h11⟩ := h
  obtain ⟨x', hx', hk, hv, _⟩ := hp.scopes j x h1
  obtain ⟨v', hv', hc'⟩ := hv k v l h3 h5
  obtain ⟨y', hy', hd, hn⟩ := hp.cells l y h6
  have hn := hn (by rw [h9]; exact .inr h10)
  refine ⟨x', k, v', y', hx', (findKeyIdx_keys hk).trans h2, hv', ?_, hc', hy', hn.1.trans h7, hn.2.trans h8, hd.trans h9, h10, h11⟩
  have e1 : x'.keys[k]? = some (v'.key, v'.isStatic) := by
    unfold Scope.keys
    rw [List.getElem?_map, hv']
    rfl
  have e2 : x.keys[k]? = some (v.key, v.isStatic) := by
    unfold Scope.keys
    rw [List.getElem?_map, h3]
    rfl
  rw [hk, e2] at e1
  rw [← show v.isStatic = v'.isStatic from congrArg Prod.snd (Option.some.inj e1)]
  exact h4

/-- An instance of the class, with scope `j` and state `k`, which has the flags. -/
structure InstOf (s : St) (a cls k fl j : Nat) : Prop where
  inst : s.Holds a (.inst { cls := cls, scope := j, data := some k })
  scope : ∃ x, s.scopes[j]? = some x ∧ x.owner = some a
  state : ∃ h, s.host.states[k]? = some h ∧ h.flags = fl

theorem InstOf.kept {a cls k fl j : Nat} (h : InstOf s a cls k fl j) (hp : Stays s s') : InstOf s' a cls k fl j := by
  refine ⟨hp.toPast.holds h.inst, ?_, ?_⟩
  · obtain ⟨x, hx, ho⟩ := h.scope
    obtain ⟨x', hx', _, _, ho'⟩ := hp.scopes j x hx
    exact ⟨x', hx', ho' a ho⟩
  · obtain ⟨h, h1, h2⟩ := h.state
    obtain ⟨h', h3, h4⟩ := hp.states k h h1
    exact ⟨h', h3, h4.trans h2⟩

/-! ## The body of a class -/

theorem ScopesKept.later {l l1 : List Scope} (h : ScopesKept l l1) {i : Nat} (hi : l.length ≤ i) (y : Scope) : ScopesKept l (l1.set i y) := by
  intro k x hx
  obtain ⟨x', hx', hk⟩ := h k x hx
  refine ⟨x', ?_, hk⟩
  rw [List.getElem?_set_ne]
  · exact hx'
  · have := lt_of_get hx
    omega

theorem Idle.later (h : Idle s0 s) (hc : CellsKept s.cells s'.cells) (hb : s'.bufs = s.bufs) (hd : s'.bodies = s.bodies) (hs : ScopesKept s0.scopes s'.scopes) (hh : s'.host = s.host) (ho : s'.out = s.out) : Idle s0 s' := by
  have hp : Past s s' := ⟨hc, hb ▸ SlotsKept.refl _, hd ▸ SlotsKept.refl _, fun k h hk => ⟨h, by rw [hh]; exact hk, rfl⟩, by rw [hh], by rw [hh], by rw [hh], by rw [hh]⟩
  exact ⟨⟨h.toPast.trans hp, hs, ho.trans h.out, fun st hst => h.fresh st (by rw [hh] at hst; exact hst)⟩, by rw [hh]; exact h.steps⟩

theorem findKeyIdx_append {name : Bytes} {vs us : List Var} : findKeyIdx name (vs ++ us) = (findKeyIdx name vs).or ((findKeyIdx name us).map (· + vs.length)) := by
  induction vs with
  | nil => simp [findKeyIdx]
  | cons v vs ih =>
    rw [List.cons_append, findKeyIdx, findKeyIdx]
    split
    · rfl
    · rw [ih]
      cases findKeyIdx name vs with
      | some k => rfl
      | none =>
        cases findKeyIdx name us with
        | none => rfl
        | some k => exact congrArg some (Nat.add_assoc _ _ _)

/-- Prototypes without `static`. -/
def protos (ns : List (Bytes × Bytes)) : List Stmt := ns.map fun n => .line (.proto false n.1 [n.2])

/-- No scope was released. -/
def St.NoneFreed (s : St) : Prop := ∀ (i : Nat) (x : Scope), s.scopes[i]? = some x → x.freed = false

theorem St.NoneFreed.set (h : s.NoneFreed) {j : Nat} {x : Scope} {s' : St} (hs : s'.scopes = s.scopes.set j x) (hx : x.freed = false) : s'.NoneFreed := by
  intro i y hy
  rw [hs] at hy
  rcases getElem?_set hy with ⟨_, rfl, _⟩ | ⟨_, hy⟩
  · exact hx
  · exact h i y hy

/-- The context is the same, and nothing was released or told to bob. -/
structure Plainly (s s' : St) : Prop where
  eng : s'.eng = s.eng
  stack : ∀ st, s.Stack st → s'.Stack st
  bufs : s'.bufs = s.bufs
  bodies : s'.bodies = s.bodies
  host : s'.host = s.host
  whole : s.NoneFreed → s'.NoneFreed

theorem conv_proto {j : Nat} {stk : List Nat} {x : Scope} {name p : Bytes} (hr : s.eng.rv = .none) (hst : s.Stack (j :: stk)) (hx : s.scopes[j]? = some x) (hfr : x.freed = false) (hk : findKeyIdx name x.vars = none)
    (hi : Idle s0 s) (hj : s0.scopes.length ≤ j) :
    Conv (fun n => (interp w n).exec (.line (.proto false name [p]))) s fun _ s' => Idle s0 s' ∧ Plainly s s' ∧
      (∃ x', s'.scopes[j]? = some x' ∧ x'.freed = false ∧ ∀ n, n ≠ name → findKeyIdx n x.vars = none → findKeyIdx n x'.vars = none) ∧ (∃ l g, Offers s' j name l g) ∧ ∀ n l g, Offers s j n l g → Offers s' j n l g := by
  have hlt := lt_of_get hx
  refine Conv.succ (m' := fun n => stepExec w (interp w n) (.line (.proto false name [p]))) (fun _ => rfl) ?_
  have hret : returning s = .ok false s := by
    unfold returning
    rw [bind_of_ok (get_apply s)]
    cases s.eng.body with
    | none => rfl
    | some b =>
      dsimp only
      rw [if_pos hr]
      rfl
  refine Conv.bind_ok (m := fun _ => returning) (fun _ => hret) (Conv.else (fun h => nomatch h) ?_)
  refine Conv.of_eq (fun n => declFn_eq (R := interp w n) hst hx hfr hk) (Conv.else (m' := fun _ => pure ()) (fun h => nomatch h) (Conv.pure ?_))
  simp only [declSt, blockOf, List.append_nil]
  have hnew : (s.scopes.set j { x with vars := x.vars ++ [{ key := name, isStatic := false, val := some s.cells.length }] })[j]? = some { x with vars := x.vars ++ [{ key := name, isStatic := false, val := some s.cells.length }] } := List.getElem?_set_self hlt
  refine ⟨hi.later (CellsKept.push _ _) rfl rfl (hi.scopes.later hj _) rfl rfl, ⟨rfl, fun st h => getElem?_pushed h, rfl, rfl, rfl, fun h => St.NoneFreed.set h rfl hfr⟩, ⟨_, hnew, hfr, fun n hn h0 => ?_⟩, ?_, ?_⟩
  · dsimp only
    rw [findKeyIdx_append, h0, findKeyIdx_none.2 (by intro v hv; cases List.mem_singleton.1 hv; exact Ne.symm hn)]
    rfl
  · refine ⟨s.cells.length, _, _, x.vars.length, _, _, hnew, ?_, List.getElem?_concat_length, rfl, rfl, List.getElem?_concat_length, rfl, rfl, rfl, rfl, rfl⟩
    dsimp only
    rw [findKeyIdx_append, hk]
    simp [findKeyIdx]
  · rintro n l g ⟨x', k, v, y, h1, h2, h3, h4⟩
    cases hx.symm.trans h1
    refine ⟨_, k, v, y, hnew, ?_, getElem?_pushed h3, h4.1, h4.2.1, getElem?_pushed h4.2.2.1, h4.2.2.2⟩
    dsimp only
    rw [findKeyIdx_append, h2]
    rfl

theorem Plainly.refl (s : St) : Plainly s s := ⟨rfl, fun _ h => h, rfl, rfl, rfl, id⟩

theorem Plainly.trans {s1 s2 : St} (h1 : Plainly s s1) (h2 : Plainly s1 s2) : Plainly s s2 :=
  ⟨h2.eng.trans h1.eng, fun st h => h2.stack st (h1.stack st h), h2.bufs.trans h1.bufs, h2.bodies.trans h1.bodies, h2.host.trans h1.host, fun h => h2.whole (h1.whole h)⟩

theorem conv_protos {j : Nat} {stk : List Nat} (hj : s0.scopes.length ≤ j) : ∀ {ns : List (Bytes × Bytes)} {x : Scope} {s : St}, (ns.map Prod.fst).Nodup → (∀ n ∈ ns, findKeyIdx n.1 x.vars = none) → s.eng.rv = .none → s.Stack (j :: stk) →
    s.scopes[j]? = some x → x.freed = false → Idle s0 s →
    Conv (fun n => forEach (interp w n).exec (protos ns)) s fun _ s' => Idle s0 s' ∧ Plainly s s' ∧ (∃ x', s'.scopes[j]? = some x' ∧ x'.freed = false) ∧ (∀ n ∈ ns, ∃ l g, Offers s' j n.1 l g) ∧ ∀ n l g, Offers s j n l g → Offers s' j n l g
  | [], x, s, _, _, _, _, hx, hfr, hi => Conv.pure ⟨hi, Plainly.refl s, ⟨x, hx, hfr⟩, fun n hn => (nomatch hn), fun _ _ _ h => h⟩
  | m :: ns, x, s, hd, h0, hr, hst, hx, hfr, hi => by
    rw [List.map_cons, List.nodup_cons] at hd
    refine Conv.bind ((conv_proto (w := w) (p := m.2) hr hst hx hfr (h0 m List.mem_cons_self) hi hj).mono fun _ s1 ⟨g1, g2, ⟨x1, g3, g4, g5⟩, ⟨l, g, g6⟩, g7⟩ => ?_)
    refine (conv_protos hj hd.2 (fun n hn => g5 n.1 ?_ (h0 n (List.mem_cons_of_mem _ hn))) (by rw [g2.eng]; exact hr) (g2.stack _ hst) g3 g4 g1).mono fun _ s2 ⟨k1, k2, k3, k4, k5⟩ => ⟨k1, g2.trans k2, k3, ?_, fun n l g h => k5 n l g (g7 n l g h)⟩
    · intro he
      exact hd.1 (he ▸ List.mem_map_of_mem hn)
    · intro n hn
      rcases List.mem_cons.1 hn with rfl | hn
      · exact ⟨l, g, k5 _ l g g6⟩
      · exact k4 n hn

/-! ## Making an instance -/

theorem cc_or_linker {y : Cell} {m : M Unit} (hn : y.name = b!"Cc" ∨ y.name = b!"Linker") (hk : s.NameKept y) :
    (do if ← nameIs y b!"Cc" then m else if ← nameIs y b!"Linker" then m else pure () : M Unit) s = m s := by
  rw [bind_of_ok (nameIs_kept hk _)]
  rcases hn with hn | hn
  · rw [hn]
    rfl
  · rw [hn, if_neg (by decide), bind_of_ok (nameIs_kept hk _), hn]
    rfl

theorem checkFlags_shows {c : Nat} {fs : List Bytes} (h : s.Shows (.strs fs) c) : checkFlags c s = .ok () s := by
  obtain ⟨es, ⟨x, hx, hd⟩, hall⟩ := h
  unfold checkFlags
  rw [bind_of_ok ((getCell_ok_iff ..).2 ⟨hx, rfl⟩), hd]
  dsimp only
  clear hd
  induction fs generalizing es with
  | nil =>
    cases es with
    | nil => rfl
    | cons _ _ => exact hall.elim
  | cons b fs ih =>
    cases es with
    | nil => exact hall.elim
    | cons e es =>
      obtain ⟨⟨buf, full, ⟨y, hy, hyd⟩, h2, h3⟩, htl⟩ := hall
      unfold forEach
      rw [bind_of_ok (a := ()) (s1 := s) ?_, ih es htl]
      rw [bind_of_ok ((getCell_ok_iff ..).2 ⟨hy, rfl⟩), hyd]
      rfl

theorem conv_makeInst {c j fl : Nat} {x : Scope} {y : Cell} {fs : List Bytes} (hi : Idle s0 s) (hj : s0.scopes.length ≤ j) (hx : s.scopes[j]? = some x) (hfr : x.freed = false) (hc : s.cells[c]? = some y)
    (hn : y.name = b!"Cc" ∨ y.name = b!"Linker") (hf : s.Shows (.strs fs) fl) (hwh : s.NoneFreed) :
    Conv (fun _ => makeInst c j .keep [fl]) s fun o s' => ∃ a k, o = some a ∧ InstOf s' a c k fl j ∧ s0.host.states.length ≤ k ∧ Idle s0 s' ∧ ∀ n l g, Offers s j n l g → Offers s' j n l g := by
  have hlt := lt_of_get hx
  have hf1 : (instSt s { cls := c, scope := j } j x s.host).Shows (.strs fs) fl := Grew.shows ⟨⟨_, rfl⟩, ⟨[], by simp [instSt]⟩⟩ hf
  refine Conv.ok (a := some s.cells.length) (s1 := { instSt s { cls := c, scope := j, data := some s.host.states.length } j x { s.host with states := s.host.states ++ [{ flags := fl }] } with eng := { s.eng with rv := .none } })
    (fun _ => ?_) ⟨_, s.host.states.length, rfl, ⟨⟨_, List.getElem?_concat_length, rfl⟩, ⟨_, List.getElem?_set_self hlt, rfl⟩, ⟨_, List.getElem?_concat_length, rfl⟩⟩, hi.toPast.count, ?_, ?_⟩
  · unfold makeInst
    have hg : getScope j { s with cells := s.cells ++ [{ data := .inst { cls := c, scope := j } }] } = .ok x _ := (getScope_ok_iff ..).2 ⟨hx, hfr, rfl⟩
    rw [bind_of_ok (show checkDest .keep s = .ok () s from rfl), bind_of_ok (alloc_apply ..), bind_of_ok hg, bind_of_ok (setScope_apply ..)]
    have h1 : classInst s.cells.length [fl] (instSt s { cls := c, scope := j } j x s.host) = .ok () (instSt s { cls := c, scope := j, data := some s.host.states.length } j x { s.host with states := s.host.states ++ [{ flags := fl }] }) := by
      unfold classInst
      rw [bind_of_ok ((getCell_ok_iff ..).2 ⟨List.getElem?_concat_length, rfl⟩)]
      dsimp only
      have hk : (instSt s { cls := c, scope := j } j x s.host).NameKept y := fun i sc _ h => St.NoneFreed.set (x := { x with owner := some s.cells.length }) hwh rfl hfr i sc h
      rw [bind_of_ok ((getCell_ok_iff ..).2 ⟨getElem?_pushed hc, rfl⟩)]
      refine (cc_or_linker hn hk).trans ?_
      unfold instantiate
      dsimp only
      rw [bind_of_ok (checkFlags_shows hf1), bind_of_ok (get_apply _)]
      have hm : (modHost fun h => { h with states := h.states ++ [{ flags := fl }] }) (instSt s { cls := c, scope := j } j x s.host) = .ok () (instSt s { cls := c, scope := j } j x { s.host with states := s.host.states ++ [{ flags := fl }] }) := rfl
      rw [bind_of_ok hm]
      rw [bind_of_ok ((getCell_ok_iff ..).2 ⟨List.getElem?_concat_length, rfl⟩)]
      dsimp only
      rw [setCell_apply]
      unfold instSt
      simp only [set_concat]
    refine (bind_of_ok h1).trans ?_
    rw [bind_of_ok (setRv_apply ..)]
    rfl
  · have hp : Past s { instSt s { cls := c, scope := j, data := some s.host.states.length } j x { s.host with states := s.host.states ++ [{ flags := fl }] } with eng := { s.eng with rv := .none } } :=
      ⟨CellsKept.push _ _, SlotsKept.refl _, SlotsKept.refl _, fun k h hk => ⟨h, getElem?_pushed hk, rfl⟩, rfl, rfl, rfl, rfl⟩
    exact ⟨⟨hi.toPast.trans hp, hi.scopes.later hj _, hi.out, hi.fresh⟩, hi.steps⟩
  · rintro n l g ⟨x', k, v, z, h1, h2, h3, h4⟩
    cases hx.symm.trans h1
    exact ⟨_, k, v, z, List.getElem?_set_self hlt, h2, h3, h4.1, h4.2.1, getElem?_pushed h4.2.2.1, h4.2.2.2⟩

/-- Calling a class. -/
theorem conv_inst (hW : w.Ok L) {c fl : Nat} {fd : FnData} {name : Bytes} {ns : List (Bytes × Bytes)} {fs : List Bytes} (h : Wf L C P T s) (hr : s.eng.rv = .none) (hc : CallOk P c fd none [fl] s)
    (hcl : ClassIs s c name (protos ns)) (hn : name = b!"Cc" ∨ name = b!"Linker") (hns : (ns.map Prod.fst).Nodup) (hfl : s.Was (.strs fs) fl) :
    Conv (fun n => (interp w n).call c none .keep [fl]) s fun o s' => ∃ a j k, o = some a ∧ InstOf s' a c k fl j ∧ (∀ n ∈ ns, ∃ l g, Offers s' j n.1 l g) ∧ s.host.states.length ≤ k ∧ Idle s s' := by
  have hcl' := hcl
  obtain ⟨x, f, b, h1, h2, h3, h4, h5, h6, h7⟩ := hcl
  obtain ⟨x', h1', h3'⟩ := hc.fn
  cases h1.symm.trans h1'
  cases h3.symm.trans h3'
  have hfs : s.Shows (.strs fs) fl := h.shows hfl fun ⟨_, hb⟩ => (nomatch hb)
  obtain ⟨st, hst⟩ := h.envOf ⟨x, h1, h3⟩
  obtain ⟨s0, hI⟩ := inside hW h hc (inst := none) rfl (st := st) hst (.inr ⟨fun p hp => (nomatch h4.symm.trans hp), rfl, h5⟩) fun c' hc' y hy => by
    cases List.mem_singleton.1 hc'
    obtain ⟨z, hz, _, _, hzn⟩ := Was.data hfl
    cases hz.symm.trans hy
    exact hzn
  have hr0 : s0.eng.rv = .none := by rw [hI.entered.eng]; exact hr
  refine hI.run ?_
  unfold runBody
  rw [h4]
  dsimp only
  obtain ⟨y, hy, hyd⟩ := hI.ok.fn
  have hbody : s0.bodies[b]? = some (some (.block (protos ns))) := by
    obtain ⟨z, hz, hzl⟩ := hI.wf.live_P hc.kept
    cases hy.symm.trans hz
    obtain ⟨t, ht, _⟩ := (hI.wf.mem.body c y _ b hy hyd h6).2 hzl
    rw [hI.entered.bodies] at ht ⊢
    rcases h7 with h7 | h7
    · exact h7
    · rw [h7] at ht
      cases ht
  refine Conv.bind_ok (m := fun _ => getBody fd.body) (a := .block (protos ns)) (s1 := s0) (fun _ => ?_) ?_
  · unfold getBody
    rw [h6, bind_of_ok ((deref_ok_iff ..).2 ⟨rfl, rfl⟩), bind_of_ok (get_apply s0), hbody]
    rfl
  dsimp only
  unfold execBlock
  obtain ⟨cls, hps, _⟩ := pushScope_eq hI.entered.stack (hI.wf.topAlive fun i hi => hI.wf.shape.envs _ _ hI.entered.stack i hi)
  refine Conv.bind (Conv.bind_ok (m := fun _ => pushScope) (fun _ => hps) ?_)
  have hlt := lt_of_get hI.entered.stack
  have hin : Idle s0 { s0 with scopes := s0.scopes ++ [{ cls := cls }], envs := s0.envs.set s0.eng.env (s0.scopes.length :: (s.scopes.length :: ((none : Option Nat).toList ++ st))) } :=
    Idle.of (CellsKept.refl _) (SlotsKept.refl _) (SlotsKept.refl _) (ScopesKept.push _ _) rfl rfl
  generalize hsp : ({ s0 with scopes := _, envs := _ } : St) = sp at hin
  have hsp1 : sp.Stack (s0.scopes.length :: (s.scopes.length :: ((none : Option Nat).toList ++ st))) := by
    subst hsp
    exact List.getElem?_set_self hlt
  have hsp2 : sp.scopes[s0.scopes.length]? = some { cls := cls } := by
    subst hsp
    exact List.getElem?_concat_length
  have hsp3 : sp.eng.rv = .none := by
    subst hsp
    exact hr0
  have hsp4 : sp.bufs = s0.bufs := by
    subst hsp
    rfl
  have hsp5 : sp.NoneFreed := by
    subst hsp
    intro i y hy
    by_cases hl : i < s0.scopes.length
    · exact (hI.wf.shape.scopes i y (by rw [← hy]; exact (List.getElem?_append_left hl).symm)).freed
    · have he : (s0.scopes ++ [({ cls := cls } : Scope)])[i]? = some y := hy
      rw [List.getElem?_append_right (by omega)] at he
      rw [List.mem_singleton.1 (List.mem_of_getElem? he)]
  refine Conv.bind ((conv_protos (w := w) (Nat.le_refl s0.scopes.length) hns (fun n _ => rfl) hsp3 hsp1 hsp2 rfl hin).mono fun _ s1 ⟨g1, g2, ⟨x1, g3, g4⟩, g5, _⟩ => ?_)
  have hst1 := g2.stack _ hsp1
  refine Conv.ok (m := fun _ => detach) (fun _ => (detach_ok_iff ..).2 ⟨_, hst1, rfl⟩) (Conv.pure ?_)
  have hi2 : Idle s0 (s.left st { s1 with envs := s1.envs.set s1.eng.env (s.scopes.length :: ((none : Option Nat).toList ++ st)) }) := g1.trans (by exact Idle.ctx rfl rfl rfl rfl rfl rfl)
  unfold afterCall
  dsimp only
  obtain ⟨z, hz, hzd, hzn⟩ := (hI.idle.trans hi2).cells c x h1
  have hzn := hzn (by rw [h3]; exact .inl h4)
  unfold finish
  refine Conv.bind_ok (m := fun _ => getCell c) (fun _ => (getCell_ok_iff ..).2 ⟨hz, rfl⟩) ?_
  rw [hzd, h3]
  dsimp only
  refine Conv.then h4 (Conv.else (fun h => nomatch h) ?_)
  rw [if_pos rfl]
  refine Conv.bind_ok (m := fun _ => M.deref (some s0.scopes.length)) (fun _ => rfl) ?_
  have hfs2 : (s.left st { s1 with envs := s1.envs.set s1.eng.env (s.scopes.length :: ((none : Option Nat).toList ++ st)) }).Shows (.strs fs) fl := by
    refine shows_of (fun _ _ => (hI.idle.trans hi2).toPast.holds) (fun b t hb => ?_) hfs
    show s1.bufs[b]? = _
    rw [g2.bufs, hsp4, hI.entered.bufs]
    exact hb
  refine (conv_makeInst hi2 (Nat.le_refl _) g3 g4 hz (by rw [hzn.1, h2]; exact hn) hfs2 (fun i x h => g2.whole hsp5 i x h)).mono fun o s3 ⟨a, k, k1, k2, k3, k4, k5⟩ => ⟨a, _, k, k1, k2, fun n hn' => ?_, ?_, hI.idle.trans k4⟩
  · obtain ⟨l, g, hg⟩ := g5 n hn'
    exact ⟨l, g, k5 _ l g hg⟩
  · rw [hI.entered.host] at k3
    exact k3

end

end Bob.Fl
