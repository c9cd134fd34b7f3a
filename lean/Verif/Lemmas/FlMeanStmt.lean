import Verif.Lemmas.FlMeanExpr
import Verif.Props.FlPrint
/-!
# Statements do what the description says
-/

namespace Bob.Fl

section
variable {L : Discipline} {C P T : List Nat} {s s' : St} {w : World} {X : List Nat} {r : List Ask} {ρ : Names} {i : Nat}

/-! ## Changing a variable -/

/-- Only a variable of scope `i` with that name changes, or such a variable is new. -/
def Moves (L : Discipline) (i : Nat) (name : Bytes) (l l' : List Scope) : Prop :=
  ∀ (j : Nat) (x : Scope), l[j]? = some x → ∃ x', l'[j]? = some x' ∧ x'.owner = x.owner ∧ (∀ y c, j ≠ i ∨ y ≠ name → FindsIn x y c → FindsIn x' y c) ∧
    ∀ v ∈ x.vars, ∀ c, v.val = some c → v.key ∉ L.assigned → ∃ v' ∈ x'.vars, v'.val = some c ∧ v'.key = v.key

theorem Moves.of_set {l : List Scope} {name : Bytes} {x x' : Scope} (hx : l[i]? = some x) (ho : x'.owner = x.owner) (hf : ∀ y c, y ≠ name → FindsIn x y c → FindsIn x' y c)
    (hs : ∀ v ∈ x.vars, ∀ c, v.val = some c → v.key ∉ L.assigned → ∃ v' ∈ x'.vars, v'.val = some c ∧ v'.key = v.key) : Moves L i name l (l.set i x') := by
  intro j z hz
  by_cases hj : j = i
  · subst hj
    cases hx.symm.trans hz
    exact ⟨x', List.getElem?_set_self (lt_of_get hx), ho, fun y c h => hf y c (h.resolve_left fun h => h rfl), hs⟩
  · exact ⟨z, by rw [List.getElem?_set_ne (Ne.symm hj)]; exact hz, rfl, fun _ _ _ h => h, fun v hv c hc _ => ⟨v, hv, hc, rfl⟩⟩

theorem FindsIn.push {x : Scope} {y : Bytes} {c : Nat} (h : FindsIn x y c) (v : Var) : FindsIn { x with vars := x.vars ++ [v] } y c := by
  obtain ⟨k, u, h1, h2, h3⟩ := h
  exact ⟨k, u, by show findKeyIdx y (x.vars ++ [v]) = _; rw [findKeyIdx_append, h1]; rfl, getElem?_pushed h2, h3⟩

theorem Moves.push {l : List Scope} {x : Scope} (hx : l[i]? = some x) (v : Var) (name : Bytes) : Moves L i name l (l.set i { x with vars := x.vars ++ [v] }) :=
  Moves.of_set hx rfl (fun _ _ _ h => h.push v) fun u hu _ hc _ => ⟨u, List.mem_append_left _ hu, hc, rfl⟩

theorem keys_setVar {x : Scope} {k : Nat} {v : Var} (hv : x.vars[k]? = some v) (c : Option Nat) : ({ x with vars := x.vars.set k { v with val := c } } : Scope).keys = x.keys := by
  unfold Scope.keys
  refine List.ext_getElem? fun j => ?_
  rw [List.getElem?_map, List.getElem?_map]
  show Option.map _ (x.vars.set k _)[j]? = _
  by_cases hj : j = k
  · subst hj
    rw [List.getElem?_set_self (lt_of_get hv), hv]
    rfl
  · rw [List.getElem?_set_ne (Ne.symm hj)]

theorem Moves.set {l : List Scope} {x : Scope} {k c : Nat} {v : Var} (hx : l[i]? = some x) (hv : x.vars[k]? = some v) (hu : v.val = none ∨ v.key ∈ L.assigned) :
    Moves L i v.key l (l.set i { x with vars := x.vars.set k { v with val := some c } }) := by
  refine Moves.of_set hx rfl (fun y d hy h => ?_) fun u hu' d hd hk => ?_
  · obtain ⟨k', v', h1, h2, h3, h4⟩ := h.has
    have hne : k ≠ k' := by
      rintro rfl
      cases hv.symm.trans h1
      exact hy h2.symm
    exact ⟨k', v', (findKeyIdx_keys (keys_setVar hv (some c))).trans h4, by show (x.vars.set k _)[k']? = _; rw [List.getElem?_set_ne hne]; exact h1, h3⟩
  · obtain ⟨k', hk'⟩ := List.getElem?_of_mem hu'
    have hne : k ≠ k' := by
      rintro rfl
      cases hv.symm.trans hk'
      rcases hu with hu | hu
      · cases hu.symm.trans hd
      · exact hk hu
    exact ⟨u, List.mem_of_getElem? (i := k') (by show (x.vars.set k _)[k']? = _; rw [List.getElem?_set_ne hne]; exact hk'), hd, rfl⟩

/-- Scope `i` is not that of `Fs`. -/
def Apart (s : St) (i : Nat) : Prop := ∃ c f sc, s.host.fsCls = some c ∧ s.Holds c (.fn f) ∧ f.scope = some sc ∧ sc ≠ i

theorem Apart.past (h : Apart s i) (hp : Past s s') : Apart s' i := by
  obtain ⟨c, f, sc, h1, h2, h3, h4⟩ := h
  exact ⟨c, f, sc, hp.fsCls.trans h1, hp.holds h2, h3, h4⟩

theorem Moves.finds {l l' : List Scope} {name y : Bytes} {c : Nat} (h : Moves L i name l l') (hy : y ≠ name) (hf : Finds l y [i] c) : Finds l' y [i] c := by
  obtain ⟨x, hx, hf⟩ := hf
  obtain ⟨x', hx', _, hm, _⟩ := h i x hx
  rcases hf with hf | ⟨_, hf⟩
  · exact ⟨x', hx', .inl (hm y c (.inr hy) hf)⟩
  · exact hf.elim

theorem Moves.soft {l l' : List Scope} {name : Bytes} (h : Moves L i name l l') {c : Nat} (hc : Soft L l c) : Soft L l' c := by
  obtain ⟨j, x, v, hx, hv, hc, hk⟩ := hc
  obtain ⟨x', hx', _, _, hm⟩ := h j x hx
  obtain ⟨v', hv', hc', hk'⟩ := hm v hv c hc hk
  exact ⟨j, x', v', hx', hv', hc', by rw [hk']; exact hk⟩

theorem BobIn.moves {name : Bytes} (h : BobIn s [i]) (hp : Past s s') (hm : Moves L i name s.scopes s'.scopes) (hn : name ∉ bobClasses) (ha : Apart s i) : BobIn s' [i] := by
  obtain ⟨fs, cc, lk, hB, h1, h2, h3⟩ := h
  have hne : ∀ y ∈ bobClasses, y ≠ name := fun y hy h => hn (h ▸ hy)
  refine ⟨fs, cc, lk, ⟨?_, hp.ccCls.trans hB.ccCls, hp.linkerCls.trans hB.lkCls, hB.isCc.kept hp, hB.isLk.kept hp, hB.ne1, hB.ne2, hB.ne3⟩, hm.finds (hne _ (by decide)) h1, hm.finds (hne _ (by decide)) h2,
    hm.finds (hne _ (by decide)) h3⟩
  obtain ⟨hc, sc, l, g1, ⟨f, g2, g3, g4⟩, ⟨x, g5, g6, g7⟩, y, g, g8, g9, g10, g11, g12⟩ := hB.isFs
  obtain ⟨c', f', sc', a1, a2, a3, a4⟩ := ha
  cases hc.symm.trans a1
  cases holds_unique g2 a2
  cases g4.symm.trans a3
  refine ⟨hp.fsCls.trans hc, sc, l, hp.fsList.trans g1, ⟨f, hp.holds g2, g3, g4⟩, ?_, ?_⟩
  · obtain ⟨x', hx', ho, hv, _⟩ := hm sc x g5
    exact ⟨x', hx', ho.trans g6, hv _ _ (.inl a4) g7⟩
  · obtain ⟨y', hy', hd, hn⟩ := hp.cells l y g8
    exact ⟨y', g, hy', (hn (by rw [g10]; exact .inr g11)).2.trans g9, hd.trans g10, g11, g12⟩

theorem Amb.moves {name : Bytes} (h : Amb w L X r s) (hp : Past s s') (he : s'.host.steps = s.host.steps) (hm : Moves L i name s.scopes s'.scopes) : Amb w L X r s' :=
  h.past hp he fun _ hc => hc.elim .inl fun hc => .inr (hc.imp (fun h => h.past hp) hm.soft)

/-! ## Between statements -/

/-- Between the statements of a script, with the outermost scope `i`. -/
structure Top (w : World) (L : Discipline) (i : Nat) (r : List Ask) (o : List Bytes) (ρ : Names) (s : St) : Prop where
  scene : Scene w L [] [] [] [] r [i] ρ s
  stack : s.Stack [i]
  only : ∀ x, s.scopes[i]? = some x → ∀ k ∈ x.keys, k.1 ∈ bobClasses ∨ ρ.lookup k.1 ≠ none
  apart : Apart s i
  out : s.out = o

theorem Top.scope {o : List Bytes} (h : Top w L i r o ρ s) : ∃ x, s.scopes[i]? = some x ∧ x.freed = false := by
  obtain ⟨fs, _, _, _, ⟨x, hx, _⟩, _⟩ := h.scene.bob
  exact ⟨x, hx, (h.scene.wf.shape.scopes i x hx).freed⟩

/-- After an expression which gave a value that is given up. -/
theorem Top.stays {o o' : List Bytes} {q : List Ask} (h : Top w L i r o ρ s) (hp : Past s s') (hs : ScopesKept s.scopes s'.scopes) (hsc : Scene w L [] [] [] [] (r ++ q) [i] ρ s') (hst : s'.Stack [i]) (ho : s'.out = o') : Top w L i (r ++ q) o' ρ s' := by
  refine ⟨hsc, hst, fun x hx => ?_, h.apart.past hp, ho⟩
  obtain ⟨y, hy, _⟩ := h.scope
  obtain ⟨x', hx', hk, _⟩ := hs i y hy
  cases hx.symm.trans hx'
  rw [hk]
  exact h.only y hy

theorem conv_line {l : Line} {Q : Unit → St → Prop} (hr : s.eng.rv = .none) (h : Conv (fun n => execLine w (interp w n) l) s Q) : Conv (fun n => (interp w n).exec (.line l)) s Q := by
  obtain ⟨N, a, s1, h1, hq⟩ := h
  refine ⟨N + 1, a, s1, fun n hn => ?_, hq⟩
  obtain ⟨k, rfl⟩ : ∃ k, n = k + 1 := ⟨n - 1, by omega⟩
  show (interp w (k + 1)).exec (.line l) s = _
  rw [exec_line w k hr]
  exact h1 k (by omega)

theorem lookup_cons {x y : Bytes} {v : Val} : List.lookup y ((x, v) :: ρ) = if y = x then some v else ρ.lookup y := by
  rw [List.lookup_cons]
  by_cases h : y = x
  · simp [h]
  · rw [beq_false_of_ne h, if_neg h]

theorem lookup_set {x y : Bytes} {v : Val} : (ρ.set x v).lookup y = if y = x then (ρ.lookup x).map fun _ => v else ρ.lookup y := by
  unfold Names.set
  induction ρ with
  | nil => simp
  | cons b ρ ih =>
    obtain ⟨z, u⟩ := b
    rw [List.map_cons]
    by_cases hz : z = x
    · subst hz
      rw [if_pos rfl, lookup_cons, lookup_cons, lookup_cons, ih, if_pos rfl]
      by_cases hy : y = z
      · rw [if_pos hy, if_pos hy]; rfl
      · rw [if_neg hy, if_neg hy, if_neg hy, if_neg hy]
    · rw [if_neg hz, lookup_cons, lookup_cons, lookup_cons, ih, if_neg (Ne.symm hz)]
      by_cases hy : y = z
      · subst hy
        rw [if_pos rfl, if_pos rfl, if_neg hz]
      · rw [if_neg hy, if_neg hy]

theorem FindsIn.unique {x : Scope} {y : Bytes} {c d : Nat} (h1 : FindsIn x y c) (h2 : FindsIn x y d) : c = d := by
  obtain ⟨k, v, a1, a2, a3⟩ := h1
  obtain ⟨k', v', b1, b2, b3⟩ := h2
  cases a1.symm.trans b1
  cases a2.symm.trans b2
  exact Option.some.inj (a3.symm.trans b3)

/-- The variable `name` now has the value `v`. -/
theorem Top.move {T : List Nat} {ρ' : Names} {o : List Bytes} {name : Bytes} {v : Val} {c : Nat} {x : Scope} (h : Scene w L [] [] T X r [i] ρ s) (hp : Past s s') (hm : Moves L i name s.scopes s'.scopes) (hb : name ∉ bobClasses)
    (ha : Apart s i) (hw : Wf L [] [] [] s') (hr : s'.eng.rv = .none) (hamb : Amb w L [] r s') (hst : s'.Stack [i]) (hx : s'.scopes[i]? = some x) (hf : FindsIn x name c) (hv : s'.Was v c)
    (hk : ∀ k ∈ x.keys, k.1 ∈ bobClasses ∨ ρ'.lookup k.1 ≠ none) (hρ : ∀ y, ρ'.lookup y = if y = name then some v else ρ.lookup y) (ho : s'.out = o) : Top w L i r o ρ' s' := by
  refine ⟨⟨hw, hr, fun y u hy => ?_, h.bob.moves hp hm hb ha, hamb⟩, hst, fun x' hx' => ?_, ha.past hp, ho⟩
  · rw [hρ] at hy
    by_cases he : y = name
    · rw [if_pos he] at hy
      cases hy
      rw [he]
      exact ⟨c, ⟨x, hx, .inl hf⟩, hv⟩
    · rw [if_neg he] at hy
      obtain ⟨d, h1, h2⟩ := h.sees y u hy
      exact ⟨d, hm.finds he h1, hp.was h2⟩
  · cases hx.symm.trans hx'
    exact hk

/-- What the initial value of a variable may be. -/
def Inits (w : World) (L : Discipline) (i : Nat) (ρ : Names) (name : Bytes) (init : Option Expr) (v : Val) (q : List Ask) : Prop :=
  ∀ ⦃r : List Ask⦄ ⦃s : St⦄, Scene w L [] [] [] [] r [i] ρ s → s.Stack [i] →
    Conv (fun n => initVal (interp w n) init) s fun c s' => s'.Was v c ∧ Stays s s' ∧ s'.Stack [i] ∧ s'.eng.rv = .none ∧ Wf L [] [] [c] s' ∧ Amb w L [c] (r ++ q) s' ∧ (name ∈ L.assigned → Amb w L [] (r ++ q) s')

theorem conv_decl {o : List Bytes} {name : Bytes} {init : Option Expr} {v : Val} {q : List Ask} (st : Bool) (h : Top w L i r o ρ s) (hn : freeName name = true) (hl : ρ.lookup name = none) (hb : name ∉ bobClasses)
    (hi : Inits w L i ρ name init v q) : Conv (fun n => declVar (interp w n) st name init) s fun _ s' => Top w L i (r ++ q) o ((name, v) :: ρ) s' := by
  obtain ⟨x, hx, hfr⟩ := h.scope
  have hk : findKeyIdx name x.vars = none := by
    rw [findKeyIdx_none]
    intro u hu he
    rcases h.only x hx (u.key, u.isStatic) (List.mem_map.2 ⟨u, hu, rfl⟩) with h1 | h1
    · exact hb (he ▸ h1)
    · exact h1 (by show ρ.lookup u.key = none; rw [he]; exact hl)
  unfold declVar
  refine Conv.bind_ok (m := fun _ => curScope) (fun _ => curScope_stack h.stack) ?_
  refine Conv.bind_ok (m := fun _ => getScope i) (fun _ => getScope_alive ⟨hx, hfr⟩) ?_
  rw [hk]
  dsimp only
  refine Conv.bind_ok (m := fun _ => addVar i { key := name, isStatic := st }) (fun _ => addVar_alive ⟨hx, hfr⟩ _) ?_
  have hw1 := h.scene.wf.addVar hx (v := { key := name, isStatic := st }) (freeName_iff.1 hn) rfl
  generalize hs1 : ({ s with scopes := s.scopes.set i { x with vars := x.vars ++ [{ key := name, isStatic := st }] } } : St) = s1 at hw1 ⊢
  have hp1 : Past s s1 := by
    subst hs1
    exact ⟨CellsKept.refl _, SlotsKept.refl _, SlotsKept.refl _, fun _ h hk => ⟨h, hk, rfl⟩, rfl, rfl, rfl, rfl⟩
  have hm1 : Moves L i name s.scopes s1.scopes := by
    subst hs1
    exact Moves.push hx _ name
  have hx1 : s1.scopes[i]? = some { x with vars := x.vars ++ [{ key := name, isStatic := st }] } := by
    subst hs1
    exact List.getElem?_set_self (lt_of_get hx)
  have hsc1 : Scene w L [] [] [] [] r [i] ρ s1 := by
    refine ⟨hw1, by subst hs1; exact h.scene.rv, fun y u hy => ?_, h.scene.bob.moves hp1 hm1 hb h.apart, h.scene.amb.moves hp1 (by subst hs1; rfl) hm1⟩
    obtain ⟨c, h1, h2⟩ := h.scene.sees y u hy
    exact ⟨c, hm1.finds (fun he => by rw [he, hl] at hy; cases hy) h1, hp1.was h2⟩
  have hst1 : s1.Stack [i] := by
    subst hs1
    exact h.stack
  refine Conv.bind ((hi hsc1 hst1).mono fun c s2 ⟨g1, g2, g3, g4, g5, g6, g7⟩ => ?_)
  obtain ⟨y, hy, hyk, hyv, _⟩ := g2.scopes i _ hx1
  have hlen : y.vars.length = x.vars.length + 1 := by
    have := congrArg List.length hyk
    unfold Scope.keys at this
    simpa using this
  obtain ⟨v0, hv0⟩ : ∃ v0, y.vars[x.vars.length]? = some v0 := ⟨_, List.getElem?_eq_getElem (by omega)⟩
  have hkey : v0.key = name := by
    have h1 : y.keys[x.vars.length]? = some (v0.key, v0.isStatic) := by
      unfold Scope.keys
      rw [List.getElem?_map, hv0]
      rfl
    rw [hyk] at h1
    unfold Scope.keys at h1
    simp at h1
    exact h1.1.symm
  have hidx : findKeyIdx name y.vars = some x.vars.length := by
    have hyk' := hyk
    unfold Scope.keys at hyk'
    rw [findKeyIdx_keys hyk', findKeyIdx_append, hk]
    simp [findKeyIdx]
  have hval : v0.val = none := by
    obtain ⟨v', h1, h2⟩ := hyv x.vars.length { key := name, isStatic := st } none (by simp) rfl
    cases hv0.symm.trans h1
    exact h2
  have hfr2 := (g5.shape.scopes i y hy).freed
  refine Conv.bind_ok (m := fun _ => setVar (i, x.vars.length) c) (fun _ => setVar_alive ⟨hy, hfr2⟩ hv0 c) ?_
  obtain ⟨z, hz, _, hzp, hzn⟩ := Was.data g1
  have hzm : z.data.NotPtm := hzp.notPtm
  have hw3 := g5.setVar (T := []) hy hv0 hz hzm (fun _ => hzp) (.inl rfl)
  have hm3 : Moves L i name s2.scopes (s2.scopes.set i { y with vars := y.vars.set x.vars.length { v0 with val := some c } }) := hkey ▸ Moves.set hy hv0 (.inl hval)
  have hx3 : (s2.scopes.set i { y with vars := y.vars.set x.vars.length { v0 with val := some c } })[i]? = some { y with vars := y.vars.set x.vars.length { v0 with val := some c } } := List.getElem?_set_self (lt_of_get hy)
  generalize hs3 : ({ s2 with scopes := s2.scopes.set i { y with vars := y.vars.set x.vars.length { v0 with val := some c } } } : St) = s3 at hw3 ⊢
  have he3 : s3.scopes = s2.scopes.set i { y with vars := y.vars.set x.vars.length { v0 with val := some c } } := by rw [← hs3]
  rw [← he3] at hm3 hx3
  have hz3 : s3.cells[c]? = some z := by rw [← hs3]; exact hz
  have hp3 : Past s2 s3 := by
    subst hs3
    exact ⟨CellsKept.refl _, SlotsKept.refl _, SlotsKept.refl _, fun _ h hk => ⟨h, hk, rfl⟩, rfl, rfl, rfl, rfl⟩
  have hi4 : Idle s3 { s3 with cells := s3.cells.set c { z with owner := some i } } := Idle.touch hz3 rfl fun h => (hzn h).elim
  refine Conv.ok (m := fun _ => setOwnerOf c i) (fun _ => setOwnerOf_cell hz3 i) ?_
  have hf3 : FindsIn { y with vars := y.vars.set x.vars.length { v0 with val := some c } } name c :=
    ⟨x.vars.length, { v0 with val := some c }, (findKeyIdx_keys (keys_setVar hv0 (some c))).trans hidx, List.getElem?_set_self (lt_of_get hv0), rfl⟩
  have hsc3 : Scene w L [] [] [c] [c] (r ++ q) [i] ρ s2 := hsc1.stays g2 g5 g4 g6
  refine Top.move (name := name) (v := v) (c := c) hsc3 (hp3.trans hi4.toPast) hm3 hb ((h.apart.past hp1).past g2.toPast) ?_ (by subst hs3; exact g4) ?_ (by subst hs3; exact g3) hx3 hf3 ((hp3.trans hi4.toPast).was g1)
    (fun k hk => ?_) (fun y => lookup_cons) ?_
  · exact hw3.touch hz3 rfl rfl (.inr ⟨i, rfl, lt_of_get hx3⟩)
  · refine Amb.idle ?_ hi4
    by_cases hA : name ∈ L.assigned
    · exact (g7 hA).moves hp3 (by subst hs3; rfl) hm3
    · refine (g6.moves hp3 (by subst hs3; rfl) hm3).sub fun c' hc' => ?_
      cases List.mem_singleton.1 hc'
      exact .inr (.inr ⟨i, _, { v0 with val := some c }, hx3, List.mem_of_getElem? (List.getElem?_set_self (lt_of_get hv0)), rfl, by rw [hkey]; exact hA⟩)
  · rw [keys_setVar hv0, hyk] at hk
    unfold Scope.keys at hk
    rw [List.map_append] at hk
    rw [lookup_cons]
    by_cases hkn : k.1 = name
    · exact .inr (by rw [if_pos hkn]; exact fun h => nomatch h)
    · rw [if_neg hkn]
      rcases List.mem_append.1 hk with hk | hk
      · exact h.only x hx k hk
      · cases List.mem_singleton.1 hk
        exact (hkn rfl).elim
  · show s3.out = o
    have : s3.out = s2.out := by subst hs3; rfl
    rw [this, g2.out, ← h.out]
    subst hs1
    rfl

/-! ## Other statements -/

theorem inits_empty {name : Bytes} : Inits w L i ρ name none .none [] := by
  intro r s hs hst
  have hi := (i_alloc .none).out (alloc_apply .none s)
  rw [List.append_nil]
  exact Conv.ok (m := fun _ => alloc .none) (fun _ => alloc_apply ..) ⟨⟨_, List.getElem?_concat_length, rfl⟩, hi.toStays, hst, hs.rv, hs.wf.alloc (ps := []) trivial fun c hc => (nomatch hc),
    (hs.amb.idle hi).sub fun _ h => (nomatch h), fun _ => hs.amb.idle hi⟩

theorem inits_means (hW : w.Ok L) (hL : L.classes = bobClasses) {name : Bytes} {e : Expr} {v : Val} {q : List Ask} (h : Means w ρ e v q) (hok : e.ok L false = true) : Inits w L i ρ name (some e) v q :=
  fun _ _ hs hst => ((means_ev hW h hok).own hW hok (h.notNew hL) hs hst).mono fun _ _ ⟨h1, h2⟩ =>
    ⟨h1, h2.stays, h2.stack, h2.scene.rv, h2.scene.wf, h2.scene.amb.sub fun _ h => (nomatch h), fun _ => h2.scene.amb⟩

theorem inits_held (hW : w.Ok L) (hL : L.classes = bobClasses) {name : Bytes} {e : Expr} {v : Val} {q : List Ask} (h : Held w ρ e v q) (hok : e.ok L false = true) (hn : name ∉ L.assigned) : Inits w L i ρ name (some e) v q :=
  fun _ _ hs hst => ((held_ev hW h hok hs hst).safe fun n => safe_value (safeX hW n).toSafeE hok hs.wf hs.rv).mono fun _ s' ⟨⟨h1, h2, h3⟩, h4, _, _, h6⟩ => by
    rw [h.notNew hL] at h4
    exact ⟨h1, h2, h6.stack hst, h6.2, h4, h3, fun h => absurd h hn⟩

/-- A value is given up. -/
theorem conv_give {c : Nat} (hs : Scene w L [] [] [c] [] r [i] ρ s) (hst : s.Stack [i]) :
    Conv (fun n => (interp w n).dec c) s fun _ s' => Scene w L [] [] [] [] r [i] ρ s' ∧ s'.Stack [i] ∧ Idle s s' :=
  ((conv_dec hs.wf w).keeps fun n => q_dec w n c).mono fun _ s' ⟨⟨h1, h2⟩, h3⟩ =>
    ⟨hs.idle h2 h1 (by rw [h3.eng]; exact hs.rv), by unfold St.Stack; rw [h3.eng, h3.envs]; exact hst, h2⟩

theorem conv_print (hW : w.Ok L) (hL : L.classes = bobClasses) {o : List Bytes} {e : Expr} {v : Val} {q : List Ask} (h : Top w L i r o ρ s) (hm : Means w ρ e v q) (hok : e.ok L false = true) :
    Conv (fun n => doPrint (interp w n) e) s fun _ s' => Top w L i (r ++ q) (o ++ [v.line]) ρ s' := by
  unfold doPrint
  refine Conv.bind (((means_ev hW hm hok).own hW hok (hm.notNew hL) h.scene h.stack).mono fun c s1 ⟨h1, h2⟩ => ?_)
  have hsh : s1.Shows v c := h2.scene.wf.shows h1 fun _ => h2.scene.wf.live_T List.mem_cons_self
  have hrep : Conv (fun n => stepRepr (interp w n).repr false c) s1 fun t s2 => t = v.line ∧ s2 = s1 :=
    ⟨v.depth, v.line, s1, fun n hn => stepRepr_shows (repr_shows w n) (by omega) hsh false, rfl, rfl⟩
  refine Conv.bind (hrep.mono fun t s2 ⟨ht, hs2⟩ => ?_)
  rw [ht, hs2]
  refine Conv.bind_ok (m := fun _ => M.modify fun s => { s with out := s.out ++ [v.line] }) (fun _ => rfl) ?_
  have hp : Past s1 { s1 with out := s1.out ++ [v.line] } := ⟨CellsKept.refl _, SlotsKept.refl _, SlotsKept.refl _, fun _ h hk => ⟨h, hk, rfl⟩, rfl, rfl, rfl, rfl⟩
  have hsc : Scene w L [] [] [c] [] (r ++ q) [i] ρ { s1 with out := s1.out ++ [v.line] } := by
    refine ⟨h2.scene.wf.host rfl rfl rfl rfl rfl rfl (Nat.le_refl _) h2.scene.wf.hostOk, h2.scene.rv, fun y u hy => ?_, ?_, h2.scene.amb.past hp rfl fun _ hc => hc.past hp (ScopesKept.refl _)⟩
    · obtain ⟨d, a1, a2⟩ := h2.scene.sees y u hy
      exact ⟨d, a1, hp.was a2⟩
    · obtain ⟨fs, cc, lk, hB, a⟩ := h2.scene.bob
      exact ⟨fs, cc, lk, hB.kept hp (ScopesKept.refl _), a⟩
  refine (conv_give hsc h2.stack).mono fun _ s2 ⟨g1, g2, g3⟩ => h.stays ((h2.stays.toPast.trans hp).trans g3.toPast) (h2.stays.scopes.trans g3.scopes) g1 g2 ?_
  rw [g3.out]
  show s1.out ++ _ = _
  rw [h2.stays.out, h.out]

theorem conv_assert (hW : w.Ok L) (hL : L.classes = bobClasses) {o : List Bytes} {e : Expr} {t : Bytes} {q : List Ask} (h : Top w L i r o ρ s) (hm : Means w ρ e (.bool true) q) (hok : e.ok L false = true) :
    Conv (fun n => doAssert (interp w n) e t) s fun _ s' => Top w L i (r ++ q) o ρ s' := by
  unfold doAssert
  refine Conv.bind (((means_ev hW hm hok).own hW hok (hm.notNew hL) h.scene h.stack).mono fun c s1 ⟨h1, h2⟩ => ?_)
  obtain ⟨x, hx, hd⟩ := h1
  refine Conv.bind_ok (m := fun _ => getCell c) (fun _ => (getCell_ok_iff ..).2 ⟨hx, rfl⟩) ?_
  rw [hd]
  dsimp only
  refine Conv.then rfl ((conv_give h2.scene h2.stack).mono fun _ s2 ⟨g1, g2, g3⟩ => h.stays (h2.stays.trans g3.toStays).toPast (h2.stays.trans g3.toStays).scopes g1 g2 ?_)
  rw [g3.out, h2.stays.out, h.out]

theorem conv_assign (hW : w.Ok L) (hL : L.classes = bobClasses) {o : List Bytes} {x : Bytes} {e : Expr} {u v : Val} {q : List Ask} (h : Top w L i r o ρ s) (hu : ρ.lookup x = some u) (hm : Means w ρ e v q) (hok : e.ok L false = true)
    (hA : x ∈ L.assigned) : Conv (fun n => assign (interp w n) (.ident x) e) s fun _ s' => Top w L i (r ++ q) o (ρ.set x v) s' := by
  obtain ⟨c, ⟨z, hz, hf⟩, hwas⟩ := h.scene.sees x u hu
  have hf : FindsIn z x c := hf.resolve_right fun h => h.2
  obtain ⟨y, hy, hyk, _, hyn⟩ := Was.data hwas
  have hb : x ∉ bobClasses := by
    intro hx
    obtain ⟨fs, cc, lk, hB, h1, h2, h3⟩ := h.scene.bob
    obtain ⟨_, sc, l, _, ⟨f, ⟨y1, a1, a2⟩, a3, _⟩, _⟩ := hB.isFs
    obtain ⟨y2, f2, _, b1, _, b2, b3, _⟩ := hB.isCc
    obtain ⟨y3, f3, _, c1, _, c2, c3, _⟩ := hB.isLk
    have hun : ∀ {d : Nat} {n : Bytes} {yy : Cell} {g : FnData}, x = n → Finds s.scopes n [i] d → s.cells[d]? = some yy → yy.data = .fn g → g.kind = .cls → False := by
      rintro d n yy g rfl ⟨z', hz', hf'⟩ e1 e2 e3
      cases hz.symm.trans hz'
      have hf' : FindsIn z x d := hf'.resolve_right fun h => h.2
      cases hf.unique hf'
      cases hy.symm.trans e1
      exact hyn (by rw [e2]; exact .inl e3)
    unfold bobClasses at hx
    simp only [List.mem_cons, List.not_mem_nil, or_false] at hx
    rcases hx with hx | hx | hx
    · exact hun hx h1 a1 a2 a3
    · exact hun hx h2 b1 b2 b3
    · exact hun hx h3 c1 c2 c3
  obtain ⟨k, v0, f1, f2, f3⟩ := hf
  unfold assign
  dsimp only
  have hal : s.Alive i z := ⟨hz, (h.scene.wf.shape.scopes i z hz).freed⟩
  have hfind : findVar x s = .ok (some (i, k)) s := by
    rw [findVar_stack h.stack]
    unfold findIn
    rw [bind_of_ok (shallowFind_alive hal x), f1]
    rfl
  refine Conv.bind_ok (m := fun _ => findVar x) (fun _ => hfind) ?_
  dsimp only
  refine Conv.bind_ok (m := fun _ => getVar (i, k)) (a := v0) (s1 := s) (fun _ => ?_) ?_
  · unfold getVar
    exact (bind_of_ok (getScope_alive hal)).trans ((deref_ok_iff ..).2 ⟨f2, rfl⟩)
  unfold assignTo
  refine Conv.bind_ok (m := fun _ => M.deref v0.val .uninit) (fun _ => (deref_ok_iff ..).2 ⟨f3, rfl⟩) ?_
  refine Conv.bind_ok (m := fun _ => getCell c) (fun _ => (getCell_ok_iff ..).2 ⟨hy, rfl⟩) ?_
  refine Conv.else (fun hk => ?_) ?_
  · rw [hyk] at hk
    cases u <;> exact nomatch hk.1
  refine Conv.bind (((means_ev hW hm hok).own hW hok (hm.notNew hL) h.scene h.stack).mono fun d s1 ⟨h1, h2⟩ => ?_)
  obtain ⟨z1, hz1, hzk, hzv, _⟩ := h2.stays.scopes i z hz
  obtain ⟨v1, hv1, hc1⟩ := hzv k v0 (some c) f2 f3
  have hidx : findKeyIdx x z1.vars = some k := (findKeyIdx_keys hzk).trans f1
  have hkey : v1.key = x := by
    obtain ⟨v', a1, a2, _⟩ := findKeyIdx_some hidx
    cases hv1.symm.trans a1
    exact a2
  obtain ⟨y1, hy1, hyd1, _⟩ := h2.stays.cells c y hy
  obtain ⟨yd, hyd, _, hpl, hnn⟩ := Was.data h1
  obtain ⟨cells, bufs, bodies, e1, e2, e3⟩ := h2.scene.wf.storeSucc hz1 hv1 hc1 hyd hpl (by rw [hkey]; exact hA) w 0
  obtain ⟨yd', hyd', hdd⟩ := e2.get hyd
  have hal1 : ({ s1 with cells := cells, bufs := bufs, bodies := bodies } : St).Alive i z1 := ⟨hz1, (h2.scene.wf.shape.scopes i z1 hz1).freed⟩
  have hi2 : Idle s1 { s1 with cells := cells, bufs := bufs, bodies := bodies } := (i_dec w 1 c).out e1
  have hm3 : Moves L i x s1.scopes (s1.scopes.set i { z1 with vars := z1.vars.set k { v1 with val := some d } }) := hkey ▸ Moves.set hz1 hv1 (.inr (by rw [hkey]; exact hA))
  have hx3 : (s1.scopes.set i { z1 with vars := z1.vars.set k { v1 with val := some d } })[i]? = some { z1 with vars := z1.vars.set k { v1 with val := some d } } := List.getElem?_set_self (lt_of_get hz1)
  have hset : setVar (i, k) d { s1 with cells := cells, bufs := bufs, bodies := bodies } =
      .ok () { s1 with cells := cells, bufs := bufs, bodies := bodies, scopes := s1.scopes.set i { z1 with vars := z1.vars.set k { v1 with val := some d } } } := setVar_alive hal1 hv1 d
  generalize hs3 : ({ s1 with cells := cells, bufs := bufs, bodies := bodies, scopes := s1.scopes.set i { z1 with vars := z1.vars.set k { v1 with val := some d } } } : St) = s3 at e3 hset
  have he3 : s3.scopes = s1.scopes.set i { z1 with vars := z1.vars.set k { v1 with val := some d } } := by rw [← hs3]
  rw [← he3] at hm3 hx3
  have hp3 : Past { s1 with cells := cells, bufs := bufs, bodies := bodies } s3 := by
    subst hs3
    exact ⟨CellsKept.refl _, SlotsKept.refl _, SlotsKept.refl _, fun _ h hk => ⟨h, hk, rfl⟩, rfl, rfl, rfl, rfl⟩
  have hyd3 : s3.cells[d]? = some yd' := by rw [← hs3]; exact hyd'
  have hi4 : Idle s3 { s3 with cells := s3.cells.set d { yd' with name := x, keyIn := some i } } := Idle.touch hyd3 rfl fun h => (hnn (hdd ▸ h)).elim
  have hpall : Past s1 { s3 with cells := s3.cells.set d { yd' with name := x, keyIn := some i } } := (hi2.toPast.trans hp3).trans hi4.toPast
  have hstore : Conv (fun n => store (interp w n) (some (i, k)) c d) s1 fun _ s4 => s4 = { s3 with cells := s3.cells.set d { yd' with name := x, keyIn := some i } } := by
    unfold store
    dsimp only
    have hdec : Conv (fun n => (interp w n).dec c) s1 fun _ s2 => s2 = { s1 with cells := cells, bufs := bufs, bodies := bodies } :=
      ⟨1, (), _, fun n hn => (((further_le w hn).dec c s1).resolve_left (by rw [e1]; exact fun h => nomatch h)).symm.trans e1, rfl⟩
    refine Conv.bind (hdec.mono fun _ s2 hs2 => ?_)
    rw [hs2]
    refine Conv.bind_ok (m := fun _ => getVar (i, k)) (a := v1) (s1 := { s1 with cells := cells, bufs := bufs, bodies := bodies }) (fun _ => ?_) ?_
    · unfold getVar
      exact (bind_of_ok (getScope_alive hal1)).trans ((deref_ok_iff ..).2 ⟨hv1, rfl⟩)
    refine Conv.bind_ok (m := fun _ => setVar (i, k) d) (fun _ => hset) ?_
    refine Conv.ok (m := fun _ => setName d v1.key i) (fun _ => setName_cell hyd3 v1.key _) ?_
    rw [hkey]
  refine Conv.bind (hstore.mono fun _ s4 hs4 => ?_)
  rw [hs4]
  obtain ⟨y4, hy4, hyd4, _⟩ := hpall.cells c y1 hy1
  refine Conv.bind_ok (m := fun _ => getCell c) (fun _ => (getCell_ok_iff ..).2 ⟨hy4, rfl⟩) ?_
  refine Conv.else (fun hk => hk.1 (by rw [hyd4, hyd1])) (Conv.pure ?_)
  have hf3 : FindsIn { z1 with vars := z1.vars.set k { v1 with val := some d } } x d :=
    ⟨k, { v1 with val := some d }, (findKeyIdx_keys (keys_setVar hv1 (some d))).trans hidx, List.getElem?_set_self (lt_of_get hv1), rfl⟩
  refine Top.move (name := x) (v := v) (c := d) h2.scene hpall hm3 hb (h.apart.past h2.stays.toPast) (e3.touch hyd3 rfl rfl (.inl rfl)) (by subst hs3; exact h2.scene.rv) ?_ (by subst hs3; exact h2.stack) hx3 hf3 (hpall.was h1)
    (fun k' hk' => ?_) (fun y => ?_) ?_
  · exact (h2.scene.amb.moves (hi2.toPast.trans hp3) (by subst hs3; exact hi2.steps) hm3).idle hi4
  · rw [keys_setVar hv1, hzk] at hk'
    refine (h.only z hz k' hk').imp_right fun h => ?_
    rw [lookup_set]
    split
    · rw [hu]
      exact fun h => nomatch h
    · exact h
  · rw [lookup_set, hu]
    rfl
  · show s3.out = o
    have : s3.out = s1.out := by subst hs3; rfl
    rw [this, h2.stays.out, h.out]

/-! ## All statements -/

theorem okStmts_cons {p : Place} {st : Stmt} {ss : List Stmt} (h : okStmts L p (st :: ss) = true) : st.ok L p = true ∧ okStmts L p ss = true := by
  unfold okStmts at h
  exact ok_and.1 h

theorem conv_first {l : Line} {ss : List Stmt} {Q Q' : Unit → St → Prop} (hr : s.eng.rv = .none) (h : Conv (fun n => execLine w (interp w n) l) s Q)
    (hQ : ∀ s', Q () s' → Conv (fun n => forEach (interp w n).exec ss) s' Q') : Conv (fun n => forEach (interp w n).exec (.line l :: ss)) s Q' :=
  Conv.bind ((conv_line hr h).mono fun _ s' hq => hQ s' hq)

/-- Scripts do what they are described to do. -/
theorem runs_conv (hW : w.Ok L) (hL : L.classes = bobClasses) (hI : L.inside = []) {ρ ρ' : Names} {ss : List Stmt} {q : List Ask} {o' : List Bytes} (h : Runs w L.assigned ρ ss ρ' q o') :
    okStmts L .top ss = true → ∀ {r : List Ask} {o : List Bytes} {s : St}, Top w L i r o ρ s → Conv (fun n => forEach (interp w n).exec ss) s fun _ s' => Top w L i (r ++ q) (o ++ o') ρ' s' := by
  induction h with
  | nil =>
    intro _ r o s hs
    rw [List.append_nil, List.append_nil]
    exact Conv.pure hs
  | skip _ ih =>
    intro hok r o s hs
    have hskip : Conv (fun n => (interp w n).exec .skip) s fun _ s' => s' = s := ⟨1, (), s, fun n hn => by
      obtain ⟨k, rfl⟩ : ∃ k, n = k + 1 := ⟨n - 1, by omega⟩
      rfl, rfl⟩
    exact Conv.bind (hskip.mono fun _ s' hs' => hs' ▸ ih (okStmts_cons hok).2 hs)
  | empty h1 h2 _ ih =>
    intro hok r o s hs
    obtain ⟨a, b⟩ := okStmts_cons hok
    refine conv_first hs.scene.rv (conv_decl _ hs (by exact a) h1 h2 inits_empty) fun s1 h3 => ?_
    simpa using ih b h3
  | decl h1 h2 h3 _ ih =>
    intro hok r o s hs
    obtain ⟨a, b⟩ := okStmts_cons hok
    simp only [Stmt.ok, Line.ok, ok_and] at a
    refine conv_first hs.scene.rv (conv_decl _ hs a.1.1.1 h1 h2 (inits_means hW hL h3 a.1.1.2)) fun s1 h3 => ?_
    rw [← List.append_assoc]
    exact ih b h3
  | fixed h1 h2 h3 h4 _ ih =>
    intro hok r o s hs
    obtain ⟨a, b⟩ := okStmts_cons hok
    simp only [Stmt.ok, Line.ok, ok_and] at a
    refine conv_first hs.scene.rv (conv_decl _ hs a.1.1.1 h1 h2 (inits_held hW hL h4 a.1.1.2 h3)) fun s1 h3 => ?_
    rw [← List.append_assoc]
    exact ih b h3
  | assign h1 h2 _ ih =>
    intro hok r o s hs
    obtain ⟨a, b⟩ := okStmts_cons hok
    simp only [Stmt.ok, Line.ok, Lhs.ok, ok_and, hI] at a
    refine conv_first hs.scene.rv (conv_assign hW hL hs h1 h2 (by simpa using a.1.2) (by simpa using a.1.1.1)) fun s1 h3 => ?_
    rw [← List.append_assoc]
    exact ih b h3
  | print h1 _ ih =>
    intro hok r o s hs
    obtain ⟨a, b⟩ := okStmts_cons hok
    simp only [Stmt.ok, Line.ok, ok_and] at a
    refine conv_first hs.scene.rv (conv_print hW hL hs h1 a.1) fun s1 h3 => ?_
    rw [← List.append_assoc, List.append_cons]
    exact ih b h3
  | assert h1 _ ih =>
    intro hok r o s hs
    obtain ⟨a, b⟩ := okStmts_cons hok
    simp only [Stmt.ok, Line.ok, ok_and] at a
    refine conv_first hs.scene.rv (conv_assert hW hL hs h1 a.1) fun s1 h3 => ?_
    rw [← List.append_assoc]
    exact ih b h3

end

end Bob.Fl
