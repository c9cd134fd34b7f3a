import Verif.Props.FlEq
import Verif.Lemmas.FlCall
/-!
# Map literals and looking up keys (C49)
-/

namespace Bob.Fl

/-- What happens when a key is compared with the keys so far. -/
theorem anyKey_tells {eq : Nat → Nat → M Bool} {s : St} {t : Val} {x : Nat} : ∀ {keys : List Val} {es : List (Nat × Nat)},
    List.Forall₂ (fun k (e : Nat × Nat) => s.Shows k e.1) keys es → (∀ k ∈ keys, ∀ y, s.Shows k y → Tells eq s y x (k.Same t)) →
    ∃ b, anyKey eq x es s = .ok b s ∧ (b = true ↔ ∃ k ∈ keys, k.Same t)
  | [], [], _, _ => ⟨false, rfl, by simp⟩
  | k :: keys, e :: es, h, he => by
    cases h with
    | cons h1 h2 =>
      obtain ⟨b, h3, h4⟩ := he k (.head _) e.1 h1
      unfold anyKey
      rw [bind_of_ok h3]
      cases b with
      | true => exact ⟨true, rfl, ⟨fun _ => ⟨k, .head _, h4.1 rfl⟩, fun _ => rfl⟩⟩
      | false =>
        obtain ⟨b, h5, h6⟩ := anyKey_tells h2 fun k hk => he k (.tail _ hk)
        refine ⟨b, h5, h6.trans ⟨fun ⟨k', h7, h8⟩ => ⟨k', .tail _ h7, h8⟩, fun ⟨k', h7, h8⟩ => ?_⟩⟩
        cases h7 with
        | head => exact absurd (h4.2 h8) Bool.false_ne_true
        | tail _ h7 => exact ⟨k', h7, h8⟩

theorem lookupKey_tells {eq : Nat → Nat → M Bool} {s : St} {t : Val} {x : Nat} : ∀ {keys : List Val} {es : List (Nat × Nat)},
    List.Forall₂ (fun k (e : Nat × Nat) => s.Shows k e.1) keys es → (∀ k ∈ keys, ∀ y, s.Shows k y → Tells eq s y x (k.Same t)) →
    (lookupKey eq x es s = .ok none s ∧ ∀ k ∈ keys, ¬ k.Same t) ∨
      ∃ (j : Nat) (k : Val) (e : Nat × Nat), keys[j]? = some k ∧ es[j]? = some e ∧ k.Same t ∧ (∀ (i : Nat) (k' : Val), i < j → keys[i]? = some k' → ¬ k'.Same t) ∧
        lookupKey eq x es s = .ok (some e.2) s
  | [], [], _, _ => .inl ⟨rfl, fun _ h => by cases h⟩
  | k :: keys, e :: es, h, he => by
    cases h with
    | cons h1 h2 =>
      obtain ⟨b, h3, h4⟩ := he k (.head _) e.1 h1
      unfold lookupKey
      rw [bind_of_ok h3]
      cases b with
      | true => exact .inr ⟨0, k, e, rfl, rfl, h4.1 rfl, fun i k' hi => absurd hi (Nat.not_lt_zero _), rfl⟩
      | false =>
        have hk : ¬ k.Same t := fun h => Bool.false_ne_true (h4.2 h)
        rcases lookupKey_tells h2 fun k hk => he k (.tail _ hk) with ⟨h5, h6⟩ | ⟨j, k', e', h5, h6, h7, h8, h9⟩
        · refine .inl ⟨h5, fun k' hk' => ?_⟩
          cases hk' with
          | head => exact hk
          | tail _ hk' => exact h6 k' hk'
        · refine .inr ⟨j + 1, k', e', h5, h6, h7, fun i k'' hi hk'' => ?_, h9⟩
          cases i with
          | zero => cases hk''; exact hk
          | succ i => exact h8 i k'' (by omega) hk''

/-- The items of a literal were evaluated from left to right, each key before its value, and each key was found to differ from those before it, right
after it was evaluated. -/
inductive MadeItems (w : World) (n : Nat) : St → List (Expr × Expr) → List (Nat × Nat) → List (Nat × Nat) → St → Prop
  | nil {s : St} {done : List (Nat × Nat)} : MadeItems w n s [] done done s
  | cons {s s1 s2 s' : St} {ke ve : Expr} {items : List (Expr × Expr)} {done es : List (Nat × Nat)} {k v : Nat} : (interp w n).value ke s = .ok k s1 →
      (∀ e ∈ done, (interp w n).eq e.1 k s1 = .ok false s1) → (interp w n).value ve s1 = .ok v s2 →
      MadeItems w n s2 items (done ++ [(k, v)]) es s' → MadeItems w n s ((ke, ve) :: items) done es s'

theorem anyKey_false {w : World} {n : Nat} {s s' : St} {k : Nat} : ∀ {es : List (Nat × Nat)}, anyKey (interp w n).eq k es s = .ok false s' →
    ∀ e ∈ es, (interp w n).eq e.1 k s = .ok false s
  | [], _, _, h => by cases h
  | (k', v) :: es, h, e, he => by
    unfold anyKey at h
    obtain ⟨b, s1, h1, h2⟩ := (bind_ok_iff ..).1 h
    cases (same_eq w n k' k).out h1
    cases b with
    | true => cases h2
    | false =>
      cases he with
      | head => exact h1
      | tail _ he => exact anyKey_false h2 e he

theorem evalItems_made {w : World} {n : Nat} : ∀ {items : List (Expr × Expr)} {s s' : St} {done es : List (Nat × Nat)},
    evalItems (interp w n) items done s = .ok es s' → MadeItems w n s items done es s'
  | [], s, s', done, es, h => by
    cases h
    exact .nil
  | (ke, ve) :: items, s, s', done, es, h => by
    unfold evalItems at h
    obtain ⟨k, s1, h1, h⟩ := (bind_ok_iff ..).1 h
    obtain ⟨b, s2, h2, h⟩ := (bind_ok_iff ..).1 h
    cases (same_anyKey w n k done).out h2
    cases b with
    | true =>
      rw [if_pos rfl] at h
      exact ((raise_not_ok ..).1 h).elim
    | false =>
      obtain ⟨v, s3, h3, h⟩ := (bind_ok_iff ..).1 h
      exact .cons h1 (anyKey_false h2) h3 (evalItems_made h)

theorem MadeItems.prefix {w : World} {n : Nat} {s s' : St} {items : List (Expr × Expr)} {done es : List (Nat × Nat)} (h : MadeItems w n s items done es s') :
    done <+: es ∧ es.length = done.length + items.length := by
  induction h with
  | nil => exact ⟨List.prefix_refl _, rfl⟩
  | cons _ _ _ _ ih =>
    refine ⟨(List.prefix_append _ _).trans ih.1, ?_⟩
    rw [ih.2]
    simp
    omega

theorem MadeItems.differ {w : World} {n : Nat} {s s' : St} {items : List (Expr × Expr)} {done es : List (Nat × Nat)} (h : MadeItems w n s items done es s') :
    ∀ (i j : Nat) (a b : Nat × Nat), i < j → done.length ≤ j → es[i]? = some a → es[j]? = some b →
      ∃ t t' ke, (interp w n).value ke t = .ok b.1 t' ∧ (interp w n).eq a.1 b.1 t' = .ok false t' := by
  induction h with
  | nil =>
    intro i j a b _ hj _ hb
    have := (List.getElem?_eq_some_iff.1 hb).1
    omega
  | @cons s s1 s2 s' ke ve items done es k v h1 h2 h3 h4 ih =>
    intro i j a b hij hj ha hb
    by_cases h : j = done.length
    · obtain ⟨r, rfl⟩ := h4.prefix.1
      subst h
      rw [List.append_assoc, List.getElem?_append_right (Nat.le_refl _), Nat.sub_self] at hb
      cases hb
      rw [List.append_assoc, List.getElem?_append_left hij] at ha
      exact ⟨s, s1, ke, h1, h2 a (List.mem_of_getElem? ha)⟩
    · exact ih i j a b hij (by simp; omega) ha hb

/-- **C49.** A map literal which is accepted has as many items as written, and any two of its keys were different when the second was
evaluated: for keys that are values without functions, instances and repeated keys, they had a different structure. -/
theorem C49_distinct_partial {w : World} {n : Nat} {items : List (Expr × Expr)} {s s' : St} {res : Res} (h : (interp w (n + 1)).eval .keep (.map items) s = .ok res s') :
    ∃ c es, res.val = some c ∧ s'.Holds c (.map es) ∧ es.length = items.length ∧ ∀ (i j : Nat) (a b : Nat × Nat), i < j → es[i]? = some a → es[j]? = some b →
      ∃ t t' ke, (interp w n).value ke t = .ok b.1 t' ∧ ∀ u v : Val, t'.Shows u a.1 → t'.Shows v b.1 → u.Proper → v.Proper → u.depth < n → ¬ u.Same v := by
  have h : (evalItems (interp w n) items [] >>= fun es => do
      checkDest .keep
      let c ← alloc (.map es)
      pure { val := some c }) s = .ok res s' := h
  obtain ⟨es, s1, h1, h2⟩ := (bind_ok_iff ..).1 h
  cases h2
  have hm := evalItems_made h1
  refine ⟨_, es, rfl, holds_alloc .., by simpa using hm.prefix.2, fun i j a b hij ha hb => ?_⟩
  obtain ⟨t, t', ke, h3, h4⟩ := hm.differ i j a b hij (Nat.zero_le _) ha hb
  refine ⟨t, t', ke, h3, fun u v hu hv hpu hpv hd hs => ?_⟩
  obtain ⟨r, h5, h6⟩ := C48_structure w n hd hpu hpv hu hv
  cases h5.symm.trans h4
  exact Bool.false_ne_true (h6.2 hs)

/-- **C49.** A map literal is refused as soon as a key has the same structure as one before it. -/
theorem C49_duplicate {w : World} {n : Nat} {pre post : List (Expr × Expr)} {ke ve : Expr} {s s1 s2 : St} {done : List (Nat × Nat)} {k : Nat} {keys : List Val} {t : Val}
    (hpre : evalItems (interp w n) pre [] s = .ok done s1) (hk : (interp w n).value ke s1 = .ok k s2)
    (hkeys : List.Forall₂ (fun u (e : Nat × Nat) => s2.Shows u e.1) keys done) (ht : s2.Shows t k) (hp : t.Proper) (hps : ∀ u ∈ keys, u.Proper ∧ u.depth < n)
    (hsame : ∃ u ∈ keys, u.Same t) (d : Dest) :
    Refused b!"duplicate key in map" s2 ((interp w (n + 1)).eval d (.map (pre ++ (ke, ve) :: post)) s) := by
  have hbad : evalItems (interp w n) (pre ++ (ke, ve) :: post) [] s = .err (some b!"duplicate key in map") s2 := by
    have key : ∀ (pre : List (Expr × Expr)) (s : St) (d0 : List (Nat × Nat)), evalItems (interp w n) pre d0 s = .ok done s1 →
        evalItems (interp w n) (pre ++ (ke, ve) :: post) d0 s = .err (some b!"duplicate key in map") s2 := by
      intro pre
      induction pre with
      | nil =>
        intro s d0 h
        cases h
        show evalItems (interp w n) ((ke, ve) :: post) done s1 = _
        unfold evalItems
        rw [bind_of_ok hk]
        obtain ⟨b, h1, h2⟩ := anyKey_tells (eq := (interp w n).eq) hkeys fun u hu y hy => C48_structure w n (hps u hu).2 (hps u hu).1 hp hy ht
        rw [bind_of_ok h1, h2.2 hsame]
        rfl
      | cons p pre ih =>
        intro s d0 h
        obtain ⟨ke', ve'⟩ := p
        show evalItems (interp w n) ((ke', ve') :: (pre ++ (ke, ve) :: post)) d0 s = _
        unfold evalItems at h ⊢
        obtain ⟨k', s3, h1, h⟩ := (bind_ok_iff ..).1 h
        rw [bind_of_ok h1]
        obtain ⟨b, s4, h2, h⟩ := (bind_ok_iff ..).1 h
        rw [bind_of_ok h2]
        cases b with
        | true =>
          rw [if_pos rfl] at h
          exact ((raise_not_ok ..).1 h).elim
        | false =>
          obtain ⟨v, s5, h3, h⟩ := (bind_ok_iff ..).1 h
          show ((interp w n).value ve' >>= fun v => evalItems (interp w n) (pre ++ (ke, ve) :: post) (d0 ++ [(k', v)])) s4 = _
          rw [bind_of_ok h3]
          exact ih _ _ h
    exact key pre s [] hpre
  refine .inl ⟨?_, by decide⟩
  show (evalItems (interp w n) (pre ++ (ke, ve) :: post) [] >>= _) s = _
  rw [bind_apply, hbad]

/-- **C49.** Indexing a map: the value of the first item whose key has the same structure as the index, and none if there is no such item. -/
theorem C49_lookup {w : World} {n : Nat} {e ie : Expr} {s s1 s2 s' : St} {c i : Nat} {es es1 : List (Nat × Nat)} {keys : List Val} {t : Val} {res : Res}
    (he : (interp w n).value e s = .ok c s1) (hc1 : s1.Holds c (.map es1)) (hi : (interp w n).value ie s1 = .ok i s2) (hc : s2.Holds c (.map es))
    (hkeys : List.Forall₂ (fun u (e : Nat × Nat) => s2.Shows u e.1) keys es) (ht : s2.Shows t i) (hp : t.Proper) (hps : ∀ u ∈ keys, u.Proper ∧ u.depth < n)
    (h : (interp w (n + 1)).eval .keep (.index e ie) s = .ok res s') :
    (∃ (j : Nat) (k : Val) (a : Nat × Nat), keys[j]? = some k ∧ es[j]? = some a ∧ k.Same t ∧ (∀ (i : Nat) (k' : Val), i < j → keys[i]? = some k' → ¬ k'.Same t) ∧
      res.val = some a.2 ∧ Quiet s2 s') ∨
    ((∀ k ∈ keys, ¬ k.Same t) ∧ ∃ c', res.val = some c' ∧ s'.Holds c' .none) := by
  have h : (evalIndex (interp w n) .keep e ie >>= fun v => pure { val := v }) s = .ok res s' := h
  obtain ⟨v, s3, h, h'⟩ := (bind_ok_iff ..).1 h
  cases h'
  unfold evalIndex at h
  obtain ⟨x, hx, hxd⟩ := getCell_holds hc1
  rw [bind_of_ok he, bind_of_ok hx, if_neg (by rw [hxd]; rintro ⟨_, h⟩; exact h rfl), bind_of_ok hi] at h
  obtain ⟨d, hd, hk⟩ := shows_kind ht
  obtain ⟨y, hy, hyd⟩ := getCell_holds hd
  obtain ⟨x', hx', hxd'⟩ := getCell_holds hc
  rw [bind_of_ok hy, if_neg (by rw [hxd]; rintro ⟨h, _⟩; cases h), if_neg (by decide), bind_of_ok (show checkDest .keep s2 = .ok () s2 from rfl), bind_of_ok hx',
    hxd, hxd', bind_of_ok (show M.deref (if (Data.map es).kind = (Data.map es1).kind then some () else none) .other s2 = .ok () s2 from rfl)] at h
  have h : (lookupKey (interp w n).eq i es >>= fun o => match o with
      | some v => do
        incref v
        pure (some v)
      | none => do
        let v ← alloc .none
        pure (some v)) s2 = .ok v s' := by
    cases hyd' : y.data <;> rw [hyd'] at h <;> exact h
  rcases lookupKey_tells (eq := (interp w n).eq) hkeys fun u hu y hy => C48_structure w n (hps u hu).2 (hps u hu).1 hp hy ht with
    ⟨h1, h2⟩ | ⟨j, k, a, h1, h2, h3, h4, h5⟩
  · rw [bind_of_ok h1] at h
    cases h
    exact .inr ⟨h2, _, rfl, holds_alloc ..⟩
  · rw [bind_of_ok h5] at h
    obtain ⟨_, s4, h6, h7⟩ := (bind_ok_iff ..).1 h
    cases h7
    exact .inl ⟨j, k, a, h1, h2, h3, h4, rfl, (q_incref _).out h6⟩

/-- `let a = [1]; let b = [2]; fn f() { b[0] = 1; return 3 }; let m = {a: 1, b: f()}; print m` -/
def lateDuplicate : List Stmt := [
  sLet b!"a" (.vec [eNum b!"1"]),
  sLet b!"b" (.vec [eNum b!"2"]),
  sFn b!"f" [] [.line (.assign (.index (eVar b!"b") (eNum b!"0") b!"b[0]") (eNum b!"1")), sRet (eNum b!"3")],
  sLet b!"m" (eMap [(eVar b!"a", eNum b!"1"), (eVar b!"b", eCall (eVar b!"f") [])]),
  sPrint (eVar b!"m")]

/-- **C49 fails** if a value of the literal changes a key: the literal is accepted and has two equal keys. -/
theorem C49_late_false : (runScript emptyWorld 20 [] lateDuplicate).printed = some [b!"{[1]: 1, [1]: 3}"] := by decide +kernel

example : (runScript emptyWorld 20 [] [sPrint (eMap [(eNum b!"1", eNum b!"1"), (eNum b!"1", eNum b!"2")])]).failed =
    some (some b!"duplicate key in map", []) := by decide +kernel

example : (runScript emptyWorld 20 [] [
    sLet b!"m" (eMap [(eStr b!"a", eNum b!"1"), (.vec [eNum b!"7"], eNum b!"2")]),
    sPrint (.index (eVar b!"m") (.vec [eNum b!"7"])),
    sPrint (.index (eVar b!"m") (eStr b!"b"))]).printed = some [b!"2", b!"<none>"] := by decide +kernel

end Bob.Fl
