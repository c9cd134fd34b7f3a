import Verif.Lemmas.FlMeanOps
/-!
# Vectors and maps do what the description says
-/

namespace Bob.Fl

section
variable {L : Discipline} {C P T : List Nat} {s s' : St} {w : World} {X : List Nat} {r : List Ask} {st : List Nat} {ρ : Names}

/-! ## Access by position and by key -/

theorem wasAll_get : ∀ {vs : List Val} {es : List Nat} {k : Nat} {v : Val}, s.WasAll vs es → vs[k]? = some v → ∃ e, es[k]? = some e ∧ s.Was v e
  | [], _, _, _, _, hk => nomatch hk
  | _ :: _, [], _, _, h, _ => h.elim
  | _ :: _, e :: _, 0, _, h, hk => by cases hk; exact ⟨e, rfl, h.1⟩
  | _ :: vs, _ :: es, k + 1, _, h, hk => wasAll_get (vs := vs) (es := es) (k := k) h.2 hk

theorem wasAll_length : ∀ {vs : List Val} {es : List Nat}, s.WasAll vs es → vs.length = es.length
  | [], [], _ => rfl
  | [], _ :: _, h => h.elim
  | _ :: _, [], h => h.elim
  | _ :: vs, _ :: es, h => congrArg (· + 1) (wasAll_length (vs := vs) (es := es) h.2)

theorem pick_idx {vs : List Val} {k : Int} {v : Val} (h : pick vs k = some v) (hk : Word (-k)) : ∃ j, vecIdx vs.length k = .ok j ∧ vs[j]? = some v := by
  unfold pick at h
  unfold vecIdx
  split at h
  · rename_i h0
    have := lt_of_get h
    refine ⟨k.toNat, ?_, h⟩
    rw [if_pos h0, if_neg (by omega)]
  · rename_i h0
    split at h
    · rename_i h1
      have hlt := lt_of_get h
      refine ⟨vs.length - (-k).toNat, ?_, h⟩
      rw [if_neg h0, if_pos hk.fits, if_neg (by omega)]
    · cases h

theorem conv_lookup (w : World) {k : Nat} {kv v : Val} (hk : s.Shows kv k) (pk : kv.Proper) : ∀ {items : List (Val × Val)} {es : List (Nat × Nat)}, Entry items kv v → s.ShowsItems items es →
    (∀ a ∈ items, a.1.Proper) → Conv (fun n => lookupKey (interp w n).eq k es) s fun o s' => s' = s ∧ ((o = none ∧ v = .none) ∨ ∃ e ∈ es, o = some e.2 ∧ s.Shows v e.2)
  | _, [], .nothing, _, _ => Conv.pure ⟨rfl, .inl ⟨rfl, rfl⟩⟩
  | _, _ :: _, .nothing, h, _ => h.elim
  | _, [], .here _, h, _ => h.elim
  | _, [], .later _ _, h, _ => h.elim
  | _, e :: es, .here hs, h, hp => by
    refine Conv.bind ((conv_eq w h.1 hk (hp _ List.mem_cons_self) pk).mono fun b s1 ⟨h1, h2⟩ => ?_)
    rw [h1, h2.2 hs]
    exact Conv.pure ⟨rfl, .inr ⟨e, List.mem_cons_self, rfl, h.2.1⟩⟩
  | _, e :: es, .later hs hr, h, hp => by
    refine Conv.bind ((conv_eq w h.1 hk (hp _ List.mem_cons_self) pk).mono fun b s1 ⟨h1, h2⟩ => ?_)
    rw [h1, Bool.eq_false_iff.2 fun hb => hs (h2.1 hb)]
    exact (conv_lookup w hk pk hr h.2.2 fun a ha => hp a (List.mem_cons_of_mem _ ha)).mono fun o s2 ⟨h3, h4⟩ =>
      ⟨h3, h4.imp_right fun ⟨e, he, h5⟩ => ⟨e, List.mem_cons_of_mem _ he, h5⟩⟩

theorem ev_index (hW : w.Ok L) {e i : Expr} {vs : List Val} {k : Int} {v : Val} {q₁ q₂ : List Ask} (hok : (Expr.index e i).ok L false = true) (h1 : Ev w L ρ e (.vec vs) q₁) (h2 : Ev w L ρ i (.int k) q₂)
    (hk : Word (-k)) (hv : pick vs k = some v) : Ev w L ρ (.index e i) v (q₁ ++ q₂) := by
  intro C P T X r0 st s hs hst
  unfold Expr.ok at hok
  simp only [ok_and] at hok
  obtain ⟨⟨⟨hl, _⟩, hr⟩, _⟩ := hok
  refine conv_value (Conv.bind (m := fun n => evalIndex (interp w n) .keep e i) ?_)
  unfold evalIndex
  refine Conv.bind ((h1.kept hW hl hs hst).mono fun c s1 ⟨a1, b1⟩ => ?_)
  obtain ⟨es, ⟨x, hx, hd⟩, ha⟩ := a1
  refine Conv.bind_ok (m := fun _ => getCell c) (fun _ => (getCell_ok_iff ..).2 ⟨hx, rfl⟩) ?_
  rw [hd]
  refine Conv.else (fun h => h.1 rfl) ?_
  refine Conv.bind ((h2.kept hW hr b1.scene b1.stack).mono fun ic s2 ⟨a2, b2⟩ => ?_)
  obtain ⟨y, hy, hyd⟩ := a2
  refine Conv.bind_ok (m := fun _ => getCell ic) (fun _ => (getCell_ok_iff ..).2 ⟨hy, rfl⟩) ?_
  rw [hyd]
  refine Conv.else (fun h => h.2 rfl) (Conv.else (fun h => nomatch h) ?_)
  refine Conv.bind_ok (m := fun _ => checkDest .keep) (fun _ => rfl) ?_
  obtain ⟨x', hx', hd', _⟩ := b2.stays.toPast.cells c x hx
  refine Conv.bind_ok (m := fun _ => getCell c) (fun _ => (getCell_ok_iff ..).2 ⟨hx', rfl⟩) ?_
  have hd2 := hd'.trans hd
  rw [hd2]
  refine Conv.bind_ok (m := fun _ => M.deref (some ())) (fun _ => rfl) ?_
  have ha' := b2.stays.toPast.wasAll ha
  obtain ⟨j, hj, hvj⟩ := pick_idx hv hk
  obtain ⟨e', he', hwe⟩ := wasAll_get ha' hvj
  rw [wasAll_length ha] at hj
  dsimp only
  rw [hj]
  refine Conv.bind_ok (m := fun _ => M.deref es[j]?) (fun _ => (deref_ok_iff ..).2 ⟨he', rfl⟩) ?_
  refine Conv.bind (m := fun _ => incref e') ((conv_incref b2.scene.wf (b2.scene.wf.live_elem ⟨c, x', hx', by rw [hd2]; exact List.mem_of_getElem? he'⟩)).mono fun _ s3 ⟨g1, g2⟩ => ?_)
  refine Conv.pure (Conv.pure ⟨e', rfl, g2.toPast.was hwe, (b1.stays.trans b2.stays).trans g2.toStays, ?_⟩)
  rw [← List.append_assoc]
  exact b2.scene.amb.idle g2

theorem ev_entry (hW : w.Ok L) {e i : Expr} {items : List (Val × Val)} {k : Val} {v : Val} {q₁ q₂ : List Ask} (hok : (Expr.index e i).ok L false = true) (h1 : Ev w L ρ e (.map items) q₁) (h2 : Ev w L ρ i k q₂)
    (hp : ∀ a ∈ items, a.1.Proper) (pk : k.Proper) (hv : Entry items k v) : Ev w L ρ (.index e i) v (q₁ ++ q₂) := by
  intro C P T X r0 st s hs hst
  unfold Expr.ok at hok
  simp only [ok_and] at hok
  obtain ⟨⟨⟨hl, _⟩, hr⟩, _⟩ := hok
  refine conv_value (Conv.bind (m := fun n => evalIndex (interp w n) .keep e i) ?_)
  unfold evalIndex
  refine Conv.bind ((h1.kept hW hl hs hst).mono fun c s1 ⟨a1, b1⟩ => ?_)
  have a1' := a1
  obtain ⟨es, ⟨x, hx, hd⟩, ha⟩ := a1'
  refine Conv.bind_ok (m := fun _ => getCell c) (fun _ => (getCell_ok_iff ..).2 ⟨hx, rfl⟩) ?_
  rw [hd]
  refine Conv.else (fun h => h.2 rfl) ?_
  refine Conv.bind ((h2.kept hW hr b1.scene b1.stack).mono fun ic s2 ⟨a2, b2⟩ => ?_)
  have hw2 := b2.scene.wf
  have hks := hw2.shows a2 fun _ => hw2.live_P List.mem_cons_self
  obtain ⟨y, hy, _⟩ := hw2.live_P (c := ic) List.mem_cons_self
  refine Conv.bind_ok (m := fun _ => getCell ic) (fun _ => (getCell_ok_iff ..).2 ⟨hy, rfl⟩) ?_
  refine Conv.else (fun h => nomatch h.1) (Conv.else (fun h => nomatch h) ?_)
  refine Conv.bind_ok (m := fun _ => checkDest .keep) (fun _ => rfl) ?_
  obtain ⟨x', hx', hd', _⟩ := b2.stays.toPast.cells c x hx
  refine Conv.bind_ok (m := fun _ => getCell c) (fun _ => (getCell_ok_iff ..).2 ⟨hx', rfl⟩) ?_
  have hd2 := hd'.trans hd
  rw [hd2]
  refine Conv.bind_ok (m := fun _ => M.deref (some ())) (fun _ => rfl) ?_
  have hlive : ∀ z ∈ es, Live s2 z.1 ∧ Live s2 z.2 := fun z hz =>
    ⟨hw2.live_elem ⟨c, x', hx', by rw [hd2]; exact (mem_parts_map hz).1⟩, hw2.live_elem ⟨c, x', hx', by rw [hd2]; exact (mem_parts_map hz).2⟩⟩
  have hsi := hw2.showsItems (b2.stays.toPast.wasItems ha) hlive
  have hfin : ∀ {c' : Nat} {s3 : St}, s3.Was v c' → Idle s2 s3 → s3.Was v c' ∧ Stays s s3 ∧ Amb w L X (r0 ++ (q₁ ++ q₂)) s3 := by
    intro c' s3 g1 g2
    refine ⟨g1, (b1.stays.trans b2.stays).trans g2.toStays, ?_⟩
    rw [← List.append_assoc]
    exact b2.scene.amb.idle g2
  dsimp only
  refine Conv.bind ((conv_lookup w hks pk hv hsi hp).mono fun o s3 ⟨g1, g2⟩ => ?_)
  subst g1
  rcases g2 with ⟨rfl, rfl⟩ | ⟨z, hz, rfl, hsz⟩
  · refine Conv.bind (m := fun _ => alloc .none) ((conv_alloc (v := .none) .none fun _ h => h).mono fun c' s4 ⟨g3, g4⟩ => ?_)
    exact Conv.pure (Conv.pure ⟨c', rfl, hfin g3 g4⟩)
  · refine Conv.bind (m := fun _ => incref z.2) ((conv_incref hw2 (hlive z hz).2).mono fun _ s4 ⟨_, g4⟩ => ?_)
    exact Conv.pure (Conv.pure ⟨z.2, rfl, hfin (g4.toPast.was (Shows.was hsz)) g4⟩)

/-! ## Vectors -/

/-- The elements of a vector, all kept. -/
def EvHelds (w : World) (L : Discipline) (ρ : Names) (es : List Expr) (vs : List Val) (r : List Ask) : Prop :=
  ∀ ⦃C P T X : List Nat⦄ ⦃r0 : List Ask⦄ ⦃st : List Nat⦄ ⦃s : St⦄, Scene w L C P T X r0 st ρ s → s.Stack st →
    Conv (fun n => each (interp w n).value es) s fun cs s' => s'.WasAll vs cs ∧ Went w L C (cs ++ P) T (cs ++ X) (r0 ++ r) st ρ s s'

theorem evHelds_nil : EvHelds w L ρ [] [] [] := by
  intro C P T X r0 st s hs hst
  refine Conv.pure ⟨trivial, ⟨?_, hst, Stays.refl s, Quit.refl hs.rv⟩⟩
  rw [List.append_nil]
  exact hs

theorem evHelds_cons (hW : w.Ok L) {e : Expr} {es : List Expr} {v : Val} {vs : List Val} {q₁ q₂ : List Ask} (hok : e.ok L false = true) (h1 : EvHeld w L ρ e v q₁) (h2 : EvHelds w L ρ es vs q₂) :
    EvHelds w L ρ (e :: es) (v :: vs) (q₁ ++ q₂) := by
  intro C P T X r0 st s hs hst
  refine Conv.bind (f := fun n c => do let cs ← each (interp w n).value es; pure (c :: cs)) ((h1.kept hW hok hs hst).mono fun c s1 ⟨a1, b1⟩ => ?_)
  refine Conv.bind ((h2 b1.scene b1.stack).mono fun cs s2 ⟨a2, b2⟩ => Conv.pure ⟨⟨b2.stays.toPast.was a1, a2⟩, ?_, b2.stack, b1.stays.trans b2.stays, b1.quit.trans b2.quit⟩)
  have hm : ∀ (Y : List Nat), ∀ c' ∈ c :: cs ++ Y, c' ∈ cs ++ c :: Y := by
    intro Y c' hc'
    simp only [List.mem_append, List.mem_cons] at hc' ⊢
    exact hc'.elim (fun h => h.elim (fun h => .inr (.inl h)) .inl) fun h => .inr (.inr h)
  have hm' : ∀ (Y : List Nat), ∀ c' ∈ cs ++ c :: Y, c' ∈ c :: cs ++ Y := by
    intro Y c' hc'
    simp only [List.mem_append, List.mem_cons] at hc' ⊢
    exact hc'.elim (fun h => .inl (.inr h)) fun h => h.elim (fun h => .inl (.inl h)) .inr
  rw [← List.append_assoc]
  exact (b2.scene.wfs (b2.scene.wf.subP (hm P))).ambs fun c' hc' => .inl (hm' X c' hc')

theorem ev_vec {es : List Expr} {vs : List Val} {q : List Ask} (h : EvHelds w L ρ es vs q) : Ev w L ρ (.vec es) (.vec vs) q := by
  intro C P T X r0 st s hs hst
  refine conv_value (Conv.bind ((h hs hst).mono fun cs s1 ⟨a1, b1⟩ => ?_))
  refine Conv.else (fun h => nomatch h) ?_
  refine Conv.bind_ok (m := fun _ => checkDest .keep) (fun _ => rfl) ?_
  refine Conv.bind (m := fun _ => alloc (.vec cs)) ((conv_new (.vec cs)).mono fun c s2 ⟨g1, g2⟩ => ?_)
  refine Conv.pure ⟨c, rfl, ⟨cs, g1, g2.toPast.wasAll a1⟩, b1.stays.trans g2.toStays, (b1.scene.amb.idle g2).sub fun c' hc' => ?_⟩
  rcases List.mem_append.1 hc' with hc' | hc'
  · obtain ⟨x, hx, hd⟩ := g1
    exact .inr (.inl ⟨c, x, hx, by rw [hd]; exact hc'⟩)
  · exact .inl hc'

/-! ## Maps -/

theorem conv_anyKey (w : World) {k : Nat} {kv : Val} (hk : s.Shows kv k) (pk : kv.Proper) : ∀ {items : List (Val × Val)} {es : List (Nat × Nat)}, s.ShowsItems items es → (∀ a ∈ items, a.1.Proper) →
    (∀ a ∈ items, ¬ a.1.Same kv) → Conv (fun n => anyKey (interp w n).eq k es) s fun b s' => s' = s ∧ b = false
  | [], [], _, _, _ => Conv.pure ⟨rfl, rfl⟩
  | [], _ :: _, h, _, _ => h.elim
  | _ :: _, [], h, _, _ => h.elim
  | (a, _) :: _, e :: es, h, hp, hs => by
    refine Conv.bind ((conv_eq w h.1 hk (hp _ List.mem_cons_self) pk).mono fun b s1 ⟨h1, h2⟩ => ?_)
    rw [h1, Bool.eq_false_iff.2 fun hb => hs _ List.mem_cons_self (h2.1 hb)]
    exact conv_anyKey w hk pk h.2.2 (fun a ha => hp a (List.mem_cons_of_mem _ ha)) fun a ha => hs a (List.mem_cons_of_mem _ ha)

/-- The entries of a map, after `done`. -/
def EvItems (w : World) (L : Discipline) (ρ : Names) (es : List (Expr × Expr)) (items : List (Val × Val)) (r : List Ask) : Prop :=
  ∀ ⦃C P T X : List Nat⦄ ⦃r0 : List Ask⦄ ⦃st : List Nat⦄ ⦃s : St⦄ ⦃done : List (Val × Val)⦄ ⦃ds : List (Nat × Nat)⦄, Scene w L C ((Data.map ds).parts ++ P) T ((Data.map ds).parts ++ X) r0 st ρ s → s.Stack st →
    s.WasItems done ds → (∀ a ∈ done ++ items, a.1.Proper) → ((done ++ items).Pairwise fun a b => ¬ a.1.Same b.1) →
    Conv (fun n => evalItems (interp w n) es ds) s fun ds' s' => s'.WasItems (done ++ items) ds' ∧ Stays s s' ∧ Amb w L ((Data.map ds').parts ++ X) (r0 ++ r) s'

theorem evItems_nil : EvItems w L ρ [] [] [] := by
  intro C P T X r0 st s done ds hs hst hd _ _
  refine Conv.pure ⟨?_, Stays.refl s, ?_⟩
  · rw [List.append_nil]; exact hd
  · rw [List.append_nil]; exact hs.amb

theorem wasItems_append {xs ys : List (Nat × Nat)} : ∀ {us vs : List (Val × Val)}, s.WasItems us xs → s.WasItems vs ys → s.WasItems (us ++ vs) (xs ++ ys) := by
  induction xs with
  | nil =>
    intro us vs h1 h2
    cases us with
    | nil => exact h2
    | cons => exact h1.elim
  | cons x xs ih =>
    intro us vs h1 h2
    cases us with
    | nil => exact h1.elim
    | cons u us => exact ⟨h1.1, h1.2.1, ih h1.2.2 h2⟩

theorem evItems_cons (hW : w.Ok L) {ke ve : Expr} {es : List (Expr × Expr)} {k v : Val} {items : List (Val × Val)} {q₁ q₂ q₃ : List Ask} (hk : ke.ok L false = true) (hv : ve.ok L false = true)
    (h1 : EvHeld w L ρ ke k q₁) (h2 : EvHeld w L ρ ve v q₂) (h3 : EvItems w L ρ es items q₃) : EvItems w L ρ ((ke, ve) :: es) ((k, v) :: items) (q₁ ++ q₂ ++ q₃) := by
  intro C P T X r0 st s done ds hs hst hd hp hpw
  unfold evalItems
  refine Conv.bind ((h1.kept hW hk hs hst).mono fun kc s1 ⟨a1, b1⟩ => ?_)
  have hw1 := b1.scene.wf
  have hsk := hw1.shows a1 fun _ => hw1.live_P List.mem_cons_self
  have hsd := hw1.showsItems (b1.stays.toPast.wasItems hd) fun z hz => ⟨hw1.live_P (List.mem_cons_of_mem _ (List.mem_append_left _ (mem_parts_map hz).1)), hw1.live_P (List.mem_cons_of_mem _ (List.mem_append_left _ (mem_parts_map hz).2))⟩
  refine Conv.bind ((conv_anyKey w hsk (hp (k, v) (List.mem_append_right _ List.mem_cons_self)) hsd (fun a ha => hp a (List.mem_append_left _ ha))
    fun a ha => (List.pairwise_append.1 hpw).2.2 a ha (k, v) List.mem_cons_self).mono fun b s1' ⟨e1, e2⟩ => ?_)
  rw [e1, e2]
  refine Conv.else (fun h => nomatch h) ?_
  refine Conv.bind ((h2.kept hW hv b1.scene b1.stack).mono fun vc s2 ⟨a2, b2⟩ => ?_)
  have hparts : (Data.map (ds ++ [(kc, vc)])).parts = (Data.map ds).parts ++ [kc, vc] := by simp [Data.parts]
  have hmem : ∀ (Y : List Nat), ∀ c' ∈ (Data.map (ds ++ [(kc, vc)])).parts ++ Y, c' ∈ vc :: kc :: ((Data.map ds).parts ++ Y) := by
    intro Y c' hc'
    rw [hparts] at hc'
    simp only [List.mem_append, List.mem_cons, List.not_mem_nil, or_false] at hc' ⊢
    tauto
  have hmem' : ∀ (Y : List Nat), ∀ c' ∈ vc :: kc :: ((Data.map ds).parts ++ Y), c' ∈ (Data.map (ds ++ [(kc, vc)])).parts ++ Y := by
    intro Y c' hc'
    rw [hparts]
    simp only [List.mem_append, List.mem_cons, List.not_mem_nil, or_false] at hc' ⊢
    tauto
  have he : done ++ (k, v) :: items = (done ++ [(k, v)]) ++ items := by rw [List.append_assoc]; rfl
  rw [he] at hp hpw ⊢
  refine (h3 ((b2.scene.wfs (b2.scene.wf.subP (hmem P))).ambs fun c' hc' => .inl (hmem' X c' hc')) b2.stack
    (wasItems_append (vs := [(k, v)]) ((b1.stays.trans b2.stays).toPast.wasItems hd) ⟨b2.stays.toPast.was a1, a2, trivial⟩) hp hpw).mono fun ds' s3 ⟨g1, g2, g3⟩ => ⟨g1, (b1.stays.trans b2.stays).trans g2, ?_⟩
  rw [← List.append_assoc, ← List.append_assoc]
  exact g3

theorem ev_map {es : List (Expr × Expr)} {items : List (Val × Val)} {q : List Ask} (h : EvItems w L ρ es items q) (hp : ∀ a ∈ items, a.1.Proper) (hpw : items.Pairwise fun a b => ¬ a.1.Same b.1) :
    Ev w L ρ (.map es) (.map items) q := by
  intro C P T X r0 st s hs hst
  refine conv_value (Conv.bind ((h (done := []) (ds := []) hs hst trivial hp hpw).mono fun ds s1 ⟨a1, b1, c1⟩ => ?_))
  refine Conv.else (fun h => nomatch h) ?_
  refine Conv.bind_ok (m := fun _ => checkDest .keep) (fun _ => rfl) ?_
  refine Conv.bind (m := fun _ => alloc (.map ds)) ((conv_new (.map ds)).mono fun c s2 ⟨g1, g2⟩ => ?_)
  refine Conv.pure ⟨c, rfl, ⟨ds, g1, g2.toPast.wasItems a1⟩, b1.trans g2.toStays, (c1.idle g2).sub fun c' hc' => ?_⟩
  rcases List.mem_append.1 hc' with hc' | hc'
  · obtain ⟨x, hx, hd⟩ := g1
    exact .inr (.inl ⟨c, x, hx, by rw [hd]; exact hc'⟩)
  · exact .inl hc'

end

end Bob.Fl
