import Verif.Lemmas.FlSafeEval
/-!
# Expressions do not go wrong: one layer of the interpreter
-/

namespace Bob.Fl

theorem ok_and {a b : Bool} : (a && b) = true ↔ a = true ∧ b = true := Bool.and_eq_true_iff

section
variable {L : Discipline} {C P T : List Nat} {s s' : St} {w : World} {n : Nat}

theorem Quit.refl (hr : s.eng.rv = .none) : Quit s s := ⟨trnE.refl s, hr⟩

theorem Quit.trans {s2 : St} (h1 : Quit s s') (h2 : Quit s' s2) : Quit s s2 := ⟨trnE.trans h1.1 h2.1, h2.2⟩

theorem Quit.of_eng (h : FrE s s') (he : s'.eng = s.eng) (hr : s.eng.rv = .none) : Quit s s' := ⟨h, by rw [he]; exact hr⟩

/-- Releasing something held. -/
theorem Wf.safe_dec {c : Nat} (h : Wf L C P (c :: T) s) (w : World) (n : Nat) : Safe ((interp w n).dec c) s fun _ s' => Wf L C P T s' ∧ (∀ F, Grow F s s') ∧ s'.eng = s.eng := by
  have hs : Safe ((interp w n).dec c) s fun _ s' => Wf L C P T s' ∧ ∀ F, Grow F s s' := by
    rcases h.dec w n with ht | ⟨s1, h1, h2⟩
    · exact Safe.of_timeout ht
    · exact Safe.of_ok h1 h2
  exact (Safe.keeps (q_dec w n c) hs).mono fun _ s1 ⟨⟨h1, h2⟩, h3⟩ => ⟨h1, h2, h3.eng⟩

theorem ValOk.sup {e : Expr} {acc : Option Nat} {c : Nat} (h : ValOk L e acc s c) (hs : Sup s s') : ValOk L e acc s' c := by
  obtain ⟨y, hy, h⟩ := h
  obtain ⟨y', hy', hd⟩ := hs.cells c y hy
  refine ⟨y', hy', ?_⟩
  rw [hd]
  cases hm : e.memberName <;> rw [hm] at h
  · exact h
  · obtain ⟨a, z, p, h1, h2, h3, h4⟩ := h
    obtain ⟨z', hz', hzd⟩ := hs.cells a z h2
    exact ⟨a, z', p, h1, hz', hzd ▸ h3, h4⟩

variable (hE : SafeE L (interp w n))
include hE

/-! ## Values of expressions -/

theorem safe_value {q : Bool} {e : Expr} (he : e.ok L q = true) (h : Wf L C P T s) (hr : s.eng.rv = .none) :
    Safe ((interp w n).value e) s fun c s' => (if e.isNew L then Wf L C (c :: P) T s' else Wf L C P (c :: T) s') ∧ (∃ acc, ValOk L e acc s' c) ∧ Grow (L.touched q) s s' ∧ Quit s s' := by
  unfold Rec.value
  refine Safe.bind ((hE.eval .keep he h hr).mono fun r s1 ⟨hv, hq⟩ => ?_)
  obtain ⟨c, hc⟩ := hv.keep rfl
  have hwf := hv.wf
  rw [hc]
  refine Safe.pure ⟨?_, ⟨_, hv.val c hc⟩, hv.grow, hq⟩
  rw [hc] at hwf
  cases hn : e.isNew L
  · rw [hn] at hwf
    exact Wf.subP (T := c :: T) hwf fun c' hc' => List.mem_append_right _ hc'
  · rw [hn] at hwf
    exact Wf.subP (P := c :: (r.acc.toList ++ P)) hwf fun c' hc' => (List.mem_cons.1 hc').elim (fun h => h ▸ List.mem_cons_self) fun h => List.mem_cons_of_mem _ (List.mem_append_right _ h)

theorem safe_own {q : Bool} {e : Expr} (he : e.ok L q = true) (ho : e.isOwn L = true) (h : Wf L C P T s) (hr : s.eng.rv = .none) :
    Safe ((interp w n).value e) s fun c s' => Wf L C P (c :: T) s' ∧ Plain s'.cells c ∧ Grow (L.touched q) s s' ∧ Quit s s' := by
  obtain ⟨h1, h2⟩ := (isOwn_iff e).1 ho
  refine (safe_value hE he h hr).mono fun c s1 ⟨hwf, ⟨acc, hv⟩, hg, hq⟩ => ⟨?_, hv.plain h1, hg, hq⟩
  rw [h2] at hwf
  exact hwf

/-- A value, kept. -/
theorem safe_kept {q : Bool} {e : Expr} (he : e.ok L q = true) (h : Wf L C P T s) (hr : s.eng.rv = .none) :
    Safe ((interp w n).value e) s fun c s' => Wf L C (c :: P) T s' ∧ (∃ acc, ValOk L e acc s' c) ∧ Grow (L.touched q) s s' ∧ Quit s s' := by
  refine (safe_value hE he h hr).mono fun c s1 ⟨hwf, hv, hg, hq⟩ => ⟨?_, hv, hg, hq⟩
  split at hwf
  · exact hwf
  · exact hwf.keep

theorem safe_val {q : Bool} {e : Expr} (he : e.ok L q = true) (ho : e.isVal L = true) (h : Wf L C P T s) (hr : s.eng.rv = .none) :
    Safe ((interp w n).value e) s fun c s' => Wf L C (c :: P) T s' ∧ Plain s'.cells c ∧ Grow (L.touched q) s s' ∧ Quit s s' :=
  (safe_kept hE he h hr).mono fun _ _ ⟨h1, ⟨_, h2⟩, h3⟩ => ⟨h1, h2.plain ho, h3⟩

theorem safe_vals {q : Bool} : ∀ {es : List Expr} {P : List Nat} {s : St}, okVals L q es = true → Wf L C P T s → s.eng.rv = .none →
    Safe (each (interp w n).value es) s fun cs s' => Wf L C (cs ++ P) T s' ∧ (∀ c ∈ cs, Plain s'.cells c) ∧ Grow (L.touched q) s s' ∧ Quit s s'
  | [], P, s, _, h, hr => ⟨h, fun c hc => (nomatch hc), Grow.refl _ s, Quit.refl hr⟩
  | e :: es, P, s, he, h, hr => by
    unfold okVals at he
    simp only [ok_and] at he
    unfold each
    refine Safe.bind ((safe_val hE he.1.1 he.1.2 h hr).mono fun c s1 ⟨hw, hp, hg, hq⟩ => ?_)
    refine Safe.bind ((safe_vals he.2 hw hq.2).mono fun cs s2 ⟨hw2, hp2, hg2, hq2⟩ => Safe.pure ?_)
    refine ⟨hw2.subP fun c' hc' => ?_, fun c' hc' => ?_, hg.trans hg2, hq.trans hq2⟩
    · simp only [List.mem_append, List.mem_cons] at hc' ⊢
      exact hc'.elim (fun h => h.elim (fun h => .inr (.inl h)) .inl) fun h => .inr (.inr h)
    · rcases List.mem_cons.1 hc' with rfl | hc'
      · exact hg2.toSup.plain hp
      · exact hp2 c' hc'

theorem safe_items {q : Bool} : ∀ {items : List (Expr × Expr)} {done : List (Nat × Nat)} {s : St}, okItems L q items = true → Wf L C ((Data.map done).parts ++ P) T s →
    (∀ c ∈ (Data.map done).parts, Plain s.cells c) → s.eng.rv = .none →
    Safe (evalItems (interp w n) items done) s fun es s' => Wf L C ((Data.map es).parts ++ P) T s' ∧ (∀ c ∈ (Data.map es).parts, Plain s'.cells c) ∧ Grow (L.touched q) s s' ∧ Quit s s'
  | [], done, s, _, h, hd, hr => ⟨h, hd, Grow.refl _ s, Quit.refl hr⟩
  | (ke, ve) :: items, done, s, he, h, hd, hr => by
    unfold okItems at he
    simp only [ok_and] at he
    obtain ⟨⟨⟨⟨h1, h2⟩, h3⟩, h4⟩, h5⟩ := he
    unfold evalItems
    refine Safe.bind ((safe_val hE h1 h2 h hr).mono fun k s1 ⟨hw, hp, hg, hq⟩ => ?_)
    refine Safe.still_bind (safe_anyKey fun e he => safe_eq w hw n (hw.live_P ?_) (hw.live_P List.mem_cons_self)) fun b _ => ?_
    · exact List.mem_cons_of_mem _ (List.mem_append_left _ (mem_parts_map he).1)
    · split
      · exact Safe.raise
      · refine Safe.bind ((safe_val hE h3 h4 hw hq.2).mono fun v s2 ⟨hw2, hp2, hg2, hq2⟩ => ?_)
        have hparts : (Data.map (done ++ [(k, v)])).parts = (Data.map done).parts ++ [k, v] := by simp [Data.parts]
        refine (safe_items h5 (done := done ++ [(k, v)]) (hw2.subP fun c hc => ?_) (fun c hc => ?_) hq2.2).mono
          fun es s3 ⟨hw3, hp3, hg3, hq3⟩ => ⟨hw3, hp3, (hg.trans hg2).trans hg3, (hq.trans hq2).trans hq3⟩
        · rw [hparts] at hc
          simp only [List.mem_append, List.mem_cons, List.not_mem_nil, or_false] at hc ⊢
          rcases hc with (hc | hc | hc) | hc
          · exact .inr (.inr (.inl hc))
          · exact .inr (.inl hc)
          · exact .inl hc
          · exact .inr (.inr (.inr hc))
        · rw [hparts] at hc
          simp only [List.mem_append, List.mem_cons, List.not_mem_nil, or_false] at hc
          rcases hc with hc | rfl | rfl
          · exact hg2.toSup.plain (hg.toSup.plain (hd c hc))
          · exact hg2.toSup.plain hp
          · exact hp2

/-! ## Operators -/

theorem safe_evalBin {q : Bool} (d : Dest) (op : BinOp) {l r : Expr} (hok : (Expr.bin op l r).ok L q = true) (h : Wf L C P T s) (hr : s.eng.rv = .none) :
    Safe (evalBin w (interp w n) d op l r) s (Evald L C P T q d (.bin op l r) s) := by
  unfold Expr.ok at hok
  simp only [ok_and] at hok
  obtain ⟨⟨⟨hl, hlo⟩, hr'⟩, hro⟩ := hok
  unfold evalBin
  refine Safe.bind ((safe_own hE hl hlo h hr).mono fun cl s1 ⟨hw1, hp1, hg1, hq1⟩ => ?_)
  refine Safe.bind ((safe_own hE hr' hro hw1 hq1.2).mono fun cr s2 ⟨hw2, hp2, hg2, hq2⟩ => ?_)
  obtain ⟨xl, hxl, hll⟩ := hw2.live_T (c := cl) (List.mem_cons_of_mem _ List.mem_cons_self)
  obtain ⟨xr, hxr, hrr⟩ := hw2.live_T (c := cr) List.mem_cons_self
  refine Safe.getCell hxl (Safe.getCell hxr ?_)
  split
  · exact Safe.raise
  · split
    · rename_i hd
      refine Safe.pure ⟨hw2.drop1.drop1, fun c hc => (nomatch hc), ?_, hg1.trans hg2⟩
      rw [hd]
      rintro ⟨⟩
    · refine Safe.checkDest hq2.2 (Safe.bind ((safe_applyBin w n hw2 op hxl hxr hll hrr).mono fun v s3 ⟨hw3, hp3, hg3⟩ => ?_))
      have hw3' : Wf L C P (cl :: cr :: v :: T) s3 := hw3.perm ?_
      · refine Safe.bind ((hw3'.safe_dec w n).mono fun _ s4 ⟨hw4, hg4, he4⟩ => Safe.bind ((hw4.safe_dec w n).mono fun _ s5 ⟨hw5, hg5, he5⟩ => Safe.pure ?_))
        exact ⟨hw5, fun c hc => by cases hc; exact Plain.valOk ((hg5 []).toSup.plain ((hg4 []).toSup.plain hp3)) rfl, fun _ => ⟨v, rfl⟩,
          ((hg1.trans hg2).trans (hg3 _)).trans ((hg4 _).trans (hg5 _))⟩
      · exact (List.perm_append_comm (l₁ := [cl, cr]) (l₂ := [v])).append_right T |>.trans ((List.Perm.swap cr cl T).cons v)

theorem safe_evalUn {q : Bool} (d : Dest) (op : UnOp) {e : Expr} (hok : (Expr.un op e).ok L q = true) (h : Wf L C P T s) (hr : s.eng.rv = .none) :
    Safe (evalUn (interp w n) d op e) s (Evald L C P T q d (.un op e) s) := by
  unfold Expr.ok at hok
  simp only [ok_and] at hok
  unfold evalUn
  refine Safe.bind ((safe_own hE hok.1 hok.2 h hr).mono fun c s1 ⟨hw1, hp1, hg1, hq1⟩ => ?_)
  obtain ⟨x, hx, _⟩ := hw1.live_T (c := c) List.mem_cons_self
  refine Safe.getCell hx ?_
  split
  · rename_i hd
    refine Safe.pure ⟨hw1.drop1, fun c hc => (nomatch hc), ?_, hg1⟩
    rw [hd]
    rintro ⟨⟩
  · refine Safe.checkDest hq1.2 (Safe.bind ((safe_applyUn hw1 op x.data).mono fun v s2 ⟨hw2, hp2, hg2⟩ => ?_))
    refine Safe.bind (((hw2.perm (List.Perm.swap v c T)).safe_dec w n).mono fun _ s3 ⟨hw3, hg3, he3⟩ => Safe.pure ?_)
    exact ⟨hw3, fun c hc => by cases hc; exact Plain.valOk ((hg3 []).toSup.plain hp2) rfl, fun _ => ⟨v, rfl⟩, hg1.trans ((hg2 _).trans (hg3 _))⟩

/-! ## Members -/

omit hE in
theorem ptmIdx_mem {k : Kind} {name : Bytes} {i : Nat} (h : ptmIdx k name = some i) : name ∈ memberNames ∧ ∃ p, members[i]? = some p ∧ (name ∈ calmNames → p.calm = true) := by
  unfold ptmIdx at h
  split at h
  · split at h
    · cases h
      subst name
      exact ⟨by decide, _, rfl, fun _ => rfl⟩
    · split at h
      · cases h
        subst name
        exact ⟨by decide, _, rfl, fun _ => rfl⟩
      · split at h
        · cases h
          subst name
          exact ⟨by decide, _, rfl, fun _ => rfl⟩
        · cases h
  · split at h
    · cases h
      subst name
      exact ⟨by decide, _, rfl, fun _ => rfl⟩
    · split at h
      · cases h
        subst name
        exact ⟨by decide, _, rfl, fun h => absurd h (by decide)⟩
      · split at h
        · cases h
          subst name
          exact ⟨by decide, _, rfl, fun h => absurd h (by decide)⟩
        · cases h
  · cases h

omit hE in
theorem safe_member (h : Wf L C P T s) {i : Nat} (hi : i < s.scopes.length) (name : Bytes) :
    Safe (shallowFind i name) s fun o s' => s' = s ∧ ∀ k, o = some k → ∃ v, IsVar s name (i, k) v := by
  have hx := List.getElem?_eq_getElem hi
  unfold shallowFind
  refine Safe.getScope hx (h.shape.scopes i _ hx).freed (Safe.pure ⟨rfl, fun k hk => ?_⟩)
  obtain ⟨v, h1, h2, _⟩ := findKeyIdx_some hk
  exact ⟨v, _, hx, h1, h2⟩

/-- Finding a member ended well. -/
structure Found (L : Discipline) (C P T : List Nat) (q : Bool) (name : Bytes) (s : St) (r : Option (Nat × Nat) × Option Nat × Nat) (s' : St) : Prop where
  wf : Wf L C (r.2.2 :: P) T s'
  grow : Grow (L.touched q) s s'
  quit : Quit s s'
  var : ∀ p, r.1 = some p → ∃ v, IsVar s' name p v ∧ v.val = r.2.1
  ptm : r.1 = none → ∃ k z, s'.cells[r.2.2]? = some z ∧ ptmIdx z.data.kind name = some k ∧ r.2.1 = some (s'.eng.ptm + k)

theorem safe_accessFind {q : Bool} {e : Expr} (hok : e.ok L q = true) (name : Bytes) (h : Wf L C P T s) (hr : s.eng.rv = .none) :
    Safe (accessFind (interp w n) e name) s (Found L C P T q name s) := by
  unfold accessFind
  refine Safe.bind ((safe_kept hE hok h hr).mono fun a s1 ⟨hw, _, hg, hq⟩ => ?_)
  obtain ⟨x, hx, _⟩ := hw.live_P (c := a) List.mem_cons_self
  have hdat := (hw.shape.data a x hx).2
  refine Safe.getCell hx ?_
  have hptm : Safe (match ptmIdx x.data.kind name with
      | none => raise (b!"primitive type member '" ++ name ++ b!"' doesn't exist on expression of type " ++ typeStr x.data)
      | some k => do
        let s ← M.get
        pure (none, some (s.eng.ptm + k), a)) s1 (Found L C P T q name s) := by
    split
    · exact Safe.raise
    · rename_i k hk
      exact Safe.get (Safe.pure ⟨hw, hg, hq, fun p hp => (nomatch hp), fun _ => ⟨k, x, hx, hk, rfl⟩⟩)
  cases hdd : x.data <;> rw [hdd] at hdat hptm <;> try exact hptm
  · rename_i f
    dsimp only
    split
    · rename_i hc
      simp only [beq_iff_eq] at hc
      obtain ⟨_, _, h3⟩ := hdat
      rw [hc] at h3
      obtain ⟨_, sc, hsc, hlt⟩ := h3
      refine Safe.deref (fun hn => absurd hn (by simp [hsc])) fun i hi => ?_
      rw [hsc] at hi
      cases hi
      refine Safe.bind ((safe_member hw hlt name).mono fun o s2 ⟨h1, h2⟩ => ?_)
      subst h1
      split
      · exact Safe.raise
      · obtain ⟨v, hv⟩ := h2 _ rfl
        refine Safe.bind_ok (getVar_isVar hw hv) ?_
        exact Safe.pure ⟨hw, hg, hq, fun p hp => by cases hp; exact ⟨v, hv, rfl⟩, fun hp => (nomatch hp)⟩
    · exact hptm
  · rename_i i
    refine Safe.bind ((safe_member hw hdat.2.1 name).mono fun o s2 ⟨h1, h2⟩ => ?_)
    subst h1
    split
    · exact Safe.raise
    · obtain ⟨v, hv⟩ := h2 _ rfl
      refine Safe.bind_ok (getVar_isVar hw hv) ?_
      split
      · exact Safe.raise
      · exact Safe.pure ⟨hw, hg, hq, fun p hp => by cases hp; exact ⟨v, hv, rfl⟩, fun hp => (nomatch hp)⟩

theorem safe_evalAccess {q : Bool} (d : Dest) {e : Expr} {name : Bytes} (hok : (Expr.access e name).ok L q = true) (h : Wf L C P T s) (hr : s.eng.rv = .none) :
    Safe (evalAccess (interp w n) d e name) s (Evald L C P T q d (.access e name) s) := by
  unfold Expr.ok at hok
  simp only [ok_and] at hok
  unfold evalAccess
  refine Safe.bind ((safe_accessFind hE hok.1 name h hr).mono fun r s1 hf => ?_)
  obtain ⟨o, ov, a⟩ := r
  have hw := hf.wf
  have hg := hf.grow
  have hq := hf.quit
  have hvar := hf.var
  have hptm := hf.ptm
  simp only at hw hvar hptm
  dsimp only
  split
  · rename_i hd
    refine Safe.pure ⟨hw, fun c hc => (nomatch hc), ?_, hg⟩
    rw [hd]
    rintro ⟨⟩
  · refine Safe.checkDest hq.2 (Safe.deref (fun _ h => nomatch h) fun c hc => ?_)
    have hval : Live s1 c ∧ ValOk L (.access e name) (some a) s1 c := by
      cases o with
      | some p =>
        obtain ⟨v, hv, hvv⟩ := hvar p rfl
        obtain ⟨hl, y, hy, hn, hp⟩ := hv.val hw (hvv.trans hc)
        refine ⟨hl, y, hy, ?_⟩
        have hk := hv.key hw
        have hm : (Expr.access e name).memberName = none := by
          exact if_neg (by simpa using hk)
        rw [hm]
        exact ⟨hn, fun hcls => hp (by unfold Expr.isClass at hcls; simpa using hcls)⟩
      | none =>
        obtain ⟨k, z, hz, hk, hov⟩ := hptm rfl
        rw [hc] at hov
        cases hov
        obtain ⟨hmem, p, hp, _⟩ := ptmIdx_mem hk
        obtain ⟨y, hy, hyd⟩ := hw.shape.ptm k p hp
        refine ⟨hw.live_pin (.inl (.inr (.inr ⟨y, hy, ?_⟩))), y, hy, ?_⟩
        · rw [hyd]
          exact ⟨p, rfl⟩
        · have hm : (Expr.access e name).memberName = some name := by
            exact if_pos (by simpa using hmem)
          rw [hm]
          exact ⟨a, z, p, rfl, hz, ⟨k, hk, hp⟩, hyd⟩
    refine Safe.bind ((hw.safe_incref hval.1).mono fun _ s2 ⟨hw2, hg2⟩ => Safe.pure ⟨hw2, fun c' hc' => ?_, fun _ => ⟨c, rfl⟩, hg.trans (hg2 _)⟩)
    cases hc'
    exact hval.2.sup (hg2 []).toSup

/-! ## Indices -/

theorem safe_evalIndex {q : Bool} (d : Dest) {e i : Expr} (hok : (Expr.index e i).ok L q = true) (h : Wf L C P T s) (hr : s.eng.rv = .none) :
    Safe (evalIndex (interp w n) d e i) s fun v s' => Evald L C P T q d (.index e i) s { val := v } s' := by
  unfold Expr.ok at hok
  simp only [ok_and] at hok
  obtain ⟨⟨⟨h1, h2⟩, h3⟩, h4⟩ := hok
  unfold evalIndex
  refine Safe.bind ((safe_val hE h1 h2 h hr).mono fun c s1 ⟨hw, hp, hg, hq⟩ => ?_)
  obtain ⟨x, hx, hxl⟩ := hw.live_P (c := c) List.mem_cons_self
  refine Safe.getCell hx ?_
  split
  · exact Safe.raise
  · rename_i hkx
    refine Safe.bind ((safe_val hE h3 h4 hw hq.2).mono fun ic s2 ⟨hw2, hp2, hg2, hq2⟩ => ?_)
    have hw3 : Wf L C P T s2 := hw2.subP fun c' hc' => List.mem_cons_of_mem _ (List.mem_cons_of_mem _ hc')
    obtain ⟨y, hy, hyl⟩ := hw2.live_P (c := ic) List.mem_cons_self
    refine Safe.getCell hy ?_
    split
    · exact Safe.raise
    · rename_i hky
      split
      · rename_i hd
        refine Safe.pure ⟨hw3, fun c hc => (nomatch hc), ?_, hg.trans hg2⟩
        rw [hd]
        rintro ⟨⟩
      · obtain ⟨x', hx', hxd⟩ := hg2.toSup.cells c x hx
        have hfound : ∀ v, Elem s2.cells v → Safe (incref v >>= fun _ => pure (some v)) s2 fun v s' => Evald L C P T q d (.index e i) s { val := v } s' := by
          intro v hv
          have hvp := hw3.shape.elem hv
          refine Safe.bind ((hw3.safe_incref (hw3.live_elem hv)).mono fun _ s4 ⟨hw4, hg4⟩ => Safe.pure ⟨hw4, fun c' hc' => ?_, fun _ => ⟨v, rfl⟩, (hg.trans hg2).trans (hg4 _)⟩)
          cases hc'
          exact Plain.valOk ((hg4 []).toSup.plain hvp) rfl
        refine Safe.checkDest hq2.2 (Safe.getCell hx' (Safe.deref (fun hn => absurd hn (by rw [hxd]; simp)) fun _ _ => ?_))
        rw [hxd]
        split
        · rename_i es k hxe hye
          split
          · exact Safe.raise
          · exact Safe.ub fun h => nomatch h
          · rename_i k' hk'
            have hlt : k' < es.length := by
              unfold vecIdx at hk'
              split at hk'
              · split at hk'
                · cases hk'
                · cases hk'
                  omega
              · split at hk'
                · split at hk'
                  · cases hk'
                  · cases hk'
                    omega
                · cases hk'
            refine Safe.deref (fun hn => absurd hn (by simp [hlt])) fun v hv => hfound v ⟨c, x', hx', ?_⟩
            rw [hxd, hxe]
            exact List.mem_of_getElem? hv
        · rename_i es hxe
          have hel : ∀ en ∈ es, Elem s2.cells en.1 ∧ Elem s2.cells en.2 := fun en hen =>
            ⟨⟨c, x', hx', by rw [hxd, hxe]; exact (mem_parts_map hen).1⟩, ⟨c, x', hx', by rw [hxd, hxe]; exact (mem_parts_map hen).2⟩⟩
          refine Safe.bind ((safe_lookupKey fun en hen => safe_eq w hw2 n (hw2.live_elem (hel en hen).1) (hw2.live_P List.mem_cons_self)).mono fun o s3 ⟨hs3, ho⟩ => ?_)
          subst hs3
          · split
            · obtain ⟨en, hen, hev⟩ := ho _ rfl
              exact hfound _ (hev ▸ (hel en hen).2)
            · refine Safe.bind ((made_alloc hw3 (d := .none) trivial rfl).mono fun v s3 ⟨hw4, hp4, hg4⟩ => Safe.pure ⟨hw4, fun c' hc' => ?_, fun _ => ⟨v, rfl⟩, (hg.trans hg2).trans (hg4 _)⟩)
              cases hc'
              exact Plain.valOk hp4 rfl
        · rename_i hnm hnv
          exfalso
          by_cases hxm : x.data.kind = .map
          · cases hxx : x.data <;> rw [hxx] at hxm hnm <;> first | exact hnm _ rfl | cases hxm
          · have hxv : x.data.kind = .vec := Decidable.byContradiction fun hn => hkx ⟨hn, hxm⟩
            have hyi : y.data.kind = .int := Decidable.byContradiction fun hn => hky ⟨hxv, hn⟩
            cases hxx : x.data <;> rw [hxx] at hxv hnv <;> try cases hxv
            cases hyy : y.data <;> rw [hyy] at hyi hnv <;> first | exact hnv _ _ rfl rfl | cases hyi

/-! ## Calls -/

theorem safe_evalCall {q : Bool} (d : Dest) {f : Expr} {args : List Expr} (hok : (Expr.call f args).ok L q = true) (h : Wf L C P T s) (hr : s.eng.rv = .none) :
    Safe (evalCall (interp w n) d f args) s (Evald L C P T q d (.call f args) s) := by
  unfold Expr.ok at hok
  simp only [ok_and] at hok
  obtain ⟨⟨hf, hcalm⟩, hargs⟩ := hok
  unfold evalCall
  refine Safe.bind ((hE.eval .keep hf h hr).mono fun r s1 ⟨hv, hq⟩ => ?_)
  obtain ⟨c, hc⟩ := hv.keep rfl
  have hw : Wf L C (c :: (r.acc.toList ++ P)) T s1 := by
    have hwf := hv.wf
    rw [hc] at hwf
    cases hn : f.isNew L <;> rw [hn] at hwf
    · exact Wf.keep hwf
    · exact hwf
  obtain ⟨x, hx, hval⟩ := hv.val c hc
  rw [hc]
  refine Safe.bind_ok rfl (Safe.getCell hx ?_)
  split
  · rename_i fd hd
    rw [hd] at hval
    refine Safe.bind ((safe_vals hE hargs hw hq.2).mono fun as s2 ⟨hw2, hp2, hg2, hq2⟩ => ?_)
    obtain ⟨x2, hx2, hd2⟩ := hg2.toSup.cells c x hx
    have hmem : ∀ p, fd.kind = .ptm p → ∃ a z name, r.acc = some a ∧ s1.cells[a]? = some z ∧ IsMember p z.data name ∧ f.memberName = some name := by
      intro p hp
      cases hm : f.memberName <;> rw [hm] at hval
      · exact absurd hp (hval.1 p)
      · obtain ⟨a, z, p', h1, h2, h3, h4⟩ := hval
        cases h4
        cases hp
        exact ⟨a, z, _, h1, h2, h3, rfl⟩
    have hcall : CallOk (as ++ (c :: (r.acc.toList ++ P))) c fd r.acc as s2 := by
      refine ⟨⟨x2, hx2, hd2.trans hd⟩, by simp, fun a ha => by simp [ha], fun c' hc' => ⟨by simp [hc'], hp2 c' hc'⟩, fun p hp => ?_⟩
      obtain ⟨a, z, name, h1, h2, h3, _⟩ := hmem p hp
      obtain ⟨z', hz', hzd⟩ := hg2.toSup.cells a z h2
      exact ⟨a, z', name, h1, hz', hzd ▸ h3⟩
    refine Safe.bind ((hE.call d hcall hw2 hq2.2).mono fun v s3 ⟨hcd, hq3⟩ => Safe.pure ?_)
    refine ⟨?_, fun c' hc' => Plain.valOk (hcd.val c' hc') rfl, hcd.keep, (hv.grow.trans hg2).trans (hcd.grow.mono fun y hy => ?_)⟩
    · have hwf := hcd.wf
      have hcls : f.isClass L = false → fd.kind ≠ .cls := by
        intro hn hk
        cases hm : f.memberName <;> rw [hm] at hval
        · exact (hval.2 hn).elim (fun h => by rw [hk] at h; cases h) fun h => by rw [hk] at h; cases h
        · obtain ⟨a, z, p', h1, h2, h3, h4⟩ := hval
          cases h4
          cases hk
      show if f.isClass L then _ else _
      have hsub : ∀ c' ∈ P, c' ∈ as ++ (c :: (r.acc.toList ++ P)) := fun c' hc' => by simp [hc']
      cases hn : f.isClass L
      · rw [if_neg (hcls hn)] at hwf
        exact hwf.subP hsub
      · refine Wf.subP (P := v.toList ++ (as ++ (c :: (r.acc.toList ++ P)))) ?_ fun c' hc' => ?_
        · split at hwf
          · exact hwf
          · exact hwf.keepAll
        · exact (List.mem_append.1 hc').elim (fun h => List.mem_append_left _ h) fun h => List.mem_append_right _ (hsub c' h)
    · cases q
      · exact L.touched_le _ y hy
      · exfalso
        cases f with
        | access b x =>
          have hx : x ∈ calmNames := by simpa [Expr.isCalm] using hcalm
          have hm : (Expr.access b x).memberName = some x := if_pos (by simp [memberNames, hx])
          rw [hm] at hval
          obtain ⟨a, z, p, _, _, ⟨k, h1, h2⟩, h3⟩ := hval
          cases h3
          obtain ⟨_, p', h4, h5⟩ := ptmIdx_mem h1
          rw [h2] at h4
          cases h4
          have hc : (FnKind.ptm p).calm = true := h5 hx
          rw [hc] at hy
          cases hy
        | _ => simp [Expr.isCalm] at hcalm
  · exact Safe.raise

/-! ## Expressions -/

theorem safe_stepEval {q : Bool} (d : Dest) {e : Expr} (hok : e.ok L q = true) (h : Wf L C P T s) (hr : s.eng.rv = .none) :
    Safe (stepEval w (interp w n) d e) s (Evald L C P T q d e s) := by
  have hmade : ∀ {m : M Nat} {e : Expr}, e.memberName = none → e.isNew L = false → ¬d = .discard → Safe m s (NewVal L C P T s) →
      Safe (checkDest d >>= fun _ => m >>= fun c => pure { val := some c }) s (Evald L C P T q d e s) := by
    intro m e hm hn hd hs
    refine Safe.checkDest hr (Safe.bind (hs.mono fun c s1 ⟨hw, hp, hg⟩ => Safe.pure ⟨?_, fun c' hc' => ?_, fun _ => ⟨c, rfl⟩, hg _⟩))
    · rw [hn]
      exact hw
    · cases hc'
      exact Plain.valOk hp hm
  unfold stepEval
  split
  · split
    · exact Safe.raise
    · rename_i hd
      exact hmade rfl rfl hd (safe_evalLit h hok)
  · split
    · exact Safe.raise
    · refine Safe.bind ((safe_evalIdent h _).mono fun c s1 ⟨hw, hv, hg⟩ => Safe.pure ⟨hw, fun c' hc' => ?_, fun _ => ⟨c, rfl⟩, hg _⟩)
      cases hc'
      exact hv
  · split
    · exact Safe.raise
    · rename_i hd
      unfold Expr.ok at hok
      simp only [ok_and] at hok
      exact hmade rfl rfl hd (made_lambda h hok.1 hok.2)
  · unfold Expr.ok at hok
    refine Safe.bind ((safe_vals hE hok h hr).mono fun cs s1 ⟨hw, hp, hg, hq⟩ => ?_)
    split
    · rename_i hd
      refine Safe.pure ⟨hw.subP fun c hc => List.mem_append_right _ hc, fun c hc => (nomatch hc), ?_, hg⟩
      rw [hd]
      rintro ⟨⟩
    · refine Safe.checkDest hq.2 (Safe.bind ((made_parts hw (d := .vec cs) trivial fun c hc => ⟨hc, hp c hc⟩).mono fun v s2 ⟨hw2, hp2, hg2⟩ =>
        Safe.pure ⟨hw2, fun c' hc' => ?_, fun _ => ⟨v, rfl⟩, hg.trans (hg2 _)⟩))
      cases hc'
      exact Plain.valOk hp2 rfl
  · unfold Expr.ok at hok
    refine Safe.bind ((safe_items hE hok (done := []) h (fun c hc => (nomatch hc)) hr).mono fun es s1 ⟨hw, hp, hg, hq⟩ => ?_)
    split
    · rename_i hd
      refine Safe.pure ⟨hw.subP fun c hc => List.mem_append_right _ hc, fun c hc => (nomatch hc), ?_, hg⟩
      rw [hd]
      rintro ⟨⟩
    · refine Safe.checkDest hq.2 (Safe.bind ((made_parts hw (d := .map es) trivial fun c hc => ⟨hc, hp c hc⟩).mono fun v s2 ⟨hw2, hp2, hg2⟩ =>
        Safe.pure ⟨hw2, fun c' hc' => ?_, fun _ => ⟨v, rfl⟩, hg.trans (hg2 _)⟩))
      cases hc'
      exact Plain.valOk hp2 rfl
  · exact safe_evalCall hE d hok h hr
  · unfold Expr.ok at hok
    simp only [ok_and] at hok
    obtain ⟨h1, h2⟩ := (isOwn_iff _).1 hok.2
    refine (hE.eval d hok.1 h hr).mono fun r s1 ⟨hv, hq⟩ => ⟨?_, fun c hc => Plain.valOk ((hv.val c hc).plain h1) rfl, hv.keep, hv.grow⟩
    have hwf := hv.wf
    rw [h2] at hwf
    exact hwf
  · exact safe_evalUn hE d _ hok h hr
  · exact safe_evalBin hE d _ hok h hr
  · exact safe_evalAccess hE d hok h hr
  · exact Safe.bind ((safe_evalIndex hE d hok h hr).mono fun v s1 h1 => Safe.pure h1)

end

end Bob.Fl
