import Verif.Lemmas.FlMeanEnv
import Verif.Props.FlLiterals
import Verif.Props.FlConcat
/-!
# Literals, names and operators do what the description says
-/

namespace Bob.Fl

section
variable {L : Discipline} {C P T : List Nat} {s s' : St} {w : World} {X : List Nat} {r : List Ask} {st : List Nat} {ρ : Names}

/-! ## Evaluation -/

theorem conv_value {e : Expr} {Q : Nat → St → Prop} (h : Conv (fun n => stepEval w (interp w n) .keep e) s fun r s' => ∃ c, r.val = some c ∧ Q c s') :
    Conv (fun n => (interp w n).value e) s Q := by
  refine Conv.bind (Conv.succ (m' := fun n => stepEval w (interp w n) .keep e) (fun _ => rfl) (h.mono fun r s' ⟨c, hc, hq⟩ => ?_))
  exact Conv.ok (fun _ => (deref_ok_iff ..).2 ⟨hc, rfl⟩) hq

/-- Evaluation went from `s` to `s'`. -/
structure Went (w : World) (L : Discipline) (C P T X : List Nat) (r : List Ask) (st : List Nat) (ρ : Names) (s s' : St) : Prop where
  scene : Scene w L C P T X r st ρ s'
  stack : s'.Stack st
  stays : Stays s s'
  quit : Quit s s'

/-- Evaluating the expression gives the value and asks for these things. -/
def Ev (w : World) (L : Discipline) (ρ : Names) (e : Expr) (v : Val) (r : List Ask) : Prop :=
  ∀ ⦃C P T X : List Nat⦄ ⦃r0 : List Ask⦄ ⦃st : List Nat⦄ ⦃s : St⦄, Scene w L C P T X r0 st ρ s → s.Stack st →
    Conv (fun n => (interp w n).value e) s fun c s' => s'.Was v c ∧ Stays s s' ∧ Amb w L X (r0 ++ r) s'

/-- The same where the value will be kept for good. -/
def EvHeld (w : World) (L : Discipline) (ρ : Names) (e : Expr) (v : Val) (r : List Ask) : Prop :=
  ∀ ⦃C P T X : List Nat⦄ ⦃r0 : List Ask⦄ ⦃st : List Nat⦄ ⦃s : St⦄, Scene w L C P T X r0 st ρ s → s.Stack st →
    Conv (fun n => (interp w n).value e) s fun c s' => s'.Was v c ∧ Stays s s' ∧ Amb w L (c :: X) (r0 ++ r) s'

theorem Ev.held {e : Expr} {v : Val} {q : List Ask} (h : Ev w L ρ e v q) : EvHeld w L ρ e v q := fun _ _ _ _ _ _ _ hs hst =>
  (h hs hst).mono fun _ _ ⟨h1, h2, h3⟩ => ⟨h1, h2, h3.sub fun _ hc => .inl (List.mem_cons_of_mem _ hc)⟩

theorem Ev.own (hW : w.Ok L) {e : Expr} {v : Val} {q r0 : List Ask} (h : Ev w L ρ e v q) (hok : e.ok L false = true) (hn : e.isNew L = false)
    (hs : Scene w L C P T X r0 st ρ s) (hst : s.Stack st) :
    Conv (fun n => (interp w n).value e) s fun c s' => s'.Was v c ∧ Went w L C P (c :: T) X (r0 ++ q) st ρ s s' := by
  refine ((h hs hst).safe fun n => safe_value (safeX hW n).toSafeE hok hs.wf hs.rv).mono fun c s' ⟨⟨h1, h2, h3⟩, h4, _, _, h6⟩ => ⟨h1, ?_, h6.stack hst, h2, h6⟩
  rw [hn] at h4
  exact hs.stays h2 h4 h6.2 h3

theorem Ev.kept (hW : w.Ok L) {e : Expr} {v : Val} {q r0 : List Ask} (h : Ev w L ρ e v q) (hok : e.ok L false = true) (hs : Scene w L C P T X r0 st ρ s) (hst : s.Stack st) :
    Conv (fun n => (interp w n).value e) s fun c s' => s'.Was v c ∧ Went w L C (c :: P) T X (r0 ++ q) st ρ s s' := by
  refine ((h hs hst).safe fun n => safe_kept (safeX hW n).toSafeE hok hs.wf hs.rv).mono fun c s' ⟨⟨h1, h2, h3⟩, h4, _, _, h6⟩ => ⟨h1, ?_, h6.stack hst, h2, h6⟩
  exact hs.stays h2 h4 h6.2 h3

theorem EvHeld.kept (hW : w.Ok L) {e : Expr} {v : Val} {q r0 : List Ask} (h : EvHeld w L ρ e v q) (hok : e.ok L false = true) (hs : Scene w L C P T X r0 st ρ s) (hst : s.Stack st) :
    Conv (fun n => (interp w n).value e) s fun c s' => s'.Was v c ∧ Went w L C (c :: P) T (c :: X) (r0 ++ q) st ρ s s' := by
  refine ((h hs hst).safe fun n => safe_kept (safeX hW n).toSafeE hok hs.wf hs.rv).mono fun c s' ⟨⟨h1, h2, h3⟩, h4, _, _, h6⟩ => ⟨h1, ?_, h6.stack hst, h2, h6⟩
  exact hs.stays h2 h4 h6.2 h3

/-- Evaluation which asks for nothing. -/
theorem Ev.idle {e : Expr} {v : Val}
    (h : ∀ ⦃C P T X : List Nat⦄ ⦃r0 : List Ask⦄ ⦃st : List Nat⦄ ⦃s : St⦄, Scene w L C P T X r0 st ρ s → s.Stack st → Conv (fun n => stepEval w (interp w n) .keep e) s fun r s' => ∃ c, r.val = some c ∧ s'.Was v c ∧ Idle s s') :
    Ev w L ρ e v [] := fun _ _ _ _ _ _ _ hs hst =>
  conv_value ((h hs hst).mono fun _ _ ⟨c, hc, h1, h2⟩ => ⟨c, hc, h1, h2.toStays, by rw [List.append_nil]; exact hs.amb.idle h2⟩)

/-! ## Cells -/

theorem conv_alloc (d : Data) {v : Val} (hv : ∀ {s' : St}, Idle s s' → s'.Holds s.cells.length d → s'.Was v s.cells.length) :
    Conv (fun _ => alloc d) s fun c s' => s'.Was v c ∧ Idle s s' := by
  have hi := (i_alloc d).out (alloc_apply d s)
  exact Conv.ok (fun _ => alloc_apply d s) ⟨hv hi ⟨_, List.getElem?_concat_length, rfl⟩, hi⟩

theorem conv_new (d : Data) : Conv (fun _ => alloc d) s fun c s' => s'.Holds c d ∧ Idle s s' :=
  Conv.ok (fun _ => alloc_apply d s) ⟨⟨_, List.getElem?_concat_length, rfl⟩, (i_alloc d).out (alloc_apply d s)⟩

theorem was_str {c b : Nat} {t full : Bytes} (hc : s.Holds c (.str b t.length)) (hb : s.bufs[b]? = some (some full)) (hp : t <+: full) : s.Was (.str t) c := ⟨b, hc, .inr ⟨full, hb, hp⟩⟩

theorem conv_allocStr (t : Bytes) : Conv (fun _ => allocStr t) s fun c s' => s'.Was (.str t) c ∧ Idle s s' := by
  have h : allocStr t s = .ok s.cells.length { s with bufs := s.bufs ++ [some t], cells := s.cells ++ [{ data := .str s.bufs.length t.length }] } := rfl
  exact Conv.ok (fun _ => h) ⟨was_str ⟨_, List.getElem?_concat_length, rfl⟩ List.getElem?_concat_length (List.prefix_refl _), (i_allocStr t).out h⟩

theorem conv_dec {c : Nat} (h : Wf L C P (c :: T) s) (w : World) : Conv (fun n => (interp w n).dec c) s fun _ s' => Wf L C P T s' ∧ Idle s s' := by
  have hne : (interp w 1).dec c s ≠ .timeout := by
    obtain ⟨cells, bufs, bodies, h1, _⟩ := stepDec_mem (N' := held L T s) (interp w 0).dec (h.inT c List.mem_cons_self) h.mem fun c' => by rw [held_cons]
    show stepDec (interp w 0).dec c s ≠ _
    rw [h1]
    exact fun h => nomatch h
  obtain ⟨s1, h1, h2, _⟩ := (h.dec w 1).resolve_left hne
  refine ⟨1, (), s1, fun n hn => ?_, h2, (i_dec w 1 c).out h1⟩
  exact (((further_le w hn).dec c s).resolve_left hne).symm.trans h1

theorem conv_incref (h : Wf L C P T s) {c : Nat} (hc : Live s c) : Conv (fun _ => incref c) s fun _ s' => Wf L C P (c :: T) s' ∧ Idle s s' := by
  obtain ⟨x, hx, hr⟩ := hc
  have hi : incref c s = .ok () { s with cells := s.cells.set c { x with refs := x.refs + 1 } } := by
    unfold incref
    rw [bind_of_ok ((getCell_ok_iff ..).2 ⟨hx, rfl⟩), bind_of_ok ((assert_ok_iff (u := ()) ..).2 ⟨by simpa using hr, rfl⟩)]
    rfl
  exact ((Conv.ok (Q := fun _ s' => Idle s s') (fun _ => hi) ((i_incref c).out hi)).of_safe (h.safe_incref ⟨x, hx, hr⟩)).mono fun _ _ ⟨h1, h2, _⟩ => ⟨h2, h1⟩

/-! ## Literals -/

theorem numeralVal_eq (t : Bytes) : numeralVal t = numeral t := by
  unfold numeralVal numeral
  generalize t.filter (fun c => c ≠ 95) = u
  have h : ∀ (u : Bytes) (n : Nat), u.foldl (fun n c => n * 10 + (c.toNat - 48)) n = n * 10 ^ u.length + Nat.ofDigits 10 (u.map fun c => c.toNat - 48).reverse := by
    intro u
    induction u with
    | nil => intro n; simp
    | cons c u ih =>
      intro n
      rw [List.foldl_cons, ih, List.map_cons, List.reverse_cons, Nat.ofDigits_append, Nat.ofDigits_singleton, List.length_cons, List.length_reverse, List.length_map]
      ring
  simpa using h u 0

theorem ev_lit {l : Lit} {v : Val} (h : Conv (fun _ => evalLit l) s fun c s' => s'.Was v c ∧ Idle s s') :
    Conv (fun n => stepEval w (interp w n) .keep (.lit l)) s fun r s' => ∃ c, r.val = some c ∧ s'.Was v c ∧ Idle s s' :=
  Conv.bind_ok (m := fun _ => checkDest .keep) (fun _ => rfl) (Conv.bind (m := fun _ => evalLit l) (h.mono fun c _ hq => Conv.pure ⟨c, rfl, hq⟩))

theorem ev_none : Ev w L ρ (.lit .none) .none [] := Ev.idle fun _ _ _ _ _ _ _ _ _ => ev_lit (l := .none) (conv_alloc (v := .none) .none fun _ h => h)

theorem ev_bool (b : Bool) : Ev w L ρ (.lit (.bool b)) (.bool b) [] := Ev.idle fun _ _ _ _ _ _ _ _ _ => ev_lit (l := .bool b) (conv_alloc (v := .bool b) (.bool b) fun _ h => h)

theorem ev_str (b : Bytes) : Ev w L ρ (.lit (.str b)) (.str b) [] := Ev.idle fun _ _ _ _ _ _ _ _ _ => ev_lit (l := .str b) (conv_allocStr b)

theorem ev_num {t : Bytes} (ht : ∀ c ∈ t, c = 95 ∨ 48 ≤ c ∧ c ≤ 57) (hw : Word (numeralVal t)) : Ev w L ρ (.lit (.num t)) (.int (numeralVal t)) [] := by
  have hp : parseNum t 0 = .ok (numeralVal t : Int) := by
    rw [C57_digits t fun c hc => (ht c hc).imp_right fun h => ⟨h.1, h.2⟩, ← numeralVal_eq, if_pos]
    have := hw.2
    omega
  refine Ev.idle fun C P T X r0 st s _ _ => ev_lit ?_
  have he : evalLit (.num t) = alloc (.int (numeralVal t)) := by
    unfold evalLit
    simp only [hp]
  rw [he]
  exact conv_alloc _ fun _ h => h

/-! ## Names -/

theorem conv_ident {name : Bytes} {c : Nat} (h : Wf L C P T s) (hst : s.Stack st) (hf : Finds s.scopes name st c) :
    Conv (fun _ => evalIdent name) s fun c' s' => c' = c ∧ Wf L C P (c :: T) s' ∧ Idle s s' := by
  obtain ⟨p, v, h1, h2, h3⟩ := hf.isVar h
  unfold evalIdent
  refine Conv.bind_ok (m := fun _ => findVar name) (fun _ => (findVar_stack hst name).trans h1) ?_
  refine Conv.bind_ok (m := fun _ => getVar p) (fun _ => getVar_isVar h h2) ?_
  refine Conv.bind_ok (m := fun _ => M.deref v.val .uninit) (fun _ => (deref_ok_iff ..).2 ⟨h3, rfl⟩) ?_
  exact Conv.bind (m := fun _ => incref c) ((conv_incref h (h2.val h h3).1).mono fun _ s' hq => Conv.pure ⟨rfl, hq⟩)

theorem ev_ident {x : Bytes} {v : Val} (hv : ρ.lookup x = some v) : Ev w L ρ (.ident x) v [] := by
  refine Ev.idle fun C P T X r0 st s hs hst => ?_
  obtain ⟨c, h1, h2⟩ := hs.sees x v hv
  refine Conv.bind (m := fun _ => evalIdent x) ((conv_ident hs.wf hst h1).mono fun c' s' ⟨hc, _, hi⟩ => Conv.pure ⟨c', rfl, ?_, hi⟩)
  rw [hc]
  exact hi.toPast.was h2

/-! ## Operators -/

theorem ev_paren {e : Expr} {v : Val} {q : List Ask} (h : Ev w L ρ e v q) : Ev w L ρ (.paren e) v q := by
  intro C P T X r0 st s hs hst
  refine conv_value (e := .paren e) ?_
  obtain ⟨N, c, s', h1, hq⟩ := h hs hst
  obtain ⟨r, s1, h2, h3⟩ := (bind_ok_iff ..).1 (h1 N (Nat.le_refl _))
  obtain ⟨hc, rfl⟩ := (deref_ok_iff ..).1 h3
  have hne : (interp w N).eval .keep e s ≠ .timeout := by rw [h2]; exact fun h => nomatch h
  refine ⟨N, r, s', fun n hn => ?_, c, hc, hq⟩
  exact (((further_le w hn).eval .keep e s).resolve_left hne).symm.trans h2

theorem Was.not_str {v : Val} {c : Nat} (h : s.Was v c) (hw : Wf L C P T s) (hl : Live s c) : s.Shows v c := hw.shows h fun _ => hl

theorem plain_of_shows (hw : Wf L C P T s) {v : Val} {c : Nat} (h : s.Shows v c) (hl : Live s c) : v.Plain := by
  cases v with
  | str b =>
    obtain ⟨buf, full, ⟨y, hy, hd⟩, h2, h3⟩ := h
    obtain ⟨x, hx, hr⟩ := hl
    cases hx.symm.trans hy
    obtain ⟨t, ht, _, h0⟩ := hw.str hx hd hr
    rw [h2] at ht
    cases ht
    obtain ⟨r, rfl⟩ := h3
    rw [List.take_left] at h0
    exact h0
  | _ => trivial

theorem conv_un {op : UnOp} {u v : Val} (h : UnVal op u v) {x : Cell} {c : Nat} (hx : s.cells[c]? = some x) (hu : s.Was u c) :
    Conv (fun _ => applyUn op x.data) s fun c s' => s'.Was v c ∧ Idle s s' := by
  cases h with
  | @neg i hi =>
    rw [(⟨x, hx, rfl⟩ : s.Holds c x.data) |> fun h => holds_unique h hu]
    unfold applyUn
    dsimp only
    rw [if_pos ((fits_iff _).2 ⟨hi.1, by have := hi.2; omega⟩)]
    exact conv_alloc _ fun _ h => h
  | not =>
    rw [(⟨x, hx, rfl⟩ : s.Holds c x.data) |> fun h => holds_unique h hu]
    exact conv_alloc _ fun _ h => h

theorem conv_eq (w : World) {l r : Nat} {u v : Val} (hu : s.Shows u l) (hv : s.Shows v r) (pu : u.Proper) (pv : v.Proper) :
    Conv (fun n => (interp w n).eq l r) s fun b s' => s' = s ∧ (b = true ↔ u.Same v) := by
  obtain ⟨b, h1, h2⟩ := C48_structure w (u.depth + 1) (Nat.lt_succ_self _) pu pv hu hv
  refine ⟨u.depth + 1, b, s, fun n hn => ?_, rfl, h2⟩
  obtain ⟨b', h3, h4⟩ := C48_structure w n (by omega) pu pv hu hv
  exact h3.trans (by rw [Bool.eq_iff_iff.2 (h4.trans h2.symm)])

theorem conv_equality {l r : Nat} {u v : Val} (hu : s.Shows u l) (hv : s.Shows v r) (pu : u.Proper) (pv : v.Proper) (d : Data) :
    (∀ b : Bool, (b = true ↔ u.Same v) → Conv (fun n => equality (interp w n) .eq d l r) s fun c s' => s'.Was (.bool b) c ∧ Idle s s') ∧
    ∀ b : Bool, (b = true ↔ ¬ u.Same v) → Conv (fun n => equality (interp w n) .ne d l r) s fun c s' => s'.Was (.bool b) c ∧ Idle s s' := by
  have he := conv_eq w hu hv pu pv
  refine ⟨fun b hb => Conv.bind (he.mono fun b' s1 ⟨h1, h2⟩ => ?_), fun b hb => Conv.bind (he.mono fun b' s1 ⟨h1, h2⟩ => ?_)⟩
  · subst h1
    rw [Bool.eq_iff_iff.2 (h2.trans hb.symm)]
    exact conv_alloc _ fun _ h => h
  · subst h1
    have : (!b') = b := by
      rw [Bool.eq_iff_iff, hb, ← h2]
      simp
    show Conv (fun _ => alloc (.bool !b')) _ _
    rw [this]
    exact conv_alloc _ fun _ h => h

theorem showsAll_append {xs ys : List Nat} : ∀ {us vs : List Val}, s.ShowsAll us xs → s.ShowsAll vs ys → s.ShowsAll (us ++ vs) (xs ++ ys) := by
  induction xs with
  | nil =>
    intro us vs h1 h2
    cases us with
    | nil => exact h2
    | cons => exact h1.elim
  | cons x xs ih =>
    intro us vs h1 h2
    cases us with
    | nil => exact h1.elim
    | cons u us => exact ⟨h1.1, ih h1.2 h2⟩

theorem showsItems_append {xs ys : List (Nat × Nat)} : ∀ {us vs : List (Val × Val)}, s.ShowsItems us xs → s.ShowsItems vs ys → s.ShowsItems (us ++ vs) (xs ++ ys) := by
  induction xs with
  | nil =>
    intro us vs h1 h2
    cases us with
    | nil => exact h2
    | cons => exact h1.elim
  | cons x xs ih =>
    intro us vs h1 h2
    cases us with
    | nil => exact h1.elim
    | cons u us => exact ⟨h1.1, h1.2.1, ih h1.2.2 h2⟩

theorem plain_all (hw : Wf L C P T s) : ∀ {vs : List Val} {es : List Nat}, s.ShowsAll vs es → (∀ e ∈ es, Live s e) → ∀ v ∈ vs, v.Plain
  | [], [], _, _, _, hv => nomatch hv
  | [], _ :: _, h, _, _, _ => h.elim
  | _ :: _, [], h, _, _, _ => h.elim
  | v :: vs, e :: es, h, hl, u, hu => by
    rcases List.mem_cons.1 hu with rfl | hu
    · exact plain_of_shows hw h.1 (hl e List.mem_cons_self)
    · exact plain_all hw h.2 (fun e he => hl e (List.mem_cons_of_mem _ he)) u hu

theorem plain_items (hw : Wf L C P T s) : ∀ {vs : List (Val × Val)} {es : List (Nat × Nat)}, s.ShowsItems vs es → (∀ e ∈ es, Live s e.1 ∧ Live s e.2) → ∀ v ∈ vs, v.1.Plain ∧ v.2.Plain
  | [], [], _, _, _, hv => nomatch hv
  | [], _ :: _, h, _, _, _ => h.elim
  | _ :: _, [], h, _, _, _ => h.elim
  | (k, v) :: vs, e :: es, h, hl, u, hu => by
    rcases List.mem_cons.1 hu with rfl | hu
    · exact ⟨plain_of_shows hw h.1 (hl e List.mem_cons_self).1, plain_of_shows hw h.2.1 (hl e List.mem_cons_self).2⟩
    · exact plain_items hw h.2.2 (fun e he => hl e (List.mem_cons_of_mem _ he)) u hu

theorem Word.fits {i : Int} (h : Word i) : fits i = true := (fits_iff i).2 ⟨h.1, by have := h.2; omega⟩

theorem conv_bin {op : BinOp} {u v x : Val} (hb : BinVal op u v x) (hw : Wf L C P T s) {l r : Nat} {cl cr : Cell} (hl : s.cells[l]? = some cl) (hr : s.cells[r]? = some cr)
    (hu : s.Shows u l) (hv : s.Shows v r) : Conv (fun n => applyBin w (interp w n) op l r cl.data cr.data) s fun c s' => s'.Was x c ∧ Idle s s' := by
  have hdl : ∀ {d : Data}, s.Holds l d → cl.data = d := fun h => holds_unique ⟨cl, hl, rfl⟩ h
  have hdr : ∀ {d : Data}, s.Holds r d → cr.data = d := fun h => holds_unique ⟨cr, hr, rfl⟩ h
  have hint : ∀ {op : BinOp} {a b i : Int}, s.Shows (.int a) l → s.Shows (.int b) r → intOp w.pow op a b = .int i →
      Conv (fun n => applyBin w (interp w n) op l r cl.data cr.data) s fun c s' => s'.Was (.int i) c ∧ Idle s s' := by
    intro op a b i h1 h2 h3
    rw [hdl h1, hdr h2]
    show Conv (fun _ => opResult op _ (intOp w.pow op a b)) _ _
    rw [h3]
    exact conv_alloc _ fun _ h => h
  have hintb : ∀ {op : BinOp} {a b : Int} {i : Bool}, s.Shows (.int a) l → s.Shows (.int b) r → intOp w.pow op a b = .bool i →
      Conv (fun n => applyBin w (interp w n) op l r cl.data cr.data) s fun c s' => s'.Was (.bool i) c ∧ Idle s s' := by
    intro op a b i h1 h2 h3
    rw [hdl h1, hdr h2]
    show Conv (fun _ => opResult op _ (intOp w.pow op a b)) _ _
    rw [h3]
    exact conv_alloc _ fun _ h => h
  have hbool : ∀ {op : BinOp} {a b i : Bool}, s.Shows (.bool a) l → s.Shows (.bool b) r → boolOp op a b = .bool i →
      Conv (fun n => applyBin w (interp w n) op l r cl.data cr.data) s fun c s' => s'.Was (.bool i) c ∧ Idle s s' := by
    intro op a b i h1 h2 h3
    rw [hdl h1, hdr h2]
    show Conv (fun _ => opResult op _ (boolOp op a b)) _ _
    rw [h3]
    exact conv_alloc _ fun _ h => h
  have hnone : cl.data.kind = .none ∨ cr.data.kind = .none → (∀ b : Bool, b = (cl.data.kind == cr.data.kind) → Conv (fun n => applyBin w (interp w n) .eq l r cl.data cr.data) s fun c s' => s'.Was (.bool b) c ∧ Idle s s') ∧
      ∀ b : Bool, b = (cl.data.kind != cr.data.kind) → Conv (fun n => applyBin w (interp w n) .ne l r cl.data cr.data) s fun c s' => s'.Was (.bool b) c ∧ Idle s s' := by
    intro hk
    unfold applyBin
    simp only [if_pos hk]
    exact ⟨fun b hb => hb ▸ conv_alloc _ fun _ h => h, fun b hb => hb ▸ conv_alloc _ fun _ h => h⟩
  have hkl : cl.data.kind = u.kind := by
    obtain ⟨d, h1, h2⟩ := shows_kind hu
    rw [hdl h1, h2]
  have hkr : cr.data.kind = v.kind := by
    obtain ⟨d, h1, h2⟩ := shows_kind hv
    rw [hdr h1, h2]
  cases hb with
  | add h => exact hint hu hv (if_pos h.fits)
  | sub h => exact hint hu hv (if_pos h.fits)
  | mul h => exact hint hu hv (if_pos h.fits)
  | div h0 h => exact hint hu hv ((if_neg h0).trans (if_pos h.fits))
  | mod h0 h => exact hint hu hv ((if_neg h0).trans (if_pos h.fits))
  | lt => exact hintb hu hv rfl
  | le => exact hintb hu hv rfl
  | gt => exact hintb hu hv rfl
  | ge => exact hintb hu hv rfl
  | and => exact hbool hu hv rfl
  | or => exact hbool hu hv rfl
  | xor => exact hbool hu hv rfl
  | @eq _ _ b hk pu pv hb =>
    cases u with
    | none =>
      cases v <;> try cases hk
      refine (hnone (.inl hkl)).1 b ?_
      rw [hkl, hkr, hb.2 .none]
      rfl
    | bool a =>
      cases v <;> try cases hk
      refine hbool hu hv (congrArg OpRes.bool (Bool.eq_iff_iff.2 (Iff.trans ?_ hb.symm)))
      rw [beq_iff_eq]
      exact ⟨fun h => h ▸ .bool a, fun h => by cases h; rfl⟩
    | int a =>
      cases v <;> try cases hk
      refine hintb hu hv (congrArg OpRes.bool (Bool.eq_iff_iff.2 (Iff.trans ?_ hb.symm)))
      rw [beq_iff_eq]
      exact ⟨fun h => h ▸ .int a, fun h => by cases h; rfl⟩
    | str a =>
      cases v <;> try cases hk
      have h1 := hu; have h2 := hv
      obtain ⟨z, f, h3, _⟩ := h1
      obtain ⟨_, _, h4, _⟩ := h2
      rw [hdl h3, hdr h4]
      exact (conv_equality hu hv pu pv (.str z a.length)).1 b hb
    | vec a =>
      cases v <;> try cases hk
      have h1 := hu; have h2 := hv
      obtain ⟨z, h3, _⟩ := h1
      obtain ⟨_, h4, _⟩ := h2
      rw [hdl h3, hdr h4]
      exact (conv_equality hu hv pu pv (.vec z)).1 b hb
    | map a =>
      cases v <;> try cases hk
      have h1 := hu; have h2 := hv
      obtain ⟨z, h3, _⟩ := h1
      obtain ⟨_, h4, _⟩ := h2
      rw [hdl h3, hdr h4]
      exact (conv_equality hu hv pu pv (.map z)).1 b hb
  | @ne _ _ b hk pu pv hb =>
    cases u with
    | none =>
      cases v <;> try cases hk
      refine (hnone (.inl hkl)).2 b ?_
      rw [hkl, hkr]
      cases b
      · rfl
      · exact absurd .none (hb.1 rfl)
    | bool a =>
      cases v <;> try cases hk
      refine hbool hu hv (congrArg OpRes.bool (Bool.eq_iff_iff.2 (Iff.trans ?_ hb.symm)))
      rw [bne_iff_ne]
      exact not_congr ⟨fun h => h ▸ .bool a, fun h => by cases h; rfl⟩
    | int a =>
      cases v <;> try cases hk
      refine hintb hu hv (congrArg OpRes.bool (Bool.eq_iff_iff.2 (Iff.trans ?_ hb.symm)))
      rw [bne_iff_ne]
      exact not_congr ⟨fun h => h ▸ .int a, fun h => by cases h; rfl⟩
    | str a =>
      cases v <;> try cases hk
      have h1 := hu; have h2 := hv
      obtain ⟨z, f, h3, _⟩ := h1
      obtain ⟨_, _, h4, _⟩ := h2
      rw [hdl h3, hdr h4]
      exact (conv_equality hu hv pu pv (.str z a.length)).2 b hb
    | vec a =>
      cases v <;> try cases hk
      have h1 := hu; have h2 := hv
      obtain ⟨z, h3, _⟩ := h1
      obtain ⟨_, h4, _⟩ := h2
      rw [hdl h3, hdr h4]
      exact (conv_equality hu hv pu pv (.vec z)).2 b hb
    | map a =>
      cases v <;> try cases hk
      have h1 := hu; have h2 := hv
      obtain ⟨z, h3, _⟩ := h1
      obtain ⟨_, h4, _⟩ := h2
      rw [hdl h3, hdr h4]
      exact (conv_equality hu hv pu pv (.map z)).2 b hb
  | eqNone h =>
    refine (hnone (by rw [hkl, hkr]; exact h)).1 _ ?_
    rw [hkl, hkr, Bool.eq_iff_iff]
    simp
  | neNone h =>
    refine (hnone (by rw [hkl, hkr]; exact h)).2 _ ?_
    rw [hkl, hkr, Bool.eq_iff_iff]
    simp
  | cat =>
    obtain ⟨b1, f1, h1, h2, h3⟩ := hu
    obtain ⟨b2, f2, h4, h5, h6⟩ := hv
    rw [hdl h1, hdr h4]
    exact Conv.bind_ok (m := fun _ => readBuf b1 _) (fun _ => readBuf_some h2 h3) (Conv.bind_ok (m := fun _ => readBuf b2 _) (fun _ => readBuf_some h5 h6) (conv_allocStr _))
  | vecs =>
    obtain ⟨xs, h1, h2⟩ := hu
    obtain ⟨ys, h3, h4⟩ := hv
    have e1 := hdl h1
    have e2 := hdr h3
    obtain ⟨as, s1, g1, g2, g3, _, _, gn⟩ := copies_show h2 (plain_all hw h2 fun e he => hw.live_elem ⟨l, cl, hl, by rw [e1]; exact he⟩) fun _ x _ => hw.nameKept x
    obtain ⟨bs, s2, k1, k2, k3, _⟩ := copies_show (g3.showsAll h4) (plain_all hw h4 fun e he => hw.live_elem ⟨r, cr, hr, by rw [e2]; exact he⟩) gn
    rw [e1, e2]
    refine Conv.bind_ok (m := fun _ => each valCopy xs) (fun _ => g1) (Conv.bind_ok (m := fun _ => each valCopy ys) (fun _ => k1) ?_)
    have hi := ((keeps_each trnIdle i_valCopy xs).out g1).trans ((keeps_each trnIdle i_valCopy ys).out k1)
    refine (conv_alloc (s := s2) (v := .vec _) (.vec (as ++ bs)) fun hi' hh => ?_).mono fun c s3 ⟨q1, q2⟩ => ⟨q1, hi.trans q2⟩
    exact ⟨_, hh, hi'.toPast.wasAll (ShowsAll.was (showsAll_append (k3.showsAll g2) k2))⟩
  | maps =>
    obtain ⟨xs, h1, h2⟩ := hu
    obtain ⟨ys, h3, h4⟩ := hv
    have e1 := hdl h1
    have e2 := hdr h3
    obtain ⟨as, s1, g1, g2, g3, _, gn⟩ := entries_show h2 (plain_items hw h2 fun e he => ⟨hw.live_elem ⟨l, cl, hl, by rw [e1]; exact (mem_parts_map he).1⟩, hw.live_elem ⟨l, cl, hl, by rw [e1]; exact (mem_parts_map he).2⟩⟩) fun _ x _ => hw.nameKept x
    obtain ⟨bs, s2, k1, k2, k3, _⟩ := entries_show (g3.showsItems h4) (plain_items hw h4 fun e he => ⟨hw.live_elem ⟨r, cr, hr, by rw [e2]; exact (mem_parts_map he).1⟩, hw.live_elem ⟨r, cr, hr, by rw [e2]; exact (mem_parts_map he).2⟩⟩) gn
    have hce : ∀ e, Keeps Idle (copyEntry e) := fun e => keeps_bind trnIdle (i_valCopy _) fun _ => keeps_bind trnIdle (i_valCopy _) fun _ => keeps_pure trnIdle _
    rw [e1, e2]
    refine Conv.bind_ok (m := fun _ => each copyEntry xs) (fun _ => g1) (Conv.bind_ok (m := fun _ => each copyEntry ys) (fun _ => k1) ?_)
    have hi := ((keeps_each trnIdle hce xs).out g1).trans ((keeps_each trnIdle hce ys).out k1)
    refine (conv_alloc (s := s2) (v := .map _) (.map (as ++ bs)) fun hi' hh => ?_).mono fun c s3 ⟨q1, q2⟩ => ⟨q1, hi.trans q2⟩
    exact ⟨_, hh, hi'.toPast.wasItems (ShowsItems.was (showsItems_append (k3.showsItems g2) k2))⟩

theorem ev_un (hW : w.Ok L) {op : UnOp} {e : Expr} {u v : Val} {q : List Ask} (hok : (Expr.un op e).ok L false = true) (h : Ev w L ρ e u q) (hv : UnVal op u v) : Ev w L ρ (.un op e) v q := by
  intro C P T X r0 st s hs hst
  unfold Expr.ok at hok
  simp only [ok_and] at hok
  refine conv_value (Conv.bind ((h.own hW hok.1 ((isOwn_iff e).1 hok.2).2 hs hst).mono fun c s1 ⟨h1, hq⟩ => ?_))
  obtain ⟨x, hx, hl⟩ := hq.scene.wf.live_T (c := c) List.mem_cons_self
  refine Conv.bind_ok (m := fun _ => getCell c) (fun _ => (getCell_ok_iff ..).2 ⟨hx, rfl⟩) ?_
  refine Conv.bind_ok (m := fun _ => checkDest .keep) (fun _ => rfl) ?_
  refine Conv.bind (m := fun _ => applyUn op x.data) (((conv_un hv hx h1).of_safe (safe_applyUn hq.scene.wf op x.data)).mono fun c2 s2 ⟨⟨h2, h3⟩, h4, _⟩ => ?_)
  refine Conv.bind ((conv_dec (h4.perm (List.Perm.swap c2 c T)) w).mono fun _ s3 ⟨h5, h6⟩ => Conv.pure ⟨c2, rfl, h6.toPast.was h2, ?_⟩)
  have hi := h3.trans h6
  exact ⟨hq.stays.trans hi.toStays, hq.scene.amb.idle hi⟩

theorem ev_bin (hW : w.Ok L) {op : BinOp} {e₁ e₂ : Expr} {u v x : Val} {q₁ q₂ : List Ask} (hok : (Expr.bin op e₁ e₂).ok L false = true) (h1 : Ev w L ρ e₁ u q₁) (h2 : Ev w L ρ e₂ v q₂) (hv : BinVal op u v x) :
    Ev w L ρ (.bin op e₁ e₂) x (q₁ ++ q₂) := by
  intro C P T X r0 st s hs hst
  unfold Expr.ok at hok
  simp only [ok_and] at hok
  obtain ⟨⟨⟨hl, hlo⟩, hr'⟩, hro⟩ := hok
  refine conv_value (Conv.bind ((h1.own hW hl ((isOwn_iff e₁).1 hlo).2 hs hst).mono fun cl s1 ⟨a1, b1⟩ => ?_))
  refine Conv.bind ((h2.own hW hr' ((isOwn_iff e₂).1 hro).2 b1.scene b1.stack).mono fun cr s2 ⟨a2, b2⟩ => ?_)
  have hw2 := b2.scene.wf
  have hll := hw2.live_T (c := cl) (List.mem_cons_of_mem _ List.mem_cons_self)
  have hrr := hw2.live_T (c := cr) List.mem_cons_self
  have hsl := hw2.shows (b2.stays.toPast.was a1) fun _ => hll
  have hsr := hw2.shows a2 fun _ => hrr
  obtain ⟨xl, hxl, hxll⟩ := hll
  obtain ⟨xr, hxr, hxrr⟩ := hrr
  refine Conv.bind_ok (m := fun _ => getCell cl) (fun _ => (getCell_ok_iff ..).2 ⟨hxl, rfl⟩) ?_
  refine Conv.bind_ok (m := fun _ => getCell cr) (fun _ => (getCell_ok_iff ..).2 ⟨hxr, rfl⟩) ?_
  have hkl : xl.data.kind = u.kind := by
    obtain ⟨d, g1, g2⟩ := shows_kind hsl
    rw [holds_unique ⟨xl, hxl, rfl⟩ g1, g2]
  have hkr : xr.data.kind = v.kind := by
    obtain ⟨d, g1, g2⟩ := shows_kind hsr
    rw [holds_unique ⟨xr, hxr, rfl⟩ g1, g2]
  have hkind : ¬ (xl.data.kind ≠ xr.data.kind ∧ xl.data.kind ≠ .none ∧ xr.data.kind ≠ .none) := by
    rw [hkl, hkr]
    rintro ⟨g1, g2, g3⟩
    cases hv <;> first | exact g1 rfl | exact g1 (by assumption) | (rename_i h; exact h.elim g2 g3)
  simp only [if_neg hkind]
  refine Conv.bind_ok (m := fun _ => checkDest .keep) (fun _ => rfl) ?_
  refine Conv.bind (((conv_bin hv hw2 hxl hxr hsl hsr).safe fun n => safe_applyBin w n hw2 op hxl hxr hxll hxrr).mono fun c3 s3 ⟨⟨g1, g2⟩, g3, _⟩ => ?_)
  have hw3' : Wf L C P (cl :: cr :: c3 :: T) s3 := g3.perm
    ((List.perm_append_comm (l₁ := [cl, cr]) (l₂ := [c3])).append_right T |>.trans ((List.Perm.swap cr cl T).cons c3))
  refine Conv.bind ((conv_dec hw3' w).mono fun _ s4 ⟨k1, k2⟩ => Conv.bind ((conv_dec k1 w).mono fun _ s5 ⟨m1, m2⟩ => Conv.pure ⟨c3, rfl, m2.toPast.was (k2.toPast.was g1), ?_⟩))
  have hi := (g2.trans k2).trans m2
  refine ⟨(b1.stays.trans b2.stays).trans hi.toStays, ?_⟩
  rw [← List.append_assoc]
  exact b2.scene.amb.idle hi

end

end Bob.Fl
