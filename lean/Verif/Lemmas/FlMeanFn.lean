import Verif.Lemmas.FlMeanCall
/-!
# `map` and `where` do what the description says
-/

namespace Bob.Fl

section
variable {L : Discipline} {C P T : List Nat} {s s' : St} {w : World} {X : List Nat} {r : List Ask} {st : List Nat} {ρ : Names}

/-! ## Functions `|x| b` -/

/-- The function `|x| b` made where `st` is seen. -/
def LamAt (st : List Nat) (x : Bytes) (b : Expr) (c : Nat) (s : St) : Prop := ∃ bd e, s.Holds c (.fn { kind := .function, body := some bd, params := [x], env := some e }) ∧ s.envs[e]? = some st ∧ e ≠ s.eng.env ∧
  (s.bodies[bd]? = some (some (.expr b)) ∨ s.bodies[bd]? = some none)

theorem LamAt.past {x : Bytes} {b : Expr} {c : Nat} (h : LamAt st x b c s) (hp : Past s s') (he : s'.eng.env = s.eng.env) (ho : ∀ j st, j ≠ s.eng.env → s.envs[j]? = some st → s'.envs[j]? = some st) : LamAt st x b c s' := by
  obtain ⟨bd, e, h1, h2, h3, h4⟩ := h
  refine ⟨bd, e, hp.holds h1, ho e st h3 h2, by rw [he]; exact h3, ?_⟩
  rcases h4 with h4 | h4
  · exact hp.bodies bd _ h4
  · rcases hp.bodies bd _ h4 with h | h <;> exact .inr h

theorem LamAt.plain {x : Bytes} {b : Expr} {c : Nat} (h : LamAt st x b c s) : Plain s.cells c ∧ ∃ y, s.cells[c]? = some y ∧ ¬ y.data.Named := by
  obtain ⟨bd, e, ⟨y, hy, hd⟩, _⟩ := h
  refine ⟨⟨y, hy, by rw [hd]; exact .inl rfl⟩, y, hy, ?_⟩
  rw [hd]
  exact fun h => by rcases h with h | h <;> cases h

theorem conv_lambda {x : Bytes} {b : Expr} {r0 : List Ask} (hs : Scene w L C P T X r0 st ρ s) (hst : s.Stack st) :
    Conv (fun n => each (interp w n).value [.lambda [x] (.expr b)]) s fun cs s' => (∃ c, cs = [c] ∧ LamAt st x b c s') ∧ (∀ c ∈ cs, ∀ x, s'.cells[c]? = some x → ¬ x.data.Named) ∧ Stays s s' ∧ Amb w L X (r0 ++ []) s' := by
  have hlt := lt_of_get hst
  have h1 : closeOver s = .ok s.envs.length { s with envs := s.envs ++ [st] } := closeOver_stack hst
  have h2 : evalLambda [x] (.expr b) s = .ok s.cells.length { s with envs := s.envs ++ [st], bodies := s.bodies ++ [some (.expr b)], cells := s.cells ++ [{ data := .fn { kind := .function, body := some s.bodies.length, params := [x], env := some s.envs.length } }] } := by
    unfold evalLambda
    rw [bind_of_ok h1]
    rfl
  have hi := (i_evalLambda _ _).out h2
  refine Conv.bind (m := fun n => (interp w n).value (.lambda [x] (.expr b))) (conv_value ?_)
  refine Conv.bind_ok (m := fun _ => checkDest .keep) (fun _ => rfl) (Conv.bind_ok (m := fun _ => evalLambda [x] (.expr b)) (fun _ => h2) (Conv.pure ⟨_, rfl, ?_⟩))
  have hl : LamAt st x b s.cells.length { s with envs := s.envs ++ [st], bodies := s.bodies ++ [some (.expr b)], cells := s.cells ++ [{ data := .fn { kind := .function, body := some s.bodies.length, params := [x], env := some s.envs.length } }] } :=
    ⟨s.bodies.length, s.envs.length, ⟨_, List.getElem?_concat_length, rfl⟩, List.getElem?_concat_length, Nat.ne_of_gt hlt, .inl List.getElem?_concat_length⟩
  refine Conv.bind_ok (m := fun _ => pure []) (fun _ => rfl) (Conv.pure ⟨⟨_, rfl, hl⟩, fun c hc y hy => ?_, hi.toStays, ?_⟩)
  · cases List.mem_singleton.1 hc
    obtain ⟨_, z, hz, hn⟩ := hl.plain
    cases hz.symm.trans hy
    exact hn
  · rw [List.append_nil]
    exact hs.amb.idle hi

theorem findKeyIdx_one {x y : Bytes} {c : Nat} : findKeyIdx y [{ key := x, val := some c }] = if y = x then some 0 else none := by
  unfold findKeyIdx
  by_cases h : y = x
  · subst h; simp
  · simp [h, Ne.symm h, findKeyIdx]

/-- The names seen inside. -/
theorem Sees.push {i : Nat} {x : Bytes} {v : Val} {c : Nat} {y : Scope} (h : Sees s st ρ) (hi : s.scopes[i]? = some y) (hy : y.vars = [{ key := x, val := some c }]) (hc : s.Was v c) : Sees s (i :: st) ((x, v) :: ρ) := by
  intro z u hz
  by_cases hzx : z = x
  · subst hzx
    rw [List.lookup_cons_self] at hz
    cases hz
    refine ⟨c, ⟨y, hi, .inl ⟨0, _, ?_, by rw [hy]; rfl, rfl⟩⟩, hc⟩
    rw [hy, findKeyIdx_one, if_pos rfl]
  · rw [List.lookup_cons, beq_false_of_ne hzx] at hz
    obtain ⟨c', h1, h2⟩ := h z u hz
    refine ⟨c', ⟨y, hi, .inr ⟨?_, h1⟩⟩, h2⟩
    rw [hy, findKeyIdx_one, if_neg hzx]

theorem BobIn.push {i : Nat} {x : Bytes} {c : Nat} {y : Scope} (h : BobIn s st) (hi : s.scopes[i]? = some y) (hy : y.vars = [{ key := x, val := some c }]) (hx : x ∉ bobClasses) : BobIn s (i :: st) := by
  obtain ⟨fs, cc, lk, h1, h2, h3, h4⟩ := h
  have hf : ∀ {z : Bytes} {d : Nat}, z ∈ bobClasses → Finds s.scopes z st d → Finds s.scopes z (i :: st) d := by
    intro z d hz hd
    refine ⟨y, hi, .inr ⟨?_, hd⟩⟩
    rw [hy, findKeyIdx_one, if_neg]
    rintro rfl
    exact hx hz
  exact ⟨fs, cc, lk, h1, hf (by simp [bobClasses]) h2, hf (by simp [bobClasses]) h3, hf (by simp [bobClasses]) h4⟩

/-- Evaluation of the body of a function. -/
theorem conv_eval {e : Expr} {Q : Nat → St → Prop} (h : Conv (fun n => (interp w n).value e) s Q) : Conv (fun n => (interp w n).eval .keep e) s fun r s' => ∃ c, r.val = some c ∧ Q c s' := by
  obtain ⟨N, c, s', h1, hq⟩ := h
  obtain ⟨r, s1, h2, h3⟩ := (bind_ok_iff ..).1 (h1 N (Nat.le_refl _))
  obtain ⟨hc, rfl⟩ := (deref_ok_iff ..).1 h3
  have hne : (interp w N).eval .keep e s ≠ .timeout := by rw [h2]; exact fun h => nomatch h
  exact ⟨N, r, s', fun n hn => (((further_le w hn).eval .keep e s).resolve_left hne).symm.trans h2, c, hc, hq⟩

/-- Calling such a function. -/
theorem conv_lamCall (hW : w.Ok L) {x : Bytes} {b : Expr} {v u : Val} {q r0 : List Ask} {f e : Nat} (hb : Ev w L ((x, v) :: ρ) b u q) (hx : x ∉ bobClasses) (hs : Scene w L C P T X r0 st ρ s) (hf : f ∈ P)
    (hl : LamAt st x b f s) (he : Elem s.cells e) (hv : s.Was v e) :
    Conv (fun n => (interp w n).call f none .keep [e]) s fun o s' => ∃ c, o = some c ∧ s'.Was u c ∧ Wf L C (c :: P) T s' ∧ Wf L C P T s' ∧ Stays s s' ∧ Amb w L X (r0 ++ q) s' ∧ Quit s s' := by
  have hp := hl.plain.1
  obtain ⟨bd, en, hh, h2, h3, h4⟩ := hl
  have hw1 : Wf L C (e :: P) T s := hs.wf.pinned (.inl (.inr (.inl he)))
  have hc := callOk_elem hf hp hh (hs.wf.shape.elem he)
  have hgo : Conv (fun n => (interp w n).call f none .keep [e]) s fun o s' => ∃ c, o = some c ∧ s'.Was u c ∧ Stays s s' ∧ Amb w L X (r0 ++ q) s' := by
    obtain ⟨s0, hI⟩ := inside hW hw1 hc (inst := none) rfl (st := st) h2 (.inr ⟨fun p h => (nomatch h), rfl, rfl⟩) fun c hc' y hy => by
      cases List.mem_singleton.1 hc'
      obtain ⟨z, hz, _, _, hn⟩ := Was.data hv
      cases hz.symm.trans hy
      exact hn
    have hr0 : s0.eng.rv = .none := by rw [hI.entered.eng]; exact hs.rv
    have hs0 := hs.stays hI.idle.toStays hI.wf hr0 (hs.amb.idle hI.idle)
    have hsc : s0.scopes[s.scopes.length]? = some { vars := [{ key := x, val := some e }], cls := false } := by
      rw [hI.entered.scopes]
      exact List.getElem?_concat_length
    have hin : Scene w L C (e :: P) T X r0 (s.scopes.length :: st) ((x, v) :: ρ) s0 :=
      ⟨hI.wf, hr0, hs0.sees.push hsc rfl (hI.idle.toPast.was hv), hs0.bob.push hsc rfl hx, hs0.amb⟩
    refine hI.run ?_
    unfold runBody
    dsimp only
    obtain ⟨y, hy, hyd⟩ := hI.ok.fn
    have hbody : s0.bodies[bd]? = some (some (.expr b)) := by
      obtain ⟨z, hz, hzl⟩ := hI.wf.live_P (c := f) (List.mem_cons_of_mem _ hf)
      cases hy.symm.trans hz
      obtain ⟨t, ht, _⟩ := (hI.wf.mem.body f y _ bd hy hyd rfl).2 hzl
      rw [hI.entered.bodies] at ht ⊢
      rcases h4 with h4 | h4
      · exact h4
      · rw [h4] at ht
        cases ht
    refine Conv.bind_ok (m := fun _ => getBody (some bd)) (a := .expr b) (s1 := s0) (fun _ => ?_) ?_
    · unfold getBody
      rw [bind_of_ok ((deref_ok_iff ..).2 ⟨rfl, rfl⟩), bind_of_ok (get_apply s0), hbody]
      rfl
    dsimp only
    refine Conv.bind_ok (m := fun _ => M.assert _) (fun _ => rfl) ?_
    refine Conv.bind (m := fun n => (interp w n).eval .keep b) ((conv_eval (hb hin hI.entered.stack)).mono fun r s1 ⟨c, g1, g2, g3, g4⟩ => Conv.pure ?_)
    have hi1 : Idle s1 (s.left st s1) := Idle.left st s s1
    refine Conv.bind_ok (m := fun _ => setRv .none) (fun _ => setRv_apply ..) (Conv.pure ?_)
    have hi2 := hi1.trans ((i_setRv .none).out (setRv_apply .none (s.left st s1)))
    exact ⟨c, g1, hi2.toPast.was g2, (hI.idle.toStays.trans g3).trans hi2.toStays, g4.idle hi2⟩
  refine (hgo.safe fun n => (safeX hW n).toSafeE.call .keep hc hw1 hs.rv).mono fun o s1 ⟨⟨c, g1, g2, g3, g4⟩, hcl, hq⟩ => ⟨c, g1, g2, ?_, ?_, g3, g4, hq⟩
  all_goals
    have hwf := hcl.wf
    rw [if_neg (fun h => nomatch h), g1] at hwf
  · exact (Wf.keep (T := T) hwf).subP fun c' hc' => (List.mem_cons.1 hc').elim (fun h => h ▸ List.mem_cons_self) fun h => List.mem_cons_of_mem _ (List.mem_cons_of_mem _ h)
  · exact (Wf.drop1 (c := c) hwf).subP fun c' hc' => List.mem_cons_of_mem _ hc'

/-! ## `map` -/

/-- `b` for each of the values as `x`. -/
inductive EvMaps (w : World) (L : Discipline) (ρ : Names) (x : Bytes) (b : Expr) : List Val → List Val → List Ask → Prop
  | nil : EvMaps w L ρ x b [] [] []
  | cons {v u : Val} {vs us : List Val} {q q' : List Ask} : Ev w L ((x, v) :: ρ) b u q → EvMaps w L ρ x b vs us q' → EvMaps w L ρ x b (v :: vs) (u :: us) (q ++ q')

theorem getVec_holds {c : Nat} {es : List Nat} (h : s.Holds c (.vec es)) : getVec c s = .ok es s := by
  obtain ⟨x, hx, hd⟩ := h
  unfold getVec
  rw [bind_of_ok ((getCell_ok_iff ..).2 ⟨hx, rfl⟩), hd]
  rfl

theorem Quit.lam {x : Bytes} {b : Expr} {c : Nat} (hq : Quit s s') (h : LamAt st x b c s) (hp : Past s s') : LamAt st x b c s' :=
  h.past hp hq.1.env fun j st _ hj => hq.1.envs j st hj

theorem conv_mapLoop (hW : w.Ok L) {x : Bytes} {b : Expr} {f self : Nat} (hx : x ∉ bobClasses) : ∀ {vs us : List Val} {q : List Ask}, EvMaps w L ρ x b vs us q → ∀ {es ds : List Nat} {i : Nat} {P : List Nat} {s : St} {r0 : List Ask},
    s.Holds self (.vec es) → es.drop i = ds → s.WasAll vs ds → f ∈ P → LamAt st x b f s → Scene w L C P T X r0 st ρ s →
    Conv (fun n => mapLoop (interp w n) self f ds.length i) s fun cs s' => s'.WasAll us cs ∧ Stays s s' ∧ Amb w L X (r0 ++ q) s' := by
  intro vs us q h
  induction h with
  | nil =>
    intro es ds i P s r0 hv hd hall hf hl hs
    cases ds with
    | nil => exact Conv.pure ⟨trivial, Stays.refl s, by rw [List.append_nil]; exact hs.amb⟩
    | cons _ _ => exact hall.elim
  | @cons v u vs us q q' hb _ ih =>
    intro es ds i P s r0 hv hd hall hf hl hs
    cases ds with
    | nil => exact hall.elim
    | cons e ds =>
      have hi : es[i]? = some e := by rw [← Nat.add_zero i, ← List.getElem?_drop, hd]; rfl
      have hd' : es.drop (i + 1) = ds := by rw [← List.drop_drop, hd]; rfl
      have hel : Elem s.cells e := by
        obtain ⟨y, hy, hyd⟩ := hv
        exact ⟨self, y, hy, by rw [hyd]; exact List.mem_of_getElem? hi⟩
      refine Conv.bind_ok (m := fun _ => getVec self) (fun _ => getVec_holds hv) (Conv.bind_ok (m := fun _ => M.deref es[i]?) (fun _ => (deref_ok_iff ..).2 ⟨hi, rfl⟩) ?_)
      refine Conv.bind (m := fun n => (interp w n).call f none .keep [e]) ((conv_lamCall hW hb hx hs hf hl hel hall.1).mono fun o s1 ⟨c, g1, g2, g3, _, g4, g5, g6⟩ => ?_)
      rw [g1]
      refine Conv.bind_ok (m := fun _ => M.deref (some c)) (fun _ => rfl) ?_
      refine Conv.bind (m := fun n => mapLoop (interp w n) self f ds.length (i + 1)) ((ih (g4.toPast.holds hv) hd' (g4.toPast.wasAll hall.2) (List.mem_cons_of_mem _ hf) (g6.lam hl g4.toPast) (hs.stays g4 g3 g6.2 g5)).mono
        fun cs s2 ⟨k1, k2, k3⟩ => Conv.pure ⟨⟨k2.toPast.was g2, k1⟩, g4.trans k2, ?_⟩)
      rw [← List.append_assoc]
      exact k3

theorem fnArg_lam {x : Bytes} {b : Expr} {f : Nat} {what : Bytes} (h : LamAt st x b f s) : fnArg what [f] s = .ok f s := by
  obtain ⟨_, _, ⟨y, hy, hyd⟩, _⟩ := h
  unfold fnArg
  dsimp only
  rw [bind_of_ok ((getCell_ok_iff ..).2 ⟨hy, rfl⟩), hyd]
  rfl

theorem ev_each (hW : w.Ok L) {e : Expr} {x : Bytes} {b : Expr} {vs us : List Val} {q₁ q₂ : List Ask} (hok : (Expr.call (.access e b!"map") [.lambda [x] (.expr b)]).ok L false = true) (he : Ev w L ρ e (.vec vs) q₁) (hx : x ∉ bobClasses)
    (hm : EvMaps w L ρ x b vs us q₂) : Ev w L ρ (.call (.access e b!"map") [.lambda [x] (.expr b)]) (.vec us) (q₁ ++ q₂) := by
  rw [← List.append_nil q₁]
  refine ev_member hW hok he (k := 4) (p := .vecMap) rfl rfl (Arg := fun st cs s => ∃ c, cs = [c] ∧ LamAt st x b c s) (fun _ _ _ _ ⟨c, h1, h2⟩ hi he ho => ⟨c, h1, h2.past hi.toPast he fun j st hj hs => by rw [ho j hj]; exact hs⟩)
    (fun C P T X r0 st s hs hst => conv_lambda hs hst) fun C P T X r0 st s a cs hs hv ha hcs ⟨f, hc, hl⟩ => ?_
  subst hc
  obtain ⟨es, hes, hall⟩ := hv
  obtain ⟨y, hy, hyd⟩ := hes
  refine Conv.bind_ok (m := fun _ => M.deref (some a)) (fun _ => rfl) (Conv.bind_ok (m := fun _ => getCell a) (fun _ => (getCell_ok_iff ..).2 ⟨hy, rfl⟩) ?_)
  rw [hyd]
  dsimp only
  refine Conv.bind_ok (m := fun _ => fnArg b!"map" [f]) (fun _ => fnArg_lam hl) ?_
  refine Conv.bind (m := fun n => mapLoop (interp w n) a f es.length 0) ((conv_mapLoop hW hx hm (i := 0) ⟨y, hy, hyd⟩ List.drop_zero hall (hcs f List.mem_cons_self) hl hs).mono fun cs s1 ⟨g1, g2, g3⟩ => ?_)
  exact (conv_alloc (v := .vec us) (.vec cs) fun hi hh => ⟨cs, hh, hi.toPast.wasAll g1⟩).mono fun c s2 ⟨k1, k2⟩ => ⟨k1, g2.trans k2.toStays, g3.idle k2⟩

/-! ## `where` -/

/-- Those of the values for which `b` is true. -/
inductive EvWheres (w : World) (L : Discipline) (ρ : Names) (x : Bytes) (b : Expr) : List Val → List Val → List Ask → Prop
  | nil : EvWheres w L ρ x b [] [] []
  | yes {v : Val} {vs us : List Val} {q q' : List Ask} : Ev w L ((x, v) :: ρ) b (.bool true) q → EvWheres w L ρ x b vs us q' → EvWheres w L ρ x b (v :: vs) (v :: us) (q ++ q')
  | no {v : Val} {vs us : List Val} {q q' : List Ask} : Ev w L ((x, v) :: ρ) b (.bool false) q → EvWheres w L ρ x b vs us q' → EvWheres w L ρ x b (v :: vs) us (q ++ q')

theorem conv_copy (h : Wf L C P T s) {e : Nat} {v : Val} (he : Elem s.cells e) (hv : s.Was v e) : Conv (fun _ => valCopy e) s fun c s' => s'.Was v c ∧ Wf L (c :: C) P T s' ∧ Idle s s' ∧ Quiet s s' := by
  have hl := h.live_elem he
  have hsh := h.shows hv fun _ => hl
  obtain ⟨s1, h1, h2, h3, _⟩ := copy_shows hsh (plain_of_shows h hsh hl) fun _ x _ => h.nameKept x
  obtain ⟨s2, g1, g2, _⟩ := h.valCopy (.inr (.inl he)) (h.shape.elem he)
  rw [h1] at g1
  cases g1
  exact Conv.ok (fun _ => h1) ⟨Shows.was h2, g2, (i_valCopy e).out h1, (q_valCopy e).out h1⟩

theorem conv_filter (hW : w.Ok L) {x : Bytes} {b : Expr} {f self : Nat} (hx : x ∉ bobClasses) : ∀ {vs us : List Val} {q : List Ask}, EvWheres w L ρ x b vs us q → ∀ {es ds : List Nat} {i : Nat} {C : List Nat} {s : St} {r0 : List Ask},
    s.Holds self (.vec es) → es.drop i = ds → s.WasAll vs ds → f ∈ P → LamAt st x b f s → Scene w L C P T X r0 st ρ s →
    Conv (fun n => (interp w n).filter self f i) s fun cs s' => s'.WasAll us cs ∧ Stays s s' ∧ Amb w L X (r0 ++ q) s' := by
  have hstep : ∀ {v : Val} {vs : List Val} {t : Bool} {q : List Ask} {es ds : List Nat} {i : Nat} {C : List Nat} {s : St} {r0 : List Ask} {Q : List Nat → St → Prop}, Ev w L ((x, v) :: ρ) b (.bool t) q → s.Holds self (.vec es) → es.drop i = ds →
      s.WasAll (v :: vs) ds → f ∈ P → LamAt st x b f s → Scene w L C P T X r0 st ρ s →
      (∀ e ds' s1, es[i]? = some e → es.drop (i + 1) = ds' → s1.WasAll vs ds' → s1.Was v e → Elem s1.cells e → s1.Holds self (.vec es) → LamAt st x b f s1 → Scene w L C P T X (r0 ++ q) st ρ s1 → Stays s s1 →
        Conv (fun n => (if t then do
          let c ← valCopy e
          let cs ← (interp w n).filter self f (i + 1)
          pure (c :: cs)
        else (interp w n).filter self f (i + 1) : M (List Nat))) s1 Q) →
      Conv (fun n => (interp w n).filter self f i) s Q := by
    intro v vs t q es ds i C s r0 Q hb hv hd hall hf hl hs hrest
    cases ds with
    | nil => exact hall.elim
    | cons e ds =>
      have hi : es[i]? = some e := by rw [← Nat.add_zero i, ← List.getElem?_drop, hd]; rfl
      have hd' : es.drop (i + 1) = ds := by rw [← List.drop_drop, hd]; rfl
      have hel : Elem s.cells e := by
        obtain ⟨y, hy, hyd⟩ := hv
        exact ⟨self, y, hy, by rw [hyd]; exact List.mem_of_getElem? hi⟩
      refine Conv.succ (m' := fun n => stepFilter (interp w n) self f i) (fun _ => rfl) ?_
      refine Conv.bind_ok (m := fun _ => getVec self) (fun _ => getVec_holds hv) ?_
      rw [hi]
      dsimp only
      refine Conv.bind (m := fun n => (interp w n).call f none .keep [e]) ((conv_lamCall hW hb hx hs hf hl hel hall.1).mono fun o s1 ⟨c, g1, ⟨y, hy, hyd⟩, _, g3, g4, g5, g6⟩ => ?_)
      rw [g1]
      refine Conv.bind_ok (m := fun _ => M.deref (some c)) (fun _ => rfl) (Conv.bind_ok (m := fun _ => getCell c) (fun _ => (getCell_ok_iff ..).2 ⟨hy, rfl⟩) ?_)
      rw [hyd]
      exact hrest e ds s1 hi hd' (g4.toPast.wasAll hall.2) (g4.toPast.was hall.1) (hel.past g4.toPast) (g4.toPast.holds hv) (g6.lam hl g4.toPast) (hs.stays g4 g3 g6.2 g5) g4
  intro vs us q h
  induction h with
  | nil =>
    intro es ds i C s r0 hv hd hall hf hl hs
    cases ds with
    | cons _ _ => exact hall.elim
    | nil =>
      refine Conv.succ (m' := fun n => stepFilter (interp w n) self f i) (fun _ => rfl) ?_
      refine Conv.bind_ok (m := fun _ => getVec self) (fun _ => getVec_holds hv) ?_
      rw [List.getElem?_eq_none (List.drop_eq_nil_iff.1 hd)]
      exact Conv.pure ⟨trivial, Stays.refl s, by rw [List.append_nil]; exact hs.amb⟩
  | @yes v vs us q q' hb _ ih =>
    intro es ds i C s r0 hv hd hall hf hl hs
    refine hstep hb hv hd hall hf hl hs fun e ds' s1 h1 h2 h3 h4 h5 h6 h7 h8 h9 => ?_
    refine Conv.then rfl (Conv.bind (m := fun _ => valCopy e) ((conv_copy h8.wf h5 h4).mono fun c s2 ⟨g1, g2, g3, g4⟩ => ?_))
    have hl2 : LamAt st x b f s2 := h7.past g3.toPast (by rw [g4.eng]) fun j st _ hj => by rw [g4.envs]; exact hj
    refine Conv.bind (m := fun n => (interp w n).filter self f (i + 1)) ((ih (g3.toPast.holds h6) h2 (g3.toPast.wasAll h3) hf hl2 (h8.idle g3 g2 (by rw [g4.eng]; exact h8.rv))).mono fun cs s3 ⟨k1, k2, k3⟩ =>
      Conv.pure ⟨⟨k2.toPast.was g1, k1⟩, (h9.trans g3.toStays).trans k2, ?_⟩)
    rw [← List.append_assoc]
    exact k3
  | @no v vs us q q' hb _ ih =>
    intro es ds i C s r0 hv hd hall hf hl hs
    refine hstep hb hv hd hall hf hl hs fun e ds' s1 h1 h2 h3 h4 h5 h6 h7 h8 h9 => ?_
    refine Conv.else (fun h => nomatch h) ((ih h6 h2 h3 hf h7 h8).mono fun cs s3 ⟨k1, k2, k3⟩ => ⟨k1, h9.trans k2, ?_⟩)
    rw [← List.append_assoc]
    exact k3

theorem ev_where (hW : w.Ok L) {e : Expr} {x : Bytes} {b : Expr} {vs us : List Val} {q₁ q₂ : List Ask} (hok : (Expr.call (.access e b!"where") [.lambda [x] (.expr b)]).ok L false = true) (he : Ev w L ρ e (.vec vs) q₁) (hx : x ∉ bobClasses)
    (hm : EvWheres w L ρ x b vs us q₂) : Ev w L ρ (.call (.access e b!"where") [.lambda [x] (.expr b)]) (.vec us) (q₁ ++ q₂) := by
  rw [← List.append_nil q₁]
  refine ev_member hW hok he (k := 5) (p := .vecWhere) rfl rfl (Arg := fun st cs s => ∃ c, cs = [c] ∧ LamAt st x b c s) (fun _ _ _ _ ⟨c, h1, h2⟩ hi he ho => ⟨c, h1, h2.past hi.toPast he fun j st hj hs => by rw [ho j hj]; exact hs⟩)
    (fun C P T X r0 st s hs hst => conv_lambda hs hst) fun C P T X r0 st s a cs hs hv ha hcs ⟨f, hc, hl⟩ => ?_
  subst hc
  obtain ⟨es, hes, hall⟩ := hv
  obtain ⟨y, hy, hyd⟩ := hes
  refine Conv.bind_ok (m := fun _ => M.deref (some a)) (fun _ => rfl) (Conv.bind_ok (m := fun _ => getCell a) (fun _ => (getCell_ok_iff ..).2 ⟨hy, rfl⟩) ?_)
  rw [hyd]
  dsimp only
  refine Conv.bind_ok (m := fun _ => fnArg b!"where" [f]) (fun _ => fnArg_lam hl) ?_
  refine Conv.bind (m := fun n => (interp w n).filter a f 0) ((conv_filter hW hx hm (i := 0) ⟨y, hy, hyd⟩ List.drop_zero hall (hcs f List.mem_cons_self) hl hs).mono fun cs s1 ⟨g1, g2, g3⟩ => ?_)
  exact (conv_alloc (v := .vec us) (.vec cs) fun hi hh => ⟨cs, hh, hi.toPast.wasAll g1⟩).mono fun c s2 ⟨k1, k2⟩ => ⟨k1, g2.trans k2.toStays, g3.idle k2⟩

end

end Bob.Fl
