import Verif.Lemmas.ParSound
/-!
# Runs of the parser
-/

namespace Bob.Parse

/-- The tree of a whole text: subtrees made up from the first state, comments around them. -/
inductive WholeFits : Tree → Prop where
  | mk {pid f : Nat} {pre cs post : List Tree} {pad text : Bytes} : Fits 1 0 (.node 60 pid cs false) f → (∀ c ∈ pre, ExtraOK c) → (∀ c ∈ post, ExtraOK c) →
      WholeFits (.node 60 pid (pre ++ cs ++ (post ++ [.leaf 0 pad text true])) false)

def Good (c : Config) : Prop :=
  match c.look with
  | none => (∃ t, SOK c.stack t) ∧ Settled c.stack
  | some t => SOK c.stack t.sym ∧ c.stack.top ≠ 335 ∧ t.sym ≠ 3 ∧ t.sym ≠ 4

def GoodRes : StepRes → Prop
  | .next c => Good c
  | .stop (.tree t) => WholeFits t
  | .stop .error => True
  | .stop .stuck => False

theorem goto_eps : goto 1 60 ≠ 0 := by decide +kernel

theorem edge_goto {q A : Nat} (h : 60 ≤ A) : edge q A = goto q A := by
  have : Nat.blt A 60 = false := by
    rw [← Bool.not_eq_true, Nat.blt_eq]; omega
  simp only [edge, this, cond_false]

theorem edge_shift {q t q' : Nat} (h : t < 60) (ha : actions q t = [.shift q']) : edge q t = q' := by
  have : Nat.blt t 60 = true := by rw [Nat.blt_eq]; omega
  simp only [edge, this, cond_true, ha, shiftTo]

theorem lhs_range : (grammar.all fun r => Nat.ble 60 r.lhs && Nat.blt r.lhs 110) = true := by decide +kernel

theorem lhs_ok {r : Rule} (h : r ∈ grammar) : 60 ≤ r.lhs ∧ r.lhs < 110 := by
  have := List.all_eq_true.1 lhs_range r h
  simp only [Bool.and_eq_true, Nat.ble_eq, Nat.blt_eq] at this
  exact this

/-- Popping the parts of a rule. -/
theorem reduce_pop {st : Stack} {t t' A n pid : Nat} (hs : SOK st t) (ha : actions st.top t' = [.reduce A n pid]) :
    ∃ cs st' f, popCount n st [] = some (cs, st') ∧ SOK st' f ∧ Chain st'.top cs t f st.top ∧ (solid cs).length = n ∧
      (n ≠ 0 → ∃ c cs', cs = c :: cs' ∧ c.extra = false ∧ (c.sym = 4 → Settled st' ∧ goto st'.top 62 = st'.top)) ∧
      (n = 0 → cs = [] ∧ st' = st ∧ A = 60 ∧ st.top = 1) ∧ 60 ≤ A ∧ A < 110 ∧ goto st'.top A ≠ 0 := by
  have ok := act_ok hs.live t'
  rw [ha] at ok
  cases ok with
  | reduce _ _ _ hr =>
    have : ∃ p, popCount n st [] = some p := by
      rcases hr with hr | ⟨r, hr, _⟩
      · exact pop_some (r := 0) hs (.inl hr.1)
      · exact pop_some hs (.inr hr)
    obtain ⟨⟨cs, st'⟩, hp⟩ := this
    obtain ⟨f, h1, h2, h3, h4⟩ := pop_ok hs .nil hp
    obtain ⟨r, hm, hl, _, _, hg⟩ := reduce_rule h2 h1.live ha h3
    refine ⟨cs, st', f, hp, h1, h2, h3, h4, fun h0 => ?_, hl ▸ (lhs_ok hm).1, hl ▸ (lhs_ok hm).2, ?_⟩
    · subst h0
      rw [popCount] at hp
      cases hp
      rcases hr with hr | ⟨_, _, _, _, _, hr⟩
      · exact ⟨rfl, rfl, hr.2.1, hr.2.2.2⟩
      · exact absurd rfl hr
    · by_cases h0 : n = 0
      · subst h0
        rw [popCount] at hp
        cases hp
        rcases hr with ⟨_, rfl, _, hr⟩ | ⟨_, _, _, _, _, hr⟩
        · rw [hr]; exact goto_eps
        · exact absurd rfl hr
      · exact hg h0

theorem head_append {as bs : List Tree} {c : Tree} (h : c ∈ as.head?) : c ∈ (as ++ bs).head? := by
  cases as with
  | nil => simp at h
  | cons => exact h

/-- A reduction with a lookahead. -/
theorem reduce_ok {st : Stack} {t A n pid : Nat} (hs : SOK st t) (h335 : st.top ≠ 335) (ha : actions st.top t = [.reduce A n pid]) :
    ∃ st', reduce A n pid false st = some st' ∧ SOK st' t ∧ st'.top ≠ 335 := by
  obtain ⟨cs, st', f, hp, h1, h2, h3, h4, h5, h6, h7, hg⟩ := reduce_pop hs ha
  have ok := act_ok hs.live t
  rw [ha] at ok
  have h62 : A ≠ 62 := by
    cases ok with
    | reduce _ _ h => exact h h335
  obtain ⟨e1, e2, e3⟩ := split_spec cs
  have hsol : solid (splitExtras cs).1 = solid cs := by
    conv => rhs; rw [e1, solid_append]
    have : solid (splitExtras cs).2 = [] := by
      simp only [solid, List.map_eq_nil_iff, List.filter_eq_nil_iff, Bool.not_eq_true', Bool.not_eq_false]
      exact e2
    rw [this, List.append_nil]
  rw [e1] at h2
  obtain ⟨f', m, c1, c2⟩ := h2.append
  obtain ⟨rfl, rfl, c3⟩ := c2.extras e2
  have hends : Ends (splitExtras cs).1 := by
    refine ⟨fun c hc => ?_, e3⟩
    by_cases h0 : n = 0
    · rw [(h5 h0).1] at hc; cases hc
    · obtain ⟨d, cs', hd, hx, _⟩ := h4 h0
      have := head_append (bs := (splitExtras cs).2) hc
      rw [← e1, hd] at this
      cases this
      exact hx
  have hfit : Fits st'.top f' (.node A pid (splitExtras cs).1 false) f := .node c1 ha (hsol ▸ h3) hends h6 h7 h62
  have he := edge_goto (q := st'.top) h6
  have hs' : SOK ((edge st'.top A, .node A pid (splitExtras cs).1 false) :: st') f' :=
    .cons (c := .node A pid (splitExtras cs).1 false) rfl (he ▸ hg) (fun (h4' : A = 4) => by omega) hfit h1
  rw [he] at hs'
  have := pushAll_ok hs' rfl c3
  refine ⟨_, by simp only [reduce, hp, Bool.false_and]; rfl, this.1, ?_⟩
  intro hd
  have hd := this.2.symm.trans hd
  rw [Stack.top, ← he] at hd
  have := (edge_ok h1.live h7 h62 (he ▸ hg)).doc hd
  omega

theorem doc_act : actions 335 0 = [.reduce 62 2 0] := by decide +kernel

/-- The end of a `##` comment. -/
theorem reduce_doc {st : Stack} {t : Nat} (hs : SOK st t) (h335 : st.top = 335) :
    ∃ st', reduce 62 2 0 true st = some st' ∧ SOK st' t ∧ Settled st' := by
  obtain ⟨cs, st', f, hp, h1, h2, h3, h4, _, _, _, hg⟩ := reduce_pop hs (t' := 0) (h335 ▸ doc_act)
  rw [h335] at h2
  obtain ⟨c, cs', hd, hx, h4⟩ := h4 (by decide)
  have hf := doc_fills h2 h1.live h3
  have hc4 : c.sym = 4 := by
    rw [hd, solid_cons hx] at hf
    exact List.mem_singleton.1 hf.1
  obtain ⟨hst, hgo⟩ := h4 hc4
  obtain ⟨e1, e2, e3⟩ := split_spec cs
  have hsol : solid (splitExtras cs).1 = solid cs := by
    conv => rhs; rw [e1, solid_append]
    have : solid (splitExtras cs).2 = [] := by
      simp only [solid, List.map_eq_nil_iff, List.filter_eq_nil_iff, Bool.not_eq_true', Bool.not_eq_false]
      exact e2
    rw [this, List.append_nil]
  have h2' := h2
  rw [e1] at h2'
  obtain ⟨f', m, c1, c2⟩ := h2'.append
  obtain ⟨hft, hm, c3⟩ := c2.extras e2
  subst hm
  have hok : ExtraOK (.node 62 0 (splitExtras cs).1 true) := .doc h1.live c1 (hsol ▸ h3)
  have hs' : SOK ((st'.top, .node 62 0 (splitExtras cs).1 true) :: st') t := .extra hok (h1.any hst _)
  have := pushAll_ok hs' rfl c3
  refine ⟨_, by simp only [reduce, hp, hgo, Bool.true_and, beq_self_eq_true]; rfl, this.1, ?_⟩
  suffices ∀ (es : List Tree) (s : Stack), (∀ c ∈ es, c.extra = true) → Settled s → Settled (pushAll (Stack.top st') es s) from
    this _ _ e2 (.inl ⟨rfl, hst⟩)
  intro es
  induction es with
  | nil => exact fun _ _ h => h
  | cons e es ih => exact fun s he h => ih _ (fun c hc => he c (List.mem_cons_of_mem _ hc)) (.inl ⟨he e (List.mem_cons_self ..), h⟩)

theorem one_extras {st : Stack} {t : Nat} (h : SOK st t) (h1 : st.top = 1) : ∀ c ∈ st.map (·.2), ExtraOK c := by
  induction h with
  | nil => simp
  | extra he _ ih => exact List.forall_mem_cons.2 ⟨he, ih h1⟩
  | cons _ hne _ hf h => exact absurd h1 (edge_ok h.live hf.sym.1 hf.sym.2 hne).ne_one

theorem accept_ok {st : Stack} {t : Nat} (h : SOK st t) (ht : t = 0) (ha : isAccept (actions st.top 0) = true) (after : List Tree) (post : List Tree) (pad text : Bytes)
    (hpost : ∀ c ∈ post, ExtraOK c) (haf : after = post ++ [.leaf 0 pad text true]) : ∃ root, acceptFrom (st.map (·.2)) after = some root ∧ WholeFits root := by
  induction h generalizing after post with
  | nil => exact absurd ha (by rw [Stack.top]; decide +kernel)
  | extra he _ ih =>
    simp only [List.map_cons, acceptFrom, he.extra, if_true]
    exact ih ht ha _ (_ :: post) (List.forall_mem_cons.2 ⟨he, hpost⟩) (by rw [haf]; rfl)
  | cons he hne _ hf h _ =>
    obtain ⟨h1, h2⟩ := (edge_ok h.live hf.sym.1 hf.sym.2 hne).accept ha
    cases hf with
    | leaf hl => exact absurd (h2 ▸ hl : 60 < 60) (by decide)
    | node hc hr hn hends h60 h110 h62 =>
      cases h2
      simp only [List.map_cons, acceptFrom, Tree.extra, Bool.false_eq_true, if_false]
      subst haf
      subst ht
      refine ⟨_, rfl, .mk (.node (h1 ▸ hc) hr hn hends h60 h110 h62) (fun c hc => ?_) hpost⟩
      exact one_extras h h1 c (List.mem_reverse.1 hc)

theorem stepTok_good {st : Stack} {t : Tok} (hs : SOK st t.sym) (h335 : st.top ≠ 335) (hset : t.sym = 3 ∨ t.sym = 4 → Settled st) : GoodRes (stepTok st t) := by
  have ok := act_ok hs.live t.sym
  unfold stepTok
  generalize ha : actions st.top t.sym = as at ok
  cases ok with
  | none => trivial
  | shift _ hq h4 =>
    have hlt := act_lt hs.live (t := t.sym) (by rw [ha]; simp)
    have he := edge_shift hlt ha
    subst he
    exact ⟨⟨0, .cons (c := .leaf t.sym t.pad t.text false) rfl hq (fun h => ⟨hset (.inr h), h4 h⟩) (.leaf hlt) hs⟩, .inr ⟨rfl, rfl, hlt⟩⟩
  | extra h3 => exact ⟨⟨_, .extra (c := .leaf t.sym t.pad t.text true) (h3 ▸ .hash) hs⟩, .inl ⟨rfl, hset (.inl h3)⟩⟩
  | reduce h3 h4 h62 hr =>
    obtain ⟨st', h1, h2, h5⟩ := reduce_ok hs h335 ha
    simp only [h1]
    exact ⟨h2, h5, h3, h4⟩
  | accept h0 =>
    rw [h0] at ha
    obtain ⟨root, h1, h2⟩ := accept_ok hs h0 (by rw [ha]; rfl) [.leaf t.sym t.pad t.text true] [] t.pad t.text (by simp) (by rw [h0]; rfl)
    simp only [acceptFrom, Tree.extra, if_true, h1]
    exact h2
  | recover => trivial

theorem lex_modes : ((List.range 336).all fun q => (lexMode q).isNone == Nat.beq q 335) = true := by decide +kernel

theorem lexMode_none {q : Nat} (h : Live q) : lexMode q = none ↔ q = 335 := by
  have := List.all_eq_true.1 lex_modes q (List.mem_range.2 h.2)
  rw [← Option.isNone_iff_eq_none, ← Nat.beq_eq]
  revert this
  cases (lexMode q).isNone <;> cases Nat.beq q 335 <;> decide

theorem step_good {c : Config} (h : Good c) : GoodRes (step c) := by
  obtain ⟨st, look, rest⟩ := c
  cases look with
  | some t => exact stepTok_good h.1 h.2.1 fun h' => (h'.elim h.2.2.1 h.2.2.2).elim
  | none =>
    obtain ⟨⟨t, hs⟩, hset⟩ := h
    simp only [step]
    cases hm : lexMode st.top with
    | none =>
      have := (lexMode_none hs.live).1 hm
      obtain ⟨st', h1, h2, h3⟩ := reduce_doc hs this
      simp only [stepNull, this, doc_act, h1]
      exact ⟨⟨t, h2⟩, h3⟩
    | some m =>
      simp only []
      cases lexTok m rest with
      | none => trivial
      | some tk =>
        refine stepTok_good (hs.any hset _) (fun h => ?_) fun _ => hset
        rw [(lexMode_none hs.live).2 h] at hm
        cases hm

theorem run_good : ∀ {n : Nat} {c : Config} {o : Outcome}, Good c → run n c = some o → GoodRes (.stop o)
  | 0, _, _, _, h => by simp [run] at h
  | n + 1, c, o, hg, h => by
    have := step_good hg
    rw [run] at h
    cases hc : step c with
    | next c' =>
      rw [hc] at h this
      exact run_good this h
    | stop o' =>
      rw [hc] at h this
      cases h
      exact this

theorem start_good (text : Bytes) : Good (start text) := ⟨⟨0, .nil⟩, trivial⟩

end Bob.Parse
