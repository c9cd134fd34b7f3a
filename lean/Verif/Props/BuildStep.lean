import Verif.Model.BuildStep
/-!
# Properties C15 and C08 (build steps)
-/

namespace Bob

variable {υ κ δ σ : Type} [DecidableEq υ] [DecidableEq κ]

/-! ## Specification vocabulary -/

/-- The requests a list of steps stands for, in the order in which running the steps serves them. -/
def served (steps : List (BuildStep υ κ δ)) : List (υ × κ × δ) :=
  steps.flatMap fun st => st.data.map fun d => (st.unique, st.kind, d)

/-- Neighbouring elements are related by `R`. -/
def Adjacent {α : Type} (R : α → α → Prop) : List α → Prop
  | [] => True
  | [_] => True
  | a :: b :: l => R a b ∧ Adjacent R (b :: l)

/-- Steps which cannot be merged any further: none is empty and neighbours belong to different objects. -/
def Maximal (steps : List (BuildStep υ κ δ)) : Prop :=
  (∀ st ∈ steps, st.data ≠ []) ∧ Adjacent (fun a b : BuildStep υ κ δ => a.unique ≠ b.unique) steps

/-- Neighbouring requests for the same object are of the same kind (always so in bob: the object is a
compiler state, used with the compile step only, or a fresh link request). -/
def Coherent (reqs : List (υ × κ × δ)) : Prop :=
  Adjacent (fun a b : υ × κ × δ => a.1 = b.1 → a.2.1 = b.2.1) reqs

/-! ## Lemmas -/

omit [DecidableEq υ] [DecidableEq κ] in
theorem adjacent_snoc {α : Type} (R : α → α → Prop) (l : List α) (b c : α) :
    Adjacent R (l ++ [b] ++ [c]) ↔ Adjacent R (l ++ [b]) ∧ R b c := by
  induction l with
  | nil => simp [Adjacent]
  | cons a l ih =>
    cases l with
    | nil => simp [Adjacent]
    | cons a' l => simp only [List.cons_append, Adjacent] at *; rw [ih, and_assoc]

omit [DecidableEq υ] [DecidableEq κ] in
theorem adjacent_prefix {α : Type} (R : α → α → Prop) (l m : List α) (h : Adjacent R (l ++ m)) : Adjacent R l := by
  induction l with
  | nil => trivial
  | cons a l ih =>
    cases l with
    | nil => trivial
    | cons b l => exact ⟨h.1, ih h.2⟩

theorem getLast?_cases {α : Type} (l : List α) :
    (l = [] ∧ l.getLast? = none) ∨ ∃ init last, l = init ++ [last] ∧ l.getLast? = some last := by
  rcases List.eq_nil_or_concat l with h | ⟨init, last, h⟩
  · exact Or.inl ⟨h, by simp [h]⟩
  · exact Or.inr ⟨init, last, by simpa using h, by simp [h]⟩

theorem addBuildStep_spec (steps : List (BuildStep υ κ δ)) (u : υ) (k : κ) (d : δ) (hm : Maximal steps) :
    match addBuildStep steps u k d with
    | some steps' => Maximal steps' ∧ served steps' = served steps ++ [(u, k, d)] ∧
        (∃ st, steps'.getLast? = some st ∧ st.unique = u ∧ st.kind = k) ∧
        (∀ st, steps.getLast? = some st → st.unique = u → st.kind = k)
    | none => ∃ st, steps.getLast? = some st ∧ st.unique = u ∧ st.kind ≠ k := by
  unfold addBuildStep
  rcases getLast?_cases steps with ⟨h1, h2⟩ | ⟨init, last, h1, h2⟩
  · subst h1
    simp [Maximal, Adjacent, served]
  · rw [h2]
    subst h1
    by_cases hu : last.unique = u
    · by_cases hk : last.kind = k
      · subst hu hk
        simp only [if_true, List.dropLast_concat]
        refine ⟨⟨?_, ?_⟩, ?_, ?_, ?_⟩
        · intro st hst
          rcases List.mem_append.mp hst with h | h
          · exact hm.1 st (by simp [h])
          · simp only [List.mem_singleton] at h; subst h; simp
        · rcases List.eq_nil_or_concat init with h | ⟨i2, l2, h⟩
          · subst h; trivial
          · have hi : init = i2 ++ [l2] := by simpa using h
            subst hi
            have := (adjacent_snoc _ i2 l2 last).mp hm.2
            exact (adjacent_snoc _ i2 l2 _).mpr ⟨this.1, this.2⟩
        · simp [served]
        · exact ⟨{ last with data := last.data ++ [d] }, by simp, rfl, rfl⟩
        · intro st h _; simp only [Option.some.injEq] at h; rw [h]
      · subst hu
        simp only [if_true, hk, if_false]
        exact ⟨last, rfl, rfl, hk⟩
    · simp only [hu, if_false]
      refine ⟨⟨?_, ?_⟩, ?_, ?_, ?_⟩
      · intro st hst
        rcases List.mem_append.mp hst with h | h
        · exact hm.1 st h
        · simp only [List.mem_singleton] at h; subst h; simp
      · exact (adjacent_snoc _ init last _).mpr ⟨hm.2, hu⟩
      · simp [served]
      · exact ⟨⟨u, k, [d]⟩, by simp, rfl, rfl⟩
      · intro st h h'; simp only [Option.some.injEq] at h; exact absurd (h ▸ h') hu

omit [DecidableEq υ] [DecidableEq κ] in
/-- Relation between the last step and the last request of a request list already served. -/
theorem served_last (steps : List (BuildStep υ κ δ)) (hm : Maximal steps) (st : BuildStep υ κ δ)
    (h : steps.getLast? = some st) : ∃ d, (served steps).getLast? = some (st.unique, st.kind, d) := by
  rcases getLast?_cases steps with ⟨h1, h2⟩ | ⟨init, last, h1, h2⟩
  · rw [h2] at h; cases h
  · rw [h2] at h
    cases h
    subst h1
    have hne := hm.1 st (by simp)
    obtain ⟨pre, d, hd⟩ := List.eq_nil_or_concat st.data |>.resolve_left hne
    exact ⟨d, by simp [served, hd]⟩

theorem addAll_spec (reqs : List (υ × κ × δ)) : ∀ (steps : List (BuildStep υ κ δ)), Maximal steps →
    Coherent (served steps ++ reqs) →
    ∃ steps', addAll steps reqs = some steps' ∧ Maximal steps' ∧ served steps' = served steps ++ reqs := by
  induction reqs with
  | nil => intro steps hm _; exact ⟨steps, rfl, hm, by simp⟩
  | cons r rest ih =>
    intro steps hm hc
    obtain ⟨u, k, d⟩ := r
    have hs := addBuildStep_spec steps u k d hm
    simp only [addAll]
    split
    · rename_i hn
      rw [hn] at hs
      obtain ⟨st, hl, hu, hk⟩ := hs
      obtain ⟨d', hd'⟩ := served_last steps hm st hl
      rcases getLast?_cases (served steps) with ⟨_, h2⟩ | ⟨init, last, h1, h2⟩
      · rw [h2] at hd'; cases hd'
      · rw [h2] at hd'
        cases hd'
        have : Coherent (init ++ [(st.unique, st.kind, d')] ++ [(u, k, d)]) := by
          unfold Coherent at hc ⊢
          rw [h1] at hc
          exact adjacent_prefix _ _ rest (by simpa using hc)
        exact absurd (((adjacent_snoc _ _ _ _).mp this).2 hu) hk
    · rename_i steps' hsome
      rw [hsome] at hs
      obtain ⟨hm', hserved, _, _⟩ := hs
      obtain ⟨steps'', h1, h2, h3⟩ := ih steps' hm' (by rw [hserved]; simpa using hc)
      exact ⟨steps'', h1, h2, by rw [h3, hserved]; simp⟩

/-! ## C15 -/

/-- **C15.** Registering any sequence of requests never aborts, and the resulting steps serve exactly these
requests, each once, in request order; requests are grouped into one step only if they are adjacent and
belong to the same object (neighbouring steps have different objects), and no step is empty. -/
theorem C15_requests_served_once_in_order (reqs : List (υ × κ × δ)) (hc : Coherent reqs) :
    ∃ steps, addAll [] reqs = some steps ∧ served steps = reqs ∧ Maximal steps := by
  obtain ⟨steps, h1, h2, h3⟩ := addAll_spec reqs [] ⟨by simp, trivial⟩ (by simpa [served] using hc)
  exact ⟨steps, h1, by simpa [served] using h3, h2⟩

/-- Instance: two compilers used alternately with repetitions. -/
example : addAll (υ := Nat) (κ := String) (δ := String) []
    [(1, "c", "a"), (1, "c", "b"), (2, "c", "d"), (1, "c", "e"), (3, "l", "x")] =
    some [⟨1, "c", ["a", "b"]⟩, ⟨2, "c", ["d"]⟩, ⟨1, "c", ["e"]⟩, ⟨3, "l", ["x"]⟩] := by decide

example : Coherent [(1, "c", "a"), (1, "c", "b"), (2, "c", "d"), (1, "c", "e"), (3, "l", "x")] := by
  simp [Coherent, Adjacent]

omit [DecidableEq υ] [DecidableEq κ] in
/-- The grouping is determined by the requests: there is only one way to serve them maximally merged. -/
theorem C15_grouping_unique (a b : List (BuildStep υ κ δ)) (ha : Maximal a) (hb : Maximal b)
    (h : served a = served b) : a = b := by
  induction a generalizing b with
  | nil =>
    cases b with
    | nil => rfl
    | cons t b =>
      have := hb.1 t (by simp)
      obtain ⟨d, ds, hd⟩ := List.exists_cons_of_ne_nil this
      simp [served, hd] at h
  | cons s a ih =>
    cases b with
    | nil =>
      have := ha.1 s (by simp)
      obtain ⟨d, ds, hd⟩ := List.exists_cons_of_ne_nil this
      simp [served, hd] at h
    | cons t b =>
      -- the first group ends where the object changes
      have key : ∀ (ds es : List δ) (u : υ) (k k' : κ) (r r' : List (υ × κ × δ)),
          (∀ x, r.head? = some x → x.1 ≠ u) → (∀ x, r'.head? = some x → x.1 ≠ u) →
          (ds.map fun d => (u, k, d)) ++ r = (es.map fun d => (u, k', d)) ++ r' → ds = es ∧ r = r' := by
        intro ds
        induction ds with
        | nil =>
          intro es u k k' r r' h1 h2 he
          cases es with
          | nil => exact ⟨rfl, by simpa using he⟩
          | cons e es => simp at he; exact absurd rfl (h1 (u, k', e) (by simp [he]))
        | cons d ds ihd =>
          intro es u k k' r r' h1 h2 he
          cases es with
          | nil => simp at he; exact absurd rfl (h2 (u, k, d) (by simp [← he]))
          | cons e es =>
            simp only [List.map_cons, List.cons_append, List.cons.injEq, Prod.mk.injEq] at he
            obtain ⟨h3, h4⟩ := ihd es u k k' r r' h1 h2 he.2
            exact ⟨by rw [he.1.2.2, h3], h4⟩
      have headOf : ∀ (x : BuildStep υ κ δ) (l : List (BuildStep υ κ δ)), Maximal (x :: l) →
          ∀ y, (served l).head? = some y → y.1 ≠ x.unique := by
        intro x l hml y hy
        cases l with
        | nil => simp [served] at hy
        | cons z l =>
          have hz := hml.1 z (by simp)
          obtain ⟨d, ds, hd⟩ := List.exists_cons_of_ne_nil hz
          simp [served, hd] at hy
          rw [← hy]
          exact fun e => hml.2.1 e.symm
      have hs0 := ha.1 s (by simp)
      have ht0 := hb.1 t (by simp)
      obtain ⟨sd, sds, hsd⟩ := List.exists_cons_of_ne_nil hs0
      obtain ⟨td, tds, htd⟩ := List.exists_cons_of_ne_nil ht0
      have hhead : s.unique = t.unique ∧ s.kind = t.kind := by
        simp [served, hsd, htd] at h; exact ⟨h.1.1, h.1.2.1⟩
      have h' : (s.data.map fun d => (s.unique, s.kind, d)) ++ served a =
          (t.data.map fun d => (s.unique, t.kind, d)) ++ served b := by
        have h2 : (s.data.map fun d => (s.unique, s.kind, d)) ++ served a =
          (t.data.map fun d => (t.unique, t.kind, d)) ++ served b := by simpa [served] using h
        rw [h2, hhead.1]
      obtain ⟨e1, e2⟩ := key s.data t.data s.unique s.kind t.kind (served a) (served b)
        (headOf s a ha) (by rw [hhead.1]; exact headOf t b hb) h'
      have tailMax : ∀ (x : BuildStep υ κ δ) (l : List (BuildStep υ κ δ)), Maximal (x :: l) → Maximal l := by
        intro x l hml
        refine ⟨fun st hst => hml.1 st (by simp [hst]), ?_⟩
        cases l with
        | nil => trivial
        | cons z l => exact hml.2.2
      rw [ih b (tailMax _ _ ha) (tailMax _ _ hb) e2]
      congr 1
      cases s; cases t
      simp only [BuildStep.mk.injEq]
      exact ⟨hhead.1, hhead.2, e1⟩

/-- Two requests for one object of different kinds, directly after each other, abort the program. -/
theorem C15_incoherent_aborts (steps : List (BuildStep υ κ δ)) (u : υ) (k k' : κ) (d d' : δ) (h : k ≠ k')
    (rest : List (υ × κ × δ)) : addAll steps ((u, k, d) :: (u, k', d') :: rest) = none := by
  simp only [addAll]
  unfold addBuildStep
  split
  · rename_i hs
    split at hs
    · rfl
    · rfl
  · rename_i hs
    split at hs
    · cases hs; simp [h]
    · split at hs
      · split at hs
        · cases hs
          rename_i h1 h2 h3 
          simp [h3, h2, h]
        · cases hs
      · cases hs; simp [h]

/-! ## C08 (step level) -/

omit [DecidableEq υ] [DecidableEq κ] in
/-- `OkRun cb steps s s'`: all of `steps` run one after the other from `s`, each successfully, ending in `s'`. -/
inductive OkRun (cb : BuildStep υ κ δ → σ → σ × Bool) : List (BuildStep υ κ δ) → σ → σ → Prop
  | nil (s : σ) : OkRun cb [] s s
  | cons {st : BuildStep υ κ δ} {rest : List (BuildStep υ κ δ)} {s s1 s' : σ} (h : cb st s = (s1, true)) (hr : OkRun cb rest s1 s') :
      OkRun cb (st :: rest) s s'

omit [DecidableEq υ] [DecidableEq κ] in
/-- **C08 (steps).** The build succeeds exactly if every step succeeded, in order. -/
theorem C08_steps_succeed_iff (cb : BuildStep υ κ δ → σ → σ × Bool) (steps : List (BuildStep υ κ δ)) (s s' : σ) :
    runBuildSteps cb steps s = (s', true) ↔ OkRun cb steps s s' := by
  induction steps generalizing s with
  | nil =>
    simp only [runBuildSteps, Prod.mk.injEq, and_true]
    constructor
    · rintro rfl; exact .nil _
    · intro h; cases h; rfl
  | cons st rest ih =>
    simp only [runBuildSteps]
    constructor
    · intro h
      split at h
      · simp at h
      · rename_i s1 hcb; exact .cons hcb ((ih s1).mp h)
    · intro h
      cases h with
      | cons hcb hr => rw [hcb]; exact (ih _).mpr hr

omit [DecidableEq υ] [DecidableEq κ] in
/-- **C08 (steps).** The build fails exactly if some step failed after all earlier ones succeeded, and then the
final state is the one in which that step left the world: later steps had no effect. -/
theorem C08_steps_fail_iff (cb : BuildStep υ κ δ → σ → σ × Bool) (steps : List (BuildStep υ κ δ)) (s s' : σ) :
    runBuildSteps cb steps s = (s', false) ↔
      ∃ pre st post s1, steps = pre ++ st :: post ∧ OkRun cb pre s s1 ∧ cb st s1 = (s', false) := by
  induction steps generalizing s with
  | nil => simp [runBuildSteps]
  | cons st rest ih =>
    simp only [runBuildSteps]
    constructor
    · intro h
      split at h
      · rename_i s1 hcb
        cases h
        exact ⟨[], st, rest, s, rfl, .nil _, hcb⟩
      · rename_i s1 hcb
        obtain ⟨pre, x, post, s2, e, hok, hf⟩ := (ih s1).mp h
        exact ⟨st :: pre, x, post, s2, by simp [e], .cons hcb hok, hf⟩
    · rintro ⟨pre, x, post, s2, e, hok, hf⟩
      cases hok with
      | nil =>
        simp only [List.nil_append, List.cons.injEq] at e
        obtain ⟨rfl, rfl⟩ := e
        rw [hf]
      | cons hcb hr =>
        simp only [List.cons_append, List.cons.injEq] at e
        obtain ⟨rfl, rfl⟩ := e
        rw [hcb]
        exact (ih _).mpr ⟨_, x, post, s2, rfl, hr, hf⟩

/-- Instance: three steps, the second failing; the log shows that the third did not run. -/
example : runBuildSteps (σ := List Nat) (υ := Nat) (κ := Unit) (δ := Nat)
    (fun st s => (s ++ st.data, st.unique ≠ 2)) [⟨1, (), [10]⟩, ⟨2, (), [20, 21]⟩, ⟨3, (), [30]⟩] [] =
    ([10, 20, 21], false) := by decide

end Bob
