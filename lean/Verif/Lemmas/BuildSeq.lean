import Verif.Lemmas.BuildEnd
/-!
# Builds of several steps are builds of the single steps, one after the other
-/

namespace Bob

variable {tc : Toolchain} {c : InstCfg} {n : Nat}

/-- The same point of a build with further steps to come. -/
def Cfg.ext (post : List Req) : Cfg → Cfg
  | .idle rest s => .idle (rest ++ post) s
  | .validating a b rest s => .validating a b (rest ++ post) s
  | .pooling a rest p => .pooling a (rest ++ post) p
  | .linking j rest s => .linking j (rest ++ post) s
  | .linkRan ok j rest s => .linkRan ok j (rest ++ post) s
  | .linked j rest s => .linked j (rest ++ post) s
  | .finished true s => .idle post s
  | .finished false s => .finished false s

theorem afterStep_ext (post rest : List Req) (r : Store × Bool) : (afterStep rest r).ext post = afterStep (rest ++ post) r := by
  unfold afterStep
  split <;> rfl

@[simp] theorem ext_store (post : List Req) (a : Cfg) : (a.ext post).store = a.store := by
  cases a with
  | finished ok s => cases ok <;> rfl
  | _ => rfl

/-- Every step of the shorter build is one of the longer build, except for the last. -/
theorem next_ext {a b : Cfg} (post : List Req) (h : BuildNext tc c n a b) :
    b.ext post = a.ext post ∨ BuildNext tc c n (a.ext post) (b.ext post) := by
  cases h with
  | tick t ht =>
    right
    have : (a.withNow t).ext post = (a.ext post).withNow t := by
      cases a with
      | finished ok s => cases ok <;> rfl
      | _ => rfl
    rw [this]
    exact .tick t (by simpa using ht)
  | pool hp => exact Or.inr (.pool hp)
  | join hj => rw [afterStep_ext]; exact Or.inr (.join hj)
  | seq hq =>
    unfold seqNext at hq
    split at hq
    · injection hq with hq; subst hq; exact Or.inl rfl
    · injection hq with hq; subst hq; exact Or.inr (.seq rfl)
    · rename_i j todo tasks rest s
      split at hq
      · rename_i hv
        injection hq with hq; subst hq; exact Or.inr (.seq (by simp only [Cfg.ext, seqNext, hv]))
      · rename_i hv
        injection hq with hq; subst hq; exact Or.inr (.seq (by simp only [Cfg.ext, seqNext, hv]))
      · rename_i hv
        split at hq
        · rename_i hi
          injection hq with hq; subst hq; exact Or.inr (.seq (by simp only [Cfg.ext, seqNext, hv, hi]))
        · rename_i hi
          injection hq with hq; subst hq; exact Or.inr (.seq (by simp only [Cfg.ext, seqNext, hv, hi]))
    · injection hq with hq; subst hq; exact Or.inr (.seq rfl)
    · cases hq
    · split at hq
      · rename_i hv
        injection hq with hq; subst hq; exact Or.inr (.seq (by simp only [Cfg.ext, List.cons_append, seqNext, hv]))
      · rename_i hv
        injection hq with hq; subst hq; rw [afterStep_ext]; exact Or.inr (.seq (by simp only [Cfg.ext, List.cons_append, seqNext, hv]))
    · split at hq
      injection hq with hq; subst hq; exact Or.inr (.seq (by simp only [Cfg.ext, seqNext]; simp [*]))
    · injection hq with hq; subst hq; exact Or.inr (.seq rfl)
    · injection hq with hq; subst hq; exact Or.inr (.seq rfl)
    · injection hq with hq; subst hq; rw [afterStep_ext]; exact Or.inr (.seq rfl)
    · cases hq

theorem reaches_ext {pre : List Req} (post : List Req) {s : Store} {a : Cfg} (h : BuildReaches tc c n pre s a) :
    BuildReaches tc c n (pre ++ post) s (a.ext post) := by
  have key : ∀ b, Steps (BuildNext tc c n) (.idle pre s) b → Steps (BuildNext tc c n) (.idle (pre ++ post) s) (b.ext post) := by
    intro b h
    induction h with
    | refl => exact .refl _
    | tail _ r ih =>
      rcases next_ext post r with e | r
      · rw [e]; exact ih
      · exact .tail ih r
  exact key a h

theorem steps_append {α : Type} {R : α → α → Prop} {a b d : α} (h : Steps R a b) (h' : Steps R b d) : Steps R a d := by
  induction h' with
  | refl => exact h
  | tail _ r ih => exact .tail ih r

/-- Builds can be put together. -/
theorem reaches_append {pre post : List Req} {s s1 : Store} {a : Cfg} (h : BuildReaches tc c n pre s (.finished true s1))
    (h' : BuildReaches tc c n post s1 a) : BuildReaches tc c n (pre ++ post) s a :=
  steps_append (reaches_ext post h) h'

/-- Every step of the longer build, before the shorter one has ended, is one of the shorter build. -/
theorem ext_next {a b : Cfg} (post : List Req) (ha : a.result = none) (ha' : ∀ s, a ≠ .idle [] s) (h : BuildNext tc c n (a.ext post) b) :
    ∃ b', BuildNext tc c n a b' ∧ b = b'.ext post ∧ b'.result ≠ some true := by
  have aft : ∀ rest r, (afterStep rest r).result ≠ some true := by
    intro rest r; unfold afterStep; split <;> simp [Cfg.result]
  generalize hx : a.ext post = x at h
  cases h with
  | tick t ht =>
    subst hx
    refine ⟨a.withNow t, .tick t (by simpa using ht), ?_, ?_⟩
    · cases a with
      | finished ok s => cases ha
      | _ => rfl
    · cases a with
      | finished ok s => cases ha
      | _ => simp [Cfg.withNow, Cfg.result]
  | @pool tasks rest p p' hp =>
    cases a with
    | pooling tasks' rest' q =>
      simp only [Cfg.ext, Cfg.pooling.injEq] at hx
      obtain ⟨rfl, rfl, rfl⟩ := hx
      exact ⟨.pooling tasks' rest' p', .pool hp, rfl, by simp [Cfg.result]⟩
    | finished ok s => cases ha
    | idle => simp [Cfg.ext] at hx
    | validating => simp [Cfg.ext] at hx
    | linking => simp [Cfg.ext] at hx
    | linkRan => simp [Cfg.ext] at hx
    | linked => simp [Cfg.ext] at hx
  | @join tasks rest p hj =>
    cases a with
    | pooling tasks' rest' q =>
      simp only [Cfg.ext, Cfg.pooling.injEq] at hx
      obtain ⟨rfl, rfl, rfl⟩ := hx
      exact ⟨afterStep rest' (q.store, q.waitOk), .join hj, (afterStep_ext _ _ _).symm, aft _ _⟩
    | finished ok s => cases ha
    | idle => simp [Cfg.ext] at hx
    | validating => simp [Cfg.ext] at hx
    | linking => simp [Cfg.ext] at hx
    | linkRan => simp [Cfg.ext] at hx
    | linked => simp [Cfg.ext] at hx
  | seq hq =>
    subst hx
    cases a with
    | finished ok s => cases ha
    | idle rest s =>
      cases rest with
      | nil => exact (ha' s rfl).elim
      | cons r rest =>
        cases r with
        | compile jobs =>
          simp only [Cfg.ext, List.cons_append, seqNext, Option.some.injEq] at hq
          subst hq
          exact ⟨_, .seq rfl, rfl, by simp [Cfg.result]⟩
        | link j =>
          simp only [Cfg.ext, List.cons_append, seqNext] at hq
          rcases hc : linkCheck j s with ⟨s1, b1⟩
          rw [hc] at hq
          cases b1 with
          | true =>
            simp only [Option.some.injEq] at hq
            subst hq
            exact ⟨.linking j rest s1, .seq (by simp only [seqNext, hc]), rfl, by simp [Cfg.result]⟩
          | false =>
            simp only [Option.some.injEq] at hq
            subst hq
            exact ⟨_, .seq (by simp only [seqNext, hc]), (afterStep_ext _ _ _).symm, aft _ _⟩
    | validating todo tasks rest s =>
      cases todo with
      | nil =>
        simp only [Cfg.ext, seqNext, Option.some.injEq] at hq
        subst hq
        exact ⟨_, .seq rfl, rfl, by simp [Cfg.result]⟩
      | cons j todo =>
        simp only [Cfg.ext, seqNext] at hq
        rcases hv : validate j s with ⟨s1, v⟩
        rw [hv] at hq
        cases v with
        | err =>
          simp only [Option.some.injEq] at hq
          subst hq
          exact ⟨.finished false s1, .seq (by simp only [seqNext, hv]), rfl, by simp [Cfg.result]⟩
        | compile =>
          simp only [Option.some.injEq] at hq
          subst hq
          exact ⟨.validating todo (tasks ++ [j]) rest s1, .seq (by simp only [seqNext, hv]), rfl, by simp [Cfg.result]⟩
        | skip =>
          simp only at hq
          rcases hi : installCookie c j.out (s1.emit (.already j.out (s1.fs.content (logPath j.out)))) with ⟨s2, ok⟩
          rw [hi] at hq
          cases ok with
          | true =>
            simp only [Option.some.injEq] at hq
            subst hq
            exact ⟨.validating todo tasks rest s2, .seq (by simp only [seqNext, hv, hi]), rfl, by simp [Cfg.result]⟩
          | false =>
            simp only [Option.some.injEq] at hq
            subst hq
            exact ⟨.finished false s2, .seq (by simp only [seqNext, hv, hi]), rfl, by simp [Cfg.result]⟩
    | pooling => simp [Cfg.ext, seqNext] at hq
    | linking j rest s =>
      simp only [Cfg.ext, seqNext, Option.some.injEq] at hq
      subst hq
      exact ⟨_, .seq rfl, rfl, by simp [Cfg.result]⟩
    | linkRan ok j rest s =>
      cases ok with
      | true =>
        simp only [Cfg.ext, seqNext, Option.some.injEq] at hq
        subst hq
        exact ⟨_, .seq rfl, rfl, by simp [Cfg.result]⟩
      | false =>
        simp only [Cfg.ext, seqNext, Option.some.injEq] at hq
        subst hq
        exact ⟨_, .seq rfl, rfl, by simp [Cfg.result]⟩
    | linked j rest s =>
      simp only [Cfg.ext, seqNext, Option.some.injEq] at hq
      subst hq
      exact ⟨_, .seq rfl, (afterStep_ext _ _ _).symm, aft _ _⟩

/-- Where a build is, seen as a build of single steps: all steps before were built with success. -/
inductive InStep (tc : Toolchain) (c : InstCfg) (n : Nat) (reqs : List Req) (s : Store) : Cfg → Prop where
  | inside {pre post s1} (r : Req) (k : Cfg) (hreq : reqs = pre ++ r :: post) (hpre : BuildReaches tc c n pre s (.finished true s1))
      (hk : BuildReaches tc c n [r] s1 k) (hne : k.result = none) (hne' : ∀ s, k ≠ .idle [] s) : InStep tc c n reqs s (k.ext post)
  | last {s1} (h : BuildReaches tc c n reqs s (.finished true s1)) : InStep tc c n reqs s (.idle [] s1)
  | ok {s1} (h : BuildReaches tc c n reqs s (.finished true s1)) : InStep tc c n reqs s (.finished true s1)
  | fail {pre post s1 s2} (r : Req) (hreq : reqs = pre ++ r :: post) (hpre : BuildReaches tc c n pre s (.finished true s1))
      (hk : BuildReaches tc c n [r] s1 (.finished false s2)) : InStep tc c n reqs s (.finished false s2)

/-- Between two steps. -/
theorem InStep.between {pre post reqs : List Req} {s s1 : Store} (hreq : reqs = pre ++ post)
    (hpre : BuildReaches tc c n pre s (.finished true s1)) : InStep tc c n reqs s (.idle post s1) := by
  cases post with
  | nil => rw [List.append_nil] at hreq; subst hreq; exact .last hpre
  | cons r post => exact .inside (post := post) r (.idle [r] s1) hreq hpre (.refl _) rfl (by simp)

theorem instep_next {reqs : List Req} {s : Store} {a b : Cfg} (h : InStep tc c n reqs s a) (hs : BuildNext tc c n a b) : InStep tc c n reqs s b := by
  cases h with
  | inside r k hreq hpre hk hne hne' =>
    rename_i pre post s1
    obtain ⟨k', h1, rfl, h3⟩ := ext_next post hne hne' hs
    have hk' : BuildReaches tc c n [r] s1 k' := .tail hk h1
    cases hr : k'.result with
    | some ok =>
      cases ok with
      | true => exact (h3 hr).elim
      | false =>
        have e := result_finished hr
        rw [e] at hk' ⊢
        exact .fail r hreq hpre hk'
    | none =>
      by_cases hi : ∃ s2, k' = .idle [] s2
      · obtain ⟨s2, rfl⟩ := hi
        refine InStep.between (pre := pre ++ [r]) (by simp [hreq]) ?_
        exact reaches_append hpre (.tail hk' (.seq rfl))
      · exact .inside r k' hreq hpre hk' hr (fun s2 e => hi ⟨s2, e⟩)
  | last h =>
    generalize hx : Cfg.idle [] _ = x at hs
    cases hs with
    | seq hq => subst hx; simp only [seqNext, Option.some.injEq] at hq; subst hq; exact .ok h
    | tick t ht => subst hx; exact .last (.tail h (.tick t ht))
    | pool => cases hx
    | join => cases hx
  | ok h =>
    generalize hx : Cfg.finished true _ = x at hs
    cases hs with
    | seq hq => subst hx; cases hq
    | tick t ht => subst hx; exact .ok (.tail h (.tick t ht))
    | pool => cases hx
    | join => cases hx
  | fail r hreq hpre hk =>
    generalize hx : Cfg.finished false _ = x at hs
    cases hs with
    | seq hq => subst hx; cases hq
    | tick t ht => subst hx; exact .fail r hreq hpre (.tail hk (.tick t ht))
    | pool => cases hx
    | join => cases hx

theorem instep_reach {reqs : List Req} {s : Store} {a : Cfg} (h : BuildReaches tc c n reqs s a) : InStep tc c n reqs s a :=
  steps_inv (P := InStep tc c n reqs s) (fun _ _ => instep_next) h
    (InStep.between (pre := []) rfl (.tail (.refl _) (.seq rfl)))

/-- A successful build of steps is one of the first steps followed by one of the others. -/
theorem reaches_split {pre post : List Req} {s s2 : Store} (h : BuildReaches tc c n (pre ++ post) s (.finished true s2)) :
    ∃ s1, BuildReaches tc c n pre s (.finished true s1) ∧ BuildReaches tc c n post s1 (.finished true s2) := by
  have key : ∀ b, BuildReaches tc c n (pre ++ post) s b →
      (∃ a, BuildReaches tc c n pre s a ∧ a.result = none ∧ (∀ s, a ≠ .idle [] s) ∧ b = a.ext post) ∨
      (∃ s1, BuildReaches tc c n pre s (.finished true s1) ∧ BuildReaches tc c n post s1 b) ∨
      b.result = some false := by
    intro b h
    have first : ∀ a, BuildReaches tc c n pre s a → a.result ≠ some true →
        (∃ a', BuildReaches tc c n pre s a' ∧ a'.result = none ∧ (∀ s, a' ≠ .idle [] s) ∧ a.ext post = a'.ext post) ∨
        (∃ s1, BuildReaches tc c n pre s (.finished true s1) ∧ BuildReaches tc c n post s1 (a.ext post)) ∨
        (a.ext post).result = some false := by
      intro a ha hne
      cases hr : a.result with
      | some ok =>
        cases ok with
        | true => exact (hne hr).elim
        | false => right; right; rw [result_finished hr]; rfl
      | none =>
        by_cases hi : ∃ s1, a = .idle [] s1
        · obtain ⟨s1, rfl⟩ := hi
          exact Or.inr (Or.inl ⟨s1, .tail ha (.seq rfl), .refl _⟩)
        · exact Or.inl ⟨a, ha, hr, fun s1 e => hi ⟨s1, e⟩, rfl⟩
    induction h with
    | refl => exact first (.idle pre s) (.refl _) (by simp [Cfg.result])
    | tail _ r ih =>
      rcases ih with ⟨a, ha, hne, hne', rfl⟩ | ⟨s1, h1, h2⟩ | h
      · obtain ⟨a', h1, rfl, h3⟩ := ext_next post hne hne' r
        exact first a' (.tail ha h1) h3
      · exact Or.inr (Or.inl ⟨s1, h1, .tail h2 r⟩)
      · right; right
        have := result_finished h
        generalize hx : Cfg.finished false _ = x at this
        rw [this] at r
        subst hx
        generalize hy : Cfg.finished false _ = y at r
        cases r with
        | seq hq => subst hy; cases hq
        | tick t ht => subst hy; rfl
        | pool => cases hy
        | join => cases hy
  rcases key _ h with ⟨a, _, hne, hne', e⟩ | h | h
  · exfalso
    cases a with
    | finished ok s => cases hne
    | _ => simp [Cfg.ext] at e
  · exact h
  · cases h

end Bob
