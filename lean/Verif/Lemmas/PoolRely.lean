import Verif.Lemmas.Pool
/-!
# Reasoning about the effects of tasks, and termination of the pool
-/

namespace Bob

variable {S : Type}

/-- The actions of task `i` which were done, oldest first. -/
def actsOf (i : Nat) (hist : List PoolEvent) : List Nat :=
  hist.filterMap fun e => match e with
    | .act _ j k => if j = i then some k else none
    | _ => none

@[simp] theorem actsOf_nil (i : Nat) : actsOf i [] = [] := rfl
theorem actsOf_append (i : Nat) (a b : List PoolEvent) : actsOf i (a ++ b) = actsOf i a ++ actsOf i b := by
  simp [actsOf]
@[simp] theorem actsOf_start (i w j : Nat) : actsOf i [.start w j] = [] := rfl
@[simp] theorem actsOf_finish (i w j : Nat) (f : Bool) : actsOf i [.finish w j f] = [] := rfl
@[simp] theorem actsOf_error (i w : Nat) : actsOf i [.error w] = [] := rfl
theorem actsOf_act (i w j k : Nat) : actsOf i [.act w j k] = if j = i then [k] else [] := by
  by_cases h : j = i <;> simp [actsOf, h]

/-- A worker's action, seen from outside: which fields change. -/
inductive WorkEffect (prog : Nat → List (TaskOp S)) (w : Nat) (st st' : Pool S) : Prop where
  /-- no effect on store, task flags and history; the worker is not on a task before or after, or
  goes from `unlockRun` to `run` -/
  | idle (hst : st'.store = st.store) (hs : st'.started = st.started) (hh : st'.hist = st.hist)
      (hpc : ∀ v, v ≠ w → st'.pc v = st.pc v)
      (hnew : (∀ i, (st'.pc w).onTask i = false) ∧ (∀ i, (st.pc w).onTask i = false) ∨
        ∃ i, st.pc w = .unlockRun i ∧ st'.pc w = .run i 0 false)
  | mark (i : Nat) (h0 : st.pc w = .mark i) (hst : st'.store = st.store) (hs : st'.started = st.started.set i true)
      (hh : st'.hist = st.hist ++ [.start w i]) (hpc : ∀ v, v ≠ w → st'.pc v = st.pc v) (hnew : st'.pc w = .unlockRun i)
  | act (i k : Nat) (f : Bool) (op : TaskOp S) (h0 : st.pc w = .run i k f) (hop : (prog i)[k]? = some op)
      (hst : st'.store = (op f st.store).1) (hs : st'.started = st.started) (hh : st'.hist = st.hist ++ [.act w i k])
      (hpc : ∀ v, v ≠ w → st'.pc v = st.pc v) (hnew : st'.pc w = .run i (k + 1) (op f st.store).2)
  | finish (i k : Nat) (f : Bool) (h0 : st.pc w = .run i k f) (hop : (prog i)[k]? = none)
      (hst : st'.store = st.store) (hs : st'.started = st.started) (hh : st'.hist = st.hist ++ [.finish w i f])
      (hpc : ∀ v, v ≠ w → st'.pc v = st.pc v) (hnew : ∀ j, (st'.pc w).onTask j = false)
  | error (h0 : st.pc w = .setErr) (hst : st'.store = st.store) (hs : st'.started = st.started)
      (hh : st'.hist = st.hist ++ [.error w]) (hpc : ∀ v, v ≠ w → st'.pc v = st.pc v) (hnew : st'.pc w = .top)

theorem workEffect {prog : Nat → List (TaskOp S)} {st st' : Pool S} {w : Nat} (h : workStep prog st w = some st') :
    WorkEffect prog w st st' := by
  unfold workStep at h
  have hne : ∀ (p : PC) (v : Nat), v ≠ w → (st.setPc w p).pc v = st.pc v := by
    intro p v hv; simp [Pool.setPc, hv]
  have heq : ∀ p : PC, (st.setPc w p).pc w = p := by intro p; simp [Pool.setPc]
  split at h
  · rename_i h0
    injection h with h; subst h
    refine .idle rfl rfl rfl (hne _) (Or.inl ⟨?_, ?_⟩)
    · intro i; rw [heq]; cases st.error <;> rfl
    · intro i; rw [h0]; rfl
  · rename_i h0
    split at h
    · injection h with h; subst h
      exact .idle rfl rfl rfl (hne _) (Or.inl ⟨fun i => by rw [show _ = _ from heq PC.scan]; rfl, fun i => by rw [h0]; rfl⟩)
    · cases h
  · rename_i h0
    split at h
    · injection h with h; subst h
      exact .idle rfl rfl rfl (hne _) (Or.inl ⟨fun i => by rw [heq]; rfl, fun i => by rw [h0]; rfl⟩)
    · injection h with h; subst h
      exact .idle rfl rfl rfl (hne _) (Or.inl ⟨fun i => by rw [heq]; rfl, fun i => by rw [h0]; rfl⟩)
  · rename_i i h0
    injection h with h; subst h
    exact .mark i h0 rfl rfl rfl (hne _) (heq _)
  · rename_i i h0
    injection h with h; subst h
    exact .idle rfl rfl rfl (hne _) (Or.inr ⟨i, h0, heq _⟩)
  · rename_i h0
    injection h with h; subst h
    exact .idle rfl rfl rfl (hne _) (Or.inl ⟨fun i => by rw [show _ = _ from heq PC.done]; rfl, fun i => by rw [h0]; rfl⟩)
  · rename_i i k f h0
    split at h
    · rename_i op hop
      injection h with h; subst h
      exact .act i k f op h0 hop rfl rfl rfl (hne _) (heq _)
    · rename_i hop
      injection h with h; subst h
      refine .finish i k f h0 hop rfl rfl rfl (hne _) ?_
      intro j
      rw [show _ = _ from heq (if f = true then PC.setErr else PC.top)]
      cases f <;> rfl
  · rename_i h0
    injection h with h; subst h
    exact .error h0 rfl rfl rfl (hne _) (heq _)
  · cases h

/-- Assertions about the tasks hold: `A i k f` describes the store while task `i` has done `k` actions and has
failure flag `f`; `acts` is the matching statement about the history. -/
structure PoolAssert (prog : Nat → List (TaskOp S)) (I : S → Prop) (A : Nat → Nat → Bool → S → Prop) (st : Pool S) : Prop where
  inv : I st.store
  pending : ∀ i, i < st.started.length → st.started[i]? ≠ some true → A i 0 false st.store ∧ actsOf i st.hist = []
  committed : ∀ w i, st.pc w = .unlockRun i → A i 0 false st.store ∧ actsOf i st.hist = []
  running : ∀ w i k f, st.pc w = .run i k f →
    A i k f st.store ∧ actsOf i st.hist = List.range k ∧ k ≤ (prog i).length
  finished : ∀ w i f, .finish w i f ∈ st.hist →
    A i (prog i).length f st.store ∧ actsOf i st.hist = List.range (prog i).length

theorem onTask_run (i k : Nat) (f : Bool) : (PC.run i k f).onTask i = true := by simp [PC.onTask]
theorem onTask_unlockRun (i : Nat) : (PC.unlockRun i).onTask i = true := by simp [PC.onTask]

/-- Preservation, given that each action keeps the global invariant, establishes its own next assertion, and
does not disturb the assertions of the other tasks. -/
theorem poolAssert_step {prog : Nat → List (TaskOp S)} {n : Nat} {env : S → S → Prop}
    {I : S → Prop} {A : Nat → Nat → Bool → S → Prop} {count : Nat}
    (hop : ∀ i, i < count → ∀ k f op s, (prog i)[k]? = some op → I s → A i k f s →
      I (op f s).1 ∧ A i (k + 1) (op f s).2 (op f s).1 ∧
      ∀ j, j < count → j ≠ i → ∀ k' f', A j k' f' s → A j k' f' (op f s).1)
    (henv : ∀ s s', env s s' → I s → I s' ∧ ∀ j, j < count → ∀ k f, A j k f s → A j k f s')
    {st st' : Pool S} (hI : PoolInv st) (hlen : st.started.length = count)
    (hA : PoolAssert prog I A st) (h : PoolStep prog n env st st') : PoolAssert prog I A st' := by
  have lt_of_true : ∀ i, st.started[i]? = some true → i < count := by
    intro i hi
    rcases Nat.lt_or_ge i st.started.length with h | h
    · omega
    · rw [List.getElem?_eq_none h] at hi; cases hi
  have lt_on : ∀ w i, (st.pc w).onTask i = true → i < count := fun w i h => lt_of_true i (hI.runStarted w i h).1
  cases h with
  | env s' he =>
    have := henv _ _ he hA.inv
    refine ⟨this.1, ?_, ?_, ?_, ?_⟩
    · intro i hi hs
      have h1 := hA.pending i hi hs
      exact ⟨this.2 i (by simpa [hlen] using hi) _ _ h1.1, h1.2⟩
    · intro w i hp
      have h1 := hA.committed w i hp
      exact ⟨this.2 i (lt_on w i (by rw [show st.pc w = _ from hp]; exact onTask_unlockRun i)) _ _ h1.1, h1.2⟩
    · intro w i k f hp
      have h1 := hA.running w i k f hp
      exact ⟨this.2 i (lt_on w i (by rw [show st.pc w = _ from hp]; exact onTask_run i k f)) _ _ h1.1, h1.2⟩
    · intro w i f hm
      have h1 := hA.finished w i f hm
      exact ⟨this.2 i (lt_of_true i (hI.finStarted w i f hm)) _ _ h1.1, h1.2⟩
  | work w hw h =>
    cases workEffect h with
    | idle hst hs hh hpc hnew =>
      refine ⟨by rw [hst]; exact hA.inv, ?_, ?_, ?_, ?_⟩
      · intro i hi; rw [hst, hh, hs]; exact hA.pending i (by rw [← hs]; exact hi)
      · intro v i hp
        rw [hst, hh]
        by_cases hv : v = w
        · subst hv
          rcases hnew with ⟨h1, _⟩ | ⟨j, _, h2⟩
          · have := h1 i; rw [hp, onTask_unlockRun] at this; cases this
          · rw [hp] at h2; cases h2
        · exact hA.committed v i (by rw [← hpc v hv]; exact hp)
      · intro v i k f hp
        rw [hst, hh]
        by_cases hv : v = w
        · subst hv
          rcases hnew with ⟨h1, _⟩ | ⟨j, h2, h3⟩
          · have := h1 i; rw [hp, onTask_run] at this; cases this
          · rw [hp] at h3; injection h3 with e1 e2 e3; subst e1 e2 e3
            have := hA.committed v i h2
            exact ⟨this.1, by simpa using this.2, Nat.zero_le _⟩
        · exact hA.running v i k f (by rw [← hpc v hv]; exact hp)
      · intro v i f hm; rw [hst, hh]; rw [hh] at hm; exact hA.finished v i f hm
    | mark i h0 hst hs hh hpc hnew =>
      have hfalse := hI.marked w i h0
      have hlt : i < st.started.length := by
        rcases Nat.lt_or_ge i st.started.length with h | h
        · exact h
        · rw [List.getElem?_eq_none h] at hfalse; cases hfalse
      have hacts : ∀ j, actsOf j st'.hist = actsOf j st.hist := by intro j; rw [hh, actsOf_append]; simp
      refine ⟨by rw [hst]; exact hA.inv, ?_, ?_, ?_, ?_⟩
      · intro j hj hne
        rw [hst, hacts]
        rw [hs] at hj hne
        have hji : i ≠ j := by rintro rfl; simp [hlt] at hne
        exact hA.pending j (by simpa using hj) (by simpa [hji] using hne)
      · intro v j hp
        rw [hst, hacts]
        by_cases hv : v = w
        · subst hv
          rw [hp] at hnew; injection hnew with e; subst e
          exact hA.pending j hlt (by rw [hfalse]; simp)
        · exact hA.committed v j (by rw [← hpc v hv]; exact hp)
      · intro v j k f hp
        rw [hst, hacts]
        by_cases hv : v = w
        · subst hv; rw [hp] at hnew; cases hnew
        · exact hA.running v j k f (by rw [← hpc v hv]; exact hp)
      · intro v j f hm
        rw [hst, hacts]
        rw [hh] at hm
        simp only [List.mem_append, List.mem_singleton, reduceCtorEq, or_false] at hm
        exact hA.finished v j f hm
    | act i k f op h0 hop' hst hs hh hpc hnew =>
      have hon : (st.pc w).onTask i = true := by rw [h0]; exact onTask_run i k f
      have hi := lt_on w i hon
      obtain ⟨hA1, hA2, hA3⟩ := hA.running w i k f h0
      obtain ⟨r1, r2, r3⟩ := hop i hi k f op st.store hop' hA.inv hA1
      have hacts : ∀ j, j ≠ i → actsOf j st'.hist = actsOf j st.hist := by
        intro j hj; rw [hh, actsOf_append, actsOf_act, if_neg (Ne.symm hj), List.append_nil]
      refine ⟨by rw [hst]; exact r1, ?_, ?_, ?_, ?_⟩
      · intro j hj hne
        rw [hs] at hj hne
        have hji : j ≠ i := by rintro rfl; exact hne (hI.runStarted w j hon).1
        rw [hst, hacts j hji]
        have := hA.pending j hj hne
        exact ⟨r3 j (by omega) hji _ _ this.1, this.2⟩
      · intro v j hp
        by_cases hv : v = w
        · subst hv; rw [hp] at hnew; cases hnew
        · have hp' : st.pc v = .unlockRun j := by rw [← hpc v hv]; exact hp
          have honv : (st.pc v).onTask j = true := by rw [hp']; exact onTask_unlockRun j
          have hji : j ≠ i := by rintro rfl; exact hv (hI.runUnique v w j honv hon)
          rw [hst, hacts j hji]
          have := hA.committed v j hp'
          exact ⟨r3 j (lt_on v j honv) hji _ _ this.1, this.2⟩
      · intro v j k' f' hp
        by_cases hv : v = w
        · subst hv; rw [hp] at hnew; injection hnew with e1 e2 e3; subst e1 e2 e3
          rw [hst]
          refine ⟨r2, ?_, ?_⟩
          · rw [hh, actsOf_append, hA2, actsOf_act, if_pos rfl, List.range_succ]
          · have := (List.getElem?_eq_some_iff.mp hop').1
            omega
        · have hp' : st.pc v = .run j k' f' := by rw [← hpc v hv]; exact hp
          have honv : (st.pc v).onTask j = true := by rw [hp']; exact onTask_run j k' f'
          have hji : j ≠ i := by rintro rfl; exact hv (hI.runUnique v w j honv hon)
          rw [hst, hacts j hji]
          have := hA.running v j k' f' hp'
          exact ⟨r3 j (lt_on v j honv) hji _ _ this.1, this.2⟩
      · intro v j f' hm
        rw [hh] at hm
        simp only [List.mem_append, List.mem_singleton, reduceCtorEq, or_false] at hm
        have hji : j ≠ i := by rintro rfl; exact hI.runFin w j hon v f' hm
        rw [hst, hacts j hji]
        have := hA.finished v j f' hm
        exact ⟨r3 j (lt_of_true j (hI.finStarted v j f' hm)) hji _ _ this.1, this.2⟩
    | finish i k f h0 hop' hst hs hh hpc hnew =>
      have hacts : ∀ j, actsOf j st'.hist = actsOf j st.hist := by intro j; rw [hh, actsOf_append]; simp
      have hk := List.getElem?_eq_none_iff.mp hop'
      refine ⟨by rw [hst]; exact hA.inv, ?_, ?_, ?_, ?_⟩
      · intro j hj hne
        rw [hst, hacts]
        rw [hs] at hj hne
        exact hA.pending j hj hne
      · intro v j hp
        rw [hst, hacts]
        by_cases hv : v = w
        · subst hv; have := hnew j; rw [hp, onTask_unlockRun] at this; cases this
        · exact hA.committed v j (by rw [← hpc v hv]; exact hp)
      · intro v j k' f' hp
        rw [hst, hacts]
        by_cases hv : v = w
        · subst hv; have := hnew j; rw [hp, onTask_run] at this; cases this
        · exact hA.running v j k' f' (by rw [← hpc v hv]; exact hp)
      · intro v j f' hm
        rw [hst, hacts]
        rw [hh] at hm
        simp only [List.mem_append, List.mem_singleton, PoolEvent.finish.injEq] at hm
        rcases hm with hm | ⟨_, rfl, rfl⟩
        · exact hA.finished v j f' hm
        · obtain ⟨h1, h2, h3⟩ := hA.running w j k f' h0
          have : k = (prog j).length := by omega
          subst this
          exact ⟨h1, h2⟩
    | error h0 hst hs hh hpc hnew =>
      have hacts : ∀ j, actsOf j st'.hist = actsOf j st.hist := by intro j; rw [hh, actsOf_append]; simp
      refine ⟨by rw [hst]; exact hA.inv, ?_, ?_, ?_, ?_⟩
      · intro j hj hne
        rw [hst, hacts]
        rw [hs] at hj hne
        exact hA.pending j hj hne
      · intro v j hp
        rw [hst, hacts]
        by_cases hv : v = w
        · subst hv; rw [hp] at hnew; cases hnew
        · exact hA.committed v j (by rw [← hpc v hv]; exact hp)
      · intro v j k' f' hp
        rw [hst, hacts]
        by_cases hv : v = w
        · subst hv; rw [hp] at hnew; cases hnew
        · exact hA.running v j k' f' (by rw [← hpc v hv]; exact hp)
      · intro v j f' hm
        rw [hst, hacts]
        rw [hh] at hm
        simp only [List.mem_append, List.mem_singleton, reduceCtorEq, or_false] at hm
        exact hA.finished v j f' hm

theorem poolAssert_init {prog : Nat → List (TaskOp S)} {I : S → Prop} {A : Nat → Nat → Bool → S → Prop} {count : Nat} {s : S}
    (hI : I s) (h0 : ∀ i, i < count → A i 0 false s) : PoolAssert prog I A (Pool.init count s) := by
  refine ⟨hI, ?_, ?_, ?_, ?_⟩
  · intro i hi _
    exact ⟨h0 i (by simpa [Pool.init] using hi), rfl⟩
  · intro w i h; cases h
  · intro w i k f h; cases h
  · intro w i f h; cases h

/-- Threads that do not exist do nothing. -/
def PoolOut (n : Nat) (st : Pool S) : Prop := ∀ w, n ≤ w → st.pc w = .top

theorem poolOut_step {prog : Nat → List (TaskOp S)} {n : Nat} {env : S → S → Prop} {st st' : Pool S}
    (hO : PoolOut n st) (h : PoolStep prog n env st st') : PoolOut n st' := by
  cases h with
  | env s' _ => exact hO
  | work w hw h =>
    intro v hv
    have hne : v ≠ w := by omega
    have : st'.pc v = st.pc v := by
      cases workEffect h with
      | idle _ _ _ hpc _ => exact hpc v hne
      | mark _ _ _ _ _ hpc _ => exact hpc v hne
      | act _ _ _ _ _ _ _ _ _ hpc _ => exact hpc v hne
      | finish _ _ _ _ _ _ _ _ hpc _ => exact hpc v hne
      | error _ _ _ _ hpc _ => exact hpc v hne
    rw [this]; exact hO v hv

theorem poolOut_stepAdd {prog : Nat → List (TaskOp S)} {n : Nat} {env : S → S → Prop} {st st' : Pool S}
    (hO : PoolOut n st) (h : PoolStepAdd prog n env st st') : PoolOut n st' := by
  cases h with
  | step h => exact poolOut_step hO h
  | add _ => exact hO

theorem poolInv_reach {prog : Nat → List (TaskOp S)} {n count : Nat} {env : S → S → Prop} {s : S} {st : Pool S}
    (h : Steps (PoolStep prog n env) (Pool.init count s) st) : PoolInv st :=
  steps_inv (P := PoolInv) (fun _ _ ha hs => poolInv_step ha hs) h (poolInv_init count s)

theorem poolInv_reachAdd {prog : Nat → List (TaskOp S)} {n count : Nat} {env : S → S → Prop} {s : S} {st : Pool S}
    (h : Steps (PoolStepAdd prog n env) (Pool.init count s) st) : PoolInv st :=
  steps_inv (P := PoolInv) (fun _ _ ha hs => poolInv_stepAdd ha hs) h (poolInv_init count s)

theorem poolOut_reachAdd {prog : Nat → List (TaskOp S)} {n count : Nat} {env : S → S → Prop} {s : S} {st : Pool S}
    (h : Steps (PoolStepAdd prog n env) (Pool.init count s) st) : PoolOut n st :=
  steps_inv (P := PoolOut n) (fun _ _ ha hs => poolOut_stepAdd ha hs) h (fun _ _ => rfl)

theorem poolDone_reach {prog : Nat → List (TaskOp S)} {n count : Nat} {env : S → S → Prop} {s : S} {st : Pool S}
    (h : Steps (PoolStep prog n env) (Pool.init count s) st) : PoolDone count st :=
  steps_inv (P := PoolDone count) (fun _ _ ha hs => poolDone_step ha hs) h (poolDone_init count s)

/-- All invariants in one: what holds in every state reachable from a fresh pool. -/
theorem pool_rely {prog : Nat → List (TaskOp S)} {n : Nat} {env : S → S → Prop}
    {I : S → Prop} {A : Nat → Nat → Bool → S → Prop} {count : Nat}
    (hop : ∀ i, i < count → ∀ k f op s, (prog i)[k]? = some op → I s → A i k f s →
      I (op f s).1 ∧ A i (k + 1) (op f s).2 (op f s).1 ∧
      ∀ j, j < count → j ≠ i → ∀ k' f', A j k' f' s → A j k' f' (op f s).1)
    (henv : ∀ s s', env s s' → I s → I s' ∧ ∀ j, j < count → ∀ k f, A j k f s → A j k f s')
    {s : S} (hI : I s) (h0 : ∀ i, i < count → A i 0 false s) {st : Pool S}
    (h : Steps (PoolStep prog n env) (Pool.init count s) st) :
    PoolInv st ∧ PoolDone count st ∧ PoolOut n st ∧ PoolAssert prog I A st := by
  have : ∀ a b, (PoolInv a ∧ PoolDone count a ∧ PoolOut n a ∧ PoolAssert prog I A a) → PoolStep prog n env a b →
      (PoolInv b ∧ PoolDone count b ∧ PoolOut n b ∧ PoolAssert prog I A b) := by
    rintro a b ⟨h1, h2, h3, h4⟩ hs
    exact ⟨poolInv_step h1 hs, poolDone_step h2 hs, poolOut_step h3 hs, poolAssert_step hop henv h1 h2.len h4 hs⟩
  exact steps_inv this h ⟨poolInv_init count s, poolDone_init count s, fun _ _ => rfl, poolAssert_init hI h0⟩

/-- After a successful wait every task is finished without failure. -/
theorem pool_all_finished {count n : Nat} {st : Pool S} (hI : PoolInv st) (hD : PoolDone count st) (hO : PoolOut n st)
    (hn : 0 < n) (hj : st.Joined n) (hok : st.waitOk = true) (i : Nat) (hi : i < count) :
    (∃ w, .start w i ∈ st.hist ∧ .finish w i false ∈ st.hist) ∧ ∀ w f, .finish w i f ∈ st.hist → f = false := by
  have herr : st.error = false := by simpa [Pool.waitOk] using hok
  have hstart : st.started[i]? = some true := by
    rcases hD.done 0 (hj 0 hn) with h | h
    · rw [herr] at h; cases h
    · exact h i hi
  have hpc : ∀ w, st.pc w = .done ∨ st.pc w = .top := by
    intro w
    rcases Nat.lt_or_ge w n with h | h
    · exact Or.inl (hj w h)
    · exact Or.inr (hO w h)
  have hfalse : ∀ w f, .finish w i f ∈ st.hist → f = false := by
    intro w f hf
    cases f with
    | false => rfl
    | true =>
      rcases hI.err w i hf with h | h
      · rw [herr] at h; cases h
      · rcases hpc w with h' | h' <;> rw [h'] at h <;> cases h
  refine ⟨?_, hfalse⟩
  have hc := hI.cnt i
  rw [if_pos hstart] at hc
  obtain ⟨e, he, hs⟩ := List.countP_pos_iff.mp (by omega : 0 < st.hist.countP (·.isStart i))
  cases e with
  | start w j =>
    simp only [isStart_start, beq_iff_eq] at hs
    subst hs
    rcases hI.startedCases w i he with h | ⟨f, hf⟩
    · rcases hpc w with h' | h' <;> rw [h'] at h <;> cases h
    · have := hfalse w f hf
      subst this
      exact ⟨w, he, hf⟩
  | act _ _ _ => cases hs
  | finish _ _ _ => cases hs
  | error _ => cases hs

/-! ## Termination -/

/-- Sum over the first `n` numbers. -/
def sumTo (f : Nat → Nat) : Nat → Nat
  | 0 => 0
  | n + 1 => sumTo f n + f n

theorem sumTo_congr {f g : Nat → Nat} {n : Nat} (h : ∀ i, i < n → f i = g i) : sumTo f n = sumTo g n := by
  induction n with
  | zero => rfl
  | succ n ih => simp only [sumTo]; rw [ih (fun i hi => h i (by omega)), h n (by omega)]

theorem sumTo_update {f g : Nat → Nat} {n w : Nat} (hw : w < n) (h : ∀ i, i < n → i ≠ w → f i = g i) :
    sumTo f n + g w = sumTo g n + f w := by
  induction n with
  | zero => omega
  | succ n ih =>
    simp only [sumTo]
    by_cases hwn : w = n
    · subst hwn
      rw [sumTo_congr (fun i hi => h i (by omega) (by omega))]
      omega
    · have := ih (by omega) (fun i hi => h i (by omega))
      rw [h n (by omega) (by omega)]
      omega

/-- How many more actions a worker can do without starting another task. -/
def PC.weight (prog : Nat → List (TaskOp S)) : PC → Nat
  | .top => 4
  | .lock => 3
  | .scan => 2
  | .mark _ => 1
  | .unlockRun i => (prog i).length + 7
  | .unlockNone => 1
  | .run i k _ => ((prog i).length - k) + 6
  | .setErr => 5
  | .done => 0

/-- Actions needed for a task that was not started. -/
def taskBudget (len : Nat) : Option Bool → Nat
  | some false => len + 7
  | _ => 0

/-- Bound on the number of worker actions that are left. -/
def Pool.measure (prog : Nat → List (TaskOp S)) (n count : Nat) (st : Pool S) : Nat :=
  sumTo (fun w => (st.pc w).weight prog) n +
  sumTo (fun i => taskBudget (prog i).length st.started[i]?) count

theorem measure_setPc {prog : Nat → List (TaskOp S)} {n count : Nat} {st st' : Pool S} {w : Nat} (hw : w < n) (p : PC)
    (hpc : ∀ v, st'.pc v = if v = w then p else st.pc v) (hs : st'.started = st.started) :
    st'.measure prog n count + (st.pc w).weight prog = st.measure prog n count + p.weight prog := by
  unfold Pool.measure
  have := sumTo_update (f := fun v => (st'.pc v).weight prog) (g := fun v => (st.pc v).weight prog) hw
    (fun i _ hne => by simp [hpc, hne])
  simp only [hpc w, if_true] at this
  rw [hs]
  omega

theorem measure_lt {prog : Nat → List (TaskOp S)} {n count : Nat} {st st' : Pool S} {w : Nat} (hw : w < n) (p : PC)
    (hpc : ∀ v, st'.pc v = if v = w then p else st.pc v) (hs : st'.started = st.started)
    (hlt : p.weight prog < (st.pc w).weight prog) :
    st'.measure prog n count < st.measure prog n count := by
  have := measure_setPc (prog := prog) (count := count) hw p hpc hs
  omega

theorem measure_work {prog : Nat → List (TaskOp S)} {n count : Nat} {st st' : Pool S} {w : Nat} (hw : w < n)
    (hI : PoolInv st) (hlen : st.started.length = count) (h : workStep prog st w = some st') :
    st'.measure prog n count < st.measure prog n count := by
  unfold workStep at h
  split at h
  · rename_i h0
    injection h with h; subst h
    refine measure_lt hw (if st.error = true then PC.done else PC.lock) (fun v => rfl) rfl ?_
    rw [h0]
    cases st.error <;> simp [PC.weight]
  · rename_i h0
    split at h
    · injection h with h; subst h
      exact measure_lt hw .scan (fun v => rfl) rfl (by simp [h0, PC.weight])
    · cases h
  · rename_i h0
    split at h
    · injection h with h; subst h
      exact measure_lt hw .unlockNone (fun v => rfl) rfl (by simp [h0, PC.weight])
    · rename_i i _
      injection h with h; subst h
      exact measure_lt hw (.mark i) (fun v => rfl) rfl (by simp [h0, PC.weight])
  · rename_i i h0
    injection h with h; subst h
    have hfalse := hI.marked w i h0
    have hlt : i < st.started.length := by
      rcases Nat.lt_or_ge i st.started.length with h | h
      · exact h
      · rw [List.getElem?_eq_none h] at hfalse; cases hfalse
    have h1 := measure_setPc (prog := prog) (count := count) (st := st) (st' := st.setPc w (.unlockRun i)) hw (.unlockRun i) (fun v => rfl) rfl
    rw [h0] at h1
    simp only [PC.weight] at h1
    have h2 := sumTo_update (n := count) (w := i)
      (f := fun j => taskBudget (prog j).length (st.started.set i true)[j]?)
      (g := fun j => taskBudget (prog j).length st.started[j]?)
      (by omega) (fun j _ hne => by simp [Ne.symm hne])
    have h3 : (st.started.set i true)[i]? = some true := by simp [hlt]
    rw [h3, hfalse, show taskBudget (prog i).length (some false) = (prog i).length + 7 from rfl,
      show taskBudget (prog i).length (some true) = 0 from rfl] at h2
    unfold Pool.measure at h1 ⊢
    simp only [Pool.setPc] at h1 ⊢
    omega
  · rename_i i h0
    injection h with h; subst h
    exact measure_lt hw (.run i 0 false) (fun v => rfl) rfl (by simp [h0, PC.weight])
  · rename_i h0
    injection h with h; subst h
    exact measure_lt hw .done (fun v => rfl) rfl (by simp [h0, PC.weight])
  · rename_i i k f h0
    split at h
    · rename_i op hop
      injection h with h; subst h
      refine measure_lt hw (.run i (k + 1) (op f st.store).2) (fun v => rfl) rfl ?_
      have := (List.getElem?_eq_some_iff.mp hop).1
      simp only [h0, PC.weight]
      omega
    · injection h with h; subst h
      refine measure_lt hw (if f = true then .setErr else .top) (fun v => rfl) rfl ?_
      rw [h0]
      cases f <;> simp only [PC.weight, if_true, if_false, Bool.false_eq_true] <;> omega
  · rename_i h0
    injection h with h; subst h
    exact measure_lt hw .top (fun v => rfl) rfl (by simp [h0, PC.weight])
  · cases h

end Bob
