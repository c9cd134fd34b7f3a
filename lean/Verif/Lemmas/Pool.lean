import Verif.Model.Pool
/-!
# Invariants of the worker pool
-/

namespace Bob

variable {S : Type}

/-- The worker is between taking and releasing the lock. -/
def PC.inCS : PC → Bool
  | .scan | .mark _ | .unlockRun _ | .unlockNone => true
  | _ => false

/-- The worker is committed to task `i`. -/
def PC.onTask (i : Nat) : PC → Bool
  | .unlockRun j => i == j
  | .run j _ _ => i == j
  | _ => false

def PoolEvent.isStart (i : Nat) : PoolEvent → Bool
  | .start _ j => i == j
  | _ => false

def PoolEvent.isFinish (i : Nat) : PoolEvent → Bool
  | .finish _ j _ => i == j
  | _ => false

@[simp] theorem isStart_start (i w j : Nat) : (PoolEvent.start w j).isStart i = (i == j) := rfl
@[simp] theorem isStart_finish (i w j : Nat) (f : Bool) : (PoolEvent.finish w j f).isStart i = false := rfl
@[simp] theorem isStart_error (i w : Nat) : (PoolEvent.error w).isStart i = false := rfl
@[simp] theorem isStart_act (i w j k : Nat) : (PoolEvent.act w j k).isStart i = false := rfl
@[simp] theorem isFinish_act (i w j k : Nat) : (PoolEvent.act w j k).isFinish i = false := rfl
@[simp] theorem isFinish_start (i w j : Nat) : (PoolEvent.start w j).isFinish i = false := rfl
@[simp] theorem isFinish_finish (i w j : Nat) (f : Bool) : (PoolEvent.finish w j f).isFinish i = (i == j) := rfl
@[simp] theorem isFinish_error (i w : Nat) : (PoolEvent.error w).isFinish i = false := rfl

structure PoolInv (st : Pool S) : Prop where
  cs : ∀ w, (st.pc w).inCS = true ↔ st.owner = some w
  marked : ∀ w i, st.pc w = .mark i → st.started[i]? = some false
  cnt : ∀ i, st.hist.countP (·.isStart i) = if st.started[i]? = some true then 1 else 0
  runStarted : ∀ w i, (st.pc w).onTask i = true → st.started[i]? = some true ∧ .start w i ∈ st.hist
  runUnique : ∀ w w' i, (st.pc w).onTask i = true → (st.pc w').onTask i = true → w = w'
  runFin : ∀ w i, (st.pc w).onTask i = true → ∀ w' f, .finish w' i f ∉ st.hist
  finStarted : ∀ w i f, .finish w i f ∈ st.hist → st.started[i]? = some true
  finOnce : ∀ i, st.hist.countP (·.isFinish i) ≤ 1
  startedCases : ∀ w i, .start w i ∈ st.hist → (st.pc w).onTask i = true ∨ ∃ f, .finish w i f ∈ st.hist
  err : ∀ w i, .finish w i true ∈ st.hist → st.error = true ∨ st.pc w = .setErr

theorem poolInv_init (count : Nat) (s : S) : PoolInv (Pool.init count s) := by
  constructor <;> simp [Pool.init, PC.inCS, PC.onTask, List.getElem?_replicate]

theorem poolInv_initCancelled (count : Nat) (s : S) : PoolInv (Pool.initCancelled count s) := by
  constructor <;> simp [Pool.initCancelled, Pool.init, PC.inCS, PC.onTask, List.getElem?_replicate]

theorem findIdx_false {l : List Bool} {i : Nat} (h : l.findIdx? (· == false) = some i) : l[i]? = some false := by
  rw [List.findIdx?_eq_some_iff_getElem] at h
  obtain ⟨hi, h1, _⟩ := h
  rw [List.getElem?_eq_getElem hi]
  simpa using h1

theorem findIdx_none {l : List Bool} (h : l.findIdx? (· == false) = none) : ∀ i, i < l.length → l[i]? = some true := by
  intro i hi
  rw [List.findIdx?_eq_none_iff] at h
  have := h l[i] (List.getElem_mem hi)
  rw [List.getElem?_eq_getElem hi]
  simpa using this

theorem poolInv_work (prog : Nat → List (TaskOp S)) {st st' : Pool S} {w : Nat} (hI : PoolInv st)
    (h : workStep prog st w = some st') : PoolInv st' := by
  have hcs := hI.cs w
  unfold workStep at h
  split at h
  · -- top
    rename_i hpc
    injection h with h; subst h
    have hn : ¬ st.owner = some w := by rw [← hcs, hpc]; simp [PC.inCS]
    constructor
    · intro v
      by_cases hv : v = w
      · subst hv; simp only [Pool.setPc, if_true]; cases st.error <;> simp [PC.inCS, hn]
      · simpa [Pool.setPc, hv] using hI.cs v
    · intro v i
      by_cases hv : v = w
      · subst hv; simp only [Pool.setPc, if_true]; cases st.error <;> simp
      · simpa [Pool.setPc, hv] using hI.marked v i
    · exact hI.cnt
    · intro v i
      by_cases hv : v = w
      · subst hv; simp only [Pool.setPc, if_true]; cases st.error <;> simp [PC.onTask]
      · simpa [Pool.setPc, hv] using hI.runStarted v i
    · intro v v' i
      by_cases hv : v = w
      · subst hv; simp only [Pool.setPc, if_true]; cases st.error <;> simp [PC.onTask]
      · by_cases hv' : v' = w
        · subst hv'; simp only [Pool.setPc, if_true]; cases st.error <;> simp [PC.onTask]
        · simpa [Pool.setPc, hv, hv'] using hI.runUnique v v' i
    · intro v i
      by_cases hv : v = w
      · subst hv; simp only [Pool.setPc, if_true]; cases st.error <;> simp [PC.onTask]
      · simpa [Pool.setPc, hv] using hI.runFin v i
    · exact hI.finStarted
    · exact hI.finOnce
    · intro v i hs
      have := hI.startedCases v i hs
      by_cases hv : v = w
      · subst hv
        rw [hpc] at this
        exact Or.inr (this.resolve_left (by simp [PC.onTask]))
      · simpa [Pool.setPc, hv] using this
    · intro v i hf
      have := hI.err v i hf
      by_cases hv : v = w
      · subst hv
        rw [hpc] at this
        exact Or.inl (this.resolve_right (by simp))
      · simpa [Pool.setPc, hv] using this
  · -- lock
    rename_i hpc
    split at h
    · rename_i hown
      injection h with h; subst h
      constructor
      · intro v
        by_cases hv : v = w
        · subst hv; simp [Pool.setPc, PC.inCS]
        · have := hI.cs v
          rw [hown] at this
          simpa [Pool.setPc, hv, Ne.symm hv] using this
      · intro v i
        by_cases hv : v = w
        · subst hv; simp [Pool.setPc]
        · simpa [Pool.setPc, hv] using hI.marked v i
      · exact hI.cnt
      · intro v i
        by_cases hv : v = w
        · subst hv; simp [Pool.setPc, PC.onTask]
        · simpa [Pool.setPc, hv] using hI.runStarted v i
      · intro v v' i
        by_cases hv : v = w
        · subst hv; simp [Pool.setPc, PC.onTask]
        · by_cases hv' : v' = w
          · subst hv'; simp [Pool.setPc, PC.onTask]
          · simpa [Pool.setPc, hv, hv'] using hI.runUnique v v' i
      · intro v i
        by_cases hv : v = w
        · subst hv; simp [Pool.setPc, PC.onTask]
        · simpa [Pool.setPc, hv] using hI.runFin v i
      · exact hI.finStarted
      · exact hI.finOnce
      · intro v i hs
        have := hI.startedCases v i hs
        by_cases hv : v = w
        · subst hv
          rw [hpc] at this
          exact Or.inr (this.resolve_left (by simp [PC.onTask]))
        · simpa [Pool.setPc, hv] using this
      · intro v i hf
        have := hI.err v i hf
        by_cases hv : v = w
        · subst hv
          rw [hpc] at this
          exact Or.inl (this.resolve_right (by simp))
        · simpa [Pool.setPc, hv] using this
    · cases h
  · -- scan
    rename_i hpc
    have hown : st.owner = some w := by rw [← hcs, hpc]; rfl
    have key : ∀ p : PC, p.inCS = true → (∀ i, p.onTask i = false) → (∀ i, p = .mark i → st.started[i]? = some false) →
        PoolInv (st.setPc w p) := by
      intro p hp1 hp2 hp3
      constructor
      · intro v
        by_cases hv : v = w
        · subst hv; simp [Pool.setPc, hp1, hown]
        · simpa [Pool.setPc, hv] using hI.cs v
      · intro v i
        by_cases hv : v = w
        · subst hv; simpa [Pool.setPc] using hp3 i
        · simpa [Pool.setPc, hv] using hI.marked v i
      · exact hI.cnt
      · intro v i
        by_cases hv : v = w
        · subst hv; simp [Pool.setPc, hp2]
        · simpa [Pool.setPc, hv] using hI.runStarted v i
      · intro v v' i
        by_cases hv : v = w
        · subst hv; simp [Pool.setPc, hp2]
        · by_cases hv' : v' = w
          · subst hv'; simp [Pool.setPc, hp2]
          · simpa [Pool.setPc, hv, hv'] using hI.runUnique v v' i
      · intro v i
        by_cases hv : v = w
        · subst hv; simp [Pool.setPc, hp2]
        · simpa [Pool.setPc, hv] using hI.runFin v i
      · exact hI.finStarted
      · exact hI.finOnce
      · intro v i hs
        have := hI.startedCases v i hs
        by_cases hv : v = w
        · subst hv
          rw [hpc] at this
          exact Or.inr (this.resolve_left (by simp [PC.onTask]))
        · simpa [Pool.setPc, hv] using this
      · intro v i hf
        have := hI.err v i hf
        by_cases hv : v = w
        · subst hv
          rw [hpc] at this
          exact Or.inl (this.resolve_right (by simp))
        · simpa [Pool.setPc, hv] using this
    split at h
    · injection h with h; subst h
      exact key _ rfl (fun _ => rfl) (by simp)
    · rename_i i hfind
      injection h with h; subst h
      refine key _ rfl (fun _ => rfl) ?_
      intro j e
      injection e with e; subst e
      exact findIdx_false hfind
  · -- mark
    rename_i i hpc
    injection h with h; subst h
    have hown : st.owner = some w := by rw [← hcs, hpc]; rfl
    have hfalse := hI.marked w i hpc
    have hlt : i < st.started.length := by
      rcases Nat.lt_or_ge i st.started.length with h | h
      · exact h
      · rw [List.getElem?_eq_none h] at hfalse; cases hfalse
    have hother : ∀ v, v ≠ w → (st.pc v).inCS = false := by
      intro v hv
      cases hb : (st.pc v).inCS with
      | false => rfl
      | true =>
        have := (hI.cs v).mp hb
        rw [hown] at this
        injection this with this
        exact absurd this.symm hv
    have hnot : ∀ v, (st.pc v).onTask i = false := by
      intro v
      cases hb : (st.pc v).onTask i with
      | false => rfl
      | true =>
        have := (hI.runStarted v i hb).1
        rw [hfalse] at this
        cases this
    have hnofin : ∀ v f, PoolEvent.finish v i f ∉ st.hist := by
      intro v f hm
      have := hI.finStarted v i f hm
      rw [hfalse] at this
      cases this
    have hset : ∀ j, (st.started.set i true)[j]? = if j = i then some true else st.started[j]? := by
      intro j
      by_cases hj : j = i
      · subst hj; simp [hlt]
      · simp [hj, Ne.symm hj]
    constructor
    · intro v
      by_cases hv : v = w
      · subst hv; simp [Pool.setPc, PC.inCS, hown]
      · simpa [Pool.setPc, hv] using hI.cs v
    · intro v j hv2
      by_cases hv : v = w
      · subst hv; simp [Pool.setPc] at hv2
      · simp only [Pool.setPc, hv, if_false] at hv2
        have := hother v hv
        rw [hv2] at this
        simp [PC.inCS] at this
    · intro j
      simp only [List.countP_append, hset, hI.cnt j]
      by_cases hj : j = i
      · subst hj; simp [hfalse]
      · simp [hj]
    · intro v j hv2
      by_cases hv : v = w
      · subst hv
        simp only [Pool.setPc, if_true, PC.onTask, beq_iff_eq] at hv2
        subst hv2
        simp [hset]
      · simp only [Pool.setPc, hv, if_false] at hv2
        have := hI.runStarted v j hv2
        have hji : j ≠ i := by rintro rfl; rw [hnot v] at hv2; cases hv2
        simp [hset, hji, this]
    · intro v v' j h1 h2
      by_cases hv : v = w <;> by_cases hv' : v' = w
      · rw [hv, hv']
      · subst hv
        simp only [Pool.setPc, if_true, PC.onTask, beq_iff_eq] at h1
        simp only [Pool.setPc, hv', if_false] at h2
        subst h1; rw [hnot v'] at h2; cases h2
      · subst hv'
        simp only [Pool.setPc, if_true, PC.onTask, beq_iff_eq] at h2
        simp only [Pool.setPc, hv, if_false] at h1
        subst h2; rw [hnot v] at h1; cases h1
      · simp only [Pool.setPc, hv, hv', if_false] at h1 h2
        exact hI.runUnique v v' j h1 h2
    · intro v j h1 v' f hm
      simp only [List.mem_append, List.mem_singleton, reduceCtorEq, or_false] at hm
      by_cases hv : v = w
      · subst hv
        simp only [Pool.setPc, if_true, PC.onTask, beq_iff_eq] at h1
        subst h1
        exact hnofin v' f hm
      · simp only [Pool.setPc, hv, if_false] at h1
        exact hI.runFin v j h1 v' f hm
    · intro v j f hm
      simp only [List.mem_append, List.mem_singleton, reduceCtorEq, or_false] at hm
      have := hI.finStarted v j f hm
      simp only [hset]
      split <;> simp [this]
    · intro j
      have := hI.finOnce j
      simpa [List.countP_append] using this
    · intro v j hs
      simp only [List.mem_append, List.mem_singleton, PoolEvent.start.injEq] at hs
      rcases hs with hs | ⟨rfl, rfl⟩
      · have := hI.startedCases v j hs
        by_cases hv : v = w
        · subst hv
          rw [hpc] at this
          obtain ⟨f, hf⟩ := this.resolve_left (by simp [PC.onTask])
          exact Or.inr ⟨f, by simp [hf]⟩
        · rcases this with h1 | ⟨f, hf⟩
          · exact Or.inl (by simpa [Pool.setPc, hv] using h1)
          · exact Or.inr ⟨f, by simp [hf]⟩
      · exact Or.inl (by simp [Pool.setPc, PC.onTask])
    · intro v j hf
      simp only [List.mem_append, List.mem_singleton, reduceCtorEq, or_false] at hf
      have := hI.err v j hf
      by_cases hv : v = w
      · subst hv
        rw [hpc] at this
        exact Or.inl (this.resolve_right (by simp))
      · simpa [Pool.setPc, hv] using this
  · -- unlockRun
    rename_i i hpc
    injection h with h; subst h
    have hown : st.owner = some w := by rw [← hcs, hpc]; rfl
    have hon : ∀ v j, ((st.setPc w (.run i 0 false)).pc v).onTask j = (st.pc v).onTask j := by
      intro v j
      by_cases hv : v = w
      · subst hv; simp [Pool.setPc, hpc, PC.onTask]
      · simp [Pool.setPc, hv]
    constructor
    · intro v
      by_cases hv : v = w
      · subst hv; simp [Pool.setPc, PC.inCS]
      · have := hI.cs v
        rw [hown] at this
        simpa [Pool.setPc, hv, Ne.symm hv] using this
    · intro v j
      by_cases hv : v = w
      · subst hv; simp [Pool.setPc]
      · simpa [Pool.setPc, hv] using hI.marked v j
    · exact hI.cnt
    · intro v j h1; exact hI.runStarted v j (by rw [← hon]; exact h1)
    · intro v v' j h1 h2; exact hI.runUnique v v' j (by rw [← hon]; exact h1) (by rw [← hon]; exact h2)
    · intro v j h1; exact hI.runFin v j (by rw [← hon]; exact h1)
    · exact hI.finStarted
    · exact hI.finOnce
    · intro v j hs
      have := hI.startedCases v j hs
      rw [← hon] at this
      exact this
    · intro v j hf
      have := hI.err v j hf
      by_cases hv : v = w
      · subst hv
        rw [hpc] at this
        exact Or.inl (this.resolve_right (by simp))
      · simpa [Pool.setPc, hv] using this
  · -- unlockNone
    rename_i hpc
    injection h with h; subst h
    have hown : st.owner = some w := by rw [← hcs, hpc]; rfl
    have hon : ∀ v j, ((st.setPc w .done).pc v).onTask j = (st.pc v).onTask j := by
      intro v j
      by_cases hv : v = w
      · subst hv; simp [Pool.setPc, hpc, PC.onTask]
      · simp [Pool.setPc, hv]
    constructor
    · intro v
      by_cases hv : v = w
      · subst hv; simp [Pool.setPc, PC.inCS]
      · have := hI.cs v
        rw [hown] at this
        simpa [Pool.setPc, hv, Ne.symm hv] using this
    · intro v j
      by_cases hv : v = w
      · subst hv; simp [Pool.setPc]
      · simpa [Pool.setPc, hv] using hI.marked v j
    · exact hI.cnt
    · intro v j h1; exact hI.runStarted v j (by rw [← hon]; exact h1)
    · intro v v' j h1 h2; exact hI.runUnique v v' j (by rw [← hon]; exact h1) (by rw [← hon]; exact h2)
    · intro v j h1; exact hI.runFin v j (by rw [← hon]; exact h1)
    · exact hI.finStarted
    · exact hI.finOnce
    · intro v j hs
      have := hI.startedCases v j hs
      rw [← hon] at this
      exact this
    · intro v j hf
      have := hI.err v j hf
      by_cases hv : v = w
      · subst hv
        rw [hpc] at this
        exact Or.inl (this.resolve_right (by simp))
      · simpa [Pool.setPc, hv] using this
  · -- run
    rename_i i k failed hpc
    have hn : ¬ st.owner = some w := by rw [← hcs, hpc]; simp [PC.inCS]
    split at h
    · rename_i op hop
      injection h with h; subst h
      have hon : ∀ v j, ((st.setPc w (.run i (k + 1) (op failed st.store).2)).pc v).onTask j = (st.pc v).onTask j := by
        intro v j
        by_cases hv : v = w
        · subst hv; simp [Pool.setPc, hpc, PC.onTask]
        · simp [Pool.setPc, hv]
      constructor
      · intro v
        by_cases hv : v = w
        · subst hv; simp [Pool.setPc, PC.inCS, hn]
        · simpa [Pool.setPc, hv] using hI.cs v
      · intro v j
        by_cases hv : v = w
        · subst hv; simp [Pool.setPc]
        · simpa [Pool.setPc, hv] using hI.marked v j
      · intro j
        rw [List.countP_append, hI.cnt j]; rfl
      · intro v j h1
        have := hI.runStarted v j (by rw [← hon]; exact h1)
        simp [Pool.setPc, this]
      · intro v v' j h1 h2; exact hI.runUnique v v' j (by rw [← hon]; exact h1) (by rw [← hon]; exact h2)
      · intro v j h1 v' f hm
        simp only [List.mem_append, List.mem_singleton, reduceCtorEq, or_false] at hm
        exact hI.runFin v j (by rw [← hon]; exact h1) v' f hm
      · intro v j f hm
        simp only [List.mem_append, List.mem_singleton, reduceCtorEq, or_false] at hm
        exact hI.finStarted v j f hm
      · intro j
        simpa [List.countP_append] using hI.finOnce j
      · intro v j hs
        have hs' : PoolEvent.start v j ∈ st.hist := by simpa using hs
        have := hI.startedCases v j hs'
        rw [← hon] at this
        rcases this with h1 | ⟨f, hf⟩
        · exact Or.inl h1
        · exact Or.inr ⟨f, by simp [hf]⟩
      · intro v j hf
        simp only [List.mem_append, List.mem_singleton, reduceCtorEq, or_false] at hf
        have := hI.err v j hf
        by_cases hv : v = w
        · subst hv
          rw [hpc] at this
          exact Or.inl (this.resolve_right (by simp))
        · simpa [Pool.setPc, hv] using this
    · injection h with h; subst h
      have hw : (st.pc w).onTask i = true := by simp [hpc, PC.onTask]
      have hnew : ∀ j, (if failed = true then PC.setErr else PC.top).onTask j = false := by
        intro j; cases failed <;> rfl
      constructor
      · intro v
        by_cases hv : v = w
        · subst hv; simp only [Pool.setPc, if_true]; cases failed <;> simp [PC.inCS, hn]
        · simpa [Pool.setPc, hv] using hI.cs v
      · intro v j
        by_cases hv : v = w
        · subst hv; simp only [Pool.setPc, if_true]; cases failed <;> simp
        · simpa [Pool.setPc, hv] using hI.marked v j
      · intro j
        rw [List.countP_append, hI.cnt j]; rfl
      · intro v j h1
        by_cases hv : v = w
        · subst hv; simp [Pool.setPc, hnew] at h1
        · have := hI.runStarted v j (by simpa [Pool.setPc, hv] using h1)
          simp [Pool.setPc, this]
      · intro v v' j h1 h2
        by_cases hv : v = w
        · subst hv; simp [Pool.setPc, hnew] at h1
        · by_cases hv' : v' = w
          · subst hv'; simp [Pool.setPc, hnew] at h2
          · exact hI.runUnique v v' j (by simpa [Pool.setPc, hv] using h1) (by simpa [Pool.setPc, hv'] using h2)
      · intro v j h1 v' f hm
        by_cases hv : v = w
        · subst hv; simp [Pool.setPc, hnew] at h1
        · have h1' : (st.pc v).onTask j = true := by simpa [Pool.setPc, hv] using h1
          simp only [List.mem_append, List.mem_singleton, PoolEvent.finish.injEq] at hm
          rcases hm with hm | ⟨_, rfl, _⟩
          · exact hI.runFin v j h1' v' f hm
          · exact hv (hI.runUnique v w j h1' hw)
      · intro v j f hm
        simp only [List.mem_append, List.mem_singleton, PoolEvent.finish.injEq] at hm
        rcases hm with hm | ⟨_, rfl, _⟩
        · exact hI.finStarted v j f hm
        · exact (hI.runStarted w j hw).1
      · intro j
        simp only [List.countP_append]
        by_cases hj : j = i
        · subst hj
          have : st.hist.countP (·.isFinish j) = 0 := by
            rw [List.countP_eq_zero]
            intro e he
            cases e with
            | finish v j' f =>
              simp only [isFinish_finish, beq_iff_eq]
              rintro rfl
              exact hI.runFin w j hw v f he
            | _ => simp
          simp [this]
        · simpa [hj] using hI.finOnce j
      · intro v j hs
        have hs' : PoolEvent.start v j ∈ st.hist := by
          simpa [Pool.setPc] using hs
        have := hI.startedCases v j hs'
        by_cases hv : v = w
        · subst hv
          rcases this with h1 | ⟨f, hf⟩
          · simp only [hpc, PC.onTask, beq_iff_eq] at h1
            subst h1
            exact Or.inr ⟨failed, by simp⟩
          · exact Or.inr ⟨f, by simp [hf]⟩
        · rcases this with h1 | ⟨f, hf⟩
          · exact Or.inl (by simpa [Pool.setPc, hv] using h1)
          · exact Or.inr ⟨f, by simp [hf]⟩
      · intro v j hf
        simp only [List.mem_append, List.mem_singleton, PoolEvent.finish.injEq] at hf
        rcases hf with hf | ⟨rfl, rfl, rfl⟩
        · have := hI.err v j hf
          by_cases hv : v = w
          · subst hv
            rw [hpc] at this
            exact Or.inl (this.resolve_right (by simp))
          · simpa [Pool.setPc, hv] using this
        · right; simp [Pool.setPc]
  · -- setErr
    rename_i hpc
    injection h with h; subst h
    have hn : ¬ st.owner = some w := by rw [← hcs, hpc]; simp [PC.inCS]
    have hon : ∀ v j, ((st.setPc w .top).pc v).onTask j = (st.pc v).onTask j := by
      intro v j
      by_cases hv : v = w
      · subst hv; simp [Pool.setPc, hpc, PC.onTask]
      · simp [Pool.setPc, hv]
    constructor
    · intro v
      by_cases hv : v = w
      · subst hv; simp [Pool.setPc, PC.inCS, hn]
      · simpa [Pool.setPc, hv] using hI.cs v
    · intro v j
      by_cases hv : v = w
      · subst hv; simp [Pool.setPc]
      · simpa [Pool.setPc, hv] using hI.marked v j
    · intro j
      rw [List.countP_append, hI.cnt j]; rfl
    · intro v j h1
      have := hI.runStarted v j (by rw [← hon]; exact h1)
      simp [Pool.setPc, this]
    · intro v v' j h1 h2; exact hI.runUnique v v' j (by rw [← hon]; exact h1) (by rw [← hon]; exact h2)
    · intro v j h1 v' f hm
      simp only [List.mem_append, List.mem_singleton, reduceCtorEq, or_false] at hm
      exact hI.runFin v j (by rw [← hon]; exact h1) v' f hm
    · intro v j f hm
      simp only [List.mem_append, List.mem_singleton, reduceCtorEq, or_false] at hm
      exact hI.finStarted v j f hm
    · intro j
      simpa [List.countP_append] using hI.finOnce j
    · intro v j hs
      have hs' : PoolEvent.start v j ∈ st.hist := by simpa [Pool.setPc] using hs
      have := hI.startedCases v j hs'
      rw [← hon] at this
      rcases this with h1 | ⟨f, hf⟩
      · exact Or.inl h1
      · exact Or.inr ⟨f, by simp [hf]⟩
    · intro v j _; left; rfl
  · cases h

theorem poolInv_env {st : Pool S} (s' : S) (hI : PoolInv st) : PoolInv { st with store := s' } :=
  ⟨hI.cs, hI.marked, hI.cnt, hI.runStarted, hI.runUnique, hI.runFin, hI.finStarted, hI.finOnce, hI.startedCases, hI.err⟩

theorem poolInv_step {prog : Nat → List (TaskOp S)} {n : Nat} {env : S → S → Prop} {st st' : Pool S} (hI : PoolInv st)
    (h : PoolStep prog n env st st') : PoolInv st' := by
  cases h with
  | work w _ h => exact poolInv_work prog hI h
  | env s' _ => exact poolInv_env s' hI

theorem poolInv_stepAdd {prog : Nat → List (TaskOp S)} {n : Nat} {env : S → S → Prop} {st st' : Pool S} (hI : PoolInv st)
    (h : PoolStepAdd prog n env st st') : PoolInv st' := by
  cases h with
  | step h => exact poolInv_step hI h
  | add hown =>
    have hget : ∀ i : Nat, (st.started ++ [false])[i]? = some true ↔ st.started[i]? = some true := by
      intro i
      rcases Nat.lt_trichotomy i st.started.length with h | h | h
      · rw [List.getElem?_append_left h]
      · subst h; simp
      · rw [List.getElem?_eq_none (by simp; omega), List.getElem?_eq_none (by omega)]
    constructor
    · exact hI.cs
    · intro w i hp
      have := hI.marked w i hp
      have hlt : i < st.started.length := by
        rcases Nat.lt_or_ge i st.started.length with h | h
        · exact h
        · rw [List.getElem?_eq_none h] at this; cases this
      simpa [List.getElem?_append_left hlt] using this
    · intro i; simp only [hget]; exact hI.cnt i
    · intro w i h1; simp only [hget]; exact hI.runStarted w i h1
    · exact hI.runUnique
    · exact hI.runFin
    · intro w i f hm; simp only [hget]; exact hI.finStarted w i f hm
    · exact hI.finOnce
    · exact hI.startedCases
    · exact hI.err

theorem steps_inv {α : Type} {R : α → α → Prop} {P : α → Prop} (hstep : ∀ a b, P a → R a b → P b) {a b : α}
    (h : Steps R a b) (ha : P a) : P b := by
  induction h with
  | refl => exact ha
  | tail _ r ih => exact hstep _ _ ih r

theorem steps_mono {α : Type} {R R' : α → α → Prop} (hR : ∀ a b, R a b → R' a b) {a b : α} (h : Steps R a b) :
    Steps R' a b := by
  induction h with
  | refl => exact .refl _
  | tail _ r ih => exact .tail ih (hR _ _ r)

/-- Once a worker has left the pool without an error being recorded, every task was started. -/
structure PoolDone (count : Nat) (st : Pool S) : Prop where
  len : st.started.length = count
  none : ∀ w, st.pc w = .unlockNone → ∀ i, i < count → st.started[i]? = some true
  done : ∀ w, st.pc w = .done → st.error = true ∨ ∀ i, i < count → st.started[i]? = some true

theorem poolDone_init (count : Nat) (s : S) : PoolDone count (Pool.init count s) := by
  constructor <;> simp [Pool.init]

theorem poolDone_step {prog : Nat → List (TaskOp S)} {n : Nat} {env : S → S → Prop} {count : Nat} {st st' : Pool S}
    (hD : PoolDone count st) (h : PoolStep prog n env st st') : PoolDone count st' := by
  cases h with
  | env s' _ => exact ⟨hD.len, hD.none, hD.done⟩
  | work w _ h =>
    unfold workStep at h
    have keep : ∀ p : PC, p ≠ .unlockNone → p ≠ .done → PoolDone count (st.setPc w p) := by
      intro p h1 h2
      refine ⟨hD.len, ?_, ?_⟩
      · intro v hv
        by_cases hvw : v = w
        · subst hvw; simp [Pool.setPc] at hv; exact absurd hv h1
        · exact hD.none v (by simpa [Pool.setPc, hvw] using hv)
      · intro v hv
        by_cases hvw : v = w
        · subst hvw; simp [Pool.setPc] at hv; exact absurd hv h2
        · exact hD.done v (by simpa [Pool.setPc, hvw] using hv)
    split at h
    · rename_i hpc
      injection h with h; subst h
      cases he : st.error with
      | false => exact keep _ (by simp) (by simp)
      | true =>
        refine ⟨hD.len, ?_, fun _ _ => Or.inl he⟩
        intro v hv
        by_cases hvw : v = w
        · subst hvw; simp [Pool.setPc] at hv
        · exact hD.none v (by simpa [Pool.setPc, hvw] using hv)
    · split at h
      · injection h with h; subst h
        have := keep .scan (by simp) (by simp)
        exact ⟨this.len, this.none, this.done⟩
      · cases h
    · split at h
      · rename_i hfind
        injection h with h; subst h
        have hall := findIdx_none hfind
        rw [hD.len] at hall
        exact ⟨hD.len, fun _ _ => hall, fun _ _ => Or.inr hall⟩
      · injection h with h; subst h
        exact keep _ (by simp) (by simp)
    · rename_i i _
      injection h with h; subst h
      have := keep (.unlockRun i) (by simp) (by simp)
      have hmono : ∀ j : Nat, st.started[j]? = some true → (st.started.set i true)[j]? = some true := by
        intro j hj
        by_cases hji : i = j
        · subst hji
          have hlt : i < st.started.length := by
            rcases Nat.lt_or_ge i st.started.length with h | h
            · exact h
            · rw [List.getElem?_eq_none h] at hj; cases hj
          simp [hlt]
        · simp [hji, hj]
      refine ⟨by simp [hD.len], ?_, ?_⟩
      · intro v hv j hj; exact hmono j (this.none v hv j hj)
      · intro v hv
        rcases this.done v hv with h | h
        · exact Or.inl h
        · exact Or.inr fun j hj => hmono j (h j hj)
    · rename_i i _
      injection h with h; subst h
      have := keep (.run i 0 false) (by simp) (by simp)
      exact ⟨this.len, this.none, this.done⟩
    · rename_i hpc
      injection h with h; subst h
      have hall := hD.none w hpc
      exact ⟨hD.len, fun _ _ => hall, fun _ _ => Or.inr hall⟩
    · rename_i i k failed hpc
      split at h
      · rename_i op hop
        injection h with h; subst h
        have := keep (.run i (k + 1) (op failed st.store).2) (by simp) (by simp)
        exact ⟨this.len, this.none, this.done⟩
      · injection h with h; subst h
        have := keep (if failed then .setErr else .top) (by cases failed <;> simp) (by cases failed <;> simp)
        exact ⟨this.len, this.none, this.done⟩
    · injection h with h; subst h
      have := keep .top (by simp) (by simp)
      exact ⟨this.len, this.none, fun _ _ => Or.inl rfl⟩
    · cases h

/-- An error is recorded only for a task that failed. -/
def PoolErr (a : Pool S) : Prop :=
  (a.error = true → ∃ w i, .finish w i true ∈ a.hist) ∧ (∀ w, a.pc w = .setErr → ∃ i, .finish w i true ∈ a.hist)

theorem poolErr_init (count : Nat) (s : S) : PoolErr (Pool.init count s) :=
  ⟨fun h => by simp [Pool.init] at h, fun w h => by simp [Pool.init] at h⟩

theorem poolErr_step {prog : Nat → List (TaskOp S)} {n : Nat} {env : S → S → Prop} {a b : Pool S} (h : PoolErr a)
    (hs : PoolStepAdd prog n env a b) : PoolErr b := by
  obtain ⟨h1, h2⟩ := h
  have mono : ∀ (e : PoolEvent), (∃ w i, PoolEvent.finish w i true ∈ a.hist) → ∃ w i, PoolEvent.finish w i true ∈ a.hist ++ [e] := by
    rintro e ⟨w, i, hm⟩; exact ⟨w, i, by simp [hm]⟩
  have mono2 : ∀ (e : PoolEvent) w, (∃ i, PoolEvent.finish w i true ∈ a.hist) → ∃ i, PoolEvent.finish w i true ∈ a.hist ++ [e] := by
    rintro e w ⟨i, hm⟩; exact ⟨i, by simp [hm]⟩
  cases hs with
  | add _ => exact ⟨h1, h2⟩
  | step hs =>
    cases hs with
    | env s' _ => exact ⟨h1, h2⟩
    | work w hw hstep =>
      unfold workStep at hstep
      have other : ∀ p : PC, p ≠ .setErr → ∀ v, (a.setPc w p).pc v = .setErr → a.pc v = .setErr := by
        intro p hp v hv
        by_cases hvw : v = w
        · subst hvw; simp [Pool.setPc] at hv; exact absurd hv hp
        · simpa [Pool.setPc, hvw] using hv
      split at hstep
      · injection hstep with e; subst e
        exact ⟨h1, fun v hv => h2 v (other _ (by cases a.error <;> simp) v hv)⟩
      · split at hstep
        · injection hstep with e; subst e
          exact ⟨h1, fun v hv => h2 v (other .scan (by simp) v hv)⟩
        · cases hstep
      · split at hstep
        · injection hstep with e; subst e
          exact ⟨h1, fun v hv => h2 v (other _ (by simp) v hv)⟩
        · injection hstep with e; subst e
          exact ⟨h1, fun v hv => h2 v (other _ (by simp) v hv)⟩
      · rename_i i _
        injection hstep with e; subst e
        exact ⟨fun he => mono _ (h1 he), fun v hv => mono2 _ v (h2 v (other (.unlockRun i) (by simp) v hv))⟩
      · rename_i i _
        injection hstep with e; subst e
        exact ⟨h1, fun v hv => h2 v (other (.run i 0 false) (by simp) v hv)⟩
      · injection hstep with e; subst e
        exact ⟨h1, fun v hv => h2 v (other .done (by simp) v hv)⟩
      · rename_i i k f _
        split at hstep
        · rename_i op _
          injection hstep with e; subst e
          exact ⟨fun he => mono _ (h1 he), fun v hv => mono2 _ v (h2 v (other (.run i (k + 1) (op f a.store).2) (by simp) v hv))⟩
        · injection hstep with e; subst e
          refine ⟨fun he => mono _ (h1 he), ?_⟩
          intro v hv
          by_cases hvw : v = w
          · subst hvw
            cases f with
            | true => exact ⟨i, by simp⟩
            | false => simp [Pool.setPc] at hv
          · exact mono2 _ v (h2 v (by simpa [Pool.setPc, hvw] using hv))
      · rename_i h0
        injection hstep with e; subst e
        obtain ⟨i, hm⟩ := h2 w h0
        exact ⟨fun _ => ⟨w, i, by simp [hm]⟩, fun v hv => mono2 _ v (h2 v (other .top (by simp) v hv))⟩
      · cases hstep

end Bob
