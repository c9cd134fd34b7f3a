import Verif.Lemmas.PoolRely
/-!
# Properties C16-C20 and part of C08: the worker pool
-/

namespace Bob

variable {S : Type}

/-- How often task `i` was started. -/
def startCount (hist : List PoolEvent) (i : Nat) : Nat :=
  hist.countP fun e => match e with | .start _ j => j == i | _ => false

/-- How often task `i` was finished. -/
def finishCount (hist : List PoolEvent) (i : Nat) : Nat :=
  hist.countP fun e => match e with | .finish _ j _ => j == i | _ => false

theorem startCount_eq (hist : List PoolEvent) (i : Nat) : startCount hist i = hist.countP (·.isStart i) := by
  unfold startCount
  congr 1
  funext e
  cases e <;> simp [PoolEvent.isStart, Bool.beq_comm]

theorem finishCount_eq (hist : List PoolEvent) (i : Nat) : finishCount hist i = hist.countP (·.isFinish i) := by
  unfold finishCount
  congr 1
  funext e
  cases e <;> simp [PoolEvent.isFinish, Bool.beq_comm]

/-! ## C16 -/

/-- **C16.** At every moment of every execution, even if tasks are added while it runs, no task was started or
finished more than once. -/
theorem C16_no_task_runs_twice (prog : Nat → List (TaskOp S)) (n count : Nat) (env : S → S → Prop) (s : S) (st : Pool S)
    (h : Steps (PoolStepAdd prog n env) (Pool.init count s) st) (i : Nat) :
    startCount st.hist i ≤ 1 ∧ finishCount st.hist i ≤ startCount st.hist i := by
  have hI : PoolInv st := poolInv_reachAdd h
  rw [startCount_eq, finishCount_eq]
  have h1 := hI.cnt i
  have h2 := hI.finOnce i
  constructor
  · rw [h1]; split <;> omega
  · by_cases hz : st.hist.countP (·.isFinish i) = 0
    · omega
    · obtain ⟨e, he, hf⟩ := List.countP_pos_iff.mp (by omega : 0 < st.hist.countP (·.isFinish i))
      cases e with
      | finish w j f =>
        simp only [isFinish_finish, beq_iff_eq] at hf
        subst hf
        rw [if_pos (hI.finStarted w i f he)] at h1
        omega
      | start _ _ => cases hf
      | act _ _ _ => cases hf
      | error _ => cases hf

/-! ## C17 -/

/-- **C17.** If waiting for a pool with at least one worker reports success, each task was started once, did
all its actions exactly once and in order, and finished once, without failure. -/
theorem C17_wait_success_all_done (prog : Nat → List (TaskOp S)) (n count : Nat) (env : S → S → Prop) (s : S) (st : Pool S)
    (hn : 0 < n) (h : Steps (PoolStep prog n env) (Pool.init count s) st) (hj : st.Joined n) (hok : st.waitOk = true)
    (i : Nat) (hi : i < count) :
    startCount st.hist i = 1 ∧ actsOf i st.hist = List.range (prog i).length ∧ finishCount st.hist i = 1 ∧
      ∀ w f, .finish w i f ∈ st.hist → f = false := by
  obtain ⟨hI, hD, hO, hA⟩ := pool_rely (I := fun _ => True) (A := fun _ _ _ _ => True)
    (by intros; exact ⟨trivial, trivial, fun _ _ _ _ _ _ => trivial⟩)
    (by intros; exact ⟨trivial, fun _ _ _ _ _ => trivial⟩) trivial (fun _ _ => trivial) h
  obtain ⟨⟨w, hs, hf⟩, hall⟩ := pool_all_finished hI hD hO hn hj hok i hi
  have h16 := C16_no_task_runs_twice prog n count env s st (steps_mono (fun _ _ => .step) h) i
  have hpos : 0 < finishCount st.hist i := by
    rw [finishCount_eq]
    exact List.countP_pos_iff.mpr ⟨_, hf, by simp⟩
  exact ⟨by omega, (hA.finished w i false hf).2, by omega, hall⟩

/-- A pool of one worker and two tasks, each with one action which records its number. -/
def demoProg (i : Nat) : List (TaskOp (List Nat)) := [fun f s => (s ++ [i], f)]

/-- Run worker `w` for `k` actions. -/
def runWorker (prog : Nat → List (TaskOp S)) (w : Nat) : Nat → Pool S → Option (Pool S)
  | 0, st => some st
  | k + 1, st => (workStep prog st w).bind (runWorker prog w k)

theorem runWorker_steps {prog : Nat → List (TaskOp S)} {n w : Nat} {env : S → S → Prop} (hw : w < n) :
    ∀ (k : Nat) (a st st' : Pool S), Steps (PoolStep prog n env) a st → runWorker prog w k st = some st' →
      Steps (PoolStep prog n env) a st'
  | 0, _, _, _, h, e => by simp only [runWorker, Option.some.injEq] at e; subst e; exact h
  | k + 1, a, st, st', h, e => by
    simp only [runWorker] at e
    cases hs : workStep prog st w with
    | none => rw [hs] at e; cases e
    | some st1 =>
      rw [hs] at e
      exact runWorker_steps hw k a st1 st' (.tail h (.work w hw hs)) e

/-- Instance: such a terminated, successful execution exists. -/
example : ∃ st, Steps (PoolStep demoProg 1 (fun _ _ => False)) (Pool.init 2 []) st ∧ st.Joined 1 ∧ st.waitOk = true ∧
    st.store = [0, 1] := by
  have : (runWorker demoProg 0 18 (Pool.init 2 [])).isSome = true := by decide
  obtain ⟨st, hst⟩ := Option.isSome_iff_exists.mp this
  refine ⟨st, runWorker_steps (by omega) 18 _ _ st (.refl _) hst, ?_, ?_, ?_⟩
  · intro w hw
    have : w = 0 := by omega
    subst this
    have : (runWorker demoProg 0 18 (Pool.init 2 [])).map (·.pc 0) = some .done := by decide
    rw [hst] at this; simpa using this
  · have : (runWorker demoProg 0 18 (Pool.init 2 [])).map (·.waitOk) = some true := by decide
    rw [hst] at this; simpa using this
  · have : (runWorker demoProg 0 18 (Pool.init 2 [])).map (·.store) = some [0, 1] := by decide
    rw [hst] at this; simpa using this

/-- **C17 needs a worker**: with none (which happens if `sysconf` reports 0 CPUs) the wait succeeds at once and no
task was run. -/
theorem C17_zero_workers_false (prog : Nat → List (TaskOp S)) (count : Nat) (env : S → S → Prop) (s : S) :
    ∃ st, Steps (PoolStep prog 0 env) (Pool.init count s) st ∧ st.Joined 0 ∧ st.waitOk = true ∧
      ∀ i, startCount st.hist i = 0 :=
  ⟨_, .refl _, fun w hw => absurd hw (by omega), rfl, fun _ => rfl⟩

/-- **C17 needs the tasks to be added before the workers start**: a task added later, but before the wait, may
never be run although the wait reports success. -/
theorem C17_late_task_false (prog : Nat → List (TaskOp S)) (env : S → S → Prop) (s : S) :
    ∃ st, Steps (PoolStepAdd prog 1 env) (Pool.init 0 s) st ∧ st.Joined 1 ∧ st.waitOk = true ∧
      st.started.length = 1 ∧ startCount st.hist 0 = 0 := by
  have hrun : (runWorker prog 0 4 (Pool.init 0 s)).isSome = true := rfl
  obtain ⟨st, hst⟩ := Option.isSome_iff_exists.mp hrun
  have hs := runWorker_steps (env := env) (by omega : 0 < 1) 4 _ _ st (.refl _) hst
  have hval : runWorker prog 0 4 (Pool.init 0 s) = some
    { Pool.init 0 s with pc := fun v => if v = 0 then .done else if v = 0 then .unlockNone else if v = 0 then .scan else if v = 0 then .lock else .top } := rfl
  rw [hval] at hst
  injection hst with hst
  subst hst
  exact ⟨_, .tail (steps_mono (fun _ _ => .step) hs) (.add rfl), fun w hw => by simp; omega, rfl, rfl, rfl⟩

/-! ## C18 -/

/-- **C18.** If a task reported failure, waiting for the pool reports failure. -/
theorem C18_failure_reported (prog : Nat → List (TaskOp S)) (n count : Nat) (env : S → S → Prop) (s : S) (st : Pool S)
    (h : Steps (PoolStepAdd prog n env) (Pool.init count s) st) (hj : st.Joined n)
    (w i : Nat) (hf : .finish w i true ∈ st.hist) : st.waitOk = false := by
  have hI : PoolInv st := poolInv_reachAdd h
  have hO : PoolOut n st := poolOut_reachAdd h
  rcases hI.err w i hf with h | h
  · simp [Pool.waitOk, h]
  · rcases Nat.lt_or_ge w n with hw | hw
    · rw [hj w hw] at h; cases h
    · rw [hO w hw] at h; cases h

/-- Conversely the wait reports failure only if a task failed. -/
theorem C18_failure_only_if_task_failed (prog : Nat → List (TaskOp S)) (n count : Nat) (env : S → S → Prop) (s : S) (st : Pool S)
    (h : Steps (PoolStepAdd prog n env) (Pool.init count s) st) (hbad : st.waitOk = false) :
    ∃ w i, .finish w i true ∈ st.hist := by
  have := steps_inv (P := PoolErr) (fun _ _ => poolErr_step) h (poolErr_init _ _)
  exact this.1 (by simpa [Pool.waitOk] using hbad)

/-- How many tasks worker `w` starts in a piece of history. -/
def startsBy (w : Nat) (hist : List PoolEvent) : Nat :=
  hist.countP fun e => match e with | .start v _ => v == w | _ => false

theorem startsBy_append (w : Nat) (a b : List PoolEvent) : startsBy w (a ++ b) = startsBy w a + startsBy w b := by
  simp [startsBy]

/-- Invariant behind `C18_stops_soon`. -/
def AfterError (st : Pool S) : Prop :=
  ∀ h1 v h2, st.hist = h1 ++ .error v :: h2 → st.error = true ∧
    ∀ w, startsBy w h2 = 0 ∨ (startsBy w h2 = 1 ∧ st.pc w ≠ .lock ∧ st.pc w ≠ .scan ∧ ∀ i, st.pc w ≠ .mark i)

theorem split_snoc {α : Type} {h : List α} {e x : α} {h1 h2 : List α} (hs : h ++ [e] = h1 ++ x :: h2) :
    (h2 = [] ∧ e = x ∧ h = h1) ∨ ∃ h2', h2 = h2' ++ [e] ∧ h = h1 ++ x :: h2' := by
  rcases List.eq_nil_or_concat h2 with rfl | ⟨h2', y, rfl⟩
  · left
    have : h ++ [e] = h1 ++ [x] := hs
    have := List.append_inj' this rfl
    simp only [List.cons.injEq, and_true] at this
    exact ⟨rfl, this.2, this.1⟩
  · right
    rw [List.concat_eq_append] at hs
    have : h ++ [e] = (h1 ++ x :: h2') ++ [y] := by simpa using hs
    have := List.append_inj' this rfl
    simp only [List.cons.injEq, and_true] at this
    obtain ⟨e1, rfl⟩ := this
    exact ⟨h2', by simp, e1⟩

theorem afterError_work {prog : Nat → List (TaskOp S)} {st st' : Pool S} {w : Nat} (hA : AfterError st)
    (h : workStep prog st w = some st') : AfterError st' := by
  unfold workStep at h
  -- moving to a harmless program counter without touching the history
  have quiet : ∀ (p : PC) (st2 : Pool S), st2.hist = st.hist → st2.error = st.error → st2.pc = (st.setPc w p).pc →
      (p ≠ .lock ∧ p ≠ .scan ∧ (∀ i, p ≠ .mark i) ∨ (st.pc w = .lock ∨ st.pc w = .scan) ∨ st.error = false) → AfterError st2 := by
    intro p st2 e1 e2 e3 hp h1 v h2 hh
    rw [e1] at hh
    obtain ⟨a, b⟩ := hA h1 v h2 hh
    refine ⟨by rw [e2]; exact a, ?_⟩
    intro u
    rw [e3]
    by_cases hu : u = w
    · subst hu
      rcases b u with b | ⟨b1, b2, b3, b4⟩
      · exact Or.inl b
      · rcases hp with hp | hp | hp
        · exact Or.inr ⟨b1, by simpa [Pool.setPc] using hp⟩
        · rcases hp with hp | hp
          · exact absurd hp b2
          · exact absurd hp b3
        · rw [a] at hp; cases hp
    · simpa [Pool.setPc, hu] using b u
  -- appending an event other than start and error
  have append : ∀ (p : PC) (e : PoolEvent) (st2 : Pool S), st2.hist = st.hist ++ [e] → st2.error = st.error →
      st2.pc = (st.setPc w p).pc → p ≠ .lock → p ≠ .scan → (∀ i, p ≠ .mark i) → (∀ u, startsBy u [e] = 0) → (∀ u, e ≠ .error u) →
      AfterError st2 := by
    intro p e st2 e1 e2 e3 p1 p2 p3 he1 he2 h1 v h2 hh
    rw [e1] at hh
    rcases split_snoc hh with ⟨_, e4, _⟩ | ⟨h2', rfl, e5⟩
    · exact absurd e4 (he2 v)
    · obtain ⟨a, b⟩ := hA h1 v h2' e5
      refine ⟨by rw [e2]; exact a, ?_⟩
      intro u
      rw [e3, startsBy_append, he1 u, Nat.add_zero]
      by_cases hu : u = w
      · subst hu
        rcases b u with b | b
        · exact Or.inl b
        · exact Or.inr ⟨b.1, by simpa [Pool.setPc] using ⟨p1, p2, p3⟩⟩
      · simpa [Pool.setPc, hu] using b u
  split at h
  · rename_i h0
    injection h with h; subst h
    cases he : st.error with
    | true => exact quiet .done _ rfl rfl rfl (Or.inl (by simp))
    | false => exact quiet .lock _ rfl rfl rfl (Or.inr (Or.inr he))
  · rename_i h0
    split at h
    · injection h with h; subst h
      exact quiet .scan _ rfl rfl rfl (Or.inr (Or.inl (Or.inl h0)))
    · cases h
  · rename_i h0
    split at h
    · injection h with h; subst h
      exact quiet .unlockNone _ rfl rfl rfl (Or.inl (by simp))
    · injection h with h; subst h
      exact quiet _ _ rfl rfl rfl (Or.inr (Or.inl (Or.inr h0)))
  · rename_i i h0
    injection h with h; subst h
    intro h1 v h2 hh
    rcases split_snoc hh with ⟨_, e4, _⟩ | ⟨h2', rfl, e5⟩
    · cases e4
    · obtain ⟨a, b⟩ := hA h1 v h2' e5
      refine ⟨a, ?_⟩
      intro u
      rw [startsBy_append]
      by_cases hu : u = w
      · subst hu
        rcases b u with b | ⟨_, _, _, b4⟩
        · right
          rw [b]
          simp [startsBy, Pool.setPc]
        · exact absurd h0 (b4 i)
      · have : startsBy u [.start w i] = 0 := by simp [startsBy, Ne.symm hu]
        rw [this]
        simpa [Pool.setPc, hu] using b u
  · rename_i i h0
    injection h with h; subst h
    exact quiet (.run i 0 false) _ rfl rfl rfl (Or.inl (by simp))
  · injection h with h; subst h
    exact quiet .done _ rfl rfl rfl (Or.inl (by simp))
  · rename_i i k f h0
    split at h
    · rename_i op _
      injection h with h; subst h
      exact append (.run i (k + 1) (op f st.store).2) _ _ rfl rfl rfl (by simp) (by simp) (by simp) (fun _ => rfl) (by simp)
    · injection h with h; subst h
      exact append (if f = true then .setErr else .top) _ _ rfl rfl rfl (by cases f <;> simp) (by cases f <;> simp)
        (by cases f <;> simp) (fun _ => rfl) (by simp)
  · rename_i h0
    injection h with h; subst h
    intro h1 v h2 hh
    refine ⟨rfl, ?_⟩
    intro u
    rcases split_snoc hh with ⟨rfl, _, _⟩ | ⟨h2', rfl, e5⟩
    · exact Or.inl rfl
    · obtain ⟨a, b⟩ := hA h1 v h2' e5
      rw [startsBy_append, show startsBy u [.error w] = 0 from rfl, Nat.add_zero]
      by_cases hu : u = w
      · subst hu
        rcases b u with b | b
        · exact Or.inl b
        · exact Or.inr ⟨b.1, by simp [Pool.setPc]⟩
      · simpa [Pool.setPc, hu] using b u
  · cases h

/-- **C18, stopping.** After a failure was recorded, each worker starts at most one further task. -/
theorem C18_stops_soon (prog : Nat → List (TaskOp S)) (n count : Nat) (env : S → S → Prop) (s : S) (st : Pool S)
    (h : Steps (PoolStepAdd prog n env) (Pool.init count s) st)
    (before after : List PoolEvent) (v : Nat) (hh : st.hist = before ++ .error v :: after) (w : Nat) :
    startsBy w after ≤ 1 := by
  have hA : AfterError st := by
    refine steps_inv (P := AfterError) ?_ h ?_
    · rintro a b ha (⟨hs⟩ | _)
      · cases hs with
        | work w _ hs => exact afterError_work ha hs
        | env s' _ => exact ha
      · exact ha
    · intro h1 v h2 e; simp [Pool.init] at e
  rcases (hA before v after hh).2 w with h | h <;> omega

/-- Instance: two workers, task 0 fails while worker 1 is past its test of the flag, and then starts task 1. -/
example : ∃ st, Steps (PoolStep (fun i => [fun _ (s : List Nat) => (s ++ [i], i == 0)]) 2 (fun _ _ => False)) (Pool.init 3 []) st ∧
    st.hist = [.start 0 0, .act 0 0 0, .finish 0 0 true, .error 0] ++ [.start 1 1] := by
  let prog : Nat → List (TaskOp (List Nat)) := fun i => [fun _ s => (s ++ [i], i == 0)]
  let r := (runWorker prog 1 1 (Pool.init 3 [])).bind fun a => (runWorker prog 0 8 a).bind fun b => runWorker prog 1 3 b
  have hr : (runWorker prog 1 1 (Pool.init 3 [])).isSome = true := rfl
  obtain ⟨a, ha⟩ := Option.isSome_iff_exists.mp hr
  have h2 : ((runWorker prog 1 1 (Pool.init 3 [])).bind fun a => runWorker prog 0 8 a).isSome = true := rfl
  rw [ha] at h2
  obtain ⟨b, hb⟩ := Option.isSome_iff_exists.mp h2
  have h3 : ((runWorker prog 1 1 (Pool.init 3 [])).bind fun a => (runWorker prog 0 8 a).bind fun b => runWorker prog 1 3 b).isSome = true := rfl
  have hh : ((runWorker prog 1 1 (Pool.init 3 [])).bind fun a => (runWorker prog 0 8 a).bind fun b => runWorker prog 1 3 b).map (·.hist)
    = some ([.start 0 0, .act 0 0 0, .finish 0 0 true, .error 0] ++ [.start 1 1]) := by decide
  rw [ha] at h3 hh
  simp only [Option.bind_some] at h3 hh hb
  rw [hb] at h3 hh
  simp only [Option.bind_some] at h3 hh
  obtain ⟨c, hc⟩ := Option.isSome_iff_exists.mp h3
  rw [hc] at hh
  refine ⟨c, ?_, by simpa using hh⟩
  have s1 := runWorker_steps (env := fun _ _ => False) (by omega : 1 < 2) 1 _ _ a (.refl _) ha
  have s2 := runWorker_steps (env := fun _ _ => False) (by omega : 0 < 2) 8 _ _ b s1 hb
  exact runWorker_steps (by omega : 1 < 2) 3 _ _ c s2 hc

/-! ## C19 -/

/-- Executions, counting the actions of workers. -/
inductive CountedRun (prog : Nat → List (TaskOp S)) (n : Nat) (env : S → S → Prop) (a : Pool S) : Nat → Pool S → Prop where
  | refl : CountedRun prog n env a 0 a
  | work {k st st'} (h : CountedRun prog n env a k st) (w : Nat) (hw : w < n) (hs : workStep prog st w = some st') :
      CountedRun prog n env a (k + 1) st'
  | env {k st} (h : CountedRun prog n env a k st) (s' : S) (hs : env st.store s') :
      CountedRun prog n env a k { st with store := s' }

theorem CountedRun.steps {prog : Nat → List (TaskOp S)} {n : Nat} {env : S → S → Prop} {a st : Pool S} {k : Nat}
    (h : CountedRun prog n env a k st) : Steps (PoolStep prog n env) a st := by
  induction h with
  | refl => exact .refl _
  | work _ w hw hs ih => exact .tail ih (.work w hw hs)
  | env _ s' hs ih => exact .tail ih (.env s' hs)

/-- Sum of a list of numbers. -/
def listSum : List Nat → Nat := List.foldr (· + ·) 0

theorem sumTo_listSum (f : Nat → Nat) (n : Nat) : sumTo f n = listSum ((List.range n).map f) := by
  have happ : ∀ a b : List Nat, listSum (a ++ b) = listSum a + listSum b := by
    intro a b
    induction a with
    | nil => simp [listSum]
    | cons x a ih => simp only [List.cons_append, listSum, List.foldr_cons] at ih ⊢; omega
  induction n with
  | zero => rfl
  | succ n ih => rw [List.range_succ, List.map_append, happ, ← ih]; simp [sumTo, listSum]

theorem measure_init (prog : Nat → List (TaskOp S)) (n count : Nat) (s : S) :
    (Pool.init count s).measure prog n count = listSum ((List.range count).map fun i => (prog i).length + 7) + 4 * n := by
  unfold Pool.measure
  rw [← sumTo_listSum]
  have h1 : sumTo (fun w => PC.weight prog ((Pool.init count s).pc w)) n = 4 * n := by
    have : ∀ m, sumTo (fun w => PC.weight prog ((Pool.init count s).pc w)) m = 4 * m := by
      intro m
      induction m with
      | zero => rfl
      | succ m ih => simp only [sumTo, ih]; simp [Pool.init, PC.weight]; omega
    exact this n
  have h2 : sumTo (fun i => taskBudget (prog i).length (Pool.init count s).started[i]?) count
      = sumTo (fun i => (prog i).length + 7) count := by
    apply sumTo_congr
    intro i hi
    simp [Pool.init, hi, taskBudget]
  rw [h1, h2]
  omega

/-- **C19, termination.** No execution has more worker actions than seven for each task, plus the task's own
actions, plus four for each worker. -/
theorem C19_bounded_work (prog : Nat → List (TaskOp S)) (n count : Nat) (env : S → S → Prop) (s : S) (st : Pool S) (k : Nat)
    (h : CountedRun prog n env (Pool.init count s) k st) :
    k ≤ listSum ((List.range count).map fun i => (prog i).length + 7) + 4 * n := by
  have key : k + st.measure prog n count ≤ (Pool.init count s).measure prog n count := by
    induction h with
    | refl => omega
    | work hr w hw hs ih =>
      have hI := poolInv_reach (hr.steps)
      have hD := poolDone_reach (hr.steps)
      have := measure_work hw hI hD.len hs
      omega
    | env _ s' _ ih => exact ih
  have h0 := measure_init prog n count s
  omega

/-- Instance: the bound is reached up to a constant. -/
example : ∃ st, CountedRun demoProg 1 (fun _ _ => False) (Pool.init 2 []) 18 st := by
  have gen : ∀ k a (st st' : Pool (List Nat)) m, CountedRun demoProg 1 (fun _ _ => False) a m st → runWorker demoProg 0 k st = some st' →
      CountedRun demoProg 1 (fun _ _ => False) a (m + k) st' := by
    intro k
    induction k with
    | zero => intro a st st' m h e; simp only [runWorker, Option.some.injEq] at e; subst e; exact h
    | succ k ih =>
      intro a st st' m h e
      simp only [runWorker] at e
      cases hs : workStep demoProg st 0 with
      | none => rw [hs] at e; cases e
      | some st1 =>
        rw [hs] at e
        have := ih a st1 st' (m + 1) (.work h 0 (by omega) hs) e
        rwa [show m + (k + 1) = m + 1 + k by omega]
  have : (runWorker demoProg 0 18 (Pool.init 2 [])).isSome = true := by decide
  obtain ⟨st, hst⟩ := Option.isSome_iff_exists.mp this
  exact ⟨st, by simpa using gen 18 _ _ st 0 .refl hst⟩

/-- **C19, no deadlock.** As long as some worker has not ended, some worker can act. -/
theorem C19_no_deadlock (prog : Nat → List (TaskOp S)) (n count : Nat) (env : S → S → Prop) (s : S) (st : Pool S)
    (h : Steps (PoolStepAdd prog n env) (Pool.init count s) st) (hnot : ¬ st.Joined n) :
    ∃ w, w < n ∧ (workStep prog st w).isSome = true := by
  have hI : PoolInv st := poolInv_reachAdd h
  have hO : PoolOut n st := poolOut_reachAdd h
  cases hown : st.owner with
  | some w =>
    have hcs := (hI.cs w).mpr hown
    have hw : w < n := by
      rcases Nat.lt_or_ge w n with h | h
      · exact h
      · rw [hO w h] at hcs; cases hcs
    refine ⟨w, hw, ?_⟩
    unfold workStep
    cases hp : st.pc w with
    | scan => simp only []; split <;> rfl
    | mark i => rfl
    | unlockRun i => rfl
    | unlockNone => rfl
    | top => rw [hp] at hcs; cases hcs
    | lock => rw [hp] at hcs; cases hcs
    | run _ _ _ => rw [hp] at hcs; cases hcs
    | setErr => rw [hp] at hcs; cases hcs
    | done => rw [hp] at hcs; cases hcs
  | none =>
    have : ∃ w, w < n ∧ st.pc w ≠ .done := by
      apply Classical.byContradiction
      intro hc
      apply hnot
      intro w hw
      apply Classical.byContradiction
      intro hne
      exact hc ⟨w, hw, hne⟩
    obtain ⟨w, hw, hne⟩ := this
    refine ⟨w, hw, ?_⟩
    unfold workStep
    cases hp : st.pc w with
    | lock => simp [hown]
    | done => exact absurd hp hne
    | scan => simp only []; split <;> rfl
    | run i k f => simp only []; split <;> rfl
    | top => rfl
    | mark i => rfl
    | unlockRun i => rfl
    | unlockNone => rfl
    | setErr => rfl

/-- **C19, the wait returns.** From every reachable state some continuation ends with all workers joined; with
`C19_bounded_work` every continuation that keeps acting does. -/
theorem C19_wait_returns (prog : Nat → List (TaskOp S)) (n count : Nat) (env : S → S → Prop) (s : S) (st : Pool S)
    (h : Steps (PoolStep prog n env) (Pool.init count s) st) :
    ∃ st', Steps (PoolStep prog n env) st st' ∧ st'.Joined n := by
  have gen : ∀ m (a : Pool S), Steps (PoolStep prog n env) (Pool.init count s) a → a.measure prog n count ≤ m →
      ∃ b, Steps (PoolStep prog n env) a b ∧ b.Joined n := by
    intro m
    induction m with
    | zero =>
      intro a ha hm
      by_cases hj : a.Joined n
      · exact ⟨a, .refl _, hj⟩
      · obtain ⟨w, hw, hs⟩ := C19_no_deadlock prog n count env s a (steps_mono (fun _ _ => .step) ha) hj
        obtain ⟨b, hb⟩ := Option.isSome_iff_exists.mp hs
        have hI := poolInv_reach ha
        have hD := poolDone_reach ha
        have := measure_work hw hI hD.len hb
        omega
    | succ m ih =>
      intro a ha hm
      by_cases hj : a.Joined n
      · exact ⟨a, .refl _, hj⟩
      · obtain ⟨w, hw, hs⟩ := C19_no_deadlock prog n count env s a (steps_mono (fun _ _ => .step) ha) hj
        obtain ⟨b, hb⟩ := Option.isSome_iff_exists.mp hs
        have hI := poolInv_reach ha
        have hD := poolDone_reach ha
        have := measure_work hw hI hD.len hb
        obtain ⟨c, hc, hcj⟩ := ih b (.tail ha (.work w hw hb)) (by omega)
        refine ⟨c, ?_, hcj⟩
        have trans : ∀ x y, Steps (PoolStep prog n env) b y → x = b → Steps (PoolStep prog n env) a y := by
          intro x y hy hx
          induction hy with
          | refl => exact .tail (.refl _) (.work w hw hb)
          | tail _ r ih => exact .tail ih r
        exact trans b c hc rfl
  exact gen _ st h (Nat.le_refl _)

/-! ## C20 -/

/-- Task `i` was started and is not finished. -/
def IsRunning (hist : List PoolEvent) (i : Nat) : Prop :=
  (∃ w, .start w i ∈ hist) ∧ ∀ w f, .finish w i f ∉ hist

theorem nodup_lt_length {n : Nat} : ∀ {l : List Nat}, l.Nodup → (∀ x ∈ l, x < n) → l.length ≤ n := by
  induction n with
  | zero =>
    intro l _ h
    cases l with
    | nil => simp
    | cons x l => exact absurd (h x (by simp)) (by omega)
  | succ n ih =>
    intro l hl h
    have h1 : (l.erase n).Nodup := hl.erase n
    have h2 := ih h1 (by
      intro x hx
      have hxl := List.mem_of_mem_erase hx
      have hxn : x ≠ n := by
        rintro rfl
        exact (List.Nodup.mem_erase_iff hl).mp hx |>.1 rfl
      have := h x hxl
      omega)
    have := List.length_erase (a := n) (l := l)
    split at this <;> omega

/-- **C20.** At every moment at most `n` tasks are running. -/
theorem C20_at_most_n_running (prog : Nat → List (TaskOp S)) (n count : Nat) (env : S → S → Prop) (s : S) (st : Pool S)
    (h : Steps (PoolStepAdd prog n env) (Pool.init count s) st)
    (running : List Nat) (hd : running.Nodup) (hr : ∀ i ∈ running, IsRunning st.hist i) : running.length ≤ n := by
  have hI : PoolInv st := poolInv_reachAdd h
  have hO : PoolOut n st := poolOut_reachAdd h
  have hw : ∀ i, i ∈ running → ∃ w, w < n ∧ (st.pc w).onTask i = true := by
    intro i hi
    obtain ⟨⟨w, hs⟩, hnf⟩ := hr i hi
    rcases hI.startedCases w i hs with h | ⟨f, hf⟩
    · refine ⟨w, ?_, h⟩
      rcases Nat.lt_or_ge w n with hw | hw
      · exact hw
      · rw [hO w hw] at h; cases h
    · exact absurd hf (hnf w f)
  have gen : ∀ l : List Nat, l.Nodup → (∀ i ∈ l, ∃ w, w < n ∧ (st.pc w).onTask i = true) →
      ∃ ws : List Nat, ws.length = l.length ∧ ws.Nodup ∧ (∀ w ∈ ws, w < n) ∧ ∀ w ∈ ws, ∃ i ∈ l, (st.pc w).onTask i = true := by
    intro l
    induction l with
    | nil => intro _ _; exact ⟨[], rfl, by simp, by simp, by simp⟩
    | cons i l ih =>
      intro hd h
      obtain ⟨ws, h1, h2, h3, h4⟩ := ih (List.nodup_cons.mp hd).2 (fun j hj => h j (by simp [hj]))
      obtain ⟨w, hw1, hw2⟩ := h i (by simp)
      refine ⟨w :: ws, by simp [h1], ?_, ?_, ?_⟩
      · rw [List.nodup_cons]
        refine ⟨?_, h2⟩
        intro hmem
        obtain ⟨j, hj, hwj⟩ := h4 w hmem
        have hij : i = j := by
          revert hw2 hwj
          cases st.pc w <;> simp [PC.onTask] <;> intro a b <;> omega
        subst hij
        exact (List.nodup_cons.mp hd).1 hj
      · intro v hv
        rcases List.mem_cons.mp hv with rfl | hv
        · exact hw1
        · exact h3 v hv
      · intro v hv
        rcases List.mem_cons.mp hv with rfl | hv
        · exact ⟨i, by simp, hw2⟩
        · obtain ⟨j, hj, hvj⟩ := h4 v hv
          exact ⟨j, by simp [hj], hvj⟩
  obtain ⟨ws, h1, h2, h3, _⟩ := gen running hd hw
  rw [← h1]
  exact nodup_lt_length h2 h3

/-- Instance: with two workers two tasks do run at once. -/
example : ∃ st, Steps (PoolStep demoProg 2 (fun _ _ => False)) (Pool.init 3 []) st ∧
    IsRunning st.hist 0 ∧ IsRunning st.hist 1 := by
  have h0 : (runWorker demoProg 0 5 (Pool.init 3 [])).isSome = true := rfl
  obtain ⟨a, ha⟩ := Option.isSome_iff_exists.mp h0
  have h1 : ((runWorker demoProg 0 5 (Pool.init 3 [])).bind (runWorker demoProg 1 5)).isSome = true := rfl
  have hh : ((runWorker demoProg 0 5 (Pool.init 3 [])).bind (runWorker demoProg 1 5)).map (·.hist)
    = some [.start 0 0, .start 1 1] := by decide
  rw [ha] at h1 hh
  simp only [Option.bind_some] at h1 hh
  obtain ⟨b, hb⟩ := Option.isSome_iff_exists.mp h1
  rw [hb] at hh
  simp only [Option.map_some, Option.some.injEq] at hh
  refine ⟨b, runWorker_steps (by omega : 1 < 2) 5 _ _ b (runWorker_steps (by omega : 0 < 2) 5 _ _ a (.refl _) ha) hb, ?_, ?_⟩
  · rw [hh]; exact ⟨⟨0, by simp⟩, by simp⟩
  · rw [hh]; exact ⟨⟨1, by simp⟩, by simp⟩

/-- `-j` accepts exactly 1 to 1024, and then that many workers are used. -/
theorem C20_job_limit (n : Nat) (online : Int) :
    (setMaxJobs n = none ↔ n < 1 ∨ 1024 < n) ∧ ∀ m, setMaxJobs n = some m → ncpu m online = n := by
  unfold setMaxJobs
  constructor
  · constructor
    · intro h
      split at h
      · omega
      · cases h
    · intro h
      rw [if_pos (by omega)]
  · intro m h
    split at h
    · cases h
    · injection h with h
      subst h
      unfold ncpu
      rw [if_pos (by omega)]

/-- Without `-j` at least one worker is used, unless `sysconf` answers 0. -/
theorem C20_default_jobs (online : Int) (h : online ≠ 0) : 0 < ncpu 0 online := by
  unfold ncpu
  simp only [Nat.lt_irrefl, if_false, gt_iff_lt]
  split <;> omega

/-! ## C08, inside a step -/

/-- **C08.** If preparing a step fails before the pool was started, freeing the pool runs none of its tasks and
leaves the store alone. -/
theorem C08_cancelled_pool_runs_nothing (prog : Nat → List (TaskOp S)) (n count : Nat) (s : S) (st : Pool S)
    (h : Steps (PoolStep prog n (fun _ _ => False)) (Pool.initCancelled count s) st) :
    st.store = s ∧ st.hist = [] ∧ st.waitOk = false := by
  have key : ∀ a b : Pool S, (a.error = true ∧ (∀ w, a.pc w = .top ∨ a.pc w = .done) ∧ a.store = s ∧ a.hist = []) →
      PoolStep prog n (fun _ _ => False) a b →
      (b.error = true ∧ (∀ w, b.pc w = .top ∨ b.pc w = .done) ∧ b.store = s ∧ b.hist = []) := by
    rintro a b ⟨h1, h2, h3, h4⟩ hs
    cases hs with
    | env _ h => exact h.elim
    | work w hw hs =>
      rcases h2 w with hp | hp
      · simp only [workStep, hp, h1, if_true, Option.some.injEq] at hs
        subst hs
        refine ⟨h1, ?_, h3, h4⟩
        intro v
        by_cases hv : v = w
        · right; simp [Pool.setPc, hv]
        · simpa [Pool.setPc, hv] using h2 v
      · simp [workStep, hp] at hs
  have := steps_inv key h ⟨rfl, fun _ => Or.inl rfl, rfl, rfl⟩
  exact ⟨this.2.2.1, this.2.2.2, by simp [Pool.waitOk, this.1]⟩

end Bob
