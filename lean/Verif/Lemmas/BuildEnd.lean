import Verif.Lemmas.BuildPast
import Verif.Props.Pool
/-!
# Builds come to an end
-/

namespace Bob

variable {tc : Toolchain} {c : InstCfg} {n : Nat} {reqs0 : List Req}

/-- A bound on the actions of a step. -/
def Req.cost (n : Nat) : Req → Nat
  | .compile jobs => 12 * jobs.length + 4 * n + 3
  | .link _ => 4

def costs (n : Nat) (reqs : List Req) : Nat := listSum (reqs.map (Req.cost n)) + 1

/-- Actions still to be done. -/
def Cfg.left (tc : Toolchain) (c : InstCfg) (n : Nat) : Cfg → Nat
  | .idle rest _ => costs n rest
  | .validating todo tasks rest _ => 12 * todo.length + 11 * tasks.length + 4 * n + 2 + costs n rest
  | .pooling tasks rest p => p.measure (taskProg tc c tasks) n tasks.length + 1 + costs n rest
  | .linking _ rest _ => 3 + costs n rest
  | .linkRan _ _ rest _ => 2 + costs n rest
  | .linked _ rest _ => 1 + costs n rest
  | .finished _ _ => 0

/-- The pool of a configuration was started with as many tasks as there are. -/
def PoolStarted (tc : Toolchain) (c : InstCfg) (n : Nat) : Cfg → Prop
  | .pooling tasks _ p => ∃ s, Steps (PoolStep (taskProg tc c tasks) n Tick) (Pool.init tasks.length s) p
  | _ => True

theorem afterStep_started (rest : List Req) (r : Store × Bool) : PoolStarted tc c n (afterStep rest r) := by
  unfold afterStep; split <;> trivial

theorem started_step {a b : Cfg} (h : PoolStarted tc c n a) (hs : BuildNext tc c n a b) : PoolStarted tc c n b := by
  cases hs with
  | tick t ht =>
    cases a with
    | pooling tasks rest p =>
      obtain ⟨s, h⟩ := h
      exact ⟨s, .tail h (.env _ ⟨t, ht, rfl⟩)⟩
    | _ => trivial
  | pool hp =>
    obtain ⟨s, h⟩ := h
    refine ⟨s, .tail h ?_⟩
    cases hp with
    | work w hw h => exact .work w hw h
    | env s' h => exact h.elim
  | join => exact afterStep_started _ _
  | seq hq =>
    unfold seqNext at hq
    split at hq
    · injection hq with hq; subst hq; trivial
    · injection hq with hq; subst hq; trivial
    · split at hq
      · injection hq with hq; subst hq; trivial
      · injection hq with hq; subst hq; trivial
      · split at hq
        · injection hq with hq; subst hq; trivial
        · injection hq with hq; subst hq; trivial
    · injection hq with hq; subst hq; exact ⟨_, .refl _⟩
    · cases hq
    · split at hq
      · injection hq with hq; subst hq; trivial
      · injection hq with hq; subst hq; exact afterStep_started _ _
    · split at hq
      injection hq with hq; subst hq; trivial
    · injection hq with hq; subst hq; trivial
    · injection hq with hq; subst hq; trivial
    · injection hq with hq; subst hq; exact afterStep_started _ _
    · cases hq

theorem started_reach {s : Store} {cfg : Cfg} (h : BuildReaches tc c n reqs0 s cfg) : PoolStarted tc c n cfg :=
  steps_inv (P := PoolStarted tc c n) (fun _ _ => started_step) h trivial

theorem taskProg_length (tasks : List CJob) (i : Nat) (hi : i < tasks.length) : (taskProg tc c tasks i).length = 4 := by
  unfold taskProg
  rw [List.getElem?_eq_getElem hi]
  rfl

theorem pool_cost (tasks : List CJob) (s : Store) :
    (Pool.init tasks.length s).measure (taskProg tc c tasks) n tasks.length = 11 * tasks.length + 4 * n := by
  rw [measure_init, ← sumTo_listSum]
  have : ∀ m, m ≤ tasks.length → sumTo (fun i => (taskProg tc c tasks i).length + 7) m = 11 * m := by
    intro m
    induction m with
    | zero => intro _; rfl
    | succ m ih =>
      intro hm
      simp only [sumTo]
      rw [ih (by omega), taskProg_length tasks m (by omega)]
      omega
  rw [this _ (Nat.le_refl _)]

theorem costs_cons (r : Req) (rest : List Req) : costs n (r :: rest) = r.cost n + costs n rest := by
  simp only [costs, List.map_cons, listSum, List.foldr_cons]
  omega

theorem costs_pos (rest : List Req) : 0 < costs n rest := by unfold costs; omega

theorem afterStep_left (rest : List Req) (r : Store × Bool) : (afterStep rest r).left tc c n ≤ costs n rest := by
  unfold afterStep; split
  · exact Nat.le_refl _
  · exact Nat.zero_le _

/-- Every action of the main thread or of a worker leaves less to do. -/
theorem seq_left {a b : Cfg} (hq : seqNext tc c a = some b) : b.left tc c n < a.left tc c n := by
  unfold seqNext at hq
  split at hq
  · injection hq with hq; subst hq; exact costs_pos _
  · injection hq with hq; subst hq
    simp only [Cfg.left, costs_cons, Req.cost, List.length_nil]; omega
  · split at hq
    · injection hq with hq; subst hq
      simp only [Cfg.left, List.length_append, List.length_cons, List.length_nil]; omega
    · injection hq with hq; subst hq
      simp only [Cfg.left, List.length_cons]; omega
    · split at hq
      · injection hq with hq; subst hq
        simp only [Cfg.left, List.length_cons]; omega
      · injection hq with hq; subst hq
        simp only [Cfg.left, List.length_cons]; omega
  · injection hq with hq; subst hq
    simp only [Cfg.left, pool_cost, List.length_nil]; omega
  · cases hq
  · split at hq
    · injection hq with hq; subst hq
      simp only [Cfg.left, costs_cons, Req.cost]; omega
    · injection hq with hq; subst hq
      refine Nat.lt_of_le_of_lt (afterStep_left _ _) ?_
      simp only [Cfg.left, costs_cons, Req.cost]; omega
  · split at hq
    injection hq with hq; subst hq
    simp only [Cfg.left]; omega
  · injection hq with hq; subst hq
    simp only [Cfg.left]; omega
  · injection hq with hq; subst hq
    simp only [Cfg.left]; omega
  · injection hq with hq; subst hq
    refine Nat.lt_of_le_of_lt (afterStep_left _ _) ?_
    simp only [Cfg.left]; omega
  · cases hq

theorem pool_left {tasks : List CJob} {rest : List Req} {p p' : Pool Store} (h : PoolStarted tc c n (.pooling tasks rest p)) {w : Nat} (hw : w < n)
    (hs : workStep (taskProg tc c tasks) p w = some p') :
    (Cfg.pooling tasks rest p').left tc c n < (Cfg.pooling tasks rest p).left tc c n := by
  obtain ⟨s, h⟩ := h
  have := measure_work hw (poolInv_reach h) (poolDone_reach h).len hs
  simp only [Cfg.left]; omega

/-- A configuration that is not the end has a next action. -/
theorem progress {a : Cfg} (h : PoolStarted tc c n a) (hne : a.result = none) :
    ∃ b, BuildNext tc c n a b ∧ b.left tc c n < a.left tc c n := by
  have seq : ∀ b, seqNext tc c a = some b → ∃ b, BuildNext tc c n a b ∧ b.left tc c n < a.left tc c n :=
    fun b hb => ⟨b, .seq hb, seq_left hb⟩
  cases a with
  | idle rest s =>
    cases rest with
    | nil => exact seq _ rfl
    | cons r rest =>
      cases r with
      | compile jobs => exact seq _ rfl
      | link j =>
        rcases hc : linkCheck j s with ⟨s1, b⟩
        cases b
        · exact seq _ (by simp only [seqNext, hc]; rfl)
        · exact seq _ (by simp only [seqNext, hc]; rfl)
  | validating todo tasks rest s =>
    cases todo with
    | nil => exact seq _ rfl
    | cons j todo =>
      rcases hc : validate j s with ⟨s1, v⟩
      cases v with
      | err => exact seq _ (by simp only [seqNext, hc]; rfl)
      | compile => exact seq _ (by simp only [seqNext, hc]; rfl)
      | skip =>
        rcases hi : installCookie c j.out (s1.emit (.already j.out (s1.fs.content (logPath j.out)))) with ⟨s2, ok⟩
        cases ok
        · exact seq _ (by simp only [seqNext, hc, hi]; rfl)
        · exact seq _ (by simp only [seqNext, hc, hi]; rfl)
  | pooling tasks rest p =>
    by_cases hj : p.Joined n
    · refine ⟨_, .join hj, Nat.lt_of_le_of_lt (afterStep_left _ _) ?_⟩
      simp only [Cfg.left]; omega
    · obtain ⟨s, h'⟩ := h
      obtain ⟨w, hw, hs⟩ := C19_no_deadlock _ n _ Tick s p (steps_mono (fun _ _ => .step) h') hj
      obtain ⟨p', hp'⟩ := Option.isSome_iff_exists.mp hs
      exact ⟨_, .pool (.work w hw hp'), pool_left ⟨s, h'⟩ hw hp'⟩
  | linking j rest s => exact seq _ rfl
  | linkRan ok j rest s => cases ok <;> exact seq _ rfl
  | linked j rest s => exact seq _ rfl
  | finished ok s => cases hne

end Bob
