import Verif.Model.Threads
/-!
# C90 and C91: threads are joined exactly once, and share memory only under the lock
-/

namespace Bob.Threads

theorem upd_self {α : Type} (f : Nat → α) (i : Nat) (x : α) : upd f i x i = x := by simp [upd]

theorem upd_ne {α : Type} {f : Nat → α} {i j : Nat} {x : α} (h : j ≠ i) : upd f i x j = f j := by simp [upd, h]

/-! ## Who has the lock -/

/-- Between locking and unlocking. -/
def WorkPc.holds : WorkPc → Bool
  | .scan _ | .mark _ | .unlock | .leave => true
  | _ => false

def MainPc.holds : MainPc → Bool
  | .addWrite | .addUnlock => true
  | _ => false

structure Locks (s : St) : Prop where
  main : s.mpc.holds = true → s.lock = some .main
  worker : ∀ w, (s.wpc w).holds = true → s.lock = some (.worker w)

theorem Locks.init (ops : List Op) : Locks (St.init ops) := ⟨fun h => (nomatch h), fun _ h => (nomatch h)⟩

/-- A worker goes on without touching the lock. -/
theorem Locks.move {s t : St} (h : Locks s) {w : Nat} {x : WorkPc} (hw : t.wpc = upd s.wpc w x) (hx : x.holds = (s.wpc w).holds)
    (hl : t.lock = s.lock) (hm : t.mpc = s.mpc) : Locks t := by
  refine ⟨fun hh => by rw [hl]; exact h.main (hm ▸ hh), fun v hv => ?_⟩
  rw [hl]
  by_cases e : v = w
  · subst e
    rw [hw, upd_self, hx] at hv
    exact h.worker v hv
  · rw [hw, upd_ne e] at hv
    exact h.worker v hv

/-- A worker gives the lock back. -/
theorem Locks.give {s t : St} (h : Locks s) {w : Nat} {x : WorkPc} (hh : (s.wpc w).holds = true) (hw : t.wpc = upd s.wpc w x) (hx : x.holds = false)
    (hm : t.mpc = s.mpc) : Locks t := by
  have hl := h.worker w hh
  refine ⟨fun hm' => ?_, fun v hv => ?_⟩
  · have := h.main (hm ▸ hm'); rw [hl] at this; simp at this
  · by_cases e : v = w
    · subst e; rw [hw, upd_self, hx] at hv; exact absurd hv (by simp)
    · rw [hw, upd_ne e] at hv
      have := h.worker v hv
      rw [hl] at this
      simp only [Option.some.injEq, Tid.worker.injEq] at this
      exact absurd this.symm e

theorem Locks.step {c : Cfg} {s t : St} (h : Locks s) (hs : Step c s t) : Locks t := by
  have keep : ∀ {t : St}, t.mpc.holds = false → t.wpc = s.wpc → t.lock = s.lock → Locks t := by
    intro t h1 h2 h3
    exact ⟨fun hh => by rw [h1] at hh; exact absurd hh (by simp), fun v hv => by rw [h3]; exact h.worker v (h2 ▸ hv)⟩
  cases hs with
  | add _ _ => exact keep rfl rfl rfl
  | addLock hp hl =>
    refine ⟨fun _ => rfl, fun v hv => ?_⟩
    have := h.worker v hv
    rw [hl] at this; exact absurd this (by simp)
  | addWrite hp => exact ⟨fun _ => h.main (by rw [hp]; rfl), fun v hv => h.worker v hv⟩
  | addUnlock hp =>
    refine ⟨fun hh => (nomatch hh), fun v hv => ?_⟩
    have h1 := h.worker v hv
    have h2 := h.main (by rw [hp]; rfl)
    rw [h2] at h1; exact absurd h1 (by simp)
  | start _ _ => refine keep ?_ rfl rfl; simp only []; split <;> rfl
  | wait _ _ => refine keep ?_ rfl rfl; simp only []; split <;> rfl
  | free _ _ => exact keep rfl rfl rfl
  | setError _ => refine keep ?_ rfl rfl; simp only []; split <;> rfl
  | @create i b hp hi =>
    refine ⟨fun hh => (nomatch hh), fun v hv => ?_⟩
    by_cases e : v = i
    · subst e; simp only [upd_self] at hv; exact absurd hv (by simp [WorkPc.holds])
    · simp only [upd_ne e] at hv; exact h.worker v hv
  | createFails _ _ _ => exact keep rfl rfl rfl
  | created _ _ => refine keep ?_ rfl rfl; simp only []; split <;> rfl
  | joinSkip _ _ _ => exact keep rfl rfl rfl
  | join _ _ _ _ => exact keep rfl rfl rfl
  | joined _ _ => exact keep rfl rfl rfl
  | result _ => refine keep ?_ rfl rfl; simp only []; split <;> rfl
  | release _ => exact keep rfl rfl rfl
  | test hp => refine h.move rfl ?_ rfl rfl; rw [hp]; split <;> rfl
  | @lock w hp hl =>
    refine ⟨fun hm => ?_, fun v hv => ?_⟩
    · have := h.main hm; rw [hl] at this; exact absurd this (by simp)
    · by_cases e : v = w
      · rw [e]
      · simp only [upd_ne e] at hv
        have := h.worker v hv
        rw [hl] at this; exact absurd this (by simp)
  | scan hp => refine h.move rfl ?_ rfl rfl; rw [hp]; split <;> (try split) <;> rfl
  | mark hp => exact h.move rfl (by rw [hp]; rfl) rfl rfl
  | unlock hp => exact h.give (by rw [hp]; rfl) rfl rfl rfl
  | leave hp => exact h.give (by rw [hp]; rfl) rfl rfl rfl
  | run hp => exact h.move rfl (by rw [hp]; rfl) rfl rfl
  | runFails hp _ => exact h.move rfl (by rw [hp]; rfl) rfl rfl
  | workError hp => exact h.move rfl (by rw [hp]; rfl) rfl rfl

/-! ## Which threads there are -/

/-- The threads, the handles, and how far the main thread has got with them. -/
structure Handles (c : Cfg) (s : St) : Prop where
  unset : ∀ w, s.slots w = .unset → s.joins w = 0 ∧ s.wpc w = .unborn
  thread : ∀ w, s.slots w = .thread → s.joins w = 0 ∧ s.wpc w ≠ .unborn ∧ w < c.n
  zero : ∀ w, s.slots w = .zero → s.joins w = 1 ∧ s.wpc w = .done ∧ w < c.n
  create : ∀ i b, s.mpc = .create i b → s.started = false ∧ i ≤ c.n ∧ (∀ w, i ≤ w → s.slots w = .unset) ∧
    (c.createFails = false → ∀ w, w < i → s.slots w = .thread)
  join : ∀ i, s.mpc = .join i → s.started = true ∧ ∀ w, w < i → s.slots w = .zero
  over : s.mpc = .result ∨ s.mpc = .release ∨ s.mpc = .freed → s.started = true ∧ ∀ w, w < c.n → s.slots w = .zero
  before : s.started = false → (∀ i b, s.mpc ≠ .create i b) → ∀ w, s.slots w = .unset
  all : c.createFails = false → s.started = true → ∀ w, w < c.n → s.slots w ≠ .unset

theorem Handles.init (c : Cfg) (ops : List Op) : Handles c (St.init ops) where
  unset _ _ := ⟨rfl, rfl⟩
  thread _ h := (nomatch h)
  zero _ h := (nomatch h)
  create _ _ h := (nomatch h)
  join _ h := (nomatch h)
  over h := by rcases h with h | h | h <;> exact (nomatch h)
  before _ _ _ := rfl
  all _ h := (nomatch h)

/-- A worker goes on. -/
theorem Handles.move {c : Cfg} {s t : St} (h : Handles c s) {w : Nat} {x : WorkPc} (hw : t.wpc = upd s.wpc w x) (h1 : s.wpc w ≠ .unborn)
    (h2 : s.wpc w ≠ .done) (hx : x ≠ .unborn) (hm : t.mpc = s.mpc) (hst : t.started = s.started) (hsl : t.slots = s.slots) (hj : t.joins = s.joins) :
    Handles c t where
  unset v hv := by
    rw [hsl] at hv
    have := h.unset v hv
    rw [hj, hw]
    refine ⟨this.1, ?_⟩
    have hne : v ≠ w := by rintro rfl; exact h1 this.2
    rw [upd_ne hne]; exact this.2
  thread v hv := by
    rw [hsl] at hv
    have := h.thread v hv
    rw [hj, hw]
    refine ⟨this.1, ?_, this.2.2⟩
    by_cases e : v = w
    · rw [e, upd_self]; exact hx
    · rw [upd_ne e]; exact this.2.1
  zero v hv := by
    rw [hsl] at hv
    have := h.zero v hv
    have hne : v ≠ w := by rintro rfl; exact h2 this.2.1
    rw [hj, hw, upd_ne hne]
    exact this
  create i b hp := by rw [hm] at hp; rw [hst, hsl]; exact h.create i b hp
  join i hp := by rw [hm] at hp; rw [hst, hsl]; exact h.join i hp
  over hp := by rw [hm] at hp; rw [hst, hsl]; exact h.over hp
  before hp hq := by rw [hm] at hq; rw [hst] at hp; rw [hsl]; exact h.before hp hq
  all hp hq := by rw [hst] at hq; rw [hsl]; exact h.all hp hq

/-- The main thread goes on between calls. -/
theorem Handles.main {c : Cfg} {s t : St} (h : Handles c s) (hw : t.wpc = s.wpc) (hst : t.started = s.started) (hsl : t.slots = s.slots) (hj : t.joins = s.joins)
    (hs : ∀ i b, s.mpc ≠ .create i b) (hc : ∀ i b, t.mpc = .create i b → i = 0 ∧ s.started = false)
    (hjn : ∀ i, t.mpc = .join i → i = 0 ∧ s.started = true)
    (ho : t.mpc = .result ∨ t.mpc = .release ∨ t.mpc = .freed → s.started = true ∧ ∀ w, w < c.n → s.slots w = .zero) : Handles c t where
  unset v hv := by rw [hsl] at hv; rw [hj, hw]; exact h.unset v hv
  thread v hv := by rw [hsl] at hv; rw [hj, hw]; exact h.thread v hv
  zero v hv := by rw [hsl] at hv; rw [hj, hw]; exact h.zero v hv
  create i b hp := by
    obtain ⟨rfl, hz⟩ := hc i b hp
    rw [hst, hsl]
    exact ⟨hz, Nat.zero_le _, fun w _ => h.before hz hs w, fun _ w hw => absurd hw (Nat.not_lt_zero w)⟩
  join i hp := by
    obtain ⟨rfl, hz⟩ := hjn i hp
    rw [hst, hsl]
    exact ⟨hz, fun w hw => absurd hw (Nat.not_lt_zero w)⟩
  over hp := by rw [hst, hsl]; exact ho hp
  before hp hq := by rw [hst] at hp; rw [hsl]; exact h.before hp hs
  all hp hq := by rw [hst] at hq; rw [hsl]; exact h.all hp hq

theorem Handles.step {c : Cfg} {s t : St} (h : Handles c s) (hs : Step c s t) : Handles c t := by
  cases hs with
  | add hp _ => exact h.main rfl rfl rfl rfl (by simp [hp]) (by simp) (by simp) (by simp)
  | addLock hp _ => exact h.main rfl rfl rfl rfl (by simp [hp]) (by simp) (by simp) (by simp)
  | addWrite hp => exact h.main rfl rfl rfl rfl (by simp [hp]) (by simp) (by simp) (by simp)
  | addUnlock hp => exact h.main rfl rfl rfl rfl (by simp [hp]) (by simp) (by simp) (by simp)
  | start hp _ => cases hz : s.started <;> exact h.main rfl hz.symm rfl rfl (by simp [hp]) (by simp [hz]) (by simp [hz]) (by simp [hz])
  | wait hp _ => cases hz : s.started <;> exact h.main rfl hz.symm rfl rfl (by simp [hp]) (by simp [hz]) (by simp [hz]) (by simp [hz])
  | free hp _ => exact h.main rfl rfl rfl rfl (by simp [hp]) (by simp) (by simp) (by simp)
  | setError hp => cases hz : s.started <;> exact h.main rfl hz.symm rfl rfl (by simp [hp]) (by simp [hz]) (by simp [hz]) (by simp [hz])
  | @create i b hp hi =>
    obtain ⟨h1, h2, h3, h4⟩ := h.create i b hp
    refine ⟨fun v hv => ?_, fun v hv => ?_, fun v hv => ?_, fun j b' hj => ?_, fun j hj => (nomatch hj), fun hj => ?_, fun _ hq => absurd rfl (hq _ _), fun _ hq => ?_⟩
    · by_cases e : v = i
      · subst e; simp [upd_self] at hv
      · simp only [upd_ne e] at hv ⊢; exact h.unset v hv
    · by_cases e : v = i
      · subst e; simp only [upd_self]
        exact ⟨(h.unset v (h3 v (Nat.le_refl _))).1, by simp, hi⟩
      · simp only [upd_ne e] at hv ⊢; exact h.thread v hv
    · by_cases e : v = i
      · subst e; simp [upd_self] at hv
      · simp only [upd_ne e] at hv ⊢; exact h.zero v hv
    · simp only [MainPc.create.injEq] at hj
      obtain ⟨rfl, rfl⟩ := hj
      refine ⟨h1, hi, fun w hw => ?_, fun hf w hw => ?_⟩
      · simp only [upd_ne (show w ≠ i by omega)]; exact h3 w (by omega)
      · by_cases e : w = i
        · subst e; simp only [upd_self]
        · simp only [upd_ne e]; exact h4 hf w (by omega)
    · rcases hj with hj | hj | hj <;> exact (nomatch hj)
    · simp only [h1] at hq; exact (nomatch hq)
  | @createFails i b hp hi hf =>
    obtain ⟨h1, h2, h3, h4⟩ := h.create i b hp
    refine ⟨h.unset, h.thread, h.zero, fun j b' hj => ?_, fun j hj => (nomatch hj), fun hj => ?_, fun _ hq => absurd rfl (hq _ _), h.all⟩
    · simp only [MainPc.create.injEq] at hj
      obtain ⟨rfl, rfl⟩ := hj
      exact ⟨h1, hi, fun w hw => h3 w (by omega), fun hf' => by rw [hf] at hf'; exact (nomatch hf')⟩
    · rcases hj with hj | hj | hj <;> exact (nomatch hj)
  | @created i b hp hi =>
    obtain ⟨h1, h2, h3, h4⟩ := h.create i b hp
    refine ⟨h.unset, h.thread, h.zero, fun j b' hj => ?_, fun j hj => ?_, fun hj => ?_, fun hq => (nomatch hq), fun hf _ w hw => ?_⟩
    · cases b <;> exact (nomatch hj)
    · cases b
      · exact (nomatch hj)
      · simp only [if_true, MainPc.join.injEq] at hj
        subst hj
        exact ⟨rfl, fun w hw => absurd hw (Nat.not_lt_zero w)⟩
    · cases b <;> rcases hj with hj | hj | hj <;> exact (nomatch hj)
    · simp only [h4 hf w (by omega)]; simp
  | @joinSkip i hp hi hz =>
    obtain ⟨h1, h2⟩ := h.join i hp
    refine ⟨h.unset, h.thread, h.zero, fun j b' hj => (nomatch hj), fun j hj => ?_, fun hj => ?_, fun hq _ => ?_, h.all⟩
    · simp only [MainPc.join.injEq] at hj
      subst hj
      refine ⟨h1, fun w hw => ?_⟩
      by_cases e : w = i
      · rw [e]; exact hz
      · exact h2 w (by omega)
    · rcases hj with hj | hj | hj <;> exact (nomatch hj)
    · simp only [h1] at hq; exact (nomatch hq)
  | @join i hp hi hz hd =>
    obtain ⟨h1, h2⟩ := h.join i hp
    obtain ⟨t1, t2, t3⟩ := h.thread i hz
    refine ⟨fun v hv => ?_, fun v hv => ?_, fun v hv => ?_, fun j b' hj => (nomatch hj), fun j hj => ?_, fun hj => ?_, fun hq _ => ?_, fun hf hq w hw => ?_⟩
    · by_cases e : v = i
      · subst e; simp [upd_self] at hv
      · simp only [upd_ne e] at hv ⊢; exact h.unset v hv
    · by_cases e : v = i
      · subst e; simp [upd_self] at hv
      · simp only [upd_ne e] at hv ⊢; exact h.thread v hv
    · by_cases e : v = i
      · subst e; simp only [upd_self, t1]; exact ⟨trivial, hd, hi⟩
      · simp only [upd_ne e] at hv ⊢; exact h.zero v hv
    · simp only [MainPc.join.injEq] at hj
      subst hj
      refine ⟨h1, fun w hw => ?_⟩
      by_cases e : w = i
      · subst e; simp only [upd_self]
      · simp only [upd_ne e]; exact h2 w (by omega)
    · rcases hj with hj | hj | hj <;> exact (nomatch hj)
    · simp only [h1] at hq; exact (nomatch hq)
    · by_cases e : w = i
      · subst e; simp [upd_self]
      · simp only [upd_ne e]; exact h.all hf hq w hw
  | @joined i hp hi =>
    obtain ⟨h1, h2⟩ := h.join i hp
    exact h.main rfl rfl rfl rfl (by simp [hp]) (by simp) (by simp) (fun _ => ⟨h1, fun w hw => h2 w (by omega)⟩)
  | result hp =>
    have := h.over (Or.inl hp)
    cases hz : s.freeing
    · exact h.main rfl rfl rfl rfl (by simp [hp]) (by simp) (by simp) (fun _ => this)
    · exact h.main rfl rfl rfl rfl (by simp [hp]) (by simp) (by simp) (fun _ => this)
  | release hp => exact h.main rfl rfl rfl rfl (by simp [hp]) (by simp) (by simp) (fun _ => h.over (Or.inr (Or.inl hp)))
  | test hp => exact h.move rfl (by simp [hp]) (by simp [hp]) (by split <;> simp) rfl rfl rfl rfl
  | lock hp _ => exact h.move rfl (by simp [hp]) (by simp [hp]) (by simp) rfl rfl rfl rfl
  | scan hp => exact h.move rfl (by simp [hp]) (by simp [hp]) (by split <;> (try split) <;> simp) rfl rfl rfl rfl
  | mark hp => exact h.move rfl (by simp [hp]) (by simp [hp]) (by simp) rfl rfl rfl rfl
  | unlock hp => exact h.move rfl (by simp [hp]) (by simp [hp]) (by simp) rfl rfl rfl rfl
  | leave hp => exact h.move rfl (by simp [hp]) (by simp [hp]) (by simp) rfl rfl rfl rfl
  | run hp => exact h.move rfl (by simp [hp]) (by simp [hp]) (by simp) rfl rfl rfl rfl
  | runFails hp _ => exact h.move rfl (by simp [hp]) (by simp [hp]) (by simp) rfl rfl rfl rfl
  | workError hp => exact h.move rfl (by simp [hp]) (by simp [hp]) (by simp) rfl rfl rfl rfl

theorem Reach.locks {c : Cfg} {ops : List Op} {s : St} (h : Reach c ops s) : Locks s := by
  induction h with
  | init => exact Locks.init ops
  | step _ hs ih => exact ih.step hs

theorem Reach.handles {c : Cfg} {ops : List Op} {s : St} (h : Reach c ops s) : Handles c s := by
  induction h with
  | init => exact Handles.init c ops
  | step _ hs ih => exact ih.step hs

/-- When all handles have been zeroed, no thread does anything any more. -/
theorem Handles.quiet {c : Cfg} {s : St} (h : Handles c s) (hz : ∀ w, w < c.n → s.slots w = .zero) (w : Nat) : s.wpc w = .unborn ∨ s.wpc w = .done := by
  cases hw : s.slots w with
  | unset => exact Or.inl (h.unset w hw).2
  | zero => exact Or.inr (h.zero w hw).2.1
  | thread => have := hz w (h.thread w hw).2.2; rw [hw] at this; exact (nomatch this)

/-! ## C90 -/

/-- Whatever calls are made between `pool_init` and `pool_free`: if threads can be created, `pthread_join` is never given a handle that was not set, and no thread is
joined twice. -/
theorem C90_handles_partial {c : Cfg} {ops : List Op} {s : St} (hc : c.createFails = false) (h : Reach c ops s) :
    ¬ s.joinsUnset c ∧ ∀ w, s.joins w ≤ 1 := by
  have hh := h.handles
  refine ⟨?_, fun w => ?_⟩
  · rintro ⟨i, hp, hi, hu⟩
    exact hh.all hc (hh.join i hp).1 i hi hu
  · cases hw : s.slots w with
    | unset => rw [(hh.unset w hw).1]; omega
    | zero => rw [(hh.zero w hw).1]; omega
    | thread => rw [(hh.thread w hw).1]; omega

/-- When `pool_free` gives back the memory of the pool, every worker has been joined exactly once and has ended: nobody uses the memory afterwards. -/
theorem C90_freed {c : Cfg} {ops : List Op} {s : St} (h : Reach c ops s) (hf : s.mpc = .release ∨ s.mpc = .freed) :
    (∀ w, w < c.n → s.joins w = 1 ∧ s.wpc w = .done) ∧ ∀ w, s.wpc w = .unborn ∨ s.wpc w = .done := by
  have hh := h.handles
  have hz := (hh.over (Or.inr hf)).2
  exact ⟨fun w hw => ⟨(hh.zero w (hz w hw)).1, (hh.zero w (hz w hw)).2.1⟩, hh.quiet hz⟩

/-- Nothing blocks for ever: until the pool is freed, some thread can go on. -/
theorem C90_goes_on {c : Cfg} {ops : List Op} {s : St} (hc : c.createFails = false) (h : Reach c ops s) (hf : s.mpc ≠ .freed) : ∃ t, Step c s t := by
  have hh := h.handles
  have hl := h.locks
  -- whoever has the lock can go on
  have hlock : s.lock ≠ none → (∃ t, Step c s t) ∨ s.lock = none := fun _ => by
    by_cases hm : s.mpc.holds = true
    · refine Or.inl ?_
      cases hp : s.mpc <;> simp [hp, MainPc.holds] at hm
      · exact ⟨_, .addWrite hp⟩
      · exact ⟨_, .addUnlock hp⟩
    · by_cases hw : ∃ w, (s.wpc w).holds = true
      · obtain ⟨w, hw⟩ := hw
        refine Or.inl ?_
        cases hp : s.wpc w <;> simp [hp, WorkPc.holds] at hw
        · exact ⟨_, .scan hp⟩
        · exact ⟨_, .mark hp⟩
        · exact ⟨_, .unlock hp⟩
        · exact ⟨_, .leave hp⟩
      · refine Or.inr ?_
        -- the lock is only taken together with going to a place where it is held
        have : ∀ {s : St}, Reach c ops s → (∃ w, (s.wpc w).holds = true) ∨ s.mpc.holds = true ∨ s.lock = none := by
          intro s h
          induction h with
          | init => exact Or.inr (Or.inr rfl)
          | @step s t h hs ih =>
            have hl := h.locks
            have keep : ∀ {t : St}, s.mpc.holds = false → t.wpc = s.wpc → t.lock = s.lock → (∃ w, (t.wpc w).holds = true) ∨ t.mpc.holds = true ∨ t.lock = none := by
              intro t h1 h2 h3
              rcases ih with ih | ih | ih
              · exact Or.inl (by rw [h2]; exact ih)
              · rw [h1] at ih; exact absurd ih (by simp)
              · exact Or.inr (Or.inr (by rw [h3]; exact ih))
            have move : ∀ {t : St} {w : Nat} {x : WorkPc}, t.wpc = upd s.wpc w x → x.holds = (s.wpc w).holds → t.lock = s.lock → t.mpc = s.mpc →
                (∃ w, (t.wpc w).holds = true) ∨ t.mpc.holds = true ∨ t.lock = none := by
              intro t w x h1 h2 h3 h4
              rcases ih with ⟨v, hv⟩ | ih | ih
              · refine Or.inl ⟨v, ?_⟩
                by_cases e : v = w
                · subst e; rw [h1, upd_self, h2]; exact hv
                · rw [h1, upd_ne e]; exact hv
              · exact Or.inr (Or.inl (by rw [h4]; exact ih))
              · exact Or.inr (Or.inr (by rw [h3]; exact ih))
            cases hs with
            | add hp _ => exact keep (by rw [hp]; rfl) rfl rfl
            | addLock _ _ => exact Or.inr (Or.inl rfl)
            | addWrite _ => exact Or.inr (Or.inl rfl)
            | addUnlock _ => exact Or.inr (Or.inr rfl)
            | start hp _ => exact keep (by rw [hp]; rfl) rfl rfl
            | wait hp _ => exact keep (by rw [hp]; rfl) rfl rfl
            | free hp _ => exact keep (by rw [hp]; rfl) rfl rfl
            | setError hp => exact keep (by rw [hp]; rfl) rfl rfl
            | @create i b hp hi =>
              rcases ih with ⟨v, hv⟩ | ih | ih
              · refine Or.inl ⟨v, ?_⟩
                have e : v ≠ i := by
                  rintro rfl
                  rw [(h.handles.unset v ((h.handles.create v b hp).2.2.1 v (Nat.le_refl _))).2] at hv
                  exact (nomatch hv)
                simp only [upd_ne e]; exact hv
              · rw [hp] at ih; exact (nomatch ih)
              · exact Or.inr (Or.inr ih)
            | createFails hp _ _ => exact keep (by rw [hp]; rfl) rfl rfl
            | created hp _ => exact keep (by rw [hp]; rfl) rfl rfl
            | joinSkip hp _ _ => exact keep (by rw [hp]; rfl) rfl rfl
            | join hp _ _ _ => exact keep (by rw [hp]; rfl) rfl rfl
            | joined hp _ => exact keep (by rw [hp]; rfl) rfl rfl
            | result hp => exact keep (by rw [hp]; rfl) rfl rfl
            | release hp => exact keep (by rw [hp]; rfl) rfl rfl
            | test hp => refine move rfl ?_ rfl rfl; rw [hp]; split <;> rfl
            | @lock w _ _ => exact Or.inl ⟨w, by simp only [upd_self]; rfl⟩
            | scan hp => refine move rfl ?_ rfl rfl; rw [hp]; split <;> (try split) <;> rfl
            | mark hp => exact move rfl (by rw [hp]; rfl) rfl rfl
            | unlock _ => exact Or.inr (Or.inr rfl)
            | leave _ => exact Or.inr (Or.inr rfl)
            | run hp => exact move rfl (by rw [hp]; rfl) rfl rfl
            | runFails hp _ => exact move rfl (by rw [hp]; rfl) rfl rfl
            | workError hp => exact move rfl (by rw [hp]; rfl) rfl rfl
        rcases this h with hx | hx | hx
        · exact absurd hx hw
        · exact absurd hx hm
        · exact hx
  have hlk : (∃ t, Step c s t) ∨ s.lock = none := by
    by_cases hn : s.lock = none
    · exact Or.inr hn
    · exact hlock hn
  rcases hlk with hgo | hnone
  · exact hgo
  have work : ∀ w, s.wpc w ≠ .unborn → s.wpc w ≠ .done → ∃ t, Step c s t := by
    intro w h1 h2
    cases hp : s.wpc w with
    | unborn => exact absurd hp h1
    | done => exact absurd hp h2
    | test => exact ⟨_, .test hp⟩
    | lock => exact ⟨_, .lock hp hnone⟩
    | scan i => exact ⟨_, .scan hp⟩
    | mark i => exact ⟨_, .mark hp⟩
    | unlock => exact ⟨_, .unlock hp⟩
    | leave => exact ⟨_, .leave hp⟩
    | run => exact ⟨_, .run hp⟩
    | setError => exact ⟨_, .workError hp⟩
  cases hp : s.mpc with
  | next =>
    cases ho : s.ops with
    | nil => exact ⟨_, .free hp ho⟩
    | cons o r =>
      cases o with
      | add => exact ⟨_, .add hp ho⟩
      | start => exact ⟨_, .start hp ho⟩
      | wait => exact ⟨_, .wait hp ho⟩
  | addLock => exact ⟨_, .addLock hp hnone⟩
  | addWrite => exact ⟨_, .addWrite hp⟩
  | addUnlock => exact ⟨_, .addUnlock hp⟩
  | setError => exact ⟨_, .setError hp⟩
  | create i b =>
    by_cases hi : i < c.n
    · exact ⟨_, .create hp hi⟩
    · exact ⟨_, .created hp hi⟩
  | join i =>
    by_cases hi : i < c.n
    · cases hw : s.slots i with
      | unset => exact absurd hw (hh.all hc (hh.join i hp).1 i hi)
      | zero => exact ⟨_, .joinSkip hp hi hw⟩
      | thread =>
        by_cases hd : s.wpc i = .done
        · exact ⟨_, .join hp hi hw hd⟩
        · exact work i (hh.thread i hw).2.1 hd
    · exact ⟨_, .joined hp hi⟩
  | result => exact ⟨_, .result hp⟩
  | release => exact ⟨_, .release hp⟩
  | freed => exact absurd hp hf

/-- If `pthread_create` fails, its slot stays as `malloc` left it, and is given to `pthread_join`. -/
theorem C90_create_false : ∃ (c : Cfg) (s : St), Reach c [.add, .wait] s ∧ s.joinsUnset c := by
  have h : Reach ⟨1, true, false⟩ [.add, .wait] _ := .init
  have h := h.step (.add rfl rfl)
  have h := h.step (.addLock rfl rfl)
  have h := h.step (.addWrite rfl)
  have h := h.step (.addUnlock rfl)
  have h := h.step (.wait rfl rfl)
  have h := h.step (.createFails (i := 0) (b := true) rfl (by decide) rfl)
  have h := h.step (.created (i := 1) (b := true) rfl (by decide))
  exact ⟨_, _, h, 0, rfl, by decide, rfl⟩

/-! ## C91 -/

/-- The tasks of a pool are only accessed by one thread at a time, or only read, whatever calls are made and however the threads run, even if tasks are added while
workers run. -/
theorem C91_tasks {c : Cfg} {ops : List Op} {s : St} (h : Reach c ops s) : ¬ s.race .tasks := by
  have hh := h.handles
  have hl := h.locks
  have hmain : ∀ {a : Bool}, s.access .main = some (.tasks, a) → s.mpc = .addWrite ∨ s.mpc = .release := by
    intro a ha
    simp only [St.access] at ha
    cases hp : s.mpc <;> simp [hp] at ha ⊢
  have hwork : ∀ {w : Nat} {a : Bool}, s.access (.worker w) = some (.tasks, a) → (s.wpc w).holds = true := by
    intro w a ha
    simp only [St.access] at ha
    cases hp : s.wpc w <;> simp [hp] at ha <;> rfl
  have hmw : ∀ {w : Nat} {a b : Bool}, s.access .main = some (.tasks, a) → s.access (.worker w) = some (.tasks, b) → False := by
    intro w a b ha hb
    have hw := hwork hb
    rcases hmain ha with hp | hp
    · have h1 := hl.main (by rw [hp]; rfl)
      rw [hl.worker w hw] at h1
      exact absurd h1 (by simp)
    · rcases hh.quiet (hh.over (Or.inr (Or.inl hp))).2 w with e | e <;> rw [e] at hw <;> exact (nomatch hw)
  rintro ⟨t, u, a, b, hne, ht, hu, -⟩
  cases t with
  | main =>
    cases u with
    | main => exact hne rfl
    | worker w => exact hmw ht hu
  | worker v =>
    cases u with
    | main => exact hmw hu ht
    | worker w =>
      have h1 := hl.worker v (hwork ht)
      rw [hl.worker w (hwork hu)] at h1
      simp only [Option.some.injEq, Tid.worker.injEq] at h1
      exact hne (by rw [h1])

/-- Without `pool_start`, which bob never calls by itself, workers only exist while the main thread waits for them. -/
structure Waits (c : Cfg) (s : St) : Prop where
  ops : .start ∉ s.ops
  create : ∀ i b, s.mpc = .create i b → b = true
  idle : s.started = true → (s.mpc = .next ∨ s.mpc = .addLock ∨ s.mpc = .addWrite ∨ s.mpc = .addUnlock ∨ s.mpc = .setError) → ∀ w, w < c.n → s.slots w = .zero

theorem Waits.step {c : Cfg} {s t : St} (h : Waits c s) (hh : Handles c s) (hs : Step c s t) : Waits c t := by
  have work : ∀ {t : St}, t.ops = s.ops → t.mpc = s.mpc → t.started = s.started → t.slots = s.slots → Waits c t := by
    intro t h1 h2 h3 h4
    exact ⟨by rw [h1]; exact h.ops, by rw [h2]; exact h.create, by rw [h2, h3, h4]; exact h.idle⟩
  cases hs with
  | add hp ho =>
    refine ⟨fun hm => h.ops (by rw [ho]; simp [hm]), fun _ _ e => (nomatch e), fun hst _ => h.idle hst (Or.inl hp)⟩
  | addLock hp _ => exact ⟨h.ops, fun _ _ e => (nomatch e), fun hst _ => h.idle hst (by simp [hp])⟩
  | addWrite hp => exact ⟨h.ops, fun _ _ e => (nomatch e), fun hst _ => h.idle hst (by simp [hp])⟩
  | addUnlock hp => exact ⟨h.ops, fun _ _ e => (nomatch e), fun hst _ => h.idle hst (by simp [hp])⟩
  | start hp ho => exact absurd (by rw [ho]; simp) h.ops
  | wait hp ho =>
    refine ⟨fun hm => h.ops (by rw [ho]; simp [hm]), fun i b e => ?_, fun hst hq => ?_⟩
    · cases hz : s.started <;> simp [hz] at e
      exact e.2
    · simp only [show s.started = true from hst, if_true] at hq
      rcases hq with e | e | e | e | e <;> exact (nomatch e)
  | free hp _ => exact ⟨h.ops, fun _ _ e => (nomatch e), fun hst _ => h.idle hst (by simp [hp])⟩
  | setError hp =>
    refine ⟨h.ops, fun i b e => ?_, fun hst hq => ?_⟩
    · cases hz : s.started <;> simp [hz] at e
      exact e.2
    · simp only [show s.started = true from hst, if_true] at hq
      rcases hq with e | e | e | e | e <;> exact (nomatch e)
  | @create i b hp _ =>
    refine ⟨h.ops, fun j b' e => ?_, fun _ hq => by rcases hq with e | e | e | e | e <;> exact (nomatch e)⟩
    simp only [MainPc.create.injEq] at e
    rw [← e.2]; exact h.create i b hp
  | @createFails i b hp _ _ =>
    refine ⟨h.ops, fun j b' e => ?_, fun _ hq => by rcases hq with e | e | e | e | e <;> exact (nomatch e)⟩
    simp only [MainPc.create.injEq] at e
    rw [← e.2]; exact h.create i b hp
  | @created i b hp _ =>
    have hb := h.create i b hp
    subst hb
    exact ⟨h.ops, fun _ _ e => (nomatch e), fun _ hq => by rcases hq with e | e | e | e | e <;> exact (nomatch e)⟩
  | joinSkip _ _ _ => exact ⟨h.ops, fun _ _ e => (nomatch e), fun _ hq => by rcases hq with e | e | e | e | e <;> exact (nomatch e)⟩
  | join _ _ _ _ => exact ⟨h.ops, fun _ _ e => (nomatch e), fun _ hq => by rcases hq with e | e | e | e | e <;> exact (nomatch e)⟩
  | joined _ _ => exact ⟨h.ops, fun _ _ e => (nomatch e), fun _ hq => by rcases hq with e | e | e | e | e <;> exact (nomatch e)⟩
  | result hp => exact ⟨h.ops, fun i b e => by cases hz : s.freeing <;> simp [hz] at e, fun _ _ => (hh.over (Or.inl hp)).2⟩
  | release _ => exact ⟨h.ops, fun _ _ e => (nomatch e), fun _ hq => by rcases hq with e | e | e | e | e <;> exact (nomatch e)⟩
  | test _ => exact work rfl rfl rfl rfl
  | lock _ _ => exact work rfl rfl rfl rfl
  | scan _ => exact work rfl rfl rfl rfl
  | mark _ => exact work rfl rfl rfl rfl
  | unlock _ => exact work rfl rfl rfl rfl
  | leave _ => exact work rfl rfl rfl rfl
  | run _ => exact work rfl rfl rfl rfl
  | runFails _ _ => exact work rfl rfl rfl rfl
  | workError _ => exact work rfl rfl rfl rfl

theorem Reach.waits {c : Cfg} {ops : List Op} {s : St} (ho : .start ∉ ops) (h : Reach c ops s) : Waits c s := by
  induction h with
  | init => exact ⟨ho, fun _ _ e => (nomatch e), fun hst => (nomatch hst)⟩
  | step h hs ih => exact ih.step h.handles hs

/-- No worker reports an error if no task fails. -/
theorem Reach.calm {c : Cfg} {ops : List Op} {s : St} (hf : c.taskFails = false) (h : Reach c ops s) : ∀ w, s.wpc w ≠ .setError := by
  induction h with
  | init => intro w hw; exact (nomatch hw)
  | @step s t h hs ih =>
    have move : ∀ {t : St} {w : Nat} {x : WorkPc}, t.wpc = upd s.wpc w x → x ≠ .setError → ∀ v, t.wpc v ≠ .setError := by
      intro t w x h1 h2 v
      by_cases e : v = w
      · subst e; rw [h1, upd_self]; exact h2
      · rw [h1, upd_ne e]; exact ih v
    cases hs with
    | create _ _ => exact move rfl (by simp)
    | test _ => exact move rfl (by split <;> simp)
    | lock _ _ => exact move rfl (by simp)
    | scan _ => exact move rfl (by split <;> (try split) <;> simp)
    | mark _ => exact move rfl (by simp)
    | unlock _ => exact move rfl (by simp)
    | leave _ => exact move rfl (by simp)
    | run _ => exact move rfl (by simp)
    | runFails _ hx => rw [hf] at hx; exact (nomatch hx)
    | workError hp => exact absurd hp (ih _)
    | _ => exact ih

/-- The main thread never accesses `pool->error` while a worker may, if it only adds tasks and waits. -/
theorem main_alone {c : Cfg} {ops : List Op} {s : St} (ho : .start ∉ ops) (h : Reach c ops s) {a b : Bool} {w : Nat} (h1 : s.access .main = some (.error, a)) :
    s.access (.worker w) ≠ some (.error, b) := by
  have hh := h.handles
  have hw := h.waits ho
  have hq : s.wpc w = .unborn ∨ s.wpc w = .done := by
    simp only [St.access] at h1
    cases hp : s.mpc with
    | setError =>
      cases hst : s.started with
      | true => exact hh.quiet (hw.idle hst (by simp [hp])) w
      | false => exact Or.inl (hh.unset w (hh.before hst (by simp [hp]) w)).2
    | result => exact hh.quiet (hh.over (Or.inl hp)).2 w
    | next => simp [hp] at h1
    | addLock => simp [hp] at h1
    | addWrite => simp [hp] at h1
    | addUnlock => simp [hp] at h1
    | create i b => simp [hp] at h1
    | join i => simp [hp] at h1
    | release => simp [hp] at h1
    | freed => simp [hp] at h1
  intro h2
  simp only [St.access] at h2
  rcases hq with e | e <;> simp [e] at h2

/-- As `compile_step` uses the pool (adding tasks, then waiting or not, then freeing it): there are no data races at all as long as no compilation fails. -/
theorem C91_succeeding_partial {c : Cfg} {ops : List Op} {s : St} (ho : .start ∉ ops) (hf : c.taskFails = false) (h : Reach c ops s) (l : Loc) : ¬ s.race l := by
  cases l with
  | tasks => exact C91_tasks h
  | error =>
    have hcalm := h.calm hf
    have hr : ∀ {w : Nat} {a : Bool}, s.access (.worker w) = some (.error, a) → a = false := by
      intro w a ha
      simp only [St.access] at ha
      cases hp : s.wpc w <;> simp [hp] at ha
      · exact ha
      · exact absurd hp (hcalm w)
    rintro ⟨t, u, a, b, hne, ht, hu, hw⟩
    cases t with
    | main =>
      cases u with
      | main => exact hne rfl
      | worker w => exact main_alone ho h ht hu
    | worker v =>
      cases u with
      | main => exact main_alone ho h hu ht
      | worker w =>
        rcases hw with e | e
        · rw [hr ht] at e; exact (nomatch e)
        · rw [hr hu] at e; exact (nomatch e)

/-- … and none with a single worker (`-j 1`), even if compilations fail. -/
theorem C91_one_worker_partial {c : Cfg} {ops : List Op} {s : St} (ho : .start ∉ ops) (hn : c.n ≤ 1) (h : Reach c ops s) (l : Loc) : ¬ s.race l := by
  cases l with
  | tasks => exact C91_tasks h
  | error =>
    have hh := h.handles
    have hborn : ∀ {w : Nat} {a : Bool}, s.access (.worker w) = some (.error, a) → w = 0 := by
      intro w a ha
      have h1 : s.wpc w ≠ .unborn := by intro e; simp [St.access, e] at ha
      cases hw : s.slots w with
      | unset => exact absurd (hh.unset w hw).2 h1
      | zero => have := (hh.zero w hw).2.2; omega
      | thread => have := (hh.thread w hw).2.2; omega
    rintro ⟨t, u, a, b, hne, ht, hu, -⟩
    cases t with
    | main =>
      cases u with
      | main => exact hne rfl
      | worker w => exact main_alone ho h ht hu
    | worker v =>
      cases u with
      | main => exact main_alone ho h hu ht
      | worker w => rw [hborn ht, hborn hu] at hne; exact hne rfl

/-- A compilation fails while another worker looks whether to go on: one writes `pool->error`, the other reads it, and neither has the lock. -/
theorem C91_failing_false : ∃ (s : St), Reach ⟨2, false, true⟩ [.add, .wait] s ∧ s.race .error := by
  have h : Reach ⟨2, false, true⟩ [.add, .wait] _ := .init
  have h := h.step (.add rfl rfl)
  have h := h.step (.addLock rfl rfl)
  have h := h.step (.addWrite rfl)
  have h := h.step (.addUnlock rfl)
  have h := h.step (.wait rfl rfl)
  have h := h.step (.create (i := 0) (b := true) rfl (by decide))
  have h := h.step (.create (i := 1) (b := true) rfl (by decide))
  have h := h.step (.test (w := 0) rfl)
  have h := h.step (.lock (w := 0) rfl rfl)
  have h := h.step (.scan (w := 0) (i := 0) rfl)
  have h := h.step (.mark (w := 0) (i := 0) rfl)
  have h := h.step (.unlock (w := 0) rfl)
  have h := h.step (.runFails (w := 0) rfl rfl)
  exact ⟨_, h, .worker 0, .worker 1, true, false, by simp, rfl, rfl, Or.inl rfl⟩

/-- A pool that was started but not waited for: freeing it writes `pool->error` while a worker reads it. -/
theorem C91_started_false : ∃ (s : St), Reach ⟨1, false, false⟩ [.start] s ∧ s.race .error := by
  have h : Reach ⟨1, false, false⟩ [.start] _ := .init
  have h := h.step (.start rfl rfl)
  have h := h.step (.create (i := 0) (b := false) rfl (by decide))
  have h := h.step (.created (i := 1) (b := false) rfl (by decide))
  have h := h.step (.free rfl rfl)
  exact ⟨_, h, .main, .worker 0, true, false, by simp, rfl, rfl, Or.inl rfl⟩

/-- A run in which two workers are created, joined and the pool is freed. -/
example : ∃ s, Reach ⟨2, false, false⟩ [.wait] s ∧ s.mpc = .freed := by
  have h : Reach ⟨2, false, false⟩ [.wait] _ := .init
  have h := h.step (.wait rfl rfl)
  have h := h.step (.create (i := 0) (b := true) rfl (by decide))
  have h := h.step (.create (i := 1) (b := true) rfl (by decide))
  have h := h.step (.created (i := 2) (b := true) rfl (by decide))
  have h := h.step (.test (w := 0) rfl)
  have h := h.step (.lock (w := 0) rfl rfl)
  have h := h.step (.scan (w := 0) (i := 0) rfl)
  have h := h.step (.leave (w := 0) rfl)
  have h := h.step (.test (w := 1) rfl)
  have h := h.step (.lock (w := 1) rfl rfl)
  have h := h.step (.scan (w := 1) (i := 0) rfl)
  have h := h.step (.leave (w := 1) rfl)
  have h := h.step (.join (i := 0) rfl (by decide) rfl rfl)
  have h := h.step (.join (i := 1) rfl (by decide) rfl rfl)
  have h := h.step (.joined (i := 2) rfl (by decide))
  have h := h.step (.result rfl)
  have h := h.step (.free rfl rfl)
  have h := h.step (.setError rfl)
  have h := h.step (.joinSkip (i := 0) rfl (by decide) rfl)
  have h := h.step (.joinSkip (i := 1) rfl (by decide) rfl)
  have h := h.step (.joined (i := 2) rfl (by decide))
  have h := h.step (.result rfl)
  have h := h.step (.release rfl)
  exact ⟨_, h, rfl⟩

end Bob.Threads
