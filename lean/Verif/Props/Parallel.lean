import Verif.Model.Parallel
import Verif.Props.Cmd
/-!
# C86: commands that run at the same time
-/

namespace Bob

theorem hand_put (c : Crew) (w v : Nat) (h : Hand) : (c.put w h).hand v = if v = w then h else c.hand v := rfl

theorem hand_run (c : Crew) (w v : Nat) (r : Run) : (c.run w r).hand v = if v = w then { c.hand w with cur := some r } else c.hand v := rfl

theorem hand_setOwner (c : Crew) (l o : Option Nat) (v : Nat) : (c.setOwner l o).hand v = c.hand v := by
  unfold Crew.setOwner
  split <;> rfl

theorem owner_setOwner (c : Crew) (l o : Option Nat) (k : Nat) : (c.setOwner l o).owner k = if l = some k then o else c.owner k := by
  unfold Crew.setOwner
  split
  · simp
  · rename_i l
    simp only [Option.some.injEq, eq_comm]

/-- What is true of a command being run. -/
structure RunOk (r : Run) : Prop where
  opened : r.ph = .opened → r.child = none ∧ r.fill = 0
  sum : r.ph ≠ .opened → r.child.getD 0 + r.fill + r.got = r.job.bytes
  gone : r.ph = .reaped ∨ r.ph = .reading → r.child = none
  got : r.ph ≠ .reading → r.got = 0

/-- The bytes of all commands of a worker. -/
def Hand.all (h : Hand) : List Nat := h.done ++ (h.cur.map (·.job.bytes)).toList ++ h.todo.map (·.bytes)

structure CrewOk (n : Nat) (jobs : Nat → List PJob) (c : Crew) : Prop where
  run : ∀ w r, (c.hand w).cur = some r → RunOk r
  owner : ∀ l w, c.owner l = some w → w < n ∧ ∃ r, (c.hand w).cur = some r ∧ r.ph = .reading ∧ r.job.lock = some l
  all : ∀ w, (c.hand w).all = (jobs w).map (·.bytes)

/-- An action that does not end a command or touch locks. -/
theorem CrewOk.upd {n : Nat} {jobs : Nat → List PJob} {c : Crew} (hc : CrewOk n jobs c) {w : Nat} {r r' : Run} (h : (c.hand w).cur = some r) (hj : r'.job = r.job) (hr : RunOk r')
    (hp : r.ph = .reading → r'.ph = .reading) : CrewOk n jobs (c.run w r') where
  run := by
    intro v q hq
    rw [hand_run] at hq
    split at hq
    · cases hq; exact hr
    · exact hc.run v q hq
  owner := by
    intro l v hl
    obtain ⟨h1, q, h2, h3⟩ := hc.owner l v hl
    refine ⟨h1, ?_⟩
    rw [hand_run]
    split
    · rename_i he
      subst he
      cases h.symm.trans h2
      exact ⟨r', rfl, hp h3.1, by rw [hj]; exact h3.2⟩
    · exact ⟨q, h2, h3⟩
  all := by
    intro v
    rw [hand_run]
    split
    · rename_i he
      subst he
      rw [← hc.all v]
      simp only [Hand.all, h, Option.map_some, hj]
    · exact hc.all v

theorem crew_step {cap n : Nat} {jobs : Nat → List PJob} {a b : Crew} {w : Nat} (hw : w < n) (ha : CrewOk n jobs a) (hs : CrewAct cap n w a b) : CrewOk n jobs b := by
  cases hs with
  | @pipe j js h ht hl =>
    refine ⟨fun v q hq => ?_, fun l v hl => ?_, fun v => ?_⟩
    · rw [hand_put] at hq
      split at hq
      · cases hq
        exact ⟨fun _ => ⟨rfl, rfl⟩, fun h => absurd rfl h, fun h => (by rcases h with h | h <;> cases h), fun _ => rfl⟩
      · exact ha.run v q hq
    · obtain ⟨h1, q, h2, h3⟩ := ha.owner l v hl
      refine ⟨h1, ?_⟩
      rw [hand_put, if_neg (by rintro rfl; cases h.symm.trans h2)]
      exact ⟨q, h2, h3⟩
    · rw [hand_put]
      split
      · rename_i he
        subst he
        rw [← ha.all v]
        simp [Hand.all, h, ht]
      · exact ha.all v
  | @spawn r h hp =>
    have hr := ha.run w r h
    refine ha.upd h rfl ⟨fun h => (nomatch h), fun _ => ?_, fun h => (by rcases h with h | h <;> cases h), fun _ => hr.got (by rw [hp]; decide)⟩ fun h => nomatch hp.symm.trans h
    simp [(hr.opened hp).2, hr.got (by rw [hp]; decide)]
  | @close r h hp =>
    have hr := ha.run w r h
    exact ha.upd h rfl ⟨fun h => (nomatch h), fun _ => hr.sum (by rw [hp]; decide), fun h => (by rcases h with h | h <;> cases h), fun _ => hr.got (by rw [hp]; decide)⟩ fun h => nomatch hp.symm.trans h
  | @write r left k h hc hk hl hf =>
    have hr := ha.run w r h
    refine ha.upd h rfl ⟨fun ho => ?_, fun ho => ?_, fun ho => ?_, hr.got⟩ id
    · exact nomatch hc.symm.trans (hr.opened ho).1
    · have := hr.sum ho
      rw [hc] at this
      simp only [Option.getD_some] at this ⊢
      omega
    · exact nomatch hc.symm.trans (hr.gone ho)
  | @exit r h hc =>
    have hr := ha.run w r h
    refine ha.upd h rfl ⟨fun ho => ⟨rfl, (hr.opened ho).2⟩, fun ho => ?_, fun _ => rfl, hr.got⟩ id
    have := hr.sum ho
    rw [hc] at this
    simpa using this
  | @reap r h hp hc =>
    have hr := ha.run w r h
    exact ha.upd h rfl ⟨fun h => (nomatch h), fun _ => hr.sum (by rw [hp]; decide), fun _ => hc, fun _ => hr.got (by rw [hp]; decide)⟩ fun h => nomatch hp.symm.trans h
  | @lock r h hp hl =>
    have hr := ha.run w r h
    have hu := ha.upd (r' := { r with ph := .reading }) h rfl ⟨fun h => (nomatch h), fun _ => hr.sum (by rw [hp]; decide), fun _ => hr.gone (.inl hp), fun h => absurd rfl h⟩ fun _ => rfl
    refine ⟨fun v q hq => ?_, fun l v ho => ?_, fun v => ?_⟩
    · rw [hand_setOwner] at hq
      exact hu.run v q hq
    · rw [owner_setOwner] at ho
      rw [hand_setOwner]
      split at ho
      · cases ho
        rename_i hl'
        exact ⟨hw, { r with ph := .reading }, by rw [hand_run, if_pos rfl], rfl, hl'⟩
      · exact hu.owner l v ho
    · rw [hand_setOwner]
      exact hu.all v
  | @read r k h hp hk hf =>
    have hr := ha.run w r h
    refine ha.upd h rfl ⟨fun ho => (nomatch hp.symm.trans ho), fun ho => ?_, hr.gone, fun ho => absurd hp ho⟩ id
    have := hr.sum ho
    simp only at this ⊢
    omega
  | @eof r h hp hf hk =>
    have hr := ha.run w r h
    refine ⟨fun v q hq => ?_, fun l v ho => ?_, fun v => ?_⟩
    · rw [hand_setOwner, hand_put] at hq
      split at hq
      · cases hq
      · exact ha.run v q hq
    · rw [owner_setOwner] at ho
      split at ho
      · cases ho
      · rename_i hl'
        obtain ⟨h1, q, h2, h3, h4⟩ := ha.owner l v ho
        refine ⟨h1, q, ?_, h3, h4⟩
        rw [hand_setOwner, hand_put, if_neg]
        · exact h2
        · rintro rfl
          cases h.symm.trans h2
          exact hl' h4
    · rw [hand_setOwner, hand_put]
      split
      · rename_i he
        subst he
        rw [← ha.all v]
        have := hr.sum (by rw [hp]; decide)
        rw [hr.gone (.inr hp), hf] at this
        simp only [Option.getD_none, Nat.zero_add, Nat.add_zero] at this
        simp [Hand.all, h, this]
      · exact ha.all v

theorem crew_ok {cap n : Nat} {jobs : Nat → List PJob} {c : Crew} (h : CrewReach cap n jobs c) : CrewOk n jobs c := by
  induction h with
  | init => exact ⟨fun _ _ h => (nomatch h), fun _ _ h => (nomatch h), fun _ => rfl⟩
  | step _ w hw hs ih => exact crew_step hw ih hs

/-! ## How much there is still to do -/

def sumAll (f : Nat → Nat) : Nat → Nat
  | 0 => 0
  | n + 1 => sumAll f n + f n

theorem sumAll_same {f g : Nat → Nat} : ∀ {n : Nat}, (∀ v, v < n → g v = f v) → sumAll g n = sumAll f n
  | 0, _ => rfl
  | n + 1, h => by rw [sumAll, sumAll, sumAll_same fun v hv => h v (Nat.lt_succ_of_lt hv), h n (Nat.lt_succ_self n)]

theorem sumAll_lt {f g : Nat → Nat} {w : Nat} (hlt : g w < f w) (hs : ∀ v, v ≠ w → g v = f v) : ∀ {n : Nat}, w < n → sumAll g n < sumAll f n
  | 0, h => nomatch h
  | n + 1, h => by
    rw [sumAll, sumAll]
    by_cases he : n = w
    · subst he
      rw [sumAll_same fun v hv => hs v (by omega)]
      omega
    · have := sumAll_lt hlt hs (n := n) (by omega)
      rw [hs n he]
      omega

def RunPh.rank : RunPh → Nat
  | .opened => 0
  | .started => 5
  | .waiting => 4
  | .reaped => 3
  | .reading => 2

def Run.work (r : Run) : Nat :=
  if r.ph = .opened then 7 + 2 * r.job.bytes
  else
    r.ph.rank + r.fill + match r.child with
    | some left => 1 + 2 * left
    | none => 0

def Hand.work (h : Hand) : Nat :=
  (match h.cur with
  | some r => r.work
  | none => 0) + (h.todo.map fun j => 8 + 2 * j.bytes).sum

def Crew.work (n : Nat) (c : Crew) : Nat := sumAll (fun w => (c.hand w).work) n

theorem work_run {n w : Nat} (hw : w < n) {c : Crew} {r r' : Run} (h : (c.hand w).cur = some r) (hlt : r'.work < r.work) : (c.run w r').work n < c.work n := by
  refine sumAll_lt (w := w) ?_ (fun v hv => by rw [hand_run, if_neg hv]) hw
  rw [hand_run, if_pos rfl]
  simp only [Hand.work, h]
  omega

theorem work_setOwner (n : Nat) (c : Crew) (l o : Option Nat) : (c.setOwner l o).work n = c.work n :=
  sumAll_same fun v _ => by rw [hand_setOwner]

theorem crew_work {cap n : Nat} {jobs : Nat → List PJob} {a b : Crew} {w : Nat} (hw : w < n) (ha : CrewOk n jobs a) (hs : CrewAct cap n w a b) : b.work n < a.work n := by
  cases hs with
  | @pipe j js h ht hl =>
    refine sumAll_lt (w := w) ?_ (fun v hv => by rw [hand_put, if_neg hv]) hw
    dsimp only
    rw [hand_put, if_pos rfl]
    simp only [Hand.work, h, ht, List.map_cons, List.sum_cons, Run.work, if_true]
    omega
  | @spawn r h hp =>
    refine work_run hw h ?_
    simp only [Run.work, hp, (ha.run w r h).opened hp, RunPh.rank, reduceCtorEq, if_false, if_true]
    omega
  | @close r h hp =>
    refine work_run hw h ?_
    simp only [Run.work, hp, RunPh.rank, reduceCtorEq, if_false]
    omega
  | @write r left k h hc hk hl hf =>
    refine work_run hw h ?_
    have ho : r.ph ≠ .opened := fun ho => nomatch hc.symm.trans ((ha.run w r h).opened ho).1
    simp only [Run.work, if_neg ho, hc]
    omega
  | @exit r h hc =>
    refine work_run hw h ?_
    have ho : r.ph ≠ .opened := fun ho => nomatch hc.symm.trans ((ha.run w r h).opened ho).1
    simp only [Run.work, if_neg ho, hc]
    omega
  | @reap r h hp hc =>
    refine work_run hw h ?_
    simp only [Run.work, hp, hc, RunPh.rank, reduceCtorEq, if_false]
    omega
  | @lock r h hp hl =>
    rw [work_setOwner]
    refine work_run hw h ?_
    simp only [Run.work, hp, RunPh.rank, reduceCtorEq, if_false]
    omega
  | @read r k h hp hk hf =>
    refine work_run hw h ?_
    simp only [Run.work, hp, reduceCtorEq, if_false]
    omega
  | @eof r h hp hf hk =>
    rw [work_setOwner]
    refine sumAll_lt (w := w) ?_ (fun v hv => by rw [hand_put, if_neg hv]) hw
    dsimp only
    rw [hand_put, if_pos rfl]
    simp only [Hand.work, h, Run.work, hp, RunPh.rank, reduceCtorEq, if_false]
    omega

/-! ## C86 -/

/-- All commands have been run. -/
def Crew.Finished (n : Nat) (c : Crew) : Prop := ∀ w, w < n → (c.hand w).cur = none ∧ (c.hand w).todo = []

theorem crew_child {cap n : Nat} {jobs : Nat → List PJob} {c : Crew} (hc : CrewOk n jobs c) (hb : ∀ w, ∀ j ∈ jobs w, j.bytes ≤ cap) {w : Nat} {r : Run} (h : (c.hand w).cur = some r)
    {left : Nat} (hl : r.child = some left) : ∃ d, CrewAct cap n w c d := by
  have hr := hc.run w r h
  have ho : r.ph ≠ .opened := fun ho => nomatch hl.symm.trans (hr.opened ho).1
  by_cases h0 : left = 0
  · subst h0
    exact ⟨_, .exit h hl⟩
  · have hs := hr.sum ho
    rw [hl, Option.getD_some] at hs
    have hle : r.job.bytes ≤ cap := by
      have : r.job.bytes ∈ (jobs w).map (·.bytes) := by
        rw [← hc.all w]
        simp [Hand.all, h]
      obtain ⟨j, hj, he⟩ := List.mem_map.1 this
      exact he ▸ hb w j hj
    exact ⟨_, .write 1 h hl (by omega) (by omega) (by omega)⟩

theorem crew_reader {cap n : Nat} {c : Crew} (hq : ∀ v, v < n → ∀ r, (c.hand v).cur = some r → r.child = none) {w : Nat} {r : Run} (h : (c.hand w).cur = some r) (hp : r.ph = .reading) :
    ∃ d, CrewAct cap n w c d := by
  by_cases hf : r.fill = 0
  · refine ⟨_, .eof h hp hf fun v hv => ?_⟩
    unfold Crew.keeps
    split
    · rename_i q hc
      rw [hq v hv q hc]
      rfl
    · rfl
  · exact ⟨_, .read 1 h hp (by omega) (by omega)⟩

/-- Who waits for a lock waits for somebody who can go on. -/
theorem crew_lock {cap n : Nat} {jobs : Nat → List PJob} {c : Crew} (hc : CrewOk n jobs c) (hq : ∀ v, v < n → ∀ r, (c.hand v).cur = some r → r.child = none) (l : Option Nat) :
    (∀ k, l = some k → c.owner k = none) ∨ ∃ v d, v < n ∧ CrewAct cap n v c d := by
  cases l with
  | none => exact .inl fun _ h => nomatch h
  | some k =>
    cases ho : c.owner k with
    | none => exact .inl fun _ h => by cases h; exact ho
    | some v =>
      obtain ⟨h1, r, h2, h3, -⟩ := hc.owner k v ho
      obtain ⟨d, hd⟩ := crew_reader (cap := cap) hq h2 h3
      exact .inr ⟨v, d, h1, hd⟩

/-- **C86**, the part that holds: if what each command prints fits into a pipe, then whatever the workers run, whatever locks they use and in whatever order things happen, every
execution ends, it ends only when all commands have been run, and then everything they have printed was read. -/
theorem C86_all_end_partial {cap n : Nat} {jobs : Nat → List PJob} (hb : ∀ w, ∀ j ∈ jobs w, j.bytes ≤ cap) {c : Crew} (h : CrewReach cap n jobs c) :
    (∀ w d, w < n → CrewAct cap n w c d → d.work n < c.work n) ∧
    ((∀ w d, w < n → ¬ CrewAct cap n w c d) → c.Finished n ∧ ∀ w, w < n → (c.hand w).done = (jobs w).map (·.bytes)) := by
  have hc := crew_ok h
  refine ⟨fun w d hw hs => crew_work hw hc hs, fun hstuck => ?_⟩
  have hq : ∀ v, v < n → ∀ r, (c.hand v).cur = some r → r.child = none := by
    intro v hv r hr
    cases hl : r.child with
    | none => rfl
    | some left =>
      obtain ⟨d, hd⟩ := crew_child hc hb hr hl
      exact absurd hd (hstuck v d hv)
  have hlock : ∀ l k, l = some k → c.owner k = none := fun l => by
    rcases crew_lock (cap := cap) hc hq l with h | ⟨v, d, hv, hd⟩
    · exact h
    · exact absurd hd (hstuck v d hv)
  have hfin : c.Finished n := by
    intro w hw
    cases hcur : (c.hand w).cur with
    | none =>
      refine ⟨rfl, ?_⟩
      cases ht : (c.hand w).todo with
      | nil => rfl
      | cons j js => exact absurd (.pipe hcur ht (hlock _)) (hstuck w _ hw)
    | some r =>
      exfalso
      cases hp : r.ph with
      | opened => exact hstuck w _ hw (.spawn hcur hp)
      | started => exact hstuck w _ hw (.close hcur hp)
      | waiting => exact hstuck w _ hw (.reap hcur hp (hq w hw r hcur))
      | reaped => exact hstuck w _ hw (.lock hcur hp (hlock _))
      | reading =>
        obtain ⟨d, hd⟩ := crew_reader (cap := cap) hq hcur hp
        exact hstuck w d hw hd
  refine ⟨hfin, fun w hw => ?_⟩
  have := hc.all w
  rw [Hand.all, (hfin w hw).1, (hfin w hw).2] at this
  simpa using this

/-- Two workers with one command each; the first prints nothing, the second prints `b` bytes. -/
def twoJobs (b : Nat) : Nat → List PJob
  | 0 => [⟨0, none, none⟩]
  | 1 => [⟨b, none, none⟩]
  | _ => []

/-- Both pipes are made before the second child is started, and the first command ends. -/
theorem two_reach (cap b : Nat) : ∃ c, CrewReach cap 2 (twoJobs b) c ∧
    (c.hand 0).cur = some { job := ⟨0, none, none⟩, ph := .reading, child := none, fill := 0, got := 0, holds := [0] } ∧
    (c.hand 1).cur = some { job := ⟨b, none, none⟩, ph := .waiting, child := some b, fill := 0, got := 0, holds := [0, 1] } ∧
    (c.hand 0).todo = [] ∧ (c.hand 1).todo = [] := by
  have h1 := CrewReach.step (cap := cap) (n := 2) (.init (jobs := twoJobs b)) 0 (by decide) (.pipe rfl rfl fun _ h => (nomatch h))
  have h2 := h1.step 1 (by decide) (.pipe rfl rfl fun _ h => (nomatch h))
  have h3 := h2.step 1 (by decide) (.spawn rfl rfl)
  have h4 := h3.step 1 (by decide) (.close rfl rfl)
  have h5 := h4.step 0 (by decide) (.spawn rfl rfl)
  have h6 := h5.step 0 (by decide) (.close rfl rfl)
  have h7 := h6.step 0 (by decide) (.exit rfl rfl)
  have h8 := h7.step 0 (by decide) (.reap rfl rfl rfl)
  have h9 := h8.step 0 (by decide) (.lock rfl rfl fun _ h => (nomatch h))
  exact ⟨_, h9, rfl, rfl, rfl, rfl⟩

/-- A worker that reads an empty pipe which some child has open can do nothing. -/
theorem reader_waits {cap n w v : Nat} (hv : v < n) {c : Crew} {r : Run} (h : (c.hand w).cur = some r) (hp : r.ph = .reading) (hc : r.child = none) (hf : r.fill = 0)
    (hk : c.keeps v w = true) : ∀ d, ¬ CrewAct cap n w c d := by
  intro d hd
  cases hd with
  | pipe h' => exact nomatch h.symm.trans h'
  | spawn h' hp' => cases h.symm.trans h'; exact nomatch hp.symm.trans hp'
  | close h' hp' => cases h.symm.trans h'; exact nomatch hp.symm.trans hp'
  | write k h' hc' => cases h.symm.trans h'; exact nomatch hc.symm.trans hc'
  | exit h' hc' => cases h.symm.trans h'; exact nomatch hc.symm.trans hc'
  | reap h' hp' => cases h.symm.trans h'; exact nomatch hp.symm.trans hp'
  | lock h' hp' => cases h.symm.trans h'; exact nomatch hp.symm.trans hp'
  | read k h' hp' h0 hk' => cases h.symm.trans h'; omega
  | eof h' hp' hf' hk' => exact nomatch hk.symm.trans (hk' v hv)

/-- A worker whose child has filled the pipe can do nothing. -/
theorem writer_waits {cap n w left : Nat} {c : Crew} {r : Run} (h : (c.hand w).cur = some r) (hp : r.ph = .waiting) (hc : r.child = some (left + 1)) (hf : r.fill = cap) :
    ∀ d, ¬ CrewAct cap n w c d := by
  intro d hd
  cases hd with
  | pipe h' => exact nomatch h.symm.trans h'
  | spawn h' hp' => cases h.symm.trans h'; exact nomatch hp.symm.trans hp'
  | close h' hp' => cases h.symm.trans h'; exact nomatch hp.symm.trans hp'
  | write k h' => cases h.symm.trans h'; omega
  | exit h' hc' => cases h.symm.trans h'; exact nomatch hc.symm.trans hc'
  | reap h' hp' hc' => cases h.symm.trans h'; exact nomatch hc.symm.trans hc'
  | lock h' hp' => cases h.symm.trans h'; exact nomatch hp.symm.trans hp'
  | read k h' hp' => cases h.symm.trans h'; exact nomatch hp.symm.trans hp'
  | eof h' hp' => cases h.symm.trans h'; exact nomatch hp.symm.trans hp'

/-- **C86** is false: whatever pipes hold and whatever the second command prints, it can come to this: the first command has ended and all it has printed was read, but its
worker can do nothing, because the child of the other one, which still runs, has its pipe open. -/
theorem C86_alone_false (cap b : Nat) : ∃ c r q, CrewReach cap 2 (twoJobs b) c ∧
    (c.hand 0).cur = some r ∧ r.child = none ∧ r.got = r.job.bytes ∧ (c.hand 1).cur = some q ∧ q.child = some b ∧ ∀ d, ¬ CrewAct cap 2 0 c d := by
  obtain ⟨c, hr, h0, h1, -, -⟩ := two_reach cap b
  refine ⟨c, _, _, hr, h0, rfl, rfl, h1, rfl, reader_waits (v := 1) (by decide) h0 rfl rfl rfl ?_⟩
  unfold Crew.keeps
  rw [h1]
  rfl

/-- And a command that prints more than a pipe holds stops not only its own worker, but also one whose command has ended and printed nothing: nobody can do anything any more. -/
theorem C86_stuck_false (cap : Nat) (hcap : 0 < cap) : ∃ c r, CrewReach cap 2 (twoJobs (cap + 1)) c ∧
    (c.hand 0).cur = some r ∧ r.child = none ∧ r.got = r.job.bytes ∧ ∀ w d, w < 2 → ¬ CrewAct cap 2 w c d := by
  obtain ⟨c, hr, h0, h1, -, -⟩ := two_reach cap (cap + 1)
  have h2 := hr.step 1 (by decide) (.write cap h1 rfl hcap (Nat.le_succ cap) (Nat.le_of_eq (Nat.zero_add cap)))
  refine ⟨_, { job := ⟨0, none, none⟩, ph := .reading, child := none, fill := 0, got := 0, holds := [0] }, h2, ?_, rfl, rfl, ?_⟩
  · rw [hand_run, if_neg (by decide)]
    exact h0
  · intro w d hw
    rcases (by omega : w = 0 ∨ w = 1) with rfl | rfl
    · refine reader_waits (v := 1) (by decide) (by rw [hand_run, if_neg (by decide)]; exact h0) rfl rfl rfl ?_ d
      unfold Crew.keeps
      rw [hand_run, if_pos rfl]
      rfl
    · refine writer_waits (left := 0) (by rw [hand_run, if_pos rfl]) rfl ?_ (Nat.zero_add cap) d
      rw [Nat.add_sub_cancel_left]

/-- With one worker there is nobody else to wait for: what it reads ends as soon as its own command has ended. -/
theorem C86_one_worker {cap : Nat} {jobs : Nat → List PJob} {c : Crew} (h : CrewReach cap 1 jobs c) {r : Run} (hc : (c.hand 0).cur = some r) (hp : r.ph = .reading) :
    ∃ d, CrewAct cap 1 0 c d :=
  crew_reader (fun v hv q hq => by
    obtain rfl : v = 0 := by omega
    cases hc.symm.trans hq
    exact ((crew_ok h).run 0 r hc).gone (.inr hp)) hc hp

/-- The hypothesis of `C86_all_end_partial` is met by commands that print something and share locks. -/
example : ∀ w : Nat, ∀ j ∈ (fun w : Nat => if w < 3 then [(⟨10, some 0, none⟩ : PJob), ⟨4096, none, some 0⟩] else []) w, j.bytes ≤ 65536 := by
  intro w j hj
  dsimp only at hj
  split at hj
  · rcases List.mem_cons.1 hj with rfl | hj
    · decide
    · rcases List.mem_cons.1 hj with rfl | hj
      · decide
      · cases hj
  · cases hj

end Bob
