import Verif.Model.LogLock
/-!
# C88: a report and the output it announces are printed together
-/

namespace Bob

/-! ## The specification -/

/-- Each report is directly followed by the output of the same task, and output is printed nowhere else. -/
inductive Together : List LogEv → Prop where
  | nil : Together []
  | other {e : LogEv} {es : List LogEv} (h : e.part ≠ .report) (h' : e.part ≠ .output) (hs : Together es) : Together (e :: es)
  | pair {r o : LogEv} {es : List LogEv} (hr : r.part = .report) (ho : o.part = .output) (hq : o.req = r.req) (ht : o.task = r.task) (hs : Together es) : Together (r :: o :: es)

/-- Everything was done. -/
def LogSt.Finished (s : LogSt) : Prop := ∀ w, s.todo w = []

/-- What was printed for a request under its lock. -/
def underLock (l : Nat) (es : List LogEv) : List LogEv := es.filter fun e => e.req = l && e.part ≠ .outside

/-! ## Proofs -/

theorem together_snoc {es : List LogEv} (h : Together es) {e : LogEv} (h1 : e.part ≠ .report) (h2 : e.part ≠ .output) : Together (es ++ [e]) := by
  induction h with
  | nil => exact .other h1 h2 .nil
  | other h h' _ ih => exact .other h h' ih
  | pair hr ho hq ht _ ih => exact .pair hr ho hq ht ih

theorem together_snoc2 {es : List LogEv} (h : Together es) {r o : LogEv} (hr : r.part = .report) (ho : o.part = .output) (hq : o.req = r.req) (ht : o.task = r.task) :
    Together (es ++ [r, o]) := by
  induction h with
  | nil => exact .pair hr ho hq ht .nil
  | other h h' _ ih => exact .other h h' ih
  | pair hr ho hq ht _ ih => exact .pair hr ho hq ht ih

/-- The rest of what a worker does, with the lock it holds and a report whose output it still has to print. -/
inductive LogShape : Option Nat → Option LogEv → List LogAct → Prop where
  | nil : LogShape none none []
  | out {e : LogEv} {as : List LogAct} (h : e.part = .outside) (hs : LogShape none none as) : LogShape none none (.say e :: as)
  | lock {l : Nat} {as : List LogAct} (hs : LogShape (some l) none as) : LogShape none none (.lock l :: as)
  | unlock {l : Nat} {as : List LogAct} (hs : LogShape none none as) : LogShape (some l) none (.unlock l :: as)
  | say {l : Nat} {e : LogEv} {as : List LogAct} (hl : e.req = l) (h0 : e.part ≠ .outside) (h1 : e.part ≠ .report) (h2 : e.part ≠ .output) (hs : LogShape (some l) none as) :
      LogShape (some l) none (.say e :: as)
  | report {l : Nat} {e : LogEv} {as : List LogAct} (hl : e.req = l) (h : e.part = .report) (hs : LogShape (some l) (some e) as) : LogShape (some l) none (.say e :: as)
  | output {l : Nat} {r e : LogEv} {as : List LogAct} (hl : e.req = l) (h : e.part = .output) (hr : r.part = .report) (hq : r.req = l) (ht : e.task = r.task) (hs : LogShape (some l) none as) :
      LogShape (some l) (some r) (.say e :: as)

theorem shape_outs (t : LogTask) {as : List LogAct} (h : LogShape none none as) : ∀ (ms : List Bytes), LogShape none none (ms.map (t.say .outside) ++ as)
  | [] => h
  | _ :: ms => .out rfl (shape_outs t h ms)

theorem shape_task (t : LogTask) {as : List LogAct} (h : LogShape none none as) : LogShape none none (t.acts ++ as) := by
  unfold LogTask.acts
  simp only [List.append_assoc, List.cons_append, List.nil_append]
  refine .lock (.say rfl (nofun) (nofun) (nofun) (.unlock (shape_outs t ?_ t.before)))
  refine .lock (.report rfl rfl ?_)
  refine .output rfl rfl rfl rfl rfl ?_
  cases t.noLog with
  | none => exact .unlock (shape_outs t h t.after)
  | some m => exact .say rfl (nofun) (nofun) (nofun) (.unlock (shape_outs t h t.after))

theorem shape_tasks : ∀ ts : List LogTask, LogShape none none (ts.flatMap LogTask.acts)
  | [] => .nil
  | t :: ts => by
    rw [List.flatMap_cons]
    exact shape_task t (shape_tasks ts)

/-- The report whose output is still to be printed under a lock. -/
def pendingOf (f : Nat → Option Nat × Option LogEv) (s : LogSt) (l : Nat) : List LogEv :=
  match s.owner l with
  | some w => (f w).2.toList
  | none => []

/-- `f` says which lock each worker holds and which output it still has to print. -/
structure LogOk (f : Nat → Option Nat × Option LogEv) (s : LogSt) : Prop where
  shape : ∀ w, LogShape (f w).1 (f w).2 (s.todo w)
  owner : ∀ w l, s.owner l = some w ↔ (f w).1 = some l
  out : ∀ l, ∃ d, Together d ∧ underLock l s.out = d ++ pendingOf f s l

def setF (f : Nat → Option Nat × Option LogEv) (w : Nat) (x : Option Nat × Option LogEv) : Nat → Option Nat × Option LogEv := fun v => if v = w then x else f v

theorem underLock_snoc (l : Nat) (es : List LogEv) (e : LogEv) : underLock l (es ++ [e]) = underLock l es ++ if e.req = l ∧ e.part ≠ .outside then [e] else [] := by
  unfold underLock
  rw [List.filter_append]
  congr 1
  by_cases h1 : e.req = l <;> by_cases h2 : e.part = .outside <;> simp [h1, h2]

/-- A message that belongs to a lock one has. -/
theorem log_say {f : Nat → Option Nat × Option LogEv} {s : LogSt} (hs : LogOk f s) {w : Nat} {e : LogEv} {as : List LogAct} (x : Option LogEv) (hw : (f w).1 = some e.req) (h0 : e.part ≠ .outside)
    (hsh : LogShape (some e.req) x as) (hd : ∀ d, Together d → ∃ d', Together d' ∧ d ++ (f w).2.toList ++ [e] = d' ++ x.toList) :
    LogOk (setF f w (some e.req, x)) { s with todo := fun v => if v = w then as else s.todo v, out := s.out ++ [e] } := by
  have ho := (hs.owner w e.req).2 hw
  refine ⟨fun v => ?_, fun v l => ?_, fun l => ?_⟩
  · by_cases hv : v = w
    · simp only [setF, hv, if_true]
      exact hsh
    · simp only [setF, hv, if_false]
      exact hs.shape v
  · rw [hs.owner v l]
    by_cases hv : v = w
    · simp only [setF, hv, if_true]
      rw [hw]
    · simp only [setF, hv, if_false]
  · obtain ⟨d, h1, h2⟩ := hs.out l
    rw [underLock_snoc]
    by_cases hl : e.req = l
    · subst hl
      rw [if_pos ⟨rfl, h0⟩, h2]
      obtain ⟨d', h3, h4⟩ := hd d h1
      refine ⟨d', h3, ?_⟩
      simp only [pendingOf, ho, setF, if_true]
      exact h4
    · rw [if_neg (fun h => hl h.1), List.append_nil, h2]
      refine ⟨d, h1, ?_⟩
      unfold pendingOf
      dsimp only
      cases hol : s.owner l with
      | none => rfl
      | some v =>
        have hv : v ≠ w := by
          rintro rfl
          exact hl (by have := (hs.owner v l).1 hol; rw [hw] at this; cases this; rfl)
        simp only [setF, if_neg hv]

theorem log_step {f : Nat → Option Nat × Option LogEv} {a b : LogSt} (ha : LogOk f a) (hs : LogStep a b) : ∃ f', LogOk f' b := by
  cases hs with
  | @lock w l as h hl =>
    have hsh := ha.shape w
    rw [h] at hsh
    generalize hf : f w = x at hsh
    obtain ⟨x1, x2⟩ := x
    cases hsh with
    | lock hsh =>
      refine ⟨setF f w (some l, none), fun v => ?_, fun v k => ?_, fun k => ?_⟩
      · by_cases hv : v = w
        · simp only [setF, hv, if_true]
          exact hsh
        · simp only [setF, hv, if_false]
          exact ha.shape v
      · dsimp only
        by_cases hv : v = w
        · subst hv
          simp only [setF, if_true, Option.some.injEq]
          split
          · rename_i e; simp [e]
          · rename_i e
            rw [ha.owner v k, hf]
            exact ⟨fun h => (nomatch h), fun h => absurd h.symm e⟩
        · simp only [setF, if_neg hv]
          split
          · rename_i e
            subst e
            rw [← ha.owner v k, hl]
            exact ⟨fun h => by cases h; exact absurd rfl hv, fun h => (nomatch h)⟩
          · exact ha.owner v k
      · obtain ⟨d, h1, h2⟩ := ha.out k
        refine ⟨d, h1, h2.trans ?_⟩
        congr 1
        unfold pendingOf
        dsimp only
        by_cases e : k = l
        · subst e
          simp [hl, setF]
        · rw [if_neg e]
          cases hok : a.owner k with
          | none => rfl
          | some v =>
            have hv : v ≠ w := by
              rintro rfl
              have := (ha.owner v k).1 hok
              rw [hf] at this
              cases this
            simp only [setF, if_neg hv]
  | @unlock w l as h =>
    have hsh := ha.shape w
    rw [h] at hsh
    generalize hf : f w = x at hsh
    obtain ⟨x1, x2⟩ := x
    cases hsh with
    | unlock hsh =>
      have how : a.owner l = some w := (ha.owner w l).2 (by rw [hf])
      refine ⟨setF f w (none, none), fun v => ?_, fun v k => ?_, fun k => ?_⟩
      · by_cases hv : v = w
        · simp only [setF, hv, if_true]
          exact hsh
        · simp only [setF, hv, if_false]
          exact ha.shape v
      · dsimp only
        by_cases hv : v = w
        · subst hv
          simp only [setF, if_true]
          split
          · exact ⟨fun h => (nomatch h), fun h => (nomatch h)⟩
          · rename_i e
            rw [ha.owner v k, hf]
            exact ⟨fun h => absurd (by cases h; rfl) e, fun h => (nomatch h)⟩
        · simp only [setF, if_neg hv]
          split
          · rename_i e
            subst e
            rw [← ha.owner v k, how]
            exact ⟨fun h => (nomatch h), fun h => by cases h; exact absurd rfl hv⟩
          · exact ha.owner v k
      · obtain ⟨d, h1, h2⟩ := ha.out k
        refine ⟨d, h1, h2.trans ?_⟩
        congr 1
        unfold pendingOf
        dsimp only
        by_cases e : k = l
        · subst e
          simp [how, hf]
        · rw [if_neg e]
          cases hok : a.owner k with
          | none => rfl
          | some v =>
            have hv : v ≠ w := by
              rintro rfl
              have := (ha.owner v k).1 hok
              rw [hf] at this
              cases this
              exact e rfl
            simp only [setF, if_neg hv]
  | @say w e as h =>
    have hsh := ha.shape w
    rw [h] at hsh
    generalize hf : f w = x at hsh
    obtain ⟨x1, x2⟩ := x
    cases hsh with
    | out hp hsh =>
      refine ⟨f, fun v => ?_, ha.owner, fun l => ?_⟩
      · dsimp only
        split
        · rename_i hv
          rw [hv, hf]
          exact hsh
        · exact ha.shape v
      · rw [underLock_snoc, if_neg (fun h => h.2 hp), List.append_nil]
        exact ha.out l
    | say hl h0 h1 h2 hsh =>
      subst hl
      exact ⟨_, log_say ha none (by rw [hf]) h0 hsh fun d hd => ⟨d ++ [e], together_snoc hd h1 h2, by simp [hf]⟩⟩
    | report hl hp hsh =>
      subst hl
      exact ⟨_, log_say ha (some e) (by rw [hf]) (by rw [hp]; nofun) hsh fun d hd => ⟨d, hd, by simp [hf]⟩⟩
    | @output _ r _ _ hl hp hr hq ht hsh =>
      subst hl
      exact ⟨_, log_say ha none (by rw [hf]) (by rw [hp]; nofun) hsh fun d hd => ⟨d ++ [r, e], together_snoc2 hd hr hp hq.symm ht, by simp [hf]⟩⟩

theorem log_ok {tasks : Nat → List LogTask} {s : LogSt} (h : LogReach tasks s) : ∃ f, LogOk f s := by
  induction h with
  | init => exact ⟨fun _ => (none, none), fun w => shape_tasks (tasks w), fun _ _ => ⟨fun h => (nomatch h), fun h => (nomatch h)⟩, fun _ => ⟨[], .nil, rfl⟩⟩
  | step _ hs ih =>
    obtain ⟨f, hf⟩ := ih
    exact log_step hf hs

/-- **C88**, the part that holds: whatever the tasks of a step print, however they are spread over workers and in whatever order these go on, what is printed for one request under its lock keeps
reports and outputs together. -/
theorem C88_together_partial {tasks : Nat → List LogTask} {s : LogSt} (h : LogReach tasks s) (hf : s.Finished) (l : Nat) : Together (underLock l s.out) := by
  obtain ⟨f, hs⟩ := log_ok h
  obtain ⟨d, h1, h2⟩ := hs.out l
  have : pendingOf f s l = [] := by
    unfold pendingOf
    cases ho : s.owner l with
    | none => rfl
    | some w =>
      have hsh := hs.shape w
      rw [hf w, (hs.owner w l).1 ho] at hsh
      generalize (f w).2 = x at hsh
      cases hsh
  rw [h2, this, List.append_nil]
  exact h1

/-- What has been printed and what is still to be printed comes from the tasks. -/
theorem log_from {tasks : Nat → List LogTask} {P : LogEv → Prop} (hp : ∀ w, ∀ t ∈ tasks w, ∀ e, .say e ∈ t.acts → P e) {s : LogSt} (h : LogReach tasks s) :
    (∀ e ∈ s.out, P e) ∧ ∀ w e, .say e ∈ s.todo w → P e := by
  induction h with
  | init =>
    refine ⟨fun _ h => (nomatch h), fun w e h => ?_⟩
    obtain ⟨t, ht, he⟩ := List.mem_flatMap.1 h
    exact hp w t ht e he
  | step _ hs ih =>
    cases hs with
    | @lock w l as h hl =>
      refine ⟨ih.1, fun v e he => ?_⟩
      dsimp only at he
      split at he
      · exact ih.2 w e (by rw [h]; exact List.mem_cons_of_mem _ he)
      · exact ih.2 v e he
    | @unlock w l as h =>
      refine ⟨ih.1, fun v e he => ?_⟩
      dsimp only at he
      split at he
      · exact ih.2 w e (by rw [h]; exact List.mem_cons_of_mem _ he)
      · exact ih.2 v e he
    | @say w e as h =>
      refine ⟨fun x hx => ?_, fun v x hx => ?_⟩
      · rcases List.mem_append.1 hx with hx | hx
        · exact ih.1 x hx
        · rw [List.mem_singleton.1 hx]
          exact ih.2 w e (by rw [h]; exact List.mem_cons_self)
      · dsimp only at hx
        split at hx
        · exact ih.2 w x (by rw [h]; exact List.mem_cons_of_mem _ hx)
        · exact ih.2 v x hx

/-- **C88** for a step with one request: if its tasks print nothing but what they print under the lock (all commands are found and started, dependencies are found, and nothing is installed), everything is
together. -/
theorem C88_one_request_partial {tasks : Nat → List LogTask} {l : Nat} (hl : ∀ w, ∀ t ∈ tasks w, t.req = l ∧ t.before = [] ∧ t.after = []) {s : LogSt} (h : LogReach tasks s) (hf : s.Finished) :
    Together s.out := by
  have hall := (log_from (P := fun e => e.req = l ∧ e.part ≠ .outside) (fun w t ht e he => ?_) h).1
  · have := C88_together_partial h hf l
    rwa [underLock, List.filter_eq_self.2 (fun e he => by simp [hall e he])] at this
  · obtain ⟨h1, h2, h3⟩ := hl w t ht
    simp only [LogTask.acts, h2, h3, List.map_nil, List.append_nil, List.mem_append, List.mem_cons, List.not_mem_nil, or_false, reduceCtorEq, false_or, Option.mem_toList,
      Option.map_eq_some_iff, LogTask.say, LogAct.say.injEq] at he
    rcases he with (rfl | rfl | rfl) | ⟨m, -, rfl⟩ <;> exact ⟨h1, nofun⟩

/-- Nobody waits for a lock forever: as long as something is left to do, somebody can go on. -/
theorem C88_goes_on {tasks : Nat → List LogTask} {s : LogSt} (h : LogReach tasks s) (hf : ¬ s.Finished) : ∃ b, LogStep s b := by
  obtain ⟨f, hs⟩ := log_ok h
  obtain ⟨w, hw⟩ := Classical.not_forall.1 hf
  have hgo : ∀ v l, (f v).1 = some l → ∃ b, LogStep s b := by
    intro v l hv
    have hsh := hs.shape v
    rw [hv] at hsh
    generalize ht : s.todo v = as at hsh
    generalize (f v).2 = x at hsh
    cases hsh with
    | unlock _ => exact ⟨_, .unlock v ht⟩
    | say _ _ _ _ _ => exact ⟨_, .say v ht⟩
    | report _ _ _ => exact ⟨_, .say v ht⟩
    | output _ _ _ _ _ _ => exact ⟨_, .say v ht⟩
  cases ht : s.todo w with
  | nil => exact absurd ht hw
  | cons x as =>
    cases x with
    | say e => exact ⟨_, .say w ht⟩
    | unlock l => exact ⟨_, .unlock w ht⟩
    | lock l =>
      cases ho : s.owner l with
      | none => exact ⟨_, .lock w ht ho⟩
      | some v => exact hgo v l ((hs.owner v l).1 ho)

/-! ## Cases -/

def logTask (req task : Nat) (after : List Bytes) : LogTask where
  req := req
  task := task
  begins := b!"Compiling...
"
  before := []
  report := b!"Successfully compiled:
"
  output := b!"warning
"
  noLog := none
  after := after

/-- Tasks of two requests which were merged into one step, for two workers. -/
def merged (w : Nat) : List LogTask := if w < 2 then [logTask w w []] else []

/-- **C88** as stated is false: `cc.compile(["a.c"])` and `cc.compile(["b.c"])` make one step whose tasks have different locks. -/
theorem C88_together_false : ∃ s, LogReach merged s ∧ s.Finished ∧ s.out.map (fun e => (e.task, e.part)) =
    [(0, .begins), (1, .begins), (0, .report), (1, .report), (0, .output), (1, .output)] ∧ ¬ Together s.out := by
  have h := LogReach.init (tasks := merged)
  have h := h.step (.lock 0 rfl rfl)
  have h := h.step (.say 0 rfl)
  have h := h.step (.unlock 0 rfl)
  have h := h.step (.lock 1 rfl rfl)
  have h := h.step (.say 1 rfl)
  have h := h.step (.unlock 1 rfl)
  have h := h.step (.lock 0 rfl rfl)
  have h := h.step (.lock 1 rfl rfl)
  have h := h.step (.say 0 rfl)
  have h := h.step (.say 1 rfl)
  have h := h.step (.say 0 rfl)
  have h := h.step (.say 1 rfl)
  have h := h.step (.unlock 0 rfl)
  have h := h.step (.unlock 1 rfl)
  refine ⟨_, h, fun w => ?_, rfl, fun ht => ?_⟩
  · match w with
    | 0 => rfl
    | 1 => rfl
    | w + 2 => rfl
  · cases ht with
    | other _ _ ht =>
      cases ht with
      | other _ _ ht =>
        cases ht with
        | other h _ _ => exact h rfl
        | pair _ h _ _ _ => exact nomatch h
      | pair h _ _ _ _ => exact nomatch h
    | pair h _ _ _ _ => exact nomatch h

/-- Tasks of one request, the second of which is installed when it was made. -/
def installing (w : Nat) : List LogTask := if w = 0 then [logTask 0 0 []] else if w = 1 then [logTask 0 1 [b!"a.o: Preinstalling from cookie...\n"]] else []

/-- It is false for one request too if its products are installed: that is reported without the lock. -/
theorem C88_installing_false : ∃ s, LogReach installing s ∧ s.Finished ∧ s.out.map (fun e => (e.task, e.part)) =
    [(0, .begins), (1, .begins), (1, .report), (1, .output), (0, .report), (1, .outside), (0, .output)] ∧ ¬ Together s.out := by
  have h := LogReach.init (tasks := installing)
  have h := h.step (.lock 0 rfl rfl)
  have h := h.step (.say 0 rfl)
  have h := h.step (.unlock 0 rfl)
  have h := h.step (.lock 1 rfl rfl)
  have h := h.step (.say 1 rfl)
  have h := h.step (.unlock 1 rfl)
  have h := h.step (.lock 1 rfl rfl)
  have h := h.step (.say 1 rfl)
  have h := h.step (.say 1 rfl)
  have h := h.step (.unlock 1 rfl)
  have h := h.step (.lock 0 rfl rfl)
  have h := h.step (.say 0 rfl)
  have h := h.step (.say 1 rfl)
  have h := h.step (.say 0 rfl)
  have h := h.step (.unlock 0 rfl)
  refine ⟨_, h, fun w => ?_, rfl, fun ht => ?_⟩
  · match w with
    | 0 => rfl
    | 1 => rfl
    | w + 2 => rfl
  · cases ht with
    | pair h _ _ _ _ => exact nomatch h
    | other _ _ ht =>
      cases ht with
      | pair h _ _ _ _ => exact nomatch h
      | other _ _ ht =>
        cases ht with
        | other h _ _ => exact h rfl
        | pair _ _ _ _ ht =>
          cases ht with
          | other h _ _ => exact h rfl
          | pair _ h _ _ _ => exact nomatch h

/-- The hypothesis of `C88_one_request_partial` is met by tasks that print something, several to a worker. -/
example : ∀ w, ∀ t ∈ (fun w : Nat => [logTask 7 (2 * w) [], logTask 7 (2 * w + 1) []]) w, t.req = 7 ∧ t.before = [] ∧ t.after = [] := by
  intro w t ht
  simp only [List.mem_cons, List.not_mem_nil, or_false] at ht
  rcases ht with rfl | rfl <;> exact ⟨rfl, rfl, rfl⟩

end Bob
