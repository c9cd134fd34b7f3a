import Verif.Model.Owner
import Verif.Lemmas.BuildDest
/-!
# C105: what a build makes as root belongs to the owner of the project
-/

namespace Bob
variable {e : Owners} {tc : Toolchain} {c : InstCfg} {n : Nat}

/-- Files that appear are given to `set_owner`, or are installed. -/
def Makes (c : InstCfg) (d : Option Bytes) (a b : Store) : Prop := ∀ p, a.fs p = none → (b.fs p).isSome → d = some p ∨ ∃ out, c.dest out = some p

theorem Makes.same {d : Option Bytes} {a b : Store} (h : b.fs = a.fs) : Makes c d a b := by
  intro p h1 h2
  rw [h, h1] at h2
  cases h2

theorem Makes.write {p content : Bytes} {a a' b : Store} (ha : a'.fs = a.fs) (h : b = a'.write p content) : Makes c (some p) a b := by
  intro q h1 h2
  subst h
  by_cases hq : q = p
  · exact .inl (by rw [hq])
  · simp only [Store.write, FS.set, hq, if_false, ha, h1] at h2
    cases h2

theorem Makes.remove {p : Bytes} {d : Option Bytes} {a a' b : Store} (ha : a'.fs = a.fs) (h : b = a'.remove p) : Makes c d a b := by
  intro q h1 h2
  subst h
  simp only [Store.remove, FS.set, ha, h1] at h2
  split at h2 <;> cases h2

theorem Makes.failed {p : Bytes} {d : Option Bytes} {a a' : Store} {r : Bool} (ha : a'.fs = a.fs) : Makes c d a (if r = true then a'.remove p else a') := by
  cases r
  · exact .same ha
  · exact .remove ha rfl

theorem makes_install {d : Option Bytes} {out : Bytes} {a a' : Store} (ha : a'.fs = a.fs) : Makes c d a (installCookie c out a').1 := by
  intro q h1 h2
  unfold installCookie at h2
  split at h2
  · rw [ha, h1] at h2; cases h2
  · rename_i dst hd
    split at h2
    · rw [ha, h1] at h2; cases h2
    · split at h2
      · rw [ha, h1] at h2; cases h2
      · split at h2
        · rw [ha, h1] at h2; cases h2
        · rw [ha, h1] at h2; cases h2
        · by_cases hq : q = dst
          · exact .inr ⟨out, by rw [hd, hq]⟩
          · simp only [Store.emit, Store.write, FS.set, hq, if_false, ha, h1] at h2
            cases h2

theorem makes_log {out output : Bytes} {a : Store} : Makes c (dueLog out output) a (writeLog out output a) := by
  unfold writeLog dueLog
  split
  · exact .remove rfl rfl
  · exact .write rfl rfl

theorem makes_flags {out : Bytes} {flags : List Bytes} {a : Store} : Makes c (dueFlags out flags a) a (checkFlags out flags a).1 := by
  unfold checkFlags dueFlags
  rcases frugalFlags (a.fs.content (flagsPath out)) true flags with ⟨_ | _, _ | rec⟩
  · exact .same rfl
  · exact .same rfl
  · exact .same rfl
  · exact .write rfl rfl

theorem validate_store (j : CJob) (s : Store) : (validate j s).1 = (checkFlags j.out j.flags s).1 := by
  unfold validate
  rcases checkFlags j.out j.flags s with ⟨s1, b⟩
  cases b with
  | true => rfl
  | false =>
    simp only
    split
    · rfl
    · split <;> rfl

theorem linkCheck_store (j : LJob) (s : Store) : (linkCheck j s).1 = (checkFlags j.out j.flags s).1 := by
  unfold linkCheck
  rcases checkFlags j.out j.flags s with ⟨s1, b⟩
  cases b with
  | true => rfl
  | false =>
    simp only
    split <;> rfl

/-- What installing after a decision makes: the record of the flags is not written where nothing has to be done. -/
theorem makes_then {out : Bytes} {flags : List Bytes} {o : Bytes} {a s' : Store} {ev : BEvent} (h : (checkFlags out flags a).1 = s') :
    Makes c (dueFlags out flags a) a (installCookie c o (s'.emit ev)).1 := by
  intro q h1 h2
  by_cases hq : (s'.fs q).isSome
  · exact makes_flags q h1 (h ▸ hq)
  · exact makes_install (a := s') (a' := s'.emit ev) rfl q (by simpa using hq) h2

theorem seq_makes {a b : Cfg} (h : seqNext tc c a = some b) : Makes c (dueMain tc a) a.store b.store := by
  cases a with
  | idle rest s =>
    cases rest with
    | nil => cases h; exact .same rfl
    | cons r rest =>
      cases r with
      | compile jobs => cases h; exact .same rfl
      | link j =>
        simp only [seqNext] at h
        have hs := linkCheck_store j s
        rcases hc : linkCheck j s with ⟨s', ok⟩
        rw [hc] at h hs
        change s' = _ at hs
        cases ok with
        | true =>
          cases h
          show Makes c (dueFlags j.out j.flags s) s s'
          rw [hs]
          exact makes_flags
        | false =>
          cases h
          have : ∀ r : Store × Bool, (afterStep rest r).store = r.1 := by
            intro r; unfold afterStep; split <;> rfl
          rw [this]
          exact makes_then hs.symm
  | validating todo tasks rest s =>
    cases todo with
    | nil => cases h; exact .same rfl
    | cons j todo =>
      simp only [seqNext] at h
      have hs := validate_store j s
      rcases hc : validate j s with ⟨s', v⟩
      rw [hc] at h hs
      change s' = _ at hs
      cases v with
      | err => cases h; show Makes c (dueFlags j.out j.flags s) s s'; rw [hs]; exact makes_flags
      | compile => cases h; show Makes c (dueFlags j.out j.flags s) s s'; rw [hs]; exact makes_flags
      | skip =>
        simp only at h
        have hm := makes_then (c := c) (o := j.out) (ev := .already j.out (s'.fs.content (logPath j.out))) hs.symm
        rcases hi : installCookie c j.out (s'.emit (.already j.out (s'.fs.content (logPath j.out)))) with ⟨s'', ok⟩
        rw [hi] at h hm
        cases ok <;> · cases h; exact hm
  | pooling tasks rest p => cases h
  | linking j rest s =>
    cases h
    show Makes c (if (tc.link j.archive s.fs j.srcs j.flags).isSome then some j.out else none) s (linkOp tc j s).1
    unfold linkOp
    cases tc.link j.archive s.fs j.srcs j.flags with
    | some x => exact .write (a' := ((s.emit _).capture _ _)) rfl rfl
    | none => exact .failed (a' := ((s.emit _).capture _ _)) rfl
  | linkRan ok j rest s =>
    cases ok <;> · cases h; exact makes_log
  | linked j rest s =>
    cases h
    have : ∀ r : Store × Bool, (afterStep rest r).store = r.1 := by
      intro r; unfold afterStep; split <;> rfl
    rw [this]
    exact makes_install rfl
  | finished => cases h

theorem task_makes {j : CJob} {k : Nat} {op : TaskOp Store} (h : (compileTask tc c j)[k]? = some op) (f : Bool) (s : Store) : Makes c (dueTask tc j k s) s (op f s).1 := by
  match k, h with
  | 0, h =>
    cases h
    unfold depsOp dueTask
    cases tc.deps s.fs j.src j.flags with
    | none => exact .same rfl
    | some items => exact .write rfl rfl
  | 1, h =>
    cases h
    unfold objOp dueTask
    cases tc.obj s.fs j.src j.flags with
    | some x => exact .write (a' := ((s.emit _).capture _ _)) rfl rfl
    | none => exact .failed (a' := ((s.emit _).capture _ _)) rfl
  | 2, h => cases h; exact makes_log
  | 3, h =>
    cases h
    unfold instOp
    split
    · exact .same rfl
    · exact makes_install rfl
  | k + 4, h => simp [compileTask] at h

theorem work_makes {tasks : List CJob} {p p' : Pool Store} {w : Nat} (h : workStep (taskProg tc c tasks) p w = some p') : Makes c (dueWork tc tasks p w) p.store p'.store := by
  unfold workStep at h
  unfold dueWork
  split at h
  case h_7 i k f hp =>
    rw [hp]
    simp only
    cases hj : tasks[i]? with
    | none =>
      simp only [taskProg, hj, List.getElem?_nil, Option.some.injEq] at h
      subst h
      exact .same rfl
    | some j =>
      simp only [taskProg, hj] at h
      split at h
      · rename_i op ho
        simp only [Option.some.injEq] at h
        subst h
        exact task_makes ho f p.store
      · simp only [Option.some.injEq] at h
        subst h
        exact .same rfl
  all_goals
    first
    | (simp only [Option.some.injEq] at h; subst h; exact .same rfl)
    | (split at h <;> first | (simp only [Option.some.injEq] at h; subst h; exact .same rfl) | cases h)
    | cases h

/-! ## Invariants -/

/-- In the output directory, as `set_owner` sees it. -/
def Owners.inside (e : Owners) (p : Bytes) : Prop := e.absOut <+: e.full p

/-- What is made inside and was not installed is the owner's, or about to be. -/
def OwnKept (e : Owners) (c : InstCfg) (o : OCfg) : Prop :=
  ∀ p, (o.cfg.store.fs p).isSome → e.inside p → (∀ out, c.dest out ≠ some p) → o.own p = e.owner ∨ ∃ t, o.due t = some p

/-- Only threads that work are about to call `set_owner`. -/
def DueOk (n : Nat) (o : OCfg) : Prop :=
  ∀ w p, o.due (some w) = some p → ∃ tasks rest pool i k f, o.cfg = .pooling tasks rest pool ∧ w < n ∧ pool.pc w = .run i k f

theorem setDue_self {due : Option Nat → Option Bytes} {t : Option Nat} {p : Option Bytes} : OCfg.setDue due t p t = p := if_pos rfl
theorem setDue_other {due : Option Nat → Option Bytes} {t u : Option Nat} {p : Option Bytes} (h : u ≠ t) : OCfg.setDue due t p u = due u := if_neg h

theorem kept_act {a b : Store} {own : Bytes → Nat} {due : Option Nat → Option Bytes} {t : Option Nat} {d : Option Bytes} {anew : Bytes → Bool}
    (hm : Makes c d a b) (ha : ∀ p, anew p = true → d = some p) (hd : due t = none) {p : Bytes}
    (ih : (a.fs p).isSome → own p = e.owner ∨ ∃ t, due t = some p) (hp : (b.fs p).isSome) (hx : ∀ out, c.dest out ≠ some p) :
    ownAfter e.me anew a b own p = e.owner ∨ ∃ u, OCfg.setDue due t d u = some p := by
  have hdue : d = some p → ∃ u, OCfg.setDue due t d u = some p := fun h => ⟨t, by rw [setDue_self, h]⟩
  unfold ownAfter
  split
  · rename_i h
    rw [Bool.and_eq_true, Bool.or_eq_true] at h
    rcases h.2 with h | h
    · rcases hm p (by simpa using h) hp with h | ⟨out, h⟩
      · exact .inr (hdue h)
      · exact (hx out h).elim
    · exact .inr (hdue (ha p h))
  · rename_i h
    have h1 : (a.fs p).isSome := by
      cases hap : a.fs p with
      | some f => rfl
      | none => simp [hp, hap] at h
    rcases ih h1 with h | ⟨u, h⟩
    · exact .inl h
    · refine .inr ⟨u, ?_⟩
      rw [setDue_other]
      · exact h
      · rintro rfl
        rw [hd] at h
        cases h

theorem afterStep_store (rest : List Req) (r : Store × Bool) : (afterStep rest r).store = r.1 := by
  unfold afterStep; split <;> rfl

theorem withNow_fs (a : Cfg) (t : Nat) : (a.withNow t).store.fs = a.store.fs := by cases a <;> rfl

theorem kept_step (hme : e.me = 0) {o o' : OCfg} (h : OStep e tc c n o o') (hk : OwnKept e c o) : OwnKept e c o' := by
  intro p hp hin hx
  cases h with
  | main anew ha hd h => exact kept_act (seq_makes h) ha hd (fun h1 => hk p h1 hin hx) hp hx
  | work anew w hw ha hd h => exact kept_act (work_makes h) ha hd (fun h1 => hk p h1 hin hx) hp hx
  | join h => exact hk p (by rw [afterStep_store] at hp; exact hp) hin hx
  | tick t h => exact hk p (by rw [withNow_fs] at hp; exact hp) hin hx
  | @chown a own due t q h =>
    rcases hk p hp hin hx with h1 | ⟨u, h1⟩
    · left
      show chowns _ own p = e.owner
      unfold setOwner
      split
      · exact h1
      · simp only [Owners.env]
        split
        · exact h1
        · split
          · simp only [chowns, List.foldl_cons, List.foldl_nil]
            split
            · rfl
            · exact h1
          · exact h1
    · by_cases hu : u = t
      · subst hu
        obtain rfl : q = p := Option.some.inj (h.symm.trans h1)
        left
        show chowns _ own q = e.owner
        have hp' : (a.store.fs q).isSome = true := hp
        have hc : isCookie e.absOut (e.full q) = true := by
          unfold isCookie; rw [List.isPrefixOf_iff_prefix]; exact hin
        simp [setOwner, Owners.env, hme, hp', hc, chowns]
      · exact .inr ⟨u, (setDue_other hu).trans h1⟩

theorem work_pc {prog : Nat → List (TaskOp Store)} {p p' : Pool Store} {v w : Nat} (h : workStep prog p v = some p') (hw : w ≠ v) : p'.pc w = p.pc w := by
  unfold workStep at h
  split at h
  all_goals
    first
    | (simp only [Option.some.injEq] at h; subst h; exact if_neg hw)
    | (split at h <;> first | (simp only [Option.some.injEq] at h; subst h; exact if_neg hw) | cases h)
    | cases h

theorem due_step {o o' : OCfg} (h : OStep e tc c n o o') (hk : DueOk n o) : DueOk n o' := by
  intro w p hp
  cases h with
  | @main a b own due anew ha hd h =>
    replace hp : due (some w) = some p := (setDue_other (t := none) (p := dueMain tc a) (by simp)).symm.trans hp
    obtain ⟨tasks, rest, pool, i, k, f, h1, -⟩ := hk w p hp
    cases h1
    cases h
  | @work tasks rest q q' own due anew v hw ha hd h =>
    by_cases hv : w = v
    · subst hv
      replace hp : dueWork tc tasks q w = some p := setDue_self.symm.trans hp
      refine ⟨tasks, rest, q', ?_⟩
      unfold dueWork at hp
      split at hp
      · rename_i i k f hpc
        split at hp
        · rename_i j hj
          unfold workStep at h
          rw [hpc] at h
          simp only [taskProg, hj] at h
          split at h
          · simp only [Option.some.injEq] at h
            subst h
            exact ⟨i, k + 1, _, rfl, hw, if_pos rfl⟩
          · rename_i hno
            exfalso
            match k, hno, hp with
            | 0, hno, _ => simp [compileTask] at hno
            | 1, hno, _ => simp [compileTask] at hno
            | 2, hno, _ => simp [compileTask] at hno
            | k + 3, _, hp => cases hp
        · cases hp
      · cases hp
    · replace hp : due (some w) = some p := (setDue_other (t := some v) (p := dueWork tc tasks q v) (by simpa using hv)).symm.trans hp
      obtain ⟨tasks', rest', pool, i, k, f, h1, h2, h3⟩ := hk w p hp
      cases h1
      refine ⟨tasks, rest, q', i, k, f, rfl, h2, ?_⟩
      rw [← h3]
      exact work_pc h hv
  | @join tasks rest q own due h =>
    obtain ⟨tasks', rest', pool, i, k, f, h1, h2, h3⟩ := hk w p hp
    cases h1
    rw [h w h2] at h3
    cases h3
  | @tick a own due t h =>
    obtain ⟨tasks', rest', pool, i, k, f, h1, h2, h3⟩ := hk w p hp
    cases h1
    exact ⟨tasks', rest', _, i, k, f, rfl, h2, h3⟩
  | @chown a own due t q h =>
    replace hp : OCfg.setDue due t none (some w) = some p := hp
    have hu : some w ≠ t := by
      intro hu
      rw [hu, setDue_self] at hp
      cases hp
    rw [setDue_other hu] at hp
    exact hk w p hp

/-! ## C105 -/

/-- Dropping the owners leaves a build of `Verif.Model.Build`. -/
theorem C105_erases {reqs : List Req} {s : Store} {own : Bytes → Nat} {o : OCfg} (h : OReaches e tc c n reqs s own o) : BuildReaches tc c n reqs s o.cfg := by
  unfold OReaches at h
  generalize ho : (⟨.idle reqs s, own, fun _ => none⟩ : OCfg) = o0 at h
  induction h with
  | refl => subst ho; exact .refl _
  | tail _ r ih =>
    cases r with
    | main _ _ _ h => exact ih.tail (.seq h)
    | work _ w hw _ _ h => exact ih.tail (.pool (.work w hw h))
    | join h => exact ih.tail (.join h)
    | tick t h => exact ih.tail (.tick t h)
    | chown => exact ih

theorem catch_up {e : Owners} {o : OCfg} {t : Option Nat} {own0 : Bytes → Nat} {reqs : List Req} {s : Store} (h : OReaches e tc c n reqs s own0 o) (hd : ∀ u, u ≠ t → o.due u = none) :
    ∃ o', OReaches e tc c n reqs s own0 o' ∧ o'.cfg = o.cfg ∧ ∀ u, o'.due u = none := by
  obtain ⟨a, own, due⟩ := o
  cases ht : due t with
  | none =>
    refine ⟨_, h, rfl, fun u => ?_⟩
    by_cases hu : u = t
    · rw [hu]; exact ht
    · exact hd u hu
  | some p =>
    refine ⟨_, h.tail (.chown t p ht), rfl, fun u => ?_⟩
    by_cases hu : u = t
    · rw [hu]; exact setDue_self
    · exact (setDue_other hu).trans (hd u hu)

/-- And every build is one with owners: keeping track of them excludes nothing. -/
theorem C105_covers (e : Owners) {reqs : List Req} {s : Store} (own : Bytes → Nat) {cfg : Cfg} (h : BuildReaches tc c n reqs s cfg) :
    ∃ o, OReaches e tc c n reqs s own o ∧ o.cfg = cfg ∧ ∀ t, o.due t = none := by
  unfold BuildReaches at h
  generalize ha : Cfg.idle reqs s = a0 at h
  induction h with
  | refl => subst ha; exact ⟨_, .refl _, rfl, fun _ => rfl⟩
  | tail _ r ih =>
    obtain ⟨⟨a, own', due⟩, h1, h2, h3⟩ := ih
    cases h2
    cases r with
    | seq h => exact catch_up (t := none) (h1.tail (.main (fun _ => false) (by simp) (h3 _) h)) fun u hu => (setDue_other hu).trans (h3 u)
    | tick t h => exact ⟨_, h1.tail (.tick t h), rfl, h3⟩
    | pool h =>
      cases h with
      | work w hw h => exact catch_up (t := some w) (h1.tail (.work (fun _ => false) w hw (by simp) (h3 _) h)) fun u hu => (setDue_other hu).trans (h3 u)
      | env s' h => exact h.elim
    | join h => exact ⟨_, h1.tail (.join h), rfl, h3⟩

theorem reaches_kept (hme : e.me = 0) {reqs : List Req} {s : Store} {own : Bytes → Nat} (h0 : ∀ p, (s.fs p).isSome → e.inside p → own p = e.owner) {o : OCfg}
    (h : OReaches e tc c n reqs s own o) : OwnKept e c o ∧ DueOk n o := by
  unfold OReaches at h
  generalize ho : (⟨.idle reqs s, own, fun _ => none⟩ : OCfg) = o0 at h
  induction h with
  | refl => subst ho; exact ⟨fun p h1 h2 _ => .inl (h0 p h1 h2), fun w p h => (nomatch h)⟩
  | tail _ r ih => exact ⟨kept_step hme r ih.1, due_step r ih.2⟩

/-- **C105.** If all that is in the output directory belongs to the owner of the project, and bob builds as root, then when the build has ended, however it ended, all that is there belongs to the
owner of the project, but for files installed there. -/
theorem C105_build_partial (hme : e.me = 0) {reqs : List Req} {s : Store} {own : Bytes → Nat} (h0 : ∀ p, (s.fs p).isSome → e.inside p → own p = e.owner) {o : OCfg}
    (h : OReaches e tc c n reqs s own o) {ok : Bool} {s' : Store} (hf : o.cfg = .finished ok s') (hd : o.due none = none) :
    ∀ p, (s'.fs p).isSome → e.inside p → (∀ out, c.dest out ≠ some p) → o.own p = e.owner := by
  intro p h1 h2 h3
  obtain ⟨k1, k2⟩ := reaches_kept hme h0 h
  rcases k1 p (by rw [hf]; exact h1) h2 h3 with h | ⟨t, h⟩
  · exact h
  · cases t with
    | none => rw [hd] at h; cases h
    | some w =>
      obtain ⟨_, _, _, _, _, _, h4, -⟩ := k2 w p h
      rw [hf] at h4
      cases h4

/-- At any time: what is not yet the owner's is about to be given to them by a thread. -/
theorem C105_any_time_partial (hme : e.me = 0) {reqs : List Req} {s : Store} {own : Bytes → Nat} (h0 : ∀ p, (s.fs p).isSome → e.inside p → own p = e.owner) {o : OCfg}
    (h : OReaches e tc c n reqs s own o) :
    ∀ p, (o.cfg.store.fs p).isSome → e.inside p → (∀ out, c.dest out ≠ some p) → o.own p = e.owner ∨ ∃ t, o.due t = some p :=
  (reaches_kept hme h0 h).1

/-- `bob build` installs nothing, and `bob install` nothing in the output directory if the prefix is not there: then all belongs to the owner. -/
theorem C105_build (hme : e.me = 0) (hc : ∀ out d, c.dest out = some d → ¬ e.inside d) {reqs : List Req} {s : Store} {own : Bytes → Nat}
    (h0 : ∀ p, (s.fs p).isSome → e.inside p → own p = e.owner) {o : OCfg} (h : OReaches e tc c n reqs s own o) {ok : Bool} {s' : Store} (hf : o.cfg = .finished ok s')
    (hd : o.due none = none) : ∀ p, (s'.fs p).isSome → e.inside p → o.own p = e.owner :=
  fun p h1 h2 => C105_build_partial hme h0 h hf hd p h1 h2 fun _ h3 => hc _ _ h3 h2

theorem build_installs_nothing (h : c.pre = none) : ∀ out d, c.dest out = some d → ¬ e.inside d := by
  intro out d hd
  rw [InstCfg.dest, h] at hd
  cases hd

/-- What `set_owner` leaves alone. -/
theorem chowns_other {fs : FS} {own : Bytes → Nat} {p q : Bytes} (h : ¬ e.inside p ∨ e.me ≠ 0) : chowns (setOwner (e.env fs) q) own p = own p := by
  unfold setOwner
  split
  · rfl
  · rename_i hr
    simp only [Owners.env]
    split
    · rfl
    · rename_i full hfull
      split
      · rename_i hc
        simp only [chowns, List.foldl_cons, List.foldl_nil]
        split
        · rename_i hq
          rcases h with h | h
          · exfalso
            subst hq
            split at hfull
            · cases hfull
              unfold isCookie at hc
              rw [List.isPrefixOf_iff_prefix] at hc
              exact h hc
            · cases hfull
          · simp [Owners.env, h] at hr
        · rfl
      · rfl

/-- **C105, elsewhere.** Outside of the output directory, and anywhere if bob does not run as root, bob gives nothing away: files it makes belong to the user it runs as, in particular what root
installs to root, and other files keep their owner or come to belong to that user. -/
theorem C105_elsewhere {reqs : List Req} {s : Store} {own : Bytes → Nat} {o : OCfg} (h : OReaches e tc c n reqs s own o) {p : Bytes} (hp : ¬ e.inside p ∨ e.me ≠ 0) :
    (o.own p = own p ∨ o.own p = e.me) ∧ (s.fs p = none → (o.cfg.store.fs p).isSome → o.own p = e.me) := by
  unfold OReaches at h
  generalize ho : (⟨.idle reqs s, own, fun _ => none⟩ : OCfg) = o0 at h
  induction h with
  | refl =>
    subst ho
    refine ⟨.inl rfl, fun h1 h2 => ?_⟩
    have h2 : (s.fs p).isSome := h2
    rw [h1] at h2; cases h2
  | tail _ r ih =>
    have key : ∀ (anew : Bytes → Bool) (a b : Store) (own' : Bytes → Nat), (own' p = own p ∨ own' p = e.me) ∧ (s.fs p = none → (a.fs p).isSome → own' p = e.me) →
        (ownAfter e.me anew a b own' p = own p ∨ ownAfter e.me anew a b own' p = e.me) ∧ (s.fs p = none → (b.fs p).isSome → ownAfter e.me anew a b own' p = e.me) := by
      intro anew a b own' ih
      unfold ownAfter
      split
      · exact ⟨.inr rfl, fun _ _ => rfl⟩
      · rename_i hno
        refine ⟨ih.1, fun h1 h2 => ih.2 h1 ?_⟩
        cases hap : a.fs p with
        | some f => rfl
        | none => simp [h2, hap] at hno
    cases r with
    | main anew _ _ h => exact key anew _ _ _ ih
    | work anew w hw _ _ h => exact key anew _ _ _ ih
    | join h => exact ⟨ih.1, fun h1 h2 => ih.2 h1 (by rw [afterStep_store] at h2; exact h2)⟩
    | tick t h => exact ⟨ih.1, fun h1 h2 => ih.2 h1 (by rw [withNow_fs] at h2; exact h2)⟩
    | @chown a own' due t q h =>
      have he : chowns (setOwner (e.env a.store.fs) q) own' p = own' p := chowns_other hp
      dsimp only
      rw [he]
      exact ih

/-- **C105, directories.** Those that bob makes before building belong to the owner of the project, if it runs as root; that of the build system even if it was there. -/
theorem C105_directories (hme : e.me = 0) {there : Bytes → Bool} {out : Bytes} {toPrefix : Bool} {own : Bytes → Nat} (hb : e.inside (out ++ b!"/bob")) (hp : e.inside (out ++ b!"/prefix")) :
    (there out = false → dirsOwn e there out toPrefix own out = e.owner) ∧ dirsOwn e there out toPrefix own (out ++ b!"/bob") = e.owner ∧
    (toPrefix = true → there (out ++ b!"/prefix") = false → dirsOwn e there out toPrefix own (out ++ b!"/prefix") = e.owner) ∧
    ∀ p, p ≠ out → p ≠ out ++ b!"/bob" → p ≠ out ++ b!"/prefix" → dirsOwn e there out toPrefix own p = own p := by
  have h1 : isCookie e.absOut (e.full (out ++ b!"/bob")) = true := by unfold isCookie; rw [List.isPrefixOf_iff_prefix]; exact hb
  have h2 : isCookie e.absOut (e.full (out ++ b!"/prefix")) = true := by unfold isCookie; rw [List.isPrefixOf_iff_prefix]; exact hp
  have n1 : out ≠ out ++ b!"/bob" := by simp
  have n2 : out ≠ out ++ b!"/prefix" := by simp
  have n3 : out ++ b!"/prefix" ≠ out ++ b!"/bob" := by simp
  refine ⟨fun ht => ?_, ?_, fun hx ht => ?_, fun p p1 p2 p3 => ?_⟩
  · cases toPrefix <;> cases e1 : there (out ++ b!"/bob") <;> cases e2 : there (out ++ b!"/prefix") <;>
      simp [dirsOwn, mkdirOwn, setOwner, chowns, hme, h1, h2, ht, e1, e2]
  · simp [dirsOwn, setOwner, chowns, hme, h1]
  · subst hx
    cases e1 : there (out ++ b!"/bob") <;>
      simp [dirsOwn, mkdirOwn, setOwner, chowns, hme, h1, h2, ht, e1]
  · cases toPrefix <;> cases e0 : there out <;> cases e1 : there (out ++ b!"/bob") <;> cases e2 : there (out ++ b!"/prefix") <;>
      simp [dirsOwn, mkdirOwn, setOwner, chowns, hme, h1, h2, e0, e1, e2, p1, p2, p3]

end Bob
