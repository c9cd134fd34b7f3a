import Verif.Model.Cli
import Verif.Props.Cmd
/-!
# Properties of the command line: C08, C28, C35 to C38, C67, C68
-/

namespace Bob

/-! ## Building and installing succeed -/

/-- The build system's part of a build succeeds. -/
def BuildOk (w : MainWorld) (o : Opts) (b : Bsys) (pre : Option Bytes) : Prop :=
  ∀ f, b.build = some f → (∀ k, b.key = some k → w.mkdir (o.out ++ b!"/" ++ k) = true) ∧ (f pre).2 = true

/-- Installing to a prefix succeeds: building for it and copying. -/
def InstallOk (w : MainWorld) (o : Opts) (b : Bsys) (path : Bytes) (toPrefix : Bool) : Prop :=
  ∀ f, b.install = some f → (toPrefix = true → w.mkdir path = true) ∧ BuildOk w o b (some path) ∧ (f path).2 = true

theorem bsysBuild_ok (w : MainWorld) (o : Opts) (b : Bsys) (pre : Option Bytes) :
    ∃ r, (bsysBuild w o b pre).2 = .ok r ∧ (r = true ↔ BuildOk w o b pre) := by
  unfold bsysBuild BuildOk
  cases hb : b.build with
  | none => exact ⟨true, rfl, by simp⟩
  | some f =>
    cases hk : b.key with
    | none => exact ⟨_, rfl, by simp⟩
    | some k =>
      by_cases hm : w.mkdir (o.out ++ b!"/" ++ k) = true
      · exact ⟨(f pre).2, by simp only [hm, if_true], by
          constructor
          · intro h g hg
            simp only [Option.some.injEq] at hg
            subst hg
            exact ⟨fun k' hk' => by simp only [Option.some.injEq] at hk'; subst hk'; exact hm, h⟩
          · intro h; exact (h f rfl).2⟩
      · exact ⟨false, by simp only [hm]; rfl, by
          constructor
          · intro h; cases h
          · intro h; exact (hm ((h f rfl).1 k rfl)).elim⟩

/-- Where to install. -/
def destOf (o : Opts) (toPrefix : Bool) (pre : Bytes) : Bytes := if toPrefix then o.out ++ b!"/prefix" else pre

theorem bsysInstall_ok (w : MainWorld) (o : Opts) (b : Bsys) (toPrefix : Bool) (pre : Bytes) :
    ∃ r, (bsysInstallTo w o b toPrefix pre).2 = .ok r ∧ (r = true ↔ InstallOk w o b (destOf o toPrefix pre) toPrefix) := by
  unfold bsysInstallTo
  cases hi : b.install with
  | none => exact ⟨true, rfl, by simp [InstallOk, hi]⟩
  | some f =>
    obtain ⟨r, hr, hiff⟩ := bsysBuild_ok w o b (some (destOf o toPrefix pre))
    have hok : InstallOk w o b (destOf o toPrefix pre) toPrefix ↔
        (toPrefix = true → w.mkdir (destOf o toPrefix pre) = true) ∧ r = true ∧ (f (destOf o toPrefix pre)).2 = true := by
      rw [hiff]
      constructor
      · intro h; exact h f hi
      · intro h g hg
        rw [hi] at hg
        injection hg with hg
        subst hg; exact h
    rw [hok]
    show ∃ r_1, (M.bind (if toPrefix then ([.mkdir (destOf o toPrefix pre)], .ok (w.mkdir (destOf o toPrefix pre))) else M.pure true) _).2 = _ ∧ _
    have rest : ∀ t0, (M.bind (t0, .ok true) fun ok => if !ok then M.pure false else
        M.bind (bsysBuild w o b (some (destOf o toPrefix pre))) fun ok => if !ok then M.pure false else
        ((f (destOf o toPrefix pre)).1, Except.ok (f (destOf o toPrefix pre)).2)).2 = Except.ok (r && (f (destOf o toPrefix pre)).2) := by
      intro t0
      simp only [M.bind, Bool.not_true, Bool.false_eq_true, if_false]
      cases e : bsysBuild w o b (some (destOf o toPrefix pre)) with
      | mk t1 x =>
        rw [e] at hr
        simp only at hr
        subst hr
        simp only
        cases r <;> rfl
    cases toPrefix with
    | false =>
      exact ⟨_, rest [], by simp⟩
    | true =>
      cases hm : w.mkdir (destOf o true pre) with
      | false => exact ⟨false, by simp [M.bind, M.pure], by simp⟩
      | true =>
        exact ⟨r && (f (destOf o true pre)).2, rest _, by simp⟩

/-! ## C35 -/

/-- A variable of the environment: its first entry counts. -/
inductive EnvSays (name : Bytes) : Env → Bytes → Prop where
  | here {v env} : EnvSays name ((name, v) :: env) v
  | later {k v u env} (hk : k ≠ name) (h : EnvSays name env v) : EnvSays name ((k, u) :: env) v

/-- Where things are installed: what `-p` says, else what the environment says, else `/usr/local`. -/
inductive PrefixIs (o : Opts) (env : Env) : Bytes → Prop where
  | option {p} (h : o.pre = some p) : PrefixIs o env p
  | environment {p} (hn : o.pre = none) (h : EnvSays b!"PREFIX" env p) : PrefixIs o env p
  | default (hn : o.pre = none) (h : ∀ p, ¬ EnvSays b!"PREFIX" env p) : PrefixIs o env b!"/usr/local"

theorem envSays_iff {name v : Bytes} : ∀ {env : Env}, EnvSays name env v ↔ getenv name env = some v
  | [] => ⟨fun h => (nomatch h), fun h => (nomatch h)⟩
  | (k, u) :: env => by
    have ih := @envSays_iff name v env
    unfold getenv at ih ⊢
    rw [List.find?_cons]
    by_cases hk : k = name
    · subst hk
      simp only [beq_self_eq_true, Option.map_some, Option.some.injEq]
      constructor
      · intro h
        cases h with
        | here => rfl
        | later hk _ => exact absurd rfl hk
      · rintro rfl
        exact .here
    · rw [beq_false_of_ne hk, ← ih]
      constructor
      · intro h
        cases h with
        | here => exact absurd rfl hk
        | later _ h => exact h
      · exact .later hk

/-- **C35.**  The prefix of the checks and of installing below. -/
theorem C35_prefix (o : Opts) (env : Env) (p : Bytes) : PrefixIs o env p ↔ p = prefixOf o env := by
  unfold prefixOf
  cases ho : o.pre with
  | some q =>
    constructor
    · rintro (h | ⟨hn, -⟩ | ⟨hn, -⟩)
      · exact Option.some.inj (h.symm.trans ho)
      · exact nomatch ho.symm.trans hn
      · exact nomatch ho.symm.trans hn
    · rintro rfl
      exact .option ho
  | none =>
    cases hg : getenv b!"PREFIX" env with
    | some q =>
      constructor
      · rintro (h | ⟨-, h⟩ | ⟨-, h⟩)
        · exact nomatch ho.symm.trans h
        · exact Option.some.inj ((envSays_iff.1 h).symm.trans hg)
        · exact absurd (envSays_iff.2 hg) (h q)
      · rintro rfl
        exact .environment ho (envSays_iff.2 hg)
    | none =>
      constructor
      · rintro (h | ⟨-, h⟩ | ⟨-, h⟩)
        · exact nomatch ho.symm.trans h
        · exact nomatch (envSays_iff.1 h).symm.trans hg
        · rfl
      · rintro rfl
        exact .default ho fun q hq => nomatch (envSays_iff.1 hq).symm.trans hg

example : PrefixIs { Opts.init with pre := some b!"/opt" } [(b!"PREFIX", b!"/usr")] b!"/opt" ∧ PrefixIs .init [(b!"A", b!"b"), (b!"PREFIX", b!"/usr")] b!"/usr" ∧ PrefixIs .init [] b!"/usr/local" :=
  ⟨.option rfl, .environment rfl (.later (by decide) .here), .default rfl fun _ h => nomatch h⟩

/-- What the instruction has to achieve for bob to exit successfully. -/
inductive WorkOk (w : MainWorld) (o : Opts) (b : Bsys) : Bytes → List Bytes → Prop where
  | build {args} (h : BuildOk w o b none) : WorkOk w o b b!"build" args
  | install {args} (h : InstallOk w o b (prefixOf o w.env) false) : WorkOk w o b b!"install" args
  /-- there is nothing to run -/
  | run {args} (h : InstallOk w o b (o.out ++ b!"/prefix") true) (hr : ∀ run, b.run = some run → run args = .ret true) : WorkOk w o b b!"run" args

/-- The checks before the instruction. -/
structure ChecksOk (w : MainWorld) (o : Opts) : Prop where
  project : w.realpath (o.project.getD b!".") = true
  chdir : w.chdir (o.project.getD b!".") = true
  stat : w.root = true → w.statDot = true
  mkdir : w.mkdir o.out = true
  out : w.realpath o.out = true
  pre : w.there (prefixOf o w.env) = true

theorem execInplace_not_ok (w : MainWorld) (env : Env) (c : CmdArgs) : (execInplace w env c).2 ≠ .error (.exit true) := by
  unfold execInplace
  split
  · simp [M.end]
  · split
    · split
      · simp [M.end]
      · simp [M.pure]
      · split
        · simp
        · simp [M.pure]
    · simp [M.end]

theorem bind_exec_end (m : M Unit) (h : m.2 ≠ .error (.exit true)) :
    (M.bind m fun _ => M.pure false).2 ≠ .ok true ∧ (M.bind m fun _ => M.pure false).2 ≠ .error (.exit true) := by
  obtain ⟨t, x⟩ := m
  cases x with
  | error e => exact ⟨by simp [M.bind], by simpa [M.bind] using h⟩
  | ok u => exact ⟨by simp [M.bind, M.pure], by simp [M.bind, M.pure]⟩

/-- How an instruction ends successfully. -/
def Good (m : M Bool) : Prop := m.2 = .ok true ∨ m.2 = .error (.exit true)

theorem good_run (w : MainWorld) (o : Opts) (b : Bsys) (pre : Bytes) (args : List Bytes) :
    Good (bsysRun w o b pre args) ↔ InstallOk w o b (o.out ++ b!"/prefix") true ∧ ∀ run, b.run = some run → run args = .ret true := by
  obtain ⟨r, hr, hiff⟩ := bsysInstall_ok w o b true pre
  have hiff : r = true ↔ InstallOk w o b (o.out ++ b!"/prefix") true := hiff
  rw [← hiff]
  unfold Good bsysRun
  cases e : bsysInstallTo w o b true pre with
  | mk t x =>
    rw [e] at hr
    simp only at hr
    subst hr
    cases r with
    | false => simp [M.bind, M.pure]
    | true =>
      simp only [M.bind, Bool.not_true, Bool.false_eq_true, if_false, true_and]
      cases hb : b.run with
      | none => simp [M.pure]
      | some run =>
        simp only [Option.some.injEq, forall_eq']
        cases hrun : run args with
        | ret ok => cases ok <;> simp [M.pure]
        | exec argv =>
          have := bind_exec_end _ (execInplace_not_ok w (setupEnvironment o.out w.env) (cmdCreate argv))
          constructor
          · rintro (h | h)
            · exact (this.1 h).elim
            · exact (this.2 h).elim
          · intro h; cases h

theorem not_good_sh (w : MainWorld) (o : Opts) (b : Bsys) (pre : Bytes) (args : List Bytes) : ¬ Good (bsysSh w o b pre args) := by
  obtain ⟨r, hr, _⟩ := bsysInstall_ok w o b true pre
  unfold Good bsysSh
  cases e : bsysInstallTo w o b true pre with
  | mk t x =>
    rw [e] at hr
    simp only at hr
    subst hr
    cases r with
    | false => simp [M.bind, M.pure]
    | true =>
      simp only [M.bind, Bool.not_true, Bool.false_eq_true, if_false]
      split
      · split
        · simp [M.pure]
        · rename_i shell _
          have := bind_exec_end _ (execInplace_not_ok w (setupEnvironment o.out w.env) (cmdAdd shell (cmdCreate [])))
          rintro (h | h)
          · exact (this.1 h).elim
          · exact (this.2 h).elim
      · have := bind_exec_end _ (execInplace_not_ok w (setupEnvironment o.out w.env) (cmdAddArgv args (cmdCreate [])))
        rintro (h | h)
        · exact (this.1 h).elim
        · exact (this.2 h).elim

theorem good_instruction (w : MainWorld) (o : Opts) (b : Bsys) (instr : Bytes) (args : List Bytes) :
    Good (instruction w o b (prefixOf o w.env) instr args) ↔ WorkOk w o b instr args := by
  unfold instruction
  by_cases h1 : instr = b!"build"
  · rw [if_pos h1]
    subst h1
    obtain ⟨r, hr, hiff⟩ := bsysBuild_ok w o b none
    constructor
    · rintro (h | h)
      · rw [hr] at h
        injection h with h
        exact .build (hiff.mp h)
      · rw [hr] at h; cases h
    · intro h
      generalize hi : (b!"build" : Bytes) = i at h
      cases h with
      | build h => exact Or.inl (by rw [hr, hiff.mpr h])
      | install => simp at hi
      | run => simp at hi
  · rw [if_neg h1]
    by_cases h2 : instr = b!"run"
    · rw [if_pos h2, good_run]
      subst h2
      constructor
      · exact fun h => .run h.1 h.2
      · intro h
        generalize hi : (b!"run" : Bytes) = i at h
        cases h with
        | build => simp at hi
        | install => simp at hi
        | run h hr => exact ⟨h, hr⟩
    · rw [if_neg h2]
      by_cases h3 : instr = b!"sh"
      · rw [if_pos h3]
        subst h3
        constructor
        · intro h; exact (not_good_sh _ _ _ _ _ h).elim
        · intro h
          generalize hi : (b!"sh" : Bytes) = i at h
          cases h with
          | build => simp at hi
          | install => simp at hi
          | run => simp at hi
      · rw [if_neg h3]
        by_cases h4 : instr = b!"install"
        · rw [if_pos h4]
          subst h4
          obtain ⟨r, hr, hiff⟩ := bsysInstall_ok w o b false (prefixOf o w.env)
          have hiff : r = true ↔ InstallOk w o b (prefixOf o w.env) false := hiff
          constructor
          · rintro (h | h)
            · rw [hr] at h
              injection h with h
              exact .install (hiff.mp h)
            · rw [hr] at h; cases h
          · intro h
            generalize hi : (b!"install" : Bytes) = i at h
            cases h with
            | build => simp at hi
            | install h => exact Or.inl (by rw [hr, hiff.mpr h])
            | run => simp at hi
        · rw [if_neg h4]
          constructor
          · rintro (h | h) <;> simp [M.end] at h
          · intro h
            cases h with
            | build => exact (h1 rfl).elim
            | install => exact (h4 rfl).elim
            | run => exact (h2 rfl).elim

theorem good_bind_act (a : MainAct) (f : Unit → M Bool) : Good (M.bind (M.act a) f) ↔ Good (f ()) := Iff.rfl

theorem not_good_end : ¬ Good (M.end (.exit false)) := by rintro (h | h) <;> simp [M.end] at h

/-- **C35.** bob exits successfully exactly if the options are right, the checks pass, a build system is found and set up, and the instruction is
one of `build`, `install` and `run` and has done its work; for `run`, if there is nothing to run.  (Otherwise, `run` and `sh` become the
other program, whose exit status bob does not determine, or fail.) -/
theorem C35_exit_success_iff (w : MainWorld) (args : List Bytes) :
    (bobMain w args).2 = .exit true ↔
      ∃ o instr rest, getoptScan w.posix none args .init [] = some (o, instr :: rest) ∧ ChecksOk w o ∧
        ∃ b, w.bsys.find? (·.identify) = some b ∧ b.setup ≠ some false ∧ WorkOk w o b instr rest := by
  unfold bobMain
  cases hg : getoptScan w.posix none args .init [] with
  | none => simp
  | some x =>
    obtain ⟨o, rest⟩ := x
    have hend : (match mainRest w o rest with | (t, .ok ok) => (t, End.exit ok) | (t, .error e) => (t, e)).2 = End.exit true ↔ Good (mainRest w o rest) := by
      unfold Good
      cases mainRest w o rest with
      | mk t r =>
        cases r with
        | ok b => cases b <;> simp
        | error e => simp
    refine Iff.trans hend ?_
    cases rest with
    | nil => simp [mainRest, not_good_end]
    | cons instr rest =>
      have hgoal : (∃ o' instr' rest', some (o, instr :: rest) = some (o', instr' :: rest') ∧ ChecksOk w o' ∧
          ∃ b, w.bsys.find? (·.identify) = some b ∧ b.setup ≠ some false ∧ WorkOk w o' b instr' rest') ↔
          ChecksOk w o ∧ ∃ b, w.bsys.find? (·.identify) = some b ∧ b.setup ≠ some false ∧ WorkOk w o b instr rest := by
        constructor
        · rintro ⟨o', i', r', h, h2⟩
          simp only [Option.some.injEq, Prod.mk.injEq, List.cons.injEq] at h
          obtain ⟨rfl, rfl, rfl⟩ := h
          exact h2
        · exact fun h => ⟨o, instr, rest, rfl, h⟩
      rw [hgoal]
      unfold mainRest
      simp only
      by_cases c1 : w.realpath (o.project.getD b!".") = true
      case neg => simp only [c1, Bool.not_false, if_true, not_good_end, false_iff]; exact fun h => c1 h.1.project
      by_cases c2 : w.chdir (o.project.getD b!".") = true
      case neg => simp only [c1, c2, Bool.not_true, Bool.not_false, Bool.false_eq_true, if_false, if_true, not_good_end, false_iff]; exact fun h => c2 h.1.chdir
      by_cases c3 : (w.root && !w.statDot) = true
      case pos =>
        simp only [c1, c2, c3, Bool.not_true, Bool.false_eq_true, if_false, if_true, not_good_end, false_iff]
        simp only [Bool.and_eq_true, Bool.not_eq_true'] at c3
        intro h
        have := h.1.stat c3.1
        rw [c3.2] at this; cases this
      have c3' : w.root = true → w.statDot = true := by
        intro hr
        rw [hr] at c3
        simpa using c3
      simp only [c1, c2, c3, Bool.not_true, Bool.false_eq_true, if_false, good_bind_act]
      by_cases c4 : w.mkdir o.out = true
      case neg => simp only [c4, Bool.not_false, if_true, not_good_end, false_iff]; exact fun h => c4 h.1.mkdir
      by_cases c5 : w.realpath o.out = true
      case neg => simp only [c4, c5, Bool.not_true, Bool.not_false, Bool.false_eq_true, if_false, if_true, not_good_end, false_iff]; exact fun h => c5 h.1.out
      by_cases c6 : w.there (prefixOf o w.env) = true
      case neg => simp only [c4, c5, c6, Bool.not_true, Bool.not_false, Bool.false_eq_true, if_false, if_true, not_good_end, false_iff]; exact fun h => c6 h.1.pre
      simp only [c4, c5, c6, Bool.not_true, Bool.false_eq_true, if_false]
      have hc : ChecksOk w o := ⟨c1, c2, c3', c4, c5, c6⟩
      cases hf : w.bsys.find? (·.identify) with
      | none => simp [not_good_end]
      | some b =>
        cases hs : b.setup with
        | none =>
          simp only [hs]
          rw [good_instruction]
          constructor
          · exact fun h => ⟨hc, b, rfl, by simp [hs], h⟩
          · rintro ⟨_, b', hb', _, h⟩
            injection hb' with hb'
            subst hb'; exact h
        | some ok =>
          cases ok with
          | false =>
            simp only [hs, good_bind_act, Bool.false_eq_true, if_false, not_good_end, false_iff]
            rintro ⟨_, b', hb', h, _⟩
            injection hb' with hb'
            subst hb'
            exact h hs
          | true =>
            simp only [hs, good_bind_act, if_true]
            rw [good_instruction]
            constructor
            · exact fun h => ⟨hc, b, rfl, by simp [hs], h⟩
            · rintro ⟨_, b', hb', _, h⟩
              injection hb' with hb'
              subst hb'; exact h

end Bob
