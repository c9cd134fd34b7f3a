import Verif.Props.Cli
import Verif.Props.Install
/-!
# What bob does, in order: C08, C28, C36 to C38, C67, C68
-/

namespace Bob

/-! ## C08, C28: the order of events -/

/-- Only directories are made and the script is run. -/
def Quiet (t : List MainAct) : Prop := ∀ a ∈ t, a = .setup ∨ ∃ d, a = .mkdir d

/-- What is allowed to happen with bob's own build system: `accepted` says whether the install map is accepted, `steps` and `installs` whether
building and installing succeed, `out` is the output directory and `env0` the environment bob was started with. -/
inductive BobTrace (accepted : Bool) (steps : Option Bytes → Bool) (installs : Bytes → Bool) (out : Bytes) (env0 : Env) : List MainAct → End → Prop where
  /-- it fails before building -/
  | early {pre} (hp : Quiet pre) : BobTrace accepted steps installs out env0 pre (.exit false)
  /-- it builds only -/
  | built {pre} (hp : Quiet pre) (ha : accepted = true) (hs : steps none = true) : BobTrace accepted steps installs out env0 (pre ++ [.steps none]) (.exit true)
  /-- it fails to build -/
  | failed {pre q} (hp : Quiet pre) (ha : accepted = true) (hs : steps q = false) : BobTrace accepted steps installs out env0 (pre ++ [.steps q]) (.exit false)
  /-- it builds and installs -/
  | installed {pre q e} (hp : Quiet pre) (ha : accepted = true) (hs : steps (some q) = true) (he : e ≠ .exit false → installs q = true) (hr : e ≠ .replaced) :
      BobTrace accepted steps installs out env0 (pre ++ [.steps (some q), .install q]) e
  /-- it builds, installs to the local prefix and runs something else -/
  | executed {pre path argv} (hp : Quiet pre) (ha : accepted = true) (hs : steps (some (out ++ b!"/prefix")) = true)
      (hi : installs (out ++ b!"/prefix") = true) :
      BobTrace accepted steps installs out env0 (pre ++ [.steps (some (out ++ b!"/prefix")), .install (out ++ b!"/prefix"), .exec path argv (setupEnvironment out env0)]) .replaced

section
variable (tb so : Bool) (vars : List (Bytes × ScriptVal)) (steps : Option Bytes → Bool) (installs : Bytes → Bool)

/-- Whether the install map is accepted does not depend on the prefix. -/
def accepts : Bool := (setupInstallMap vars none .init).2

theorem accepts_eq (pre : Option Bytes) : (setupInstallMap vars pre .init).2 = accepts vars := by
  unfold accepts
  have h1 := (C28_install_map vars pre .init).1
  have h2 := (C28_install_map vars none .init).1
  rw [Bool.eq_iff_iff, h1, h2]

theorem bsysBuild_bob (w : MainWorld) (o : Opts) (q : Option Bytes) :
    ∃ pre, Quiet pre ∧ (bsysBuild w o (bsysBob tb so vars steps installs) q = (pre, .ok false) ∨
      (accepts vars = true ∧ bsysBuild w o (bsysBob tb so vars steps installs) q = (pre ++ [.steps q], .ok (steps q)))) := by
  refine ⟨[.mkdir (o.out ++ b!"/" ++ b!"bob")], by simp [Quiet], ?_⟩
  simp only [bsysBuild, bsysBob, accepts_eq]
  by_cases hm : w.mkdir (o.out ++ b!"/" ++ b!"bob") = true
  · simp only [hm, if_true]
    cases ha : accepts vars
    · left; rfl
    · right; exact ⟨rfl, rfl⟩
  · left
    simp only [hm]; rfl

theorem bsysInstallTo_bob (w : MainWorld) (o : Opts) (toPrefix : Bool) (p : Bytes) :
    ∃ pre, Quiet pre ∧ (bsysInstallTo w o (bsysBob tb so vars steps installs) toPrefix p = (pre, .ok false) ∨
      (accepts vars = true ∧ steps (some (destOf o toPrefix p)) = false ∧
        bsysInstallTo w o (bsysBob tb so vars steps installs) toPrefix p = (pre ++ [.steps (some (destOf o toPrefix p))], .ok false)) ∨
      (accepts vars = true ∧ steps (some (destOf o toPrefix p)) = true ∧
        bsysInstallTo w o (bsysBob tb so vars steps installs) toPrefix p =
          (pre ++ [.steps (some (destOf o toPrefix p)), .install (destOf o toPrefix p)], .ok (installs (destOf o toPrefix p))))) := by
  obtain ⟨pre, hp, hb⟩ := bsysBuild_bob tb so vars steps installs w o (some (destOf o toPrefix p))
  have body : ∀ t0, Quiet t0 → ∃ pre, Quiet pre ∧
      let r := (M.bind (t0, .ok true) fun ok => if !ok then M.pure false else
        M.bind (bsysBuild w o (bsysBob tb so vars steps installs) (some (destOf o toPrefix p))) fun ok => if !ok then M.pure false else
        (([.install (destOf o toPrefix p)] : List MainAct), Except.ok (installs (destOf o toPrefix p))) : M Bool)
      (r = (pre, .ok false) ∨
      (accepts vars = true ∧ steps (some (destOf o toPrefix p)) = false ∧ r = (pre ++ [.steps (some (destOf o toPrefix p))], .ok false)) ∨
      (accepts vars = true ∧ steps (some (destOf o toPrefix p)) = true ∧
        r = (pre ++ [.steps (some (destOf o toPrefix p)), .install (destOf o toPrefix p)], .ok (installs (destOf o toPrefix p))))) := by
    intro t0 h0
    refine ⟨t0 ++ pre, fun a ha => (List.mem_append.mp ha).elim (h0 a) (hp a), ?_⟩
    rcases hb with hb | ⟨ha, hb⟩
    · left; simp [M.bind, hb, M.pure]
    · cases hs : steps (some (destOf o toPrefix p)) with
      | false => right; left; refine ⟨ha, rfl, ?_⟩; rw [hb, hs]; simp [M.bind, M.pure]
      | true => right; right; refine ⟨ha, rfl, ?_⟩; rw [hb, hs]; simp [M.bind]
  cases toPrefix with
  | false => exact body [] (by simp [Quiet])
  | true =>
    have he : bsysInstallTo w o (bsysBob tb so vars steps installs) true p =
        (M.bind ([MainAct.mkdir (destOf o true p)], Except.ok (w.mkdir (destOf o true p))) fun ok => if !ok then M.pure false else
        M.bind (bsysBuild w o (bsysBob tb so vars steps installs) (some (destOf o true p))) fun ok => if !ok then M.pure false else
        (([.install (destOf o true p)] : List MainAct), Except.ok (installs (destOf o true p))) : M Bool) := rfl
    rw [he]
    cases hm : w.mkdir (destOf o true p) with
    | false => exact ⟨[.mkdir (destOf o true p)], by simp [Quiet], Or.inl rfl⟩
    | true => exact body [.mkdir (destOf o true p)] (by simp [Quiet])

theorem execInplace_cases (w : MainWorld) (env : Env) (c : CmdArgs) :
    ((execInplace w env c).1 = [] ∧ (execInplace w env c).2 ≠ .error .replaced) ∨
    ∃ path argv, execInplace w env c = ([.exec path argv env], .error .replaced) := by
  unfold execInplace
  split
  · left; simp [M.end]
  · split
    · split
      · left; simp [M.end]
      · left; simp [M.pure]
      · split
        · exact Or.inr ⟨_, _, rfl⟩
        · left; simp [M.pure]
    · left; simp [M.end]

/-- The end of `main`. -/
def finish (m : M Bool) : List MainAct × End :=
  match m with
  | (t, .ok ok) => (t, .exit ok)
  | (t, .error e) => (t, e)

theorem finish_bind (t : List MainAct) (m : M Bool) : finish (M.bind (t, .ok ()) fun _ => m) = (t ++ (finish m).1, (finish m).2) := by
  obtain ⟨u, r⟩ := m
  cases r <;> rfl

/-- After installing for `run` and `sh`. -/
theorem trace_after_install (w : MainWorld) (o : Opts) (p : Bytes) (rest : M Bool)
    (hrest : (rest.1 = [] ∧ rest.2 ≠ .error .replaced) ∨
      ∃ path argv, rest = ([.exec path argv (setupEnvironment o.out w.env)], .error .replaced)) :
    BobTrace (accepts vars) steps installs o.out w.env
      (finish (M.bind (bsysInstallTo w o (bsysBob tb so vars steps installs) true p) fun ok => if !ok then M.pure false else rest)).1
      (finish (M.bind (bsysInstallTo w o (bsysBob tb so vars steps installs) true p) fun ok => if !ok then M.pure false else rest)).2 := by
  obtain ⟨pre, hp, h | ⟨ha, hs, h⟩ | ⟨ha, hs, h⟩⟩ := bsysInstallTo_bob tb so vars steps installs w o true p
  · rw [h]; simpa [M.bind, M.pure, finish] using BobTrace.early hp
  · rw [h]; simpa [M.bind, M.pure, finish] using BobTrace.failed hp ha hs
  · rw [h]
    cases hi : installs (destOf o true p) with
    | false =>
      simpa [M.bind, M.pure, finish] using BobTrace.installed (installs := installs) (out := o.out) (env0 := w.env) (e := .exit false) hp ha hs (by simp) (by simp)
    | true =>
      simp only [M.bind, Bool.not_true, Bool.false_eq_true, if_false]
      rcases hrest with ⟨h1, h2⟩ | ⟨path, argv, h1⟩
      · obtain ⟨u, r⟩ := rest
        simp only at h1 h2
        subst h1
        cases r with
        | ok b => simpa [finish] using BobTrace.installed (installs := installs) (out := o.out) (env0 := w.env) (e := .exit b) hp ha hs (fun _ => hi) (by simp)
        | error e => simpa [finish] using BobTrace.installed (installs := installs) (out := o.out) (env0 := w.env) (e := e) hp ha hs (fun _ => hi) (fun h => h2 (by rw [h]))
      · subst h1
        simpa [finish, destOf] using BobTrace.executed (path := path) (argv := argv) hp ha hs hi

theorem exec_rest (w : MainWorld) (o : Opts) (c : CmdArgs) :
    ((M.bind (execInplace w (setupEnvironment o.out w.env) c) fun _ => M.pure false).1 = [] ∧
      (M.bind (execInplace w (setupEnvironment o.out w.env) c) fun _ => M.pure false).2 ≠ .error .replaced) ∨
    ∃ path argv, (M.bind (execInplace w (setupEnvironment o.out w.env) c) fun _ => M.pure false) =
      ([.exec path argv (setupEnvironment o.out w.env)], .error .replaced) := by
  rcases execInplace_cases w (setupEnvironment o.out w.env) c with ⟨h1, h2⟩ | ⟨path, argv, h⟩
  · left
    cases e : execInplace w (setupEnvironment o.out w.env) c with
    | mk t r =>
      rw [e] at h1 h2
      simp only at h1 h2
      subst h1
      cases r with
      | ok u => simp [M.bind, M.pure]
      | error x => exact ⟨rfl, by simpa [M.bind] using h2⟩
  · right; exact ⟨path, argv, by rw [h]; rfl⟩

theorem trace_instruction (w : MainWorld) (o : Opts) (p instr : Bytes) (args : List Bytes) :
    BobTrace (accepts vars) steps installs o.out w.env (finish (instruction w o (bsysBob tb so vars steps installs) p instr args)).1
      (finish (instruction w o (bsysBob tb so vars steps installs) p instr args)).2 := by
  unfold instruction
  split
  · obtain ⟨pre, hp, h | ⟨ha, h⟩⟩ := bsysBuild_bob tb so vars steps installs w o none
    · rw [h]; exact .early hp
    · rw [h]
      cases hs : steps none with
      | true => exact .built hp ha hs
      | false => exact .failed hp ha hs
  · split
    · unfold bsysRun
      apply trace_after_install
      simp only [bsysBob]
      cases runBob vars args with
      | ret ok => left; simp [M.pure]
      | exec argv => exact exec_rest w o _
    · split
      · unfold bsysSh
        apply trace_after_install
        simp only
        split
        · split
          · left; simp [M.pure]
          · exact exec_rest w o _
        · exact exec_rest w o _
      · split
        · obtain ⟨pre, hp, h | ⟨ha, hs, h⟩ | ⟨ha, hs, h⟩⟩ := bsysInstallTo_bob tb so vars steps installs w o false p
          · rw [h]; exact .early hp
          · rw [h]; exact .failed hp ha hs
          · rw [h]
            refine .installed hp ha hs ?_ (by simp [finish])
            intro he
            cases hi : installs (destOf o false p) with
            | true => rfl
            | false => rw [hi] at he; exact (he rfl).elim
        · exact .early (by simp [Quiet, finish, M.end])

theorem BobTrace.quiet_append {acc : Bool} {out : Bytes} {env : Env} {pre t : List MainAct} {e : End} (hq : Quiet pre) (h : BobTrace acc steps installs out env t e) :
    BobTrace acc steps installs out env (pre ++ t) e := by
  have app : ∀ {q}, Quiet q → Quiet (pre ++ q) := fun hq' a ha => (List.mem_append.mp ha).elim (hq a) (hq' a)
  cases h with
  | early hp => exact .early (app hp)
  | built hp ha hs => rw [← List.append_assoc]; exact .built (app hp) ha hs
  | failed hp ha hs => rw [← List.append_assoc]; exact .failed (app hp) ha hs
  | installed hp ha hs he hr => rw [← List.append_assoc]; exact .installed (app hp) ha hs he hr
  | executed hp ha hs hi => rw [← List.append_assoc]; exact .executed (app hp) ha hs hi

theorem trace_main (w : MainWorld) (hw : w.bsys.find? (·.identify) = some (bsysBob tb so vars steps installs)) (args : List Bytes) :
    ∃ out, BobTrace (accepts vars) steps installs out w.env (bobMain w args).1 (bobMain w args).2 := by
  unfold bobMain
  cases hg : getoptScan w.posix none args .init [] with
  | none => exact ⟨[], .early (by simp [Quiet])⟩
  | some x =>
    obtain ⟨o, rest⟩ := x
    refine ⟨o.out, ?_⟩
    show BobTrace _ _ _ _ _ (finish (mainRest w o rest)).1 (finish (mainRest w o rest)).2
    have stop : ∀ t0, Quiet t0 → BobTrace (accepts vars) steps installs o.out w.env t0 (.exit false) := fun t0 h => .early h
    unfold mainRest
    cases rest with
    | nil => exact stop [] (by simp [Quiet])
    | cons instr rest =>
      simp only
      split
      · exact stop [] (by simp [Quiet])
      split
      · exact stop [] (by simp [Quiet])
      split
      · exact stop [] (by simp [Quiet])
      rw [M.act, finish_bind]
      apply BobTrace.quiet_append _ _ (by simp [Quiet])
      split
      · exact stop [] (by simp [Quiet])
      split
      · exact stop [] (by simp [Quiet])
      split
      · exact stop [] (by simp [Quiet])
      rw [hw]
      simp only [bsysBob]
      rw [M.act, finish_bind]
      apply BobTrace.quiet_append _ _ (by simp [Quiet])
      split
      · exact trace_instruction tb so vars steps installs w o _ instr rest
      · exact stop [] (by simp [Quiet])

/-- **C08.** Whatever the command line: bob installs only after the steps for the same prefix succeeded, runs another program only after
installing to the local prefix succeeded, and exits unsuccessfully when a step fails. -/
theorem C08_order (w : MainWorld) (hw : w.bsys.find? (·.identify) = some (bsysBob tb so vars steps installs)) (args : List Bytes) :
    (∀ q, .install q ∈ (bobMain w args).1 → ∃ t1 t2, (bobMain w args).1 = t1 ++ .steps (some q) :: .install q :: t2 ∧ steps (some q) = true) ∧
    (∀ path argv env, .exec path argv env ∈ (bobMain w args).1 → ∃ t1 q, (bobMain w args).1 = t1 ++ [.install q, .exec path argv env] ∧ installs q = true) ∧
    (∀ q, .steps q ∈ (bobMain w args).1 → steps q = false → (bobMain w args).2 = .exit false ∧ ∃ t, Quiet t ∧ (bobMain w args).1 = t ++ [.steps q]) := by
  obtain ⟨out, h⟩ := trace_main tb so vars steps installs w hw args
  generalize (bobMain w args).1 = t at h
  generalize (bobMain w args).2 = e at h
  have qi : ∀ {pre q}, Quiet pre → ¬ MainAct.install q ∈ pre := fun hp hm => by rcases hp _ hm with h | ⟨_, h⟩ <;> cases h
  have qs : ∀ {pre q}, Quiet pre → ¬ MainAct.steps q ∈ pre := fun hp hm => by rcases hp _ hm with h | ⟨_, h⟩ <;> cases h
  have qe : ∀ {pre p a v}, Quiet pre → ¬ MainAct.exec p a v ∈ pre := fun hp hm => by rcases hp _ hm with h | ⟨_, h⟩ <;> cases h
  cases h with
  | early hp => exact ⟨fun q h => (qi hp h).elim, fun _ _ _ h => (qe hp h).elim, fun q h => (qs hp h).elim⟩
  | built hp ha hs =>
    refine ⟨fun q h => ?_, fun _ _ _ h => ?_, fun q h hq => ?_⟩
    · simp [qi hp] at h
    · simp [qe hp] at h
    · simp [qs hp] at h
      subst h; rw [hs] at hq; cases hq
  | @failed pre q' hp ha hs =>
    refine ⟨fun q h => ?_, fun _ _ _ h => ?_, fun q h hq => ?_⟩
    · simp [qi hp] at h
    · simp [qe hp] at h
    · simp [qs hp] at h
      subst h; exact ⟨rfl, pre, hp, rfl⟩
  | @installed pre q' e hp ha hs he hr =>
    refine ⟨fun q h => ?_, fun _ _ _ h => ?_, fun q h hq => ?_⟩
    · simp [qi hp] at h
      subst h; exact ⟨pre, [], rfl, hs⟩
    · simp [qe hp] at h
    · simp [qs hp] at h
      subst h; rw [hs] at hq; cases hq
  | @executed pre p a hp ha hs hi =>
    refine ⟨fun q h => ?_, fun p' a' v' h => ?_, fun q h hq => ?_⟩
    · simp [qi hp] at h
      subst h; exact ⟨pre, [.exec p a (setupEnvironment out w.env)], by simp, by simpa using hs⟩
    · simp [qe hp] at h
      obtain ⟨rfl, rfl, rfl⟩ := h
      exact ⟨pre ++ [.steps (some (out ++ b!"/prefix"))], out ++ b!"/prefix", by simp, hi⟩
    · simp [qs hp] at h
      subst h
      rw [show out ++ [47, 112, 114, 101, 102, 105, 120] = out ++ b!"/prefix" from rfl, hs] at hq; cases hq

/-- **C28.** If the install map is refused, nothing is built, copied or run, whatever the command line, and bob fails. -/
theorem C28_nothing_copied (w : MainWorld) (hw : w.bsys.find? (·.identify) = some (bsysBob tb so vars steps installs)) (args : List Bytes)
    (hbad : ¬ ∃ v, vars.find? (fun v => v.1 == b!"install") = some v ∧ GoodInstall v.2) :
    (bobMain w args).2 = .exit false ∧ Quiet (bobMain w args).1 := by
  obtain ⟨out, h⟩ := trace_main tb so vars steps installs w hw args
  have hacc : ¬ accepts vars = true := fun h => hbad ((C28_install_map vars none .init).1.mp h)
  generalize (bobMain w args).1 = t at h ⊢
  generalize (bobMain w args).2 = e at h ⊢
  cases h with
  | early hp => exact ⟨rfl, hp⟩
  | built _ ha => exact (hacc ha).elim
  | failed _ ha => exact (hacc ha).elim
  | installed _ ha => exact (hacc ha).elim
  | executed _ ha => exact (hacc ha).elim

end

/-! ## C36 -/

theorem getenv_cons (e : Bytes × Bytes) (env : Env) (n : Bytes) : getenv n (e :: env) = if e.1 = n then some e.2 else getenv n env := by
  unfold getenv
  rw [List.find?_cons]
  by_cases h : e.1 = n
  · simp [h]
  · have : (e.1 == n) = false := by simpa using h
    rw [this, if_neg h]

theorem getenv_setenv (n v : Bytes) (env : Env) (m : Bytes) : getenv m (setenv n v env) = if n = m then some v else getenv m env := by
  induction env with
  | nil => rw [setenv, getenv_cons]
  | cons e env ih =>
    rw [setenv]
    split
    · rename_i h
      rw [getenv_cons, getenv_cons, h]
      split <;> rfl
    · rename_i h
      rw [getenv_cons, getenv_cons, ih]
      by_cases h2 : n = m
      · subst h2; simp [h]
      · simp [h2]

/-- The new value of a variable with a list of directories. -/
def withFirst (dir : Bytes) : Option Bytes → Bytes
  | none => dir
  | some prev => dir ++ b!":" ++ prev

theorem getenv_prepend (n v : Bytes) (env : Env) (m : Bytes) :
    getenv m (prependEnv n v env) = if n = m then some (withFirst v (getenv n env)) else getenv m env := by
  unfold prependEnv
  cases h : getenv n env <;> simp only [getenv_setenv] <;> rfl

/-- **C36.** The environment for `run` and `sh`: the fresh directories come first, the previous values follow unchanged, and no other variable
changes. -/
theorem C36_environment (out : Bytes) (env : Env) :
    getenv b!"PATH" (setupEnvironment out env) = some (withFirst (out ++ b!"/prefix/bin") (getenv b!"PATH" env)) ∧
    getenv b!"LD_LIBRARY_PATH" (setupEnvironment out env) = some (withFirst (out ++ b!"/prefix/lib") (getenv b!"LD_LIBRARY_PATH" env)) ∧
    (∀ n, n ≠ b!"PATH" → n ≠ b!"LD_LIBRARY_PATH" → getenv n (setupEnvironment out env) = getenv n env) := by
  unfold setupEnvironment
  refine ⟨?_, ?_, ?_⟩
  · rw [getenv_prepend, if_neg (by decide), getenv_prepend, if_pos rfl]
  · rw [getenv_prepend, if_pos rfl, getenv_prepend, if_neg (by decide)]
  · intro n h1 h2
    rw [getenv_prepend, if_neg (fun e => h2 e.symm), getenv_prepend, if_neg (fun e => h1 e.symm)]

theorem strsepAll_colon {x : Bytes} (h : COLON ∉ x) (y : Bytes) : strsepAll COLON (x ++ COLON :: y) = x :: strsepAll COLON y := by
  induction x with
  | nil => simp [strsepAll]
  | cons c x ih =>
    have hc : ¬ c = COLON := fun e => h (by simp [e])
    obtain ⟨f, fs, e1, e2⟩ := strsepAll_cons_ne hc (x ++ COLON :: y)
    rw [ih (fun hm => h (by simp [hm]))] at e1
    injection e1 with e1 e3
    rw [List.cons_append, e2, ← e1, ← e3]

theorem strsepAll_single {x : Bytes} (h : COLON ∉ x) : strsepAll COLON x = [x] := by
  induction x with
  | nil => rfl
  | cons c x ih =>
    have hc : ¬ c = COLON := fun e => h (by simp [e])
    obtain ⟨f, fs, e1, e2⟩ := strsepAll_cons_ne hc x
    rw [ih (fun hm => h (by simp [hm]))] at e1
    injection e1 with e1 e3
    rw [e2, ← e1, ← e3]

/-- **C36.** As lists: if the output directory has no colon in its name, the entries are the fresh one and then the previous ones. -/
theorem C36_entries (out : Bytes) (h : COLON ∉ out) (env : Env) :
    ∃ v, getenv b!"PATH" (setupEnvironment out env) = some v ∧
      strsepAll COLON v = (out ++ b!"/prefix/bin") :: ((getenv b!"PATH" env).map (strsepAll COLON)).getD [] := by
  refine ⟨_, (C36_environment out env).1, ?_⟩
  have hb : COLON ∉ out ++ b!"/prefix/bin" := by
    intro hm
    rcases List.mem_append.mp hm with hm | hm
    · exact h hm
    · exact absurd hm (by decide)
  cases getenv b!"PATH" env with
  | none => exact strsepAll_single hb
  | some p =>
    have := strsepAll_colon hb p
    simpa [withFirst] using this

/-- With a colon in its name it is taken apart. -/
theorem C36_colon_false : ∃ v, getenv b!"PATH" (setupEnvironment b!"/a:b" []) = some v ∧ ¬ (b!"/a:b/prefix/bin" ∈ strsepAll COLON v) :=
  ⟨b!"/a:b/prefix/bin", by decide, by decide⟩

/-- **C36.** So the freshly installed program is the one found, unless a file of that name in the project directory can be run. -/
theorem C36_fresh_found (out : Bytes) (h : COLON ∉ out) (env : Env) (kind : Bytes → Option Bool) (xok : Bytes → Bool) (name : Bytes)
    (hn : ¬ (kind name = some false ∧ xok name = true))
    (hf : kind (out ++ b!"/prefix/bin" ++ b!"/" ++ name) = some false ∧ xok (out ++ b!"/prefix/bin" ++ b!"/" ++ name) = true) :
    findBin { kind := kind, xok := xok, path := getenv b!"PATH" (setupEnvironment out env) } name = .found (out ++ b!"/prefix/bin" ++ b!"/" ++ name) := by
  obtain ⟨v, hv, hs⟩ := C36_entries out h env
  have hn' : ¬ ({ kind := kind, xok := xok, path := getenv b!"PATH" (setupEnvironment out env) } : ExecWorld).isExecutable name = true :=
    fun e => hn ((isExecutable_iff _ _).mp e)
  have hf' : ({ kind := kind, xok := xok, path := getenv b!"PATH" (setupEnvironment out env) } : ExecWorld).isExecutable (out ++ b!"/prefix/bin" ++ b!"/" ++ name) = true :=
    (isExecutable_iff _ _).mpr hf
  simp only [findBin, hn', Bool.false_eq_true, if_false]
  simp only [hv] at hf' ⊢
  rw [hs, searchDirs]
  simp only [hf', if_true]

/-- A program of that name in the project directory is run instead of the fresh one. -/
theorem C36_shadowed_false : findBin { kind := fun p => if p = b!"app" ∨ p = b!"/o/prefix/bin/app" then some false else none, xok := fun _ => true, path := getenv b!"PATH" (setupEnvironment b!"/o" []) }
    b!"app" = .found b!"app" := by decide

/-- **C36.** Every program bob becomes has that environment. -/
theorem C36_exec_env (tb so : Bool) (vars : List (Bytes × ScriptVal)) (steps : Option Bytes → Bool) (installs : Bytes → Bool)
    (w : MainWorld) (hw : w.bsys.find? (·.identify) = some (bsysBob tb so vars steps installs)) (args : List Bytes) :
    ∀ path argv env, .exec path argv env ∈ (bobMain w args).1 → ∃ out, .install (out ++ b!"/prefix") ∈ (bobMain w args).1 ∧ env = setupEnvironment out w.env := by
  obtain ⟨out, h⟩ := trace_main tb so vars steps installs w hw args
  generalize (bobMain w args).1 = t at h
  generalize (bobMain w args).2 = e at h
  have qe : ∀ {pre p a v}, Quiet pre → ¬ MainAct.exec p a v ∈ pre := fun hp hm => by rcases hp _ hm with h | ⟨_, h⟩ <;> cases h
  intro path argv env hm
  cases h with
  | early hp => exact (qe hp hm).elim
  | built hp => simp [qe hp] at hm
  | failed hp => simp [qe hp] at hm
  | installed hp => simp [qe hp] at hm
  | executed hp => 
    simp [qe hp] at hm
    exact ⟨out, by simp, hm.2.2⟩

/-! ## C37 -/

theorem addRunVec_some (l : List Bytes) {c : CmdArgs} {k : List Bytes} (h : Holds c k) :
    ∃ c', addRunVec (l.map some) c = some c' ∧ Holds c' (k ++ l.map cstr) := by
  induction l generalizing c k with
  | nil => exact ⟨c, rfl, by simpa using h⟩
  | cons a l ih =>
    have h1 : Holds (cmdAddf a.length a c) (k ++ [cstr a]) := by
      have := holds_run h (.addf a.length a)
      simpa [CmdOp.run, CmdOp.meant] using this
    obtain ⟨c', h2, h3⟩ := ih h1
    exact ⟨c', h2, by simpa using h3⟩

theorem addRunVec_none (l : List (Option Bytes)) (h : none ∈ l) (c : CmdArgs) : addRunVec l c = none := by
  induction l generalizing c with
  | nil => simp at h
  | cons a l ih =>
    cases a with
    | none => rfl
    | some s =>
      rcases List.mem_cons.mp h with h | h
      · cases h
      · exact ih h _

/-- **C37.** With a vector of strings, the program run gets exactly these strings and then the arguments except `--`; if that is nothing, there is
nothing to run.  With anything else, `run` fails, except for none, where there is nothing to run. -/
theorem C37_run_command (vars : List (Bytes × ScriptVal)) (args : List Bytes) :
    (∀ n (ss : List Bytes), vars.find? (fun v => v.1 == b!"run") = some (n, .vec (ss.map some)) →
      let argv := ss.map cstr ++ (args.map cstr).filter (· ≠ b!"--")
      (argv ≠ [] → runBob vars args = .exec argv) ∧ (argv = [] → runBob vars args = .ret true)) ∧
    (∀ n elems, vars.find? (fun v => v.1 == b!"run") = some (n, .vec elems) → none ∈ elems → runBob vars args = .ret false) ∧
    (∀ n, vars.find? (fun v => v.1 == b!"run") = some (n, .none) → runBob vars args = .ret true) ∧
    (∀ n v, vars.find? (fun v => v.1 == b!"run") = some (n, v) → v ≠ .none → (∀ l, v ≠ .vec l) → runBob vars args = .ret false) ∧
    (vars.find? (fun v => v.1 == b!"run") = none → runBob vars args = .ret false) := by
  refine ⟨?_, ?_, ?_, ?_, ?_⟩
  · intro n ss hv
    obtain ⟨c, hc, hh⟩ := addRunVec_some ss (holds_create [])
    have h2 := holds_run hh (.argv args)
    simp only [CmdOp.run, CmdOp.meant, List.map_nil, List.nil_append] at h2
    have hr : runBob vars args = if (cmdAddArgv args c).len = 1 then .ret true else match osArgv (cmdAddArgv args c).args with
        | some argv => .exec argv
        | none => .ret false := by
      unfold runBob; rw [hv]; simp only [hc]; rfl
    refine ⟨fun hne => ?_, fun he => ?_⟩
    · rw [hr, if_neg, h2.2, osArgv_holds]
      rw [h2.1]
      intro h0
      exact hne (List.length_eq_zero_iff.mp (Nat.succ.inj h0))
    · rw [hr, if_pos]
      rw [h2.1, he]; rfl
  · intro n elems hv hm
    unfold runBob; rw [hv]; simp only [addRunVec_none elems hm]
  · intro n hv; unfold runBob; rw [hv]
  · intro n v hv h1 h2
    unfold runBob; rw [hv]
    cases v with
    | none => exact (h1 rfl).elim
    | vec l => exact (h2 l rfl).elim
    | map l => rfl
    | other => rfl
  · intro hv; unfold runBob; rw [hv]

/-- Instance. -/
example : runBob [(b!"install", .none), (b!"run", .vec [some b!"app", some b!"-v"])] [b!"x", b!"--", b!"y"] = .exec [b!"app", b!"-v", b!"x", b!"y"] := by decide

/-- **C37.** The process that replaces bob in `run` has these arguments. -/
theorem C37_process (w : MainWorld) (o : Opts) (tb so : Bool) (vars : List (Bytes × ScriptVal)) (steps : Option Bytes → Bool) (installs : Bytes → Bool) (pre : Bytes)
    (args : List Bytes) {n : Bytes} {ss : List Bytes} (hv : vars.find? (fun v => v.1 == b!"run") = some (n, .vec (ss.map some))) (path : Bytes) (argv : List Bytes) (env : Env)
    (hm : .exec path argv env ∈ (bsysRun w o (bsysBob tb so vars steps installs) pre args).1) :
    argv = ss.map cstr ++ (args.map cstr).filter (· ≠ b!"--") ∧
    findBin { kind := w.kind, xok := w.xok, path := getenv b!"PATH" (setupEnvironment o.out w.env) } (argv.headD []) = .found path := by
  have qe : ∀ {pre p a v}, Quiet pre → ¬ MainAct.exec p a v ∈ pre := fun hp hm => by rcases hp _ hm with h | ⟨_, h⟩ <;> cases h
  unfold bsysRun at hm
  obtain ⟨pre', hp, h | ⟨_, _, h⟩ | ⟨_, _, h⟩⟩ := bsysInstallTo_bob tb so vars steps installs w o true pre
  · rw [h] at hm; simp [M.bind, M.pure, qe hp] at hm
  · rw [h] at hm; simp [M.bind, M.pure, qe hp] at hm
  · rw [h] at hm
    cases hi : installs (destOf o true pre) with
    | false => rw [hi] at hm; simp [M.bind, M.pure, qe hp] at hm
    | true =>
      rw [hi] at hm
      simp only [M.bind, Bool.not_true, Bool.false_eq_true, if_false, List.mem_append, List.mem_cons, List.not_mem_nil, qe hp, reduceCtorEq, false_or] at hm
      simp only [bsysBob] at hm
      obtain ⟨h1, h2⟩ := (C37_run_command vars args).1 n ss hv
      by_cases he : ss.map cstr ++ (args.map cstr).filter (· ≠ b!"--") = []
      · rw [h2 he] at hm; simp [M.pure] at hm
      · rw [h1 he] at hm
        simp only at hm
        have hh := holds_create (ss.map cstr ++ (args.map cstr).filter (· ≠ b!"--"))
        have idem : (ss.map cstr ++ (args.map cstr).filter (· ≠ b!"--")).map cstr = ss.map cstr ++ (args.map cstr).filter (· ≠ b!"--") := by
          have cc := cstr_idem
          have : ∀ l : List Bytes, (∀ x ∈ l, cstr x = x) → l.map cstr = l := by
            intro l hl
            induction l with
            | nil => rfl
            | cons a l ih => rw [List.map_cons, hl a (by simp), ih (fun x hx => hl x (by simp [hx]))]
          apply this
          intro x hx
          rcases List.mem_append.mp hx with hx | hx
          · obtain ⟨y, _, rfl⟩ := List.mem_map.mp hx; exact cc y
          · obtain ⟨y, _, rfl⟩ := List.mem_map.mp (List.mem_filter.mp hx).1; exact cc y
        rw [idem] at hh
        generalize hA : ss.map cstr ++ (args.map cstr).filter (· ≠ b!"--") = A at *
        unfold execInplace at hm
        rw [hh.2, osArgv_holds] at hm
        cases A with
        | nil => exact (he rfl).elim
        | cons a A =>
          rw [if_neg (by rw [hh.1]; simp)] at hm
          simp only at hm
          cases hfb : findBin { kind := w.kind, xok := w.xok, path := getenv b!"PATH" (setupEnvironment o.out w.env) } a with
          | exit => rw [hfb] at hm; simp [M.end] at hm
          | missing => rw [hfb] at hm; simp [M.pure] at hm
          | found p =>
            rw [hfb] at hm
            simp only at hm
            by_cases hx : w.execv p (a :: A) = true
            · rw [if_pos hx] at hm
              simp only [List.mem_singleton, MainAct.exec.injEq] at hm
              obtain ⟨rfl, rfl, _⟩ := hm
              exact ⟨rfl, hfb⟩
            · rw [if_neg hx] at hm; simp [M.pure] at hm

/-! ## C38 -/

/-- **C38.** bob behaves as if the first build system that recognises the directory were the only one. -/
theorem C38_first_match (w : MainWorld) (pre post : List Bsys) (b : Bsys) (hw : w.bsys = pre ++ b :: post) (hpre : ∀ x ∈ pre, x.identify = false)
    (hb : b.identify = true) (args : List Bytes) : bobMain w args = bobMain { w with bsys := [b] } args := by
  have h1 : w.bsys.find? (·.identify) = some b := by
    rw [hw, List.find?_append, List.find?_eq_none.mpr (fun x hx => by simp [hpre x hx])]
    simp [hb]
  have h2 : [b].find? (·.identify) = some b := by simp [hb]
  unfold bobMain
  cases getoptScan w.posix none args .init [] with
  | none => rfl
  | some x =>
    obtain ⟨o, rest⟩ := x
    show finish (mainRest w o rest) = finish (mainRest { w with bsys := [b] } o rest)
    congr 1
    unfold mainRest
    cases rest with
    | nil => rfl
    | cons i rest =>
      simp only [h1, h2]
      rfl

/-- **C38.** If none recognises it, bob does nothing but make the output directory, and fails. -/
theorem C38_no_match (w : MainWorld) (h : ∀ x ∈ w.bsys, x.identify = false) (args : List Bytes) :
    (bobMain w args).2 = .exit false ∧ ∀ a ∈ (bobMain w args).1, ∃ d, a = .mkdir d := by
  have hf : w.bsys.find? (·.identify) = none := List.find?_eq_none.mpr (fun x hx => by simp [h x hx])
  unfold bobMain
  cases getoptScan w.posix none args .init [] with
  | none => simp
  | some x =>
    obtain ⟨o, rest⟩ := x
    show (finish (mainRest w o rest)).2 = _ ∧ ∀ a ∈ (finish (mainRest w o rest)).1, _
    unfold mainRest
    cases rest with
    | nil => simp [finish, M.end]
    | cons i rest =>
      simp only [hf]
      split
      · simp [finish, M.end]
      split
      · simp [finish, M.end]
      split
      · simp [finish, M.end]
      rw [M.act, finish_bind]
      split
      · simp [finish, M.end]
      split
      · simp [finish, M.end]
      split
      · simp [finish, M.end]
      · simp [finish, M.end]

/-! ## C67 -/

theorem digitsValue_append (l : Bytes) (h : ∀ c ∈ l, isDigit c = true) (n : Nat) : digitsValue l n = l.foldl (fun a c => a * 10 + (c.toNat - 48)) n := by
  induction l generalizing n with
  | nil => rfl
  | cons c l ih =>
    rw [digitsValue, if_pos (h c (by simp)), List.foldl_cons]
    exact ih (fun x hx => h x (by simp [hx])) _

theorem dec_digits (n : Nat) : ∀ c ∈ dec n, isDigit c = true := by
  have key : ∀ d, d < 10 → isDigit (decChar d) = true := by decide
  have gen : ∀ (fuel n : Nat) (acc : Bytes), (∀ c ∈ acc, isDigit c = true) → ∀ c ∈ digitsAux 10 decChar fuel n acc, isDigit c = true := by
    intro fuel
    induction fuel with
    | zero => intro n acc h; simpa [digitsAux] using h
    | succ fuel ih =>
      intro n acc h
      rw [digitsAux]
      have h' : ∀ c ∈ decChar (n % 10) :: acc, isDigit c = true := by
        intro c hc
        rcases List.mem_cons.mp hc with rfl | hc
        · exact key _ (Nat.mod_lt _ (by omega))
        · exact h c hc
      split
      · exact h'
      · exact ih _ _ h'
  exact gen (n + 1) n [] (by simp)

theorem digitsValue_dec (n : Nat) : digitsValue (dec n) 0 = n := by
  rw [digitsValue_append _ (dec_digits n)]
  exact dec_value n

theorem atoi_dec (n : Nat) : atoi (dec n) = wrap32 (clampLong n) := by
  have hd := dec_digits n
  have hv := digitsValue_dec n
  unfold atoi
  cases h : dec n with
  | nil => exact (digitsAux_ne_nil _ _ _ _ _ (Or.inl (by omega)) h).elim
  | cons c cs =>
    rw [h] at hd hv
    have hc := hd c (by simp)
    have hs : isSpace c = false := by
      simp only [isDigit, Bool.and_eq_true, decide_eq_true_eq, UInt8.le_iff_toNat_le] at hc
      simp only [isSpace, Bool.or_eq_false_iff, Bool.and_eq_false_iff, decide_eq_false_iff_not, UInt8.le_iff_toNat_le, beq_eq_false_iff_ne, ne_eq, ← UInt8.toNat_inj]
      have e1 : (48 : UInt8).toNat = 48 := rfl
      have e2 : (32 : UInt8).toNat = 32 := rfl
      have e3 : (9 : UInt8).toNat = 9 := rfl
      have e4 : (13 : UInt8).toNat = 13 := rfl
      omega
    have h1 : ¬ c = DASH := by rintro rfl; exact absurd hc (by decide)
    have h2 : ¬ c = 43 := by rintro rfl; exact absurd hc (by decide)
    rw [List.dropWhile_cons, hs]
    simp only [Bool.false_eq_true, if_false, h1, h2, hv]

/-- **C67.** `-j n` with `n` that fits an `int` sets the number of jobs to `n` if it is from 1 to 1024, and otherwise bob exits. -/
theorem C67_jobs_partial (n : Nat) (hn : n < 2147483648) (o : Opts) :
    setOpt 106 (dec n) o = if 1 ≤ n ∧ n ≤ 1024 then some { o with jobs := some n } else none := by
  have hw : toSize (wrap32 (clampLong (n : Int))) = n := by
    have h1 : clampLong (n : Int) = n := by unfold clampLong; rw [if_neg (by omega), if_neg (by omega)]
    rw [h1]
    have : wrap32 (n : Int) = n := by unfold wrap32; omega
    rw [this]
    unfold toSize
    rw [if_neg (by omega)]; simp
  rw [show setOpt 106 (dec n) o = (setMaxJobs (toSize (atoi (dec n)))).map fun n => { o with jobs := some n } from rfl, atoi_dec, hw]
  unfold setMaxJobs
  by_cases h : n = 0 ∨ n > 1024
  · rw [if_pos h, if_neg (by omega)]; rfl
  · rw [if_neg h, if_pos (by omega)]; rfl

theorem clampLong_small {n : Nat} (h : n < 9223372036854775808) : clampLong (n : Int) = n := by
  unfold clampLong; rw [if_neg (by omega), if_neg (by omega)]

theorem toSize_low {n : Nat} (h : n % 4294967296 < 2147483648) : toSize (wrap32 (n : Int)) = n % 4294967296 := by
  have : wrap32 (n : Int) = (n % 4294967296 : Nat) := by unfold wrap32; omega
  rw [this]; unfold toSize; rw [if_neg (by omega)]; omega

theorem toSize_high {n : Nat} (h : ¬ n % 4294967296 < 2147483648) : toSize (wrap32 (n : Int)) > 1024 := by
  have : wrap32 (n : Int) = (n % 4294967296 : Nat) - 4294967296 := by unfold wrap32; omega
  rw [this]; unfold toSize; rw [if_pos (by omega)]; omega

theorem toSize_large {n : Nat} (h : ¬ n < 9223372036854775808) : toSize (wrap32 (clampLong (n : Int))) > 1024 := by
  have : clampLong (n : Int) = 9223372036854775807 := by unfold clampLong; rw [if_pos (by omega)]
  rw [this]
  have : wrap32 9223372036854775807 = -1 := by decide
  rw [this]; unfold toSize; rw [if_pos (by omega)]; omega

/-- **C67.** What becomes of every number: below `2 ^ 63` its last 32 bits count, and those beyond are refused. -/
theorem C67_every_number_partial (n : Nat) (o : Opts) :
    setOpt 106 (dec n) o =
      if n < 9223372036854775808 ∧ 1 ≤ n % 4294967296 ∧ n % 4294967296 ≤ 1024 then some { o with jobs := some (n % 4294967296) } else none := by
  rw [show setOpt 106 (dec n) o = (setMaxJobs (toSize (atoi (dec n)))).map fun n => { o with jobs := some n } from rfl, atoi_dec]
  have no : ∀ m, m = 0 ∨ m > 1024 → setMaxJobs m = none := fun m hm => if_pos hm
  by_cases h : n < 9223372036854775808
  · rw [clampLong_small h]
    by_cases h1 : n % 4294967296 < 2147483648
    · rw [toSize_low h1]
      by_cases h2 : n % 4294967296 = 0 ∨ n % 4294967296 > 1024
      · rw [no _ h2, if_neg (by omega)]; rfl
      · rw [if_pos (by omega)]
        unfold setMaxJobs
        rw [if_neg h2]; rfl
    · rw [no _ (.inr (toSize_high h1)), if_neg (by omega)]; rfl
  · rw [no _ (.inr (toSize_large h)), if_neg (by omega)]; rfl

example (o : Opts) : setOpt 106 b!"8589934595" o = some { o with jobs := some 3 } ∧ setOpt 106 b!"9223372036854775809" o = none := ⟨rfl, rfl⟩

/-- Larger numbers can be accepted as something else. -/
theorem C67_wraps_false (o : Opts) : setOpt 106 b!"4294967297" o = some { o with jobs := some 1 } := rfl

theorem setOpt_jobs {c : UInt8} {val : Bytes} {o o' : Opts} (h : setOpt c val o = some o') (ho : ∀ n, o.jobs = some n → 1 ≤ n ∧ n ≤ 1024) :
    ∀ n, o'.jobs = some n → 1 ≤ n ∧ n ≤ 1024 := by
  unfold setOpt at h
  split at h
  · injection h with h; subst h; exact ho
  split at h
  · unfold setMaxJobs at h
    split at h
    · cases h
    · rename_i hj
      simp only [Option.map_some, Option.some.injEq] at h
      subst h
      intro n hn
      simp only [Option.some.injEq] at hn
      omega
  split at h
  · injection h with h; subst h; exact ho
  split at h
  · injection h with h; subst h; exact ho
  · cases h

theorem getoptScan_jobs (posix : Bool) (args : List Bytes) : ∀ (pend : Option UInt8) (o : Opts) (non : List Bytes), (∀ n, o.jobs = some n → 1 ≤ n ∧ n ≤ 1024) →
    ∀ o' rest, getoptScan posix pend args o non = some (o', rest) → ∀ n, o'.jobs = some n → 1 ≤ n ∧ n ≤ 1024 := by
  induction args with
  | nil =>
    intro pend o non ho o' rest h
    cases pend with
    | some c => simp [getoptScan] at h
    | none => simp [getoptScan] at h; rw [← h.1]; exact ho
  | cons a args ih =>
    intro pend o non ho o' rest h
    cases pend with
    | some c =>
      simp only [getoptScan, Option.bind_eq_some_iff] at h
      obtain ⟨o1, h1, h2⟩ := h
      exact ih _ _ _ (setOpt_jobs h1 ho) _ _ h2
    | none =>
      simp only [getoptScan] at h
      split at h
      · injection h with h; injection h with h1 h2; subst h1; exact ho
      · split at h
        · split at h
          · split at h
            · split at h
              · exact ih _ _ _ ho _ _ h
              · simp only [Option.bind_eq_some_iff] at h
                obtain ⟨o1, h1, h2⟩ := h
                exact ih _ _ _ (setOpt_jobs h1 ho) _ _ h2
            · cases h
          · split at h
            · injection h with h; injection h with h1 h2; subst h1; exact ho
            · exact ih _ _ _ ho _ _ h
        · split at h
          · injection h with h; injection h with h1 h2; subst h1; exact ho
          · exact ih _ _ _ ho _ _ h

/-- **C67.** With any command line bob accepts, the number of jobs, if given, is from 1 to 1024. -/
theorem C67_jobs_in_range (posix : Bool) (args : List Bytes) (o : Opts) (rest : List Bytes) (h : getoptScan posix none args .init [] = some (o, rest)) :
    ∀ n, o.jobs = some n → 1 ≤ n ∧ n ≤ 1024 :=
  getoptScan_jobs posix args none .init [] (by simp [Opts.init]) o rest h

example : getoptScan false none [b!"-j", b!"12", b!"run", b!"-oout"] .init [] = some ({ Opts.init with jobs := some 12, out := b!"out" }, [b!"run"]) := by decide

/-! ## C68 -/

/-- An argument that getopt does not take as options. -/
def Operand (a : Bytes) : Prop := a = b!"-" ∨ a.head? ≠ some DASH

theorem scan_operand {a : Bytes} (h : Operand a) (posix : Bool) (rest : List Bytes) (o : Opts) (non : List Bytes) :
    getoptScan posix none (a :: rest) o non = if posix then some (o, non ++ a :: rest) else getoptScan posix none rest o (non ++ [a]) := by
  have h0 : ¬ a = b!"--" := by
    rintro rfl
    rcases h with h | h
    · exact absurd h (by decide)
    · exact h rfl
  simp only [getoptScan, h0, if_false]
  cases a with
  | nil => rfl
  | cons d a =>
    cases a with
    | nil => rfl
    | cons c val =>
      have hd : ¬ d = DASH := by
        rintro rfl
        rcases h with h | h
        · simp at h
        · exact h rfl
      simp only [hd, if_false]

/-- **C68.** Arguments that are not options of anything are passed on, with either getopt. -/
theorem C68_operands_partial (posix : Bool) (args : List Bytes) (h : ∀ a ∈ args, Operand a) (o : Opts) : getoptScan posix none args o [] = some (o, args) := by
  have gen : ∀ (args non : List Bytes), (∀ a ∈ args, Operand a) → getoptScan posix none args o non = some (o, non ++ args) := by
    intro args
    induction args with
    | nil => intro non _; simp [getoptScan]
    | cons a args ih =>
      intro non h
      rw [scan_operand (h a (by simp))]
      cases posix with
      | true => rfl
      | false =>
        simp only [Bool.false_eq_true, if_false]
        rw [ih _ (fun x hx => h x (by simp [hx]))]
        simp
  simpa using gen args [] h

/-- **C68.** Everything after `--` is passed on, whatever it is; that `--` goes if getopt permutes and is passed on, and removed by `cmd_add_argv`, if not. -/
theorem C68_after_dashes_partial (posix : Bool) (instr : Bytes) (hi : Operand instr) (args : List Bytes) (o : Opts) :
    getoptScan posix none (instr :: b!"--" :: args) o [] = some (o, instr :: (if posix then b!"--" :: args else args)) := by
  rw [scan_operand hi]
  cases posix <;> rfl

/-- **C68.** A getopt that stops at the first operand passes everything on. -/
theorem C68_posix_partial (instr : Bytes) (hi : Operand instr) (args : List Bytes) (o : Opts) :
    getoptScan true none (instr :: args) o [] = some (o, instr :: args) := by
  rw [scan_operand hi]; rfl

/-- With glibc's, the program's options are taken by bob. -/
theorem C68_option_taken_false : getoptScan false none [b!"run", b!"-o", b!"x"] .init [] = some ({ Opts.init with out := b!"x" }, [b!"run"]) ∧
    getoptScan false none [b!"run", b!"-v"] .init [] = none := by decide

/-! ## Instances -/

def demoMain (steps : Bool) : MainWorld where
  posix := false
  env := [(b!"HOME", b!"/h"), (b!"PATH", b!"/bin")]
  realpath _ := true
  chdir _ := true
  root := false
  statDot := true
  mkdir _ := true
  there p := p = b!"/usr/local"
  bsys := [bsysStub, bsysBob true true [(b!"install", .none), (b!"run", .vec [some b!"app"])] (fun _ => steps) (fun _ => true), bsysStub]
  kind p := if p = b!".bob/prefix/bin/app" ∨ p = b!"/bin/app" then some false else none
  xok _ := true
  execv _ _ := true

/-- Instance: `bob run x` builds, installs and becomes the fresh program. -/
example : bobMain (demoMain true) [b!"run", b!"x"] =
    ([.mkdir b!".bob", .setup, .mkdir b!".bob/prefix", .mkdir b!".bob/bob", .steps (some b!".bob/prefix"), .install b!".bob/prefix",
      .exec b!".bob/prefix/bin/app" [b!"app", b!"x"]
        [(b!"HOME", b!"/h"), (b!"PATH", b!".bob/prefix/bin:/bin"), (b!"LD_LIBRARY_PATH", b!".bob/prefix/lib")]], .replaced) := by decide +kernel

/-- Instance: with a failing step it stops there. -/
example : bobMain (demoMain false) [b!"run", b!"x"] =
    ([.mkdir b!".bob", .setup, .mkdir b!".bob/prefix", .mkdir b!".bob/bob", .steps (some b!".bob/prefix")], .exit false) := by decide +kernel

/-- Instance: `bob build` and `bob install` succeed, an unknown prefix, an unknown instruction and no instruction do not. -/
example : (bobMain (demoMain true) [b!"build"]).2 = .exit true ∧ (bobMain (demoMain true) [b!"install"]).2 = .exit true ∧
    (bobMain (demoMain true) [b!"-p", b!"/opt", b!"install"]).2 = .exit false ∧ (bobMain (demoMain true) [b!"test"]).2 = .exit false ∧
    (bobMain (demoMain true) []).2 = .exit false := by decide +kernel

/-- bob ends with a failed assertion if `sh` gets only `--`. -/
example : (bobMain (demoMain true) [b!"sh", b!"--", b!"--"]).2 = .abort := by decide +kernel

end Bob
