import Verif.Spec.RunTests
import Verif.Props.CliTrace
import Verif.Props.FlTexts
/-!
# C104: `bob run` and `bob sh` become the program they should, and the project's tests of them pass
-/

namespace Bob

/-! ## Commands and files -/

theorem entries_unique {dirs : List Bytes} (hne : dirs ≠ []) (hd : ∀ d ∈ dirs, COLON ∉ d) : strsepAll COLON (List.intercalate b!":" dirs) = dirs := by
  induction dirs with
  | nil => exact (hne rfl).elim
  | cons d dirs ih =>
    cases dirs with
    | nil =>
      have : List.intercalate b!":" [d] = d := by simp [List.intercalate]
      rw [this, strsepAll_single (hd d (by simp))]
    | cons e dirs =>
      have : List.intercalate b!":" (d :: e :: dirs) = d ++ COLON :: List.intercalate b!":" (e :: dirs) := by
        simp [List.intercalate, List.intersperse]
      rw [this, strsepAll_colon (hd d (by simp)), ih (by simp) fun x hx => hd x (List.mem_cons_of_mem _ hx)]

theorem searchDirs_first (w : ExecWorld) {name d : Bytes} {post : List Bytes} (h : w.Runnable (d ++ b!"/" ++ name)) :
    ∀ {pre : List Bytes}, (∀ x ∈ pre, ¬ w.Runnable (x ++ b!"/" ++ name)) → searchDirs w name (pre ++ d :: post) = .found (d ++ b!"/" ++ name)
  | [], _ => by
    simp only [List.nil_append, searchDirs]
    rw [if_pos ((isExecutable_iff _ _).2 h)]
  | x :: pre, hp => by
    have hx : ¬ w.isExecutable (x ++ b!"/" ++ name) = true := fun e => hp x (by simp) ((isExecutable_iff _ _).1 e)
    simp only [List.cons_append, searchDirs]
    rw [if_neg hx]
    exact searchDirs_first w h fun y hy => hp y (List.mem_cons_of_mem _ hy)

/-- `find_bin` finds the file a command stands for. -/
theorem MainWorld.Stands.found {w : MainWorld} {path name file : Bytes} (h : w.Stands path name file) :
    findBin { kind := w.kind, xok := w.xok, path := some path } name = .found file := by
  have hp : ∀ p, ({ kind := w.kind, xok := w.xok, path := some path } : ExecWorld).Runnable p ↔ w.Program p := fun p => Iff.rfl
  cases h with
  | itself h => exact (C22_find_bin _ _).1 ((hp _).2 h)
  | entry hn hd he h hpre =>
    have hx : ¬ ({ kind := w.kind, xok := w.xok, path := some path } : ExecWorld).isExecutable name = true := fun e => hn ((isExecutable_iff _ _).1 e)
    unfold findBin
    rw [if_neg hx]
    show searchDirs _ name (strsepAll COLON path) = _
    have : strsepAll COLON path = _ := (congrArg _ he).trans (entries_unique (by simp) hd)
    rw [this]
    exact searchDirs_first _ ((hp _).2 h) fun x hx => fun e => hpre x hx ((hp _).1 e)

theorem missing_of {w : MainWorld} {name : Bytes} {dirs : List Bytes} (hne : dirs ≠ []) (hd : ∀ d ∈ dirs, COLON ∉ d) (hn : ¬ w.Program name)
    (hx : ∀ d ∈ dirs, ¬ w.Program (d ++ b!"/" ++ name)) : findBin { kind := w.kind, xok := w.xok, path := some (List.intercalate b!":" dirs) } name = .missing := by
  rcases (C22_find_bin { kind := w.kind, xok := w.xok, path := some (List.intercalate b!":" dirs) } name).2.2 hn _ rfl with ⟨ds, ⟨h1, h2, h3⟩, h | h⟩
  · obtain ⟨pre, d, post, e, hr, -⟩ := h
    have : ds = dirs := by rw [← entries_unique h1 h2, ← h3, entries_unique hne hd]
    exact (hx d (by rw [← this, e]; simp) hr).elim
  · exact h.2

/-! ## From the command line to the instruction -/

theorem main_instruction {w : MainWorld} {args rest : List Bytes} {instr : Bytes} {o : Opts} {b : Bsys} (hg : getoptScan w.posix none args .init [] = some (o, instr :: rest))
    (hc : ChecksOk w o) (hb : w.bsys.find? (·.identify) = some b) (hs : b.setup ≠ some false) :
    ∃ t, (∀ f a e, .exec f a e ∉ t) ∧
      bobMain w args = (t ++ (finish (instruction w o b (prefixOf o w.env) instr rest)).1, (finish (instruction w o b (prefixOf o w.env) instr rest)).2) := by
  have hst : (w.root && !w.statDot) = false := by
    cases hr : w.root with
    | false => rfl
    | true => rw [hc.stat hr]; rfl
  have e : bobMain w args = finish (mainRest w o (instr :: rest)) := by
    unfold bobMain finish
    rw [hg]
    rfl
  rw [e]
  unfold mainRest
  simp only [hc.project, hc.chdir, hst, hc.mkdir, hc.out, hc.pre, hb, Bool.not_true, Bool.false_eq_true, if_false, M.act]
  cases hset : b.setup with
  | none => exact ⟨[.mkdir o.out], by simp, by simp only [finish_bind]⟩
  | some ok =>
    cases ok with
    | false => exact (hs hset).elim
    | true => exact ⟨[.mkdir o.out, .setup], by simp, by simp only [finish_bind, if_true]; rfl⟩

theorem after_install {w : MainWorld} {o : Opts} {b : Bsys} (pre : Bytes) (hi : InstallOk w o b (o.out ++ b!"/prefix") true) (rest : M Bool) :
    ∃ t, bsysInstallTo w o b true pre = (t, .ok true) ∧
      finish (M.bind (bsysInstallTo w o b true pre) fun ok => if !ok then M.pure false else rest) = (t ++ (finish rest).1, (finish rest).2) := by
  obtain ⟨r, h1, h2⟩ := bsysInstall_ok w o b true pre
  cases (h2.2 hi)
  cases e : bsysInstallTo w o b true pre with
  | mk t x =>
    rw [e] at h1
    simp only at h1
    subst h1
    refine ⟨t, rfl, ?_⟩
    obtain ⟨u, r⟩ := rest
    cases r <;> rfl

theorem argv_self {argv : List Bytes} (h : ∀ a ∈ argv, NUL ∉ a) : argv.map cstr = argv := by
  induction argv with
  | nil => rfl
  | cons a l ih => rw [List.map_cons, cstr_eq_self (h a (by simp)), ih fun x hx => h x (List.mem_cons_of_mem _ hx)]

theorem exec_holds {w : MainWorld} {env : Env} {c : CmdArgs} {name : Bytes} {rest : List Bytes} (hc : Holds c (name :: rest)) {path : Bytes} (hp : getenv b!"PATH" env = some path) :
    (∀ {file}, w.Stands path name file → w.execv file (name :: rest) = true → execInplace w env c = ([.exec file (name :: rest) env], .error .replaced)) ∧
    (findBin { kind := w.kind, xok := w.xok, path := some path } name = .missing → execInplace w env c = M.pure ()) := by
  unfold execInplace
  rw [if_neg (by rw [hc.1]; simp), hc.2, osArgv_holds]
  simp only [hp]
  refine ⟨fun hf hx => ?_, fun hm => ?_⟩
  · rw [hf.found]
    simp only [hx, if_true]
  · rw [hm]

/-- **C104, `run`.** If the command line is understood, the checks pass, a build system recognises the directory and can be set up, and building and installing into the prefix of the
project succeed, `bob run` becomes the program that the first argument of the command stands for, with just the arguments of the command, in an environment in which the prefix comes
first. -/
theorem C104_run_becomes {w : MainWorld} {args rest : List Bytes} {o : Opts} {b : Bsys} (hg : getoptScan w.posix none args .init [] = some (o, b!"run" :: rest)) (hc : ChecksOk w o)
    (hb : w.bsys.find? (·.identify) = some b) (hs : b.setup ≠ some false) (hi : InstallOk w o b (o.out ++ b!"/prefix") true) {run : List Bytes → RunAct} (hr : b.run = some run)
    {name : Bytes} {more : List Bytes} (he : run rest = .exec (name :: more)) (hn : ∀ a ∈ name :: more, NUL ∉ a) :
    ∃ env path, Extended o.out w.env env ∧ getenv b!"PATH" env = some path ∧
      (∀ file, w.Stands path name file → w.execv file (name :: more) = true → Becomes w args file (name :: more) env) ∧
      (findBin { kind := w.kind, xok := w.xok, path := some path } name = .missing → (∀ f a e, .exec f a e ∉ (bsysInstallTo w o b true (prefixOf o w.env)).1) → Fails w args) := by
  obtain ⟨e1, e2, e3⟩ := C36_environment o.out w.env
  refine ⟨setupEnvironment o.out w.env, _, ⟨?_, ?_, e3⟩, e1, ?_⟩
  · rw [e1]; cases getenv b!"PATH" w.env <;> simp [withFirst]
  · rw [e2]; cases getenv b!"LD_LIBRARY_PATH" w.env <;> simp [withFirst]
  have hh := holds_create (name :: more)
  rw [argv_self hn] at hh
  obtain ⟨t, ht, e⟩ := main_instruction hg hc hb hs
  have hin : instruction w o b (prefixOf o w.env) b!"run" rest = bsysRun w o b (prefixOf o w.env) rest := by
    unfold instruction
    rw [if_neg (by decide), if_pos rfl]
  have hrun : ∃ t', bsysInstallTo w o b true (prefixOf o w.env) = (t', .ok true) ∧
      finish (bsysRun w o b (prefixOf o w.env) rest) = (t' ++ (finish (M.bind (execInplace w (setupEnvironment o.out w.env) (cmdCreate (name :: more))) fun _ => M.pure false)).1,
        (finish (M.bind (execInplace w (setupEnvironment o.out w.env) (cmdCreate (name :: more))) fun _ => M.pure false)).2) := by
    unfold bsysRun
    simp only [hr, he]
    exact after_install _ hi _
  obtain ⟨t', ht', e'⟩ := hrun
  rw [hin, e'] at e
  refine ⟨fun file hf hx => ?_, fun hm hq => ?_⟩
  · rw [(exec_holds hh e1).1 hf hx] at e
    exact ⟨t ++ t', by rw [e]; simp [M.bind, finish]⟩
  · rw [(exec_holds hh e1).2 hm] at e
    unfold Fails
    rw [e]
    refine ⟨rfl, fun f a env h => ?_⟩
    rw [ht'] at hq
    simp only [M.bind, M.pure, finish, List.append_nil, List.mem_append] at h
    exact h.elim (ht _ _ _) (hq _ _ _)

theorem sh_becomes {w : MainWorld} {args rest : List Bytes} {o : Opts} {b : Bsys} (hg : getoptScan w.posix none args .init [] = some (o, b!"sh" :: rest)) (hc : ChecksOk w o)
    (hb : w.bsys.find? (·.identify) = some b) (hs : b.setup ≠ some false) (hi : InstallOk w o b (o.out ++ b!"/prefix") true) {name : Bytes} {more : List Bytes}
    (hn : ∀ a ∈ name :: more, NUL ∉ a)
    (he : (rest = [] ∧ EnvSays b!"SHELL" w.env name ∧ more = []) ∨ ((∀ a ∈ rest, NUL ∉ a) ∧ rest.filter (· ≠ b!"--") = name :: more)) :
    ∀ file, w.Stands (withFirst (o.out ++ b!"/prefix/bin") (getenv b!"PATH" w.env)) name file → w.execv file (name :: more) = true →
      Becomes w args file (name :: more) (setupEnvironment o.out w.env) := by
  obtain ⟨e1, e2, e3⟩ := C36_environment o.out w.env
  intro file hf hx
  obtain ⟨t, -, e⟩ := main_instruction hg hc hb hs
  have hin : instruction w o b (prefixOf o w.env) b!"sh" rest = bsysSh w o b (prefixOf o w.env) rest := by
    unfold instruction
    rw [if_neg (by decide), if_neg (by decide), if_pos rfl]
  have hrun : ∃ t' c, Holds c (name :: more) ∧
      finish (bsysSh w o b (prefixOf o w.env) rest) = (t' ++ (finish (M.bind (execInplace w (setupEnvironment o.out w.env) c) fun _ => M.pure false)).1,
        (finish (M.bind (execInplace w (setupEnvironment o.out w.env) c) fun _ => M.pure false)).2) := by
    unfold bsysSh
    rcases he with ⟨rfl, h1, rfl⟩ | ⟨h1, h2⟩
    · have hsh : getenv b!"SHELL" (setupEnvironment o.out w.env) = some name := (e3 _ (by decide) (by decide)).trans (envSays_iff.1 h1)
      simp only [if_true, hsh]
      obtain ⟨t', -, h⟩ := after_install (prefixOf o w.env) hi (M.bind (execInplace w (setupEnvironment o.out w.env) (cmdAdd name (cmdCreate []))) fun _ => M.pure false)
      have hh := holds_create [name]
      rw [argv_self hn] at hh
      exact ⟨t', _, hh, h⟩
    · have hne : rest ≠ [] := by
        rintro rfl
        cases h2
      simp only [hne, if_false]
      obtain ⟨t', -, h⟩ := after_install (prefixOf o w.env) hi (M.bind (execInplace w (setupEnvironment o.out w.env) (cmdAddArgv rest (cmdCreate []))) fun _ => M.pure false)
      have hh := holds_run (holds_create []) (.argv rest)
      simp only [CmdOp.run, CmdOp.meant, List.map_nil, List.nil_append] at hh
      rw [argv_self h1, h2] at hh
      exact ⟨t', _, hh, h⟩
  obtain ⟨t', c, hh, e'⟩ := hrun
  rw [hin, e'] at e
  rw [(exec_holds hh e1).1 hf hx] at e
  exact ⟨t ++ t', by rw [e]; simp [M.bind, finish]⟩

theorem extended (out : Bytes) (env : Env) : Extended out env (setupEnvironment out env) := by
  obtain ⟨e1, e2, e3⟩ := C36_environment out env
  refine ⟨?_, ?_, e3⟩
  · rw [e1]; cases getenv b!"PATH" env <;> simp [withFirst]
  · rw [e2]; cases getenv b!"LD_LIBRARY_PATH" env <;> simp [withFirst]

/-- **C104, `sh`.** Likewise, `bob sh` becomes the program that its first argument stands for, with just its arguments, but for those that are `--`; without arguments, the program
`$SHELL` says. -/
theorem C104_sh_becomes {w : MainWorld} {args rest : List Bytes} {o : Opts} {b : Bsys} (hg : getoptScan w.posix none args .init [] = some (o, b!"sh" :: rest)) (hc : ChecksOk w o)
    (hb : w.bsys.find? (·.identify) = some b) (hs : b.setup ≠ some false) (hi : InstallOk w o b (o.out ++ b!"/prefix") true) {name : Bytes} {more : List Bytes}
    (hn : ∀ a ∈ name :: more, NUL ∉ a)
    (he : (rest = [] ∧ EnvSays b!"SHELL" w.env name ∧ more = []) ∨ ((∀ a ∈ rest, NUL ∉ a) ∧ rest.filter (· ≠ b!"--") = name :: more)) :
    ∃ env path, Extended o.out w.env env ∧ getenv b!"PATH" env = some path ∧
      ∀ file, w.Stands path name file → w.execv file (name :: more) = true → Becomes w args file (name :: more) env :=
  ⟨_, _, extended _ _, (C36_environment o.out w.env).1, sh_becomes hg hc hb hs hi hn he⟩

/-! ## The tests -/

/-- **C104, `tests/sh.sh`.** Whatever the build system and the way options are read: where the build can be installed, `bob sh echo test` becomes `echo test`,
`bob sh -- sh -c 'echo $PATH'` becomes `sh -c 'echo $PATH'` with `.bob/prefix/bin` first in `$PATH`, and with `SHELL=uname`, `bob sh` becomes `uname`. -/
theorem C104_sh_test {w : MainWorld} {b : Bsys} (hc : ChecksOk w .init) (hb : w.bsys.find? (·.identify) = some b) (hs : b.setup ≠ some false)
    (hi : InstallOk w .init b b!".bob/prefix" true) (hx : ∀ p argv, w.Program p → w.execv p argv = true) :
    ∃ env path, Extended b!".bob" w.env env ∧ getenv b!"PATH" env = some path ∧ (strsepAll COLON path).head? = some b!".bob/prefix/bin" ∧
      (∀ file, w.Stands path b!"echo" file → Becomes w [b!"sh", b!"echo", b!"test"] file [b!"echo", b!"test"] env) ∧
      (∀ file, w.Stands path b!"sh" file → Becomes w [b!"sh", b!"--", b!"sh", b!"-c", b!"echo $PATH"] file [b!"sh", b!"-c", b!"echo $PATH"] env) ∧
      (EnvSays b!"SHELL" w.env b!"uname" → ∀ file, w.Stands path b!"uname" file → Becomes w [b!"sh"] file [b!"uname"] env) := by
  have hp : ∀ {path name file : Bytes}, w.Stands path name file → w.Program file := by
    intro path name file h
    cases h with
    | itself h => exact h
    | entry _ _ _ h _ => exact h
  have hn : ∀ l : List Bytes, (l.all fun a => !(a.contains NUL)) = true → ∀ a ∈ l, NUL ∉ a := by
    intro l hl a ha hm
    have := List.all_eq_true.1 hl a ha
    simp [hm] at this
  have e1 := (C36_environment b!".bob" w.env).1
  refine ⟨setupEnvironment b!".bob" w.env, _, extended _ _, e1, ?_, fun file hf => ?_, fun file hf => ?_, fun hS file hf => ?_⟩
  · cases getenv b!"PATH" w.env with
    | none => decide
    | some p =>
      rw [show withFirst (b!".bob" ++ b!"/prefix/bin") (some p) = b!".bob/prefix/bin" ++ COLON :: p by simp [withFirst, COLON], strsepAll_colon (by decide)]
      rfl
  · exact sh_becomes (rest := [b!"echo", b!"test"]) (by cases w.posix <;> decide) hc hb hs hi (hn _ (by decide)) (.inr ⟨hn _ (by decide), by decide⟩) file hf (hx _ _ (hp hf))
  · exact sh_becomes (C68_after_dashes_partial w.posix b!"sh" (.inr (by decide)) [b!"sh", b!"-c", b!"echo $PATH"] .init) hc hb hs hi (hn _ (by decide))
      (.inr ⟨by cases w.posix <;> exact hn _ (by decide), by cases w.posix <;> decide⟩) file hf (hx _ _ (hp hf))
  · exact sh_becomes (rest := []) (by cases w.posix <;> decide) hc hb hs hi (hn _ (by decide)) (.inl ⟨rfl, hS, rfl⟩) file hf (hx _ _ (hp hf))


namespace Fl
open Bob.Parse

/-- What bob makes of a text that describes a build. -/
theorem Started.build {mw : MainWorld} {w : World} {paths : List Bytes} {text : Bytes} (h : Started mw w paths text) {p : List Stmt} (hp : reads text (sBob :: p) = true)
    (hok : okStmts (assigning [b!"install", b!"run"]) .top p = true) {ρ : Names} {r : List Ask} {o : List Bytes} (hr : Runs w.withBob [b!"install", b!"run"] bobNames p ρ r o) :
    ∃ vars steps installs, mw.bsys.find? (·.identify) = some (bsysBob true true vars steps installs) ∧ (∀ x v, ρ.lookup x = some v → vars.lookup x = some v.script) ∧
      ∀ pre g, setupInstallMap vars pre .init = (g, true) →
        (∃ tc bad n s s', BuildReaches tc ⟨g.pre, g.map.getD [], bad⟩ n (r.map (Ask.req w.withBob)) s (.finished (steps pre) s')) ∧
        ∀ q, pre = some q → ∃ e times t, installs q = true ↔ ∃ t' l, installAllG e times g t = .ok t' l := by
  obtain ⟨q, b, hq, ⟨depth, steps, installs, hb, hacts⟩, hf⟩ := h.acts
  obtain ⟨p', h1, h2⟩ := reads_sound hp
  cases hq.unique h1
  have hl := withBob_only h.only
  have hW : w.withBob.OnlyBob := ⟨withBob_file, h.names, h.outName⟩
  have hbob : w.withBob.file (importPath w.withBob false b!"bob.fl" paths) = .src bobFl := by
    obtain ⟨x, hx⟩ := h.bob
    rw [hl.importPath] at hx
    exact withBob_src hx
  obtain ⟨st, N, k1, k2, k3, k4⟩ := C72_script_means (A := [b!"install", b!"run"]) hW.ok hok hbob hr
  have hshow : Shows w paths q (.ok st.out st.scriptVars st.requests) := shows_like hl h2 ⟨N, by rw [k1 N (Nat.le_refl N)]; rfl⟩
  generalize ho : runScript w depth paths q = out at hb hacts
  have hseen : ∃ x, seen out = some x := by
    cases out with
    | timeout => cases hb
    | _ => exact ⟨_, rfl⟩
  obtain ⟨x, hx⟩ := hseen
  have hx' : Shows w paths q x := ⟨depth, by rw [ho]; exact hx⟩
  cases C100_shows_one_thing hshow hx'
  cases out with
  | ok a st' =>
    have hx : Seen.ok st'.out st'.scriptVars st'.requests = .ok st.out st.scriptVars st.requests := Option.some.inj hx
    simp only [Seen.ok.injEq] at hx
    obtain ⟨-, hv, hrq⟩ := hx
    obtain ⟨v', hv'⟩ := Option.isSome_iff_exists.1 (hr.knows (x := b!"__bob_has_been_imported__") rfl)
    have hset : setup (.ok a st') = some true := by
      show some _ = some true
      rw [hv, lookup_any (k4 _ _ hv')]
    refine ⟨st.scriptVars, steps, installs, ?_, k4, fun pre g hg => ?_⟩
    · rw [hf]
      unfold bsysOf at hb
      rw [hset] at hb
      simp only [hv] at hb
      exact hb.symm
    · obtain ⟨⟨tc, bad, n, s, s', reqs, c1, c2⟩, c3⟩ := hacts st' rfl pre g (by rw [hv]; exact hg)
      rw [hrq, k2] at c1
      cases c1
      exact ⟨⟨tc, bad, n, s, s', c2⟩, c3⟩
  | err msg s => cases hx
  | abort s => cases hx
  | ub s => cases hx
  | timeout => cases hx

theorem order_means (w : World) : ∃ ρ, Runs w [b!"install", b!"run"] bobNames orderBuild.tail ρ [] [] ∧ ρ.lookup b!"install" = some .none ∧
    ρ.lookup b!"run" = some (.strs [b!"test_command"]) :=
  ⟨_, .assign (r := []) (r' := []) rfl (means_strs [b!"test_command"]) .nil, rfl, rfl⟩

/-- Building nothing succeeds. -/
theorem nothing_built {tc : Toolchain} {c : InstCfg} {n : Nat} {s s' : Store} {ok : Bool} (h : BuildReaches tc c n [] s (.finished ok s')) : ok = true := by
  have key : ∀ {a cfg}, Steps (BuildNext tc c n) a cfg → ∀ s, a = .idle [] s → (∃ s', cfg = .idle [] s') ∨ ∃ s', cfg = .finished true s' := by
    intro a cfg h
    induction h with
    | refl => exact fun s e => .inl ⟨s, e⟩
    | tail _ r ih =>
      intro s e
      rcases ih s e with ⟨s', rfl⟩ | ⟨s', rfl⟩
      · generalize hc : Cfg.idle [] s' = c0 at r
        cases r with
        | seq h => subst hc; cases h; exact .inr ⟨_, rfl⟩
        | tick t h => subst hc; exact .inl ⟨_, rfl⟩
        | pool => cases hc
        | join => cases hc
      · generalize hc : Cfg.finished true s' = c0 at r
        cases r with
        | seq h => subst hc; cases h
        | tick t h => subst hc; exact .inr ⟨_, rfl⟩
        | pool => cases hc
        | join => cases hc
  rcases key h s rfl with ⟨_, e⟩ | ⟨_, e⟩
  · cases e
  · cases e; rfl

theorem none_map {vars : List (Bytes × ScriptVal)} (h : vars.lookup b!"install" = some .none) (pre : Option Bytes) : setupInstallMap vars pre .init = (.init, true) := by
  unfold setupInstallMap
  rw [find_lookup h]
  rfl

/-- **C104, `tests/run_path_traversal_order.sh`.** Wherever the directories of the test are and whatever else there is: without them in `$PATH`, `bob run` fails; with both, it becomes the
`test_command` of the one that comes first. -/
theorem C104_order_test {mw : MainWorld} {w : World} {paths : List Bytes} (h : Started mw w paths orderText) {bin1 bin2 : Bytes} (hd : OrderDirs mw bin1 bin2)
    (hc : ChecksOk mw { Opts.init with project := some b!"tests/run_path_traversal_order" }) (hkey : mw.mkdir b!".bob/bob" = true) (hpre : mw.mkdir b!".bob/prefix" = true)
    {dirs : List Bytes} (hne : dirs ≠ []) (hcol : ∀ d ∈ dirs, COLON ∉ d) :
    (EnvSays b!"PATH" mw.env (List.intercalate b!":" dirs) → (∀ d ∈ dirs, ¬ mw.Program (d ++ b!"/test_command")) → Fails mw orderArgs) ∧
    (EnvSays b!"PATH" mw.env (List.intercalate b!":" (bin1 :: bin2 :: dirs)) →
      ∃ env, Extended b!".bob" mw.env env ∧ Becomes mw orderArgs (bin1 ++ b!"/test_command") [b!"test_command"] env) ∧
    (EnvSays b!"PATH" mw.env (List.intercalate b!":" (bin2 :: bin1 :: dirs)) →
      ∃ env, Extended b!".bob" mw.env env ∧ Becomes mw orderArgs (bin2 ++ b!"/test_command") [b!"test_command"] env) := by
  obtain ⟨ρ, hr, hi, hrun⟩ := order_means w.withBob
  obtain ⟨vars, steps, installs, hf, hvars, hends⟩ := h.build (p := orderBuild.tail) order_reads (by decide +kernel) hr
  have hinst := hvars _ _ hi
  have hrv : vars.find? (fun v => v.1 == b!"run") = some (b!"run", .vec ([b!"test_command"].map some)) := find_lookup (hvars _ _ hrun)
  have hsteps : ∀ pre, steps pre = true := by
    intro pre
    obtain ⟨⟨_, _, _, _, _, hb⟩, -⟩ := hends pre .init (none_map hinst pre)
    exact nothing_built hb
  have hinstalls : ∀ q, installs q = true := by
    intro q
    obtain ⟨-, h2⟩ := hends (some q) .init (none_map hinst _)
    obtain ⟨e, times, t, h3⟩ := h2 q rfl
    exact h3.2 ⟨t, [], rfl⟩
  have hg : getoptScan mw.posix none orderArgs .init [] = some ({ Opts.init with project := some b!"tests/run_path_traversal_order" }, b!"run" :: []) := by
    cases mw.posix <;> decide
  have hiok : InstallOk mw { Opts.init with project := some b!"tests/run_path_traversal_order" } (bsysBob true true vars steps installs)
      (({ Opts.init with project := some b!"tests/run_path_traversal_order" } : Opts).out ++ b!"/prefix") true := by
    intro f hf
    cases hf
    refine ⟨fun _ => hpre, fun f hf => ?_, hinstalls _⟩
    cases hf
    refine ⟨fun k hk => ?_, ?_⟩
    · cases hk; exact hkey
    · beta_reduce
      rw [none_map hinst]
      exact hsteps _
  obtain ⟨h1, -⟩ := (C37_run_command vars []).1 _ _ hrv
  have hexec : runBob vars [] = .exec [b!"test_command"] := h1 (by decide)
  obtain ⟨env, path, hE, hp, hB, hF⟩ := C104_run_becomes hg hc hf (by simp [bsysBob]) hiok rfl hexec (by decide)
  have hfresh : COLON ∉ b!".bob/prefix/bin" := by decide
  have hpath : ∀ ds, ds ≠ [] → EnvSays b!"PATH" mw.env (List.intercalate b!":" ds) → path = List.intercalate b!":" (b!".bob/prefix/bin" :: ds) := by
    intro ds hds hs
    have h1 := hE.path
    rw [envSays_iff.1 hs, hp] at h1
    have h1 : path = b!".bob" ++ b!"/prefix/bin:" ++ List.intercalate b!":" ds := Option.some.inj h1
    rw [h1]
    cases ds with
    | nil => exact (hds rfl).elim
    | cons d ds => simp [List.intercalate, List.intersperse]
  have hstand : ∀ a ds, COLON ∉ a → (∀ d ∈ ds, COLON ∉ d) → mw.Program (a ++ b!"/test_command") → EnvSays b!"PATH" mw.env (List.intercalate b!":" (a :: ds)) →
      ∃ env, Extended b!".bob" mw.env env ∧ Becomes mw orderArgs (a ++ b!"/test_command") [b!"test_command"] env := by
    intro a ds ha hds hpr hs
    refine ⟨env, hE, ?_⟩
    have hst : mw.Stands path b!"test_command" (a ++ b!"/" ++ b!"test_command") := by
      refine .entry (pre := [b!".bob/prefix/bin"]) (post := ds) hd.here ?_ (hpath _ (by simp) hs) ?_ ?_
      · intro x hx
        simp only [List.cons_append, List.nil_append, List.mem_cons] at hx
        rcases hx with rfl | rfl | hx
        · exact hfresh
        · exact ha
        · exact hds x hx
      · rw [List.append_assoc]; exact hpr
      · intro x hx
        cases List.mem_singleton.1 hx
        exact hd.fresh
    have := hB _ hst (hd.runs _ _ (by rw [List.append_assoc]; exact hpr))
    rw [List.append_assoc] at this
    exact this
  have hcons : ∀ a, COLON ∉ a → ∀ d ∈ a :: dirs, COLON ∉ d := by
    intro a ha d hd
    rcases List.mem_cons.1 hd with rfl | hd
    · exact ha
    · exact hcol d hd
  refine ⟨fun hs hx => ?_, hstand _ _ hd.colon1 (hcons _ hd.colon2) hd.there1, hstand _ _ hd.colon2 (hcons _ hd.colon1) hd.there2⟩
  refine hF ?_ ?_
  · rw [hpath _ hne hs]
    refine missing_of (by simp) ?_ hd.here ?_
    · intro d hd
      rcases List.mem_cons.1 hd with rfl | hd
      · exact hfresh
      · exact hcol d hd
    · intro d hd'
      rcases List.mem_cons.1 hd' with rfl | hd'
      · exact hd.fresh
      · have := hx d hd'
        rw [List.append_assoc]
        exact this
  · intro f a e hm
    obtain ⟨pre', hq, h | ⟨_, _, h⟩ | ⟨_, _, h⟩⟩ := bsysInstallTo_bob true true vars steps installs mw { Opts.init with project := some b!"tests/run_path_traversal_order" } true
      (prefixOf { Opts.init with project := some b!"tests/run_path_traversal_order" } mw.env)
    all_goals
      rw [h] at hm
      simp only [List.mem_append, List.mem_cons, List.not_mem_nil, or_false, reduceCtorEq] at hm
      rcases hq _ hm with h | ⟨_, h⟩ <;> cases h

end Fl

end Bob
