import Verif.Spec.RunNow
import Verif.Props.Rough
import Verif.Props.SelfTest
import Mathlib.Tactic.ByContra
/-!
# C118: what `bob run` runs
-/

namespace Bob

/-- bob becomes another program only once it has passed its checks, and has built and installed what there is. -/
theorem becomes_installed {w : MainWorld} {args rest : List Bytes} {o : Opts} {b : Bsys} (hg : getoptScan w.posix none args .init [] = some (o, b!"run" :: rest))
    (hb : w.bsys.find? (·.identify) = some b) {file : Bytes} {argv : List Bytes} {env : Env} (h : Becomes w args file argv env) :
    ChecksOk w o ∧ b.setup ≠ some false ∧ InstallOk w o b (o.out ++ b!"/prefix") true := by
  obtain ⟨t, h⟩ := h
  have h : (bobMain w args).2 = .replaced := by rw [h]
  have hc : ChecksOk w o ∧ b.setup ≠ some false := by
    have e : bobMain w args = finish (mainRest w o (b!"run" :: rest)) := by
      unfold bobMain finish
      rw [hg]
      rfl
    rw [e] at h
    have key : ∀ {c : Bool} {m : M Bool}, (finish (if !c then M.end (.exit false) else m)).2 = .replaced → c = true ∧ (finish m).2 = .replaced := by
      intro c m h
      cases c
      · cases h
      · exact ⟨rfl, h⟩
    have hbind : ∀ {a : MainAct} {m : M Bool}, (finish (M.bind (M.act a) fun _ => m)).2 = .replaced → (finish m).2 = .replaced := by
      intro a m h
      unfold M.act at h
      rwa [finish_bind] at h
    unfold mainRest at h
    dsimp only at h
    obtain ⟨c1, h⟩ := key h
    obtain ⟨c2, h⟩ := key h
    have c3 : (w.root && !w.statDot) = false := by
      by_contra hne
      rw [Bool.not_eq_false] at hne
      rw [if_pos hne] at h
      cases h
    rw [if_neg (by rw [c3]; decide)] at h
    obtain ⟨c4, h⟩ := key (hbind h)
    obtain ⟨c5, h⟩ := key h
    obtain ⟨c6, h⟩ := key h
    refine ⟨⟨c1, c2, fun hr => ?_, c4, c5, c6⟩, fun hs => ?_⟩
    · rw [hr] at c3
      simpa using c3
    · rw [hb] at h
      simp only [hs] at h
      have := hbind h
      cases this
  obtain ⟨hc, hs⟩ := hc
  refine ⟨hc, hs, ?_⟩
  obtain ⟨t, -, e⟩ := main_instruction hg hc hb hs
  have hin : instruction w o b (prefixOf o w.env) b!"run" rest = bsysRun w o b (prefixOf o w.env) rest := by
    unfold instruction
    rw [if_neg (by decide), if_pos rfl]
  rw [hin] at e
  obtain ⟨r, h1, h2⟩ := bsysInstall_ok w o b true (prefixOf o w.env)
  cases r with
  | true => exact h2.1 rfl
  | false =>
    rw [e] at h
    unfold bsysRun at h
    cases e' : bsysInstallTo w o b true (prefixOf o w.env) with
    | mk t' x =>
      rw [e'] at h1 h
      simp only at h1
      subst h1
      cases h

/-- What `bob run` becomes, if it becomes something. -/
theorem run_found {w : MainWorld} {args rest : List Bytes} {o : Opts} {b : Bsys} (hg : getoptScan w.posix none args .init [] = some (o, b!"run" :: rest)) (hc : ChecksOk w o)
    (hb : w.bsys.find? (·.identify) = some b) (hs : b.setup ≠ some false) (hi : InstallOk w o b (o.out ++ b!"/prefix") true) {run : List Bytes → RunAct} (hr : b.run = some run)
    {name : Bytes} {more : List Bytes} (he : run rest = .exec (name :: more)) (hn : ∀ a ∈ name :: more, NUL ∉ a) :
    ∃ env path, Extended o.out w.env env ∧ getenv b!"PATH" env = some path ∧
      ∀ file, w.Stands path name file → ∀ f a e, Becomes w args f a e → f = file ∧ a = name :: more ∧ e = env := by
  obtain ⟨e1, -, -⟩ := C36_environment o.out w.env
  refine ⟨setupEnvironment o.out w.env, _, extended _ _, e1, fun file hf f a e hB => ?_⟩
  have hh := holds_create (name :: more)
  rw [argv_self hn] at hh
  obtain ⟨t, -, em⟩ := main_instruction hg hc hb hs
  have hin : instruction w o b (prefixOf o w.env) b!"run" rest = bsysRun w o b (prefixOf o w.env) rest := by
    unfold instruction
    rw [if_neg (by decide), if_pos rfl]
  obtain ⟨t', -, e'⟩ : ∃ t', bsysInstallTo w o b true (prefixOf o w.env) = (t', .ok true) ∧
      finish (bsysRun w o b (prefixOf o w.env) rest) = (t' ++ (finish (M.bind (execInplace w (setupEnvironment o.out w.env) (cmdCreate (name :: more))) fun _ => M.pure false)).1,
        (finish (M.bind (execInplace w (setupEnvironment o.out w.env) (cmdCreate (name :: more))) fun _ => M.pure false)).2) := by
    unfold bsysRun
    simp only [hr, he]
    exact after_install _ hi _
  rw [hin, e'] at em
  obtain ⟨t'', hB⟩ := hB
  cases hx : w.execv file (name :: more) with
  | true =>
    rw [(exec_holds hh e1).1 hf hx, hB] at em
    have h1 := congrArg Prod.fst em
    have h2 : t'' ++ [MainAct.exec f a e] = (t ++ t') ++ [.exec file (name :: more) (setupEnvironment o.out w.env)] := by
      simpa [M.bind, finish] using h1
    have h3 := (List.append_inj' h2 rfl).2
    simp only [List.cons.injEq, MainAct.exec.injEq, and_true] at h3
    exact h3
  | false =>
    have hex : execInplace w (setupEnvironment o.out w.env) (cmdCreate (name :: more)) = M.pure () := by
      unfold execInplace
      rw [if_neg (by rw [hh.1]; simp), hh.2, osArgv_holds]
      simp only [e1]
      rw [hf.found]
      simp only [hx, Bool.false_eq_true, if_false]
    rw [hex, hB] at em
    have := congrArg Prod.snd em
    cases this

end Bob

namespace Bob.Fl
open Bob.Parse

variable {tc : Toolchain} {w : World} {paths : List Bytes} {bad : Bytes → Bool} {n : Nat} {X : OneProj} {text : Bytes} {P : Plan} {sg : Bool} {out : Bytes}

theorem InstLifeText.life (hx : reads text X.script = true) {d : Bytes} {l : List (List Bytes)} {s : Store} (h : InstLifeText tc X text P sg out d l s) : InstLife tc X P sg out d l s := by
  induction h with
  | start h hd => exact .start h hd
  | built _ he hrec hd hw hl hp hpre hn hb ih => exact .built ih he hrec hd hw.shown hl hp hpre hn ((C101_build_from_text hw hx).1 hb)

/-- What a process builds, and what it then runs. -/
theorem Process.builds {mw : MainWorld} {pre name : Bytes} {s s' : Store} {fs : FS} {ps : List Bytes} (h : Process mw tc w paths text pre bad n s s') (hw : ShownText w paths sg out fs ps)
    (hx : reads text X.script = true) (hN : X.Named name) :
    ∃ vars steps installs, mw.bsys.find? (·.identify) = some (bsysBob true true vars steps installs) ∧ vars.lookup b!"run" = some (.vec [some name]) ∧
      ((setupInstallMap vars (some pre) .init).2 = true → BobBuildText tc w paths text (some pre) bad n s (.finished (steps (some pre)) s')) := by
  obtain ⟨q, b, depth, steps, installs, hq, hf, hb, hacts⟩ := h
  obtain ⟨p, hp, hok, hrun⟩ := hN.script
  obtain ⟨p', h1, h2⟩ := reads_sound hx
  cases hq.unique h1
  have hl := withBob_like hw
  have hW := hw.shown
  obtain ⟨ρ, r, o, hr, hname⟩ := hrun w.withBob ps hW.list
  obtain ⟨st, N, k1, k2, k3, k4⟩ := C72_script_means (A := [b!"install", b!"run"]) hW.only.ok hok hW.bob hr
  rw [hp] at h2
  have hshow : Shows w paths q (.ok st.out st.scriptVars st.requests) := shows_like hl h2 ⟨N, by rw [k1 N (Nat.le_refl N)]; rfl⟩
  generalize ho : runScript w depth paths q = out at hb hacts
  have hseen : ∃ x, seen out = some x := by
    cases out with
    | timeout => cases hb
    | _ => exact ⟨_, rfl⟩
  obtain ⟨x, hx⟩ := hseen
  have hx' : Shows w paths q x := ⟨depth, by rw [ho]; exact hx⟩
  cases C100_shows_one_thing hshow hx'
  cases out with
  | ok a st' =>
    have hx : Seen.ok st'.out st'.scriptVars st'.requests = .ok st.out st.scriptVars st.requests := Option.some.inj hx
    simp only [Seen.ok.injEq] at hx
    obtain ⟨-, hv, hrq⟩ := hx
    obtain ⟨v', hv'⟩ := Option.isSome_iff_exists.1 (hr.knows (x := b!"__bob_has_been_imported__") rfl)
    have hset : setup (.ok a st') = some true := by
      show some _ = some true
      rw [hv, lookup_any (k4 _ _ hv')]
    refine ⟨st'.scriptVars, steps, installs, ?_, ?_, fun hm => ?_⟩
    · rw [hf]
      unfold bsysOf at hb
      rw [hset] at hb
      exact hb.symm
    · rw [hv]
      exact (k4 _ _ hname).trans rfl
    · cases hg : setupInstallMap st'.scriptVars (some pre) .init with
      | mk g ok =>
        rw [hg] at hm
        cases hm
        obtain ⟨⟨reqs, c1, c2⟩, -⟩ := hacts st' rfl g hg
        exact ⟨q, hq, depth, st', reqs, g, ho, hset, hg, c1, c2⟩
  | err msg s => cases hx
  | abort s => cases hx
  | ub s => cases hx
  | timeout => cases hx

theorem linked_there {fs : FS} {F G qs : List Bytes} {p : Bytes} (h : Linked tc fs F G qs p) : (fs p).isSome := by
  obtain ⟨_, _, x, _, h⟩ := h
  unfold FS.content at h
  cases e : fs p with
  | none => rw [e] at h; cases h
  | some f => rfl

/-- **C118**, partial: if there is no program of that name in the directory of the project, and no list of sources comes back after another.  Whatever `bob run` becomes is the program of the sources there are. -/
theorem C118_runs_the_present_partial (hX : X.Sure text) {name : Bytes} (hN : X.Named name) : RunsThePresent X text name True Onward := by
  intro tc P sg l s s1 s2 w paths ps bad n mw o args rest file argv env hP hT hcol hnul hlife he hrec hd hw hl hplace hn hhere honw hg hproc hthere hbec
  obtain ⟨vars, steps, installs, hf, hrv, hbuild⟩ := hproc.builds hw hX.text hN
  obtain ⟨hc, -, hi⟩ := becomes_installed hg hf hbec
  have e : o.out ++ b!"/prefix/" ++ X.entry = o.out ++ b!"/prefix" ++ b!"/" ++ X.entry := by simp
  -- it has built and installed
  have hsteps : (setupInstallMap vars (some (o.out ++ b!"/prefix")) .init).2 = true ∧ steps (some (o.out ++ b!"/prefix")) = true := by
    obtain ⟨-, hb, -⟩ := hi _ rfl
    have := (hb _ rfl).2
    change (if (setupInstallMap vars (some (o.out ++ b!"/prefix")) .init).2 then (([.steps (some (o.out ++ b!"/prefix"))], steps (some (o.out ++ b!"/prefix"))) : List MainAct × Bool)
      else ([], false)).2 = true at this
    split at this
    · rename_i h; exact ⟨h, this⟩
    · cases this
  have hb := hbuild hsteps.1
  rw [hsteps.2] at hb
  have hb' := (C101_build_from_text hw hX.text).1 hb
  rw [e] at hlife hd hthere
  have hlinked := C76_installed_right_partial hX.toRight hP hT (hlife.life hX.text) he hd hw.shown hl honw hplace hn hb'
  -- so it becomes that
  obtain ⟨h1, -⟩ := (C37_run_command vars rest).1 b!"run" [name] (find_lookup hrv)
  have hmap : [name].map cstr = [name] := argv_self (by simpa using hN.clean)
  rw [argv_self hnul, hmap] at h1
  have hexec : runBob vars rest = .exec (name :: rest.filter (· ≠ b!"--")) := h1 (by simp)
  have hclean : ∀ a ∈ name :: rest.filter (· ≠ b!"--"), NUL ∉ a := by
    intro a ha
    rcases List.mem_cons.1 ha with rfl | ha
    · exact hN.clean
    · exact hnul a (List.mem_filter.1 ha).1
  obtain ⟨env', path, hE, hp, hall⟩ := run_found hg hc hf (by simp [bsysBob]) hi rfl hexec hclean
  have hpath := hE.path
  rw [hp] at hpath
  have hpath : path = _ := Option.some.inj hpath
  have hdir : o.out ++ b!"/prefix" ++ b!"/" ++ X.entry = o.out ++ b!"/prefix/bin" ++ b!"/" ++ name := by rw [hN.entry]; simp
  have hprog := hthere (linked_there hlinked)
  rw [hdir] at hprog hlinked
  obtain ⟨rfl, rfl, rfl⟩ := hall _ (first_stands (old := getenv b!"PATH" mw.env) (dir := o.out ++ b!"/prefix/bin") (by
    simp only [List.mem_append, not_or]
    exact ⟨hcol, by decide⟩) (hhere trivial) hprog (by rw [hpath]; cases getenv b!"PATH" mw.env <;> simp)) _ _ _ hbec
  exact ⟨hlinked, rfl, hE⟩

theorem skeleton_named : skeletonProj.Named b!"bob-skeleton-c" where
  entry := rfl
  clean := by decide
  script := ⟨skeletonBuild.tail, rfl, by decide +kernel, fun w ps hl => by
    obtain ⟨ρ, h1, -, h3⟩ := skeleton_means (w := w) hl
    exact ⟨ρ, _, _, h1, h3⟩⟩

theorem own_named : ownProj.Named b!"bob" where
  entry := rfl
  clean := by decide
  script := ⟨ownBuild.tail, rfl, by decide +kernel, fun w ps hl => by
    obtain ⟨ρ, h1, -, h3⟩ := own_means (w := w) hl
    exact ⟨ρ, _, _, h1, h3⟩⟩

/-- **C118**, partial, for projects made from the C skeleton. -/
theorem C118_skeleton_partial : RunsThePresent skeletonProj skeletonText b!"bob-skeleton-c" True Onward := C118_runs_the_present_partial skeleton_sure skeleton_named

/-- **C118**, partial, for bob itself: the bob that `bob run` becomes is the one of the sources there are. -/
theorem C118_own_partial : RunsThePresent ownProj ownText b!"bob" True Onward := C118_runs_the_present_partial own_sure own_named

end Bob.Fl
