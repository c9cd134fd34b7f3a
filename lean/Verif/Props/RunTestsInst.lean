import Verif.Props.RunTests
import Verif.Props.WholeInst
import Verif.Props.Install
/-!
# Samples for C104
-/

namespace Bob.Fl
open Bob.Parse

theorem one_step {c : InstCfg} : BuildReaches plainTc c 1 [] plain0 (.finished true plain0) :=
  Steps.tail (Steps.refl _) (.seq rfl)

/-- Something bob makes of a script that asks for no steps, if what it says can be installed. -/
theorem text_acts {w : World} {paths : List Bytes} (only : ∀ path p, w.file path = .src p → ReadAs bobText p) (names : ∀ path ps, w.list path = some ps → ∀ p ∈ ps, NUL ∉ p)
    (outName : NUL ∉ w.outPath) (bob : ∃ p, w.file (importPath w false b!"bob.fl" paths) = .src p) {text : Bytes} {build : List Stmt} (hread : reads text (sBob :: build) = true)
    (hok : okStmts (assigning [b!"install", b!"run"]) .top build = true) {ρ : Names} (hr : Runs w.withBob [b!"install", b!"run"] bobNames build ρ [] [])
    (hinst : ∀ vars, (∀ x v, ρ.lookup x = some v → vars.lookup x = some v.script) → ∀ q g, setupInstallMap vars (some q) .init = (g, true) →
      ∃ e times t t' l, installAllG e times g t = .ok t' l) :
    ∃ p b, ReadAs text p ∧ Acts w paths p b ∧ b.identify = true := by
  obtain ⟨p, h1, h2⟩ := reads_sound hread
  have hl := withBob_only only
  have hW : w.withBob.OnlyBob := ⟨withBob_file, names, outName⟩
  have hbob : w.withBob.file (importPath w.withBob false b!"bob.fl" paths) = .src bobFl := by
    obtain ⟨x, hx⟩ := bob
    rw [hl.importPath] at hx
    exact withBob_src hx
  obtain ⟨st, N, k1, k2, k3, k4⟩ := C72_script_means (A := [b!"install", b!"run"]) (p := build) hW.ok hok hbob hr
  obtain ⟨depth, hd⟩ : Shows w paths p (.ok st.out st.scriptVars st.requests) := shows_like hl h2 ⟨N, by
    show seen (runScript w.withBob N paths (sBob :: build)) = _
    rw [k1 N (Nat.le_refl N)]; rfl⟩
  generalize ho : runScript w depth paths p = out at hd
  cases out with
  | ok a st' =>
    have hd : Seen.ok st'.out st'.scriptVars st'.requests = .ok st.out st.scriptVars st.requests := Option.some.inj hd
    simp only [Seen.ok.injEq] at hd
    obtain ⟨-, hv, hrq⟩ := hd
    obtain ⟨v', hv'⟩ := Option.isSome_iff_exists.1 (hr.knows (x := b!"__bob_has_been_imported__") rfl)
    have hset : setup (.ok a st') = some true := by
      show some _ = some true
      rw [hv, lookup_any (k4 _ _ hv')]
    refine ⟨p, bsysBob true true st'.scriptVars (fun _ => true) (fun _ => true), h1, ⟨depth, fun _ => true, fun _ => true, ?_, ?_⟩, rfl⟩
    · rw [ho]
      unfold bsysOf
      rw [hset]
    · intro s hs pre g hg
      rw [ho] at hs
      cases hs
      rw [hv] at hg
      refine ⟨⟨plainTc, fun _ => false, 1, plain0, plain0, [], by rw [hrq, k2]; rfl, one_step⟩, fun q hq => ?_⟩
      subst hq
      obtain ⟨e, times, t, t', l, h⟩ := hinst _ k4 q g hg
      exact ⟨e, times, t, fun _ => ⟨t', l, h⟩, fun _ => rfl⟩
  | err msg s => cases hd
  | abort s => cases hd
  | ub s => cases hd
  | timeout => cases hd

theorem order_acts {w : World} {paths : List Bytes} (only : ∀ path p, w.file path = .src p → ReadAs bobText p) (names : ∀ path ps, w.list path = some ps → ∀ p ∈ ps, NUL ∉ p)
    (outName : NUL ∉ w.outPath) (bob : ∃ p, w.file (importPath w false b!"bob.fl" paths) = .src p) : ∃ p b, ReadAs orderText p ∧ Acts w paths p b ∧ b.identify = true := by
  obtain ⟨ρ, hr, hi, -⟩ := order_means w.withBob
  refine text_acts only names outName bob order_reads (by decide +kernel) hr fun vars hv q g hg => ?_
  rw [none_map (hv _ _ hi)] at hg
  cases hg
  exact ⟨fun _ => projEnv, fun _ => 0, fun _ => none, _, _, rfl⟩

/-- The test in a directory, with its commands in `/t/bin1` and `/t/bin2`, and the directories of `$PATH` as given. -/
def orderMain (b : Bsys) (path : Bytes) : MainWorld where
  posix := false
  env := [(b!"HOME", b!"/h"), (b!"PATH", path)]
  realpath _ := true
  chdir _ := true
  root := false
  statDot := true
  mkdir _ := true
  there p := p = b!"/usr/local"
  bsys := [b]
  kind p := if p = b!"/t/bin1/test_command" ∨ p = b!"/t/bin2/test_command" then some false else none
  xok _ := true
  execv p _ := p = b!"/t/bin1/test_command" ∨ p = b!"/t/bin2/test_command"

/-- The test, run with `$PATH` being `/bin`, `/t/bin1:/t/bin2:/bin` and `/t/bin2:/t/bin1:/bin`. -/
theorem C104_order_sample : ∃ w b, (∀ path, Started (orderMain b path) w bobPaths orderText) ∧
    Fails (orderMain b b!"/bin") orderArgs ∧
    (∃ env, Becomes (orderMain b b!"/t/bin1:/t/bin2:/bin") orderArgs b!"/t/bin1/test_command" [b!"test_command"] env) ∧
    (∃ env, Becomes (orderMain b b!"/t/bin2:/t/bin1:/bin") orderArgs b!"/t/bin2/test_command" [b!"test_command"] env) := by
  obtain ⟨pb, hb, -⟩ := reads_sound bob_reads
  let w : World := { bobWorld with file := fun p => if p = b!"import/bob.fl" then .src pb else .missing b!"No such file or directory" }
  have only : ∀ path p, w.file path = .src p → ReadAs bobText p := by
    intro path p hp
    dsimp only [w] at hp
    split at hp
    · cases hp; exact hb
    · cases hp
  have names : ∀ path ps, w.list path = some ps → ∀ p ∈ ps, NUL ∉ p := by
    intro path ps hps p hp
    dsimp only [w, bobWorld] at hps
    split at hps
    · cases hps
      simp only [List.mem_cons, List.not_mem_nil, or_false] at hp
      rcases hp with rfl | rfl <;> decide
    · cases hps
  have bob : ∃ p, w.file (importPath w false b!"bob.fl" bobPaths) = .src p := by
    refine ⟨pb, ?_⟩
    dsimp only [w]
    rw [if_pos]
    rfl
  obtain ⟨p, b, h1, h2, h3⟩ := order_acts only names (show NUL ∉ b!"out" by decide) bob
  have hst : ∀ path, Started (orderMain b path) w bobPaths orderText := fun path =>
    ⟨only, names, by show NUL ∉ b!"out"; decide, bob, p, b, h1, h2, by simp [orderMain, h3]⟩
  have hd : ∀ path, OrderDirs (orderMain b path) b!"/t/bin1" b!"/t/bin2" := fun path =>
    ⟨by decide, by decide, ⟨rfl, rfl⟩, ⟨rfl, rfl⟩, fun h => (nomatch h.1), fun h => (nomatch h.1), fun p argv hp => by
      have := hp.1
      simp only [orderMain] at this ⊢
      split at this
      · rename_i h; simpa using h
      · cases this⟩
  have hc : ∀ path, ChecksOk (orderMain b path) { Opts.init with project := some b!"tests/run_path_traversal_order" } := fun path =>
    ⟨rfl, rfl, fun _ => rfl, rfl, rfl, rfl⟩
  have hE : ∀ path, EnvSays b!"PATH" (orderMain b path).env path := fun path => envSays_iff.2 rfl
  have T := fun path => C104_order_test (hst path) (hd path) (hc path) rfl rfl (dirs := [b!"/bin"]) (by simp) (by decide)
  refine ⟨w, b, hst, (T _).1 (hE _) ?_, ?_, ?_⟩
  · intro d hd h
    cases List.mem_singleton.1 hd
    exact nomatch h.1
  · obtain ⟨env, -, h⟩ := (T _).2.1 (hE _)
    exact ⟨env, h⟩
  · obtain ⟨env, -, h⟩ := (T _).2.2 (hE _)
    exact ⟨env, h⟩

/-- `tests/sh.sh` with programs in `/bin` and a build system that has nothing to do. -/
def shMain : MainWorld where
  posix := false
  env := [(b!"SHELL", b!"uname"), (b!"PATH", b!"/bin")]
  realpath _ := true
  chdir _ := true
  root := false
  statDot := true
  mkdir _ := true
  there p := p = b!"/usr/local"
  bsys := [bsysBob true true [(b!"install", .none), (b!"run", .none)] (fun _ => true) (fun _ => true)]
  kind p := if p = b!"/bin/echo" ∨ p = b!"/bin/sh" ∨ p = b!"/bin/uname" then some false else none
  xok _ := true
  execv _ _ := true

/-- The premises of `C104_sh_test` hold there, and its commands stand for those programs. -/
example : ChecksOk shMain .init ∧ InstallOk shMain .init (bsysBob true true [(b!"install", .none), (b!"run", .none)] (fun _ => true) (fun _ => true)) b!".bob/prefix" true ∧
    EnvSays b!"SHELL" shMain.env b!"uname" ∧ shMain.Stands b!".bob/prefix/bin:/bin" b!"echo" b!"/bin/echo" :=
  ⟨⟨rfl, rfl, fun _ => rfl, rfl, rfl, rfl⟩, fun f hf => by cases hf; exact ⟨fun _ => rfl, fun f hf => by cases hf; exact ⟨fun k _ => rfl, by decide +kernel⟩, rfl⟩, envSays_iff.2 rfl,
    .entry (pre := [b!".bob/prefix/bin"]) (post := []) (d := b!"/bin") (fun h => (nomatch h.1)) (by decide) (by decide) ⟨rfl, rfl⟩ (by
      intro x hx
      cases List.mem_singleton.1 hx
      exact fun h => (nomatch h.1))⟩

/-- What the three commands of the test do there. -/
example : ((bobMain shMain [b!"sh", b!"echo", b!"test"]).1.getLast?, (bobMain shMain [b!"sh", b!"--", b!"sh", b!"-c", b!"echo $PATH"]).1.getLast?,
      (bobMain shMain [b!"sh"]).1.getLast?) =
    (let env := [(b!"SHELL", b!"uname"), (b!"PATH", b!".bob/prefix/bin:/bin"), (b!"LD_LIBRARY_PATH", b!".bob/prefix/lib")]
     (some (.exec b!"/bin/echo" [b!"echo", b!"test"] env), some (.exec b!"/bin/sh" [b!"sh", b!"-c", b!"echo $PATH"] env), some (.exec b!"/bin/uname" [b!"uname"] env))) := by
  decide +kernel

end Bob.Fl
