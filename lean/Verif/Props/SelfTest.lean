import Verif.Spec.SelfTest
import Verif.Props.RunTests
/-!
# C107: bob builds bob
-/

namespace Bob.Fl
open Bob.Parse

/-- What is first in the list of directories is found first. -/
theorem first_stands {mw : MainWorld} {dir name path : Bytes} {old : Option Bytes} (hc : COLON ∉ dir) (hn : ¬ mw.Program name) (hp : mw.Program (dir ++ b!"/" ++ name))
    (he : path = (match old with | some p => dir ++ b!":" ++ p | none => dir)) : mw.Stands path name (dir ++ b!"/" ++ name) := by
  cases old with
  | none =>
    refine .entry (pre := []) (post := []) hn ?_ ?_ hp fun _ h => (nomatch h)
    · intro x hx
      cases List.mem_singleton.1 hx
      exact hc
    · rw [he]; simp [List.intercalate]
  | some p =>
    refine .entry (pre := []) (post := strsepAll COLON p) hn ?_ ?_ hp fun _ h => (nomatch h)
    · intro x hx
      rcases List.mem_cons.1 hx with rfl | hx
      · exact hc
      · exact sep_not_mem_strsepAll _ _ _ hx
    · rw [he]
      have hj := strsepAll_join COLON p
      cases hs : strsepAll COLON p with
      | nil => exact (strsepAll_ne_nil _ _ hs).elim
      | cons d ds =>
        rw [hs] at hj
        dsimp only
        rw [← hj]
        simp [List.intercalate]

/-- **C107.** In bob's own project, `bob run` becomes the bob it has just built and installed, with the arguments it was given, but for `--`. -/
theorem C107_run_self {isBob : Bytes → Prop} {mw : MainWorld} {args rest : List Bytes} {o : Opts} (hg : ReadAsOpts mw.posix args o (b!"run" :: rest)) (h : OwnProject isBob mw o)
    (hn : ∀ a ∈ rest, NUL ∉ a) :
    ∃ env, Extended o.out mw.env env ∧ Becomes mw args (o.out ++ b!"/prefix/bin/bob") (b!"bob" :: rest.filter (· ≠ b!"--")) env := by
  obtain ⟨w, paths, ps, hst, -, hl⟩ := h.script
  obtain ⟨ρ, hr, -, hrun⟩ := own_means (w := w.withBob) hl
  obtain ⟨vars, steps, installs, hf, hvars, -⟩ := hst.build (p := ownBuild.tail) own_reads (by decide +kernel) hr
  have hrv : vars.find? (fun v => v.1 == b!"run") = some (b!"run", .vec ([b!"bob"].map some)) := find_lookup (hvars _ _ hrun)
  obtain ⟨h1, -⟩ := (C37_run_command vars rest).1 _ _ hrv
  rw [argv_self hn] at h1
  have hexec : runBob vars rest = .exec (b!"bob" :: rest.filter (· ≠ b!"--")) := h1 (by simp)
  obtain ⟨env, path, hE, hp, hB, -⟩ := C104_run_becomes hg h.checks hf (by simp [bsysBob]) (h.works _ hf).2 rfl hexec (by
    intro a ha
    rcases List.mem_cons.1 ha with rfl | ha
    · decide
    · exact hn a (List.mem_filter.1 ha).1)
  refine ⟨env, hE, ?_⟩
  have hpath := hE.path
  rw [hp] at hpath
  have hpath : path = _ := Option.some.inj hpath
  have hthere : mw.Program (o.out ++ b!"/prefix/bin" ++ b!"/" ++ b!"bob") := by simpa using h.there
  have := hB _ (first_stands (old := getenv b!"PATH" mw.env) (dir := o.out ++ b!"/prefix/bin") ?_ h.here hthere ?_) (h.runs _ _ hthere)
  · simpa using this
  · simp only [List.mem_append, not_or]
    exact ⟨h.colon, by decide⟩
  · rw [hpath]
    cases getenv b!"PATH" mw.env <;> simp

theorem build_self {isBob : Bytes → Prop} {mw : MainWorld} {args : List Bytes} {o : Opts} (hg : ReadAsOpts mw.posix args o [b!"build"]) (h : OwnProject isBob mw o) :
    (bobMain mw args).2 = .exit true := by
  obtain ⟨w, paths, ps, hst, -, hl⟩ := h.script
  obtain ⟨ρ, hr, -, -⟩ := own_means (w := w.withBob) hl
  obtain ⟨vars, steps, installs, hf, -, -⟩ := hst.build (p := ownBuild.tail) own_reads (by decide +kernel) hr
  exact (C35_exit_success_iff mw args).2 ⟨o, b!"build", [], hg, h.checks, _, hf, by simp [bsysBob], .build (h.works _ hf).1⟩

/-- One process after another. -/
theorem self_next {isBob : Bytes → Prop} {posix : Bool} {mw : MainWorld} {args rest args' : List Bytes} {o o' : Opts} {sys : Env → MainWorld} {l : Env → List (MainWorld × List Bytes)}
    (hg : ReadAsOpts mw.posix args o (b!"run" :: rest)) (h : OwnProject isBob mw o) (hn : ∀ a ∈ rest, NUL ∉ a) (ha : rest.filter (· ≠ b!"--") = args') (hl : Later isBob posix sys o')
    (hs : ∀ env, Extended o.out mw.env env → Succeeds isBob ((sys env, args') :: l env)) : ∃ env, Extended o.out mw.env env ∧ Succeeds isBob ((mw, args) :: (sys env, args') :: l env) := by
  obtain ⟨env, hE, hB⟩ := C107_run_self hg h hn
  rw [ha] at hB
  exact ⟨env, hE, .next h.bob (by rw [hl.env]; exact hB) (hs env hE)⟩

/-! ## How the command lines of the test are read -/

theorem reads_build (posix : Bool) : ReadAsOpts posix [b!"build"] .init [b!"build"] := by cases posix <;> rfl
theorem reads_run_build : ReadAsOpts false [b!"run", b!"build"] .init [b!"run", b!"build"] := rfl
theorem reads_out_build (posix : Bool) (out : Bytes) : ReadAsOpts posix [b!"-o", out, b!"build"] (outOpts out) [b!"build"] := by cases posix <;> rfl
theorem reads_self1 (out : Bytes) : ReadAsOpts false (selfArgs1 out) (outOpts out) [b!"run", b!"build"] := rfl
theorem reads_self2 (out out2 : Bytes) : ReadAsOpts false (selfArgs2 out out2) (outOpts out2) [b!"run", b!"run", b!"build"] := rfl
theorem reads_posix (rest : List Bytes) : ReadAsOpts true (b!"run" :: rest) .init (b!"run" :: rest) := rfl
theorem reads_out_posix (out : Bytes) (rest : List Bytes) : ReadAsOpts true (b!"-o" :: out :: b!"run" :: rest) (outOpts out) (b!"run" :: rest) := rfl

/-! ## The test -/

/-- **C107, `tests/bob.sh`, where `getopt` stops at the first operand** (FreeBSD, macOS): as meant.  The first command builds bob in `.bob`, and that bob builds itself in the first
directory.  In the second, the bob from `.bob` builds bob in the first directory, which builds itself in the second. -/
theorem C107_self_test_posix {isBob : Bytes → Prop} {out out2 : Bytes} (hn : NUL ∉ out) (hn2 : NUL ∉ out2) (hd : out ≠ b!"--") (hd2 : out2 ≠ b!"--") {mw : MainWorld} (hp : mw.posix = true)
    (h : OwnProject isBob mw .init) {sys sys' : Env → MainWorld} (hl : Later isBob true sys (outOpts out)) (hl' : Later isBob true sys' (outOpts out2)) :
    (∃ env, Extended b!".bob" mw.env env ∧ Succeeds isBob [(mw, selfArgs1 out), (sys env, [b!"-o", out, b!"build"])]) ∧
    ∃ env env', Extended b!".bob" mw.env env ∧ Extended out env env' ∧
      Succeeds isBob [(mw, selfArgs2 out out2), (sys env, [b!"-o", out, b!"run", b!"-o", out2, b!"build"]), (sys' env', [b!"-o", out2, b!"build"])] := by
  have hr : ∀ l, ReadAsOpts mw.posix (b!"run" :: l) .init (b!"run" :: l) := fun l => by rw [hp]; exact reads_posix l
  refine ⟨self_next (l := fun _ => []) (hr _) h ?_ ?_ hl fun env _ => .last (build_self ?_ (hl.project env)), ?_⟩
  · simp only [List.mem_cons, List.not_mem_nil, or_false, forall_eq_or_imp, forall_eq]
    exact ⟨by decide, hn, by decide⟩
  · simp [hd]
  · rw [hl.posix]; exact reads_out_build true out
  · have hl2 : ∀ env, ∃ env', Extended out env env' ∧ Succeeds isBob [(sys env, [b!"-o", out, b!"run", b!"-o", out2, b!"build"]), (sys' env', [b!"-o", out2, b!"build"])] := by
      intro env
      obtain ⟨env', hE, hs⟩ := self_next (l := fun _ => []) (mw := sys env) (args' := [b!"-o", out2, b!"build"]) (by rw [hl.posix]; exact reads_out_posix out [b!"-o", out2, b!"build"]) (hl.project env)
        (by
          simp only [List.mem_cons, List.not_mem_nil, or_false, forall_eq_or_imp, forall_eq]
          exact ⟨by decide, hn2, by decide⟩) (by simp [hd2]) hl' fun env' _ => .last (build_self (by rw [hl'.posix]; exact reads_out_build true out2) (hl'.project env'))
      rw [hl.env] at hE
      exact ⟨env', hE, hs⟩
    obtain ⟨env, hE, hB⟩ := C107_run_self (rest := [b!"-o", out, b!"run", b!"-o", out2, b!"build"]) (hr _) h (by
      simp only [List.mem_cons, List.not_mem_nil, or_false, forall_eq_or_imp, forall_eq]
      exact ⟨by decide, hn, by decide, by decide, hn2, by decide⟩)
    obtain ⟨env', hE', hs⟩ := hl2 env
    have hf : [b!"-o", out, b!"run", b!"-o", out2, b!"build"].filter (· ≠ b!"--") = [b!"-o", out, b!"run", b!"-o", out2, b!"build"] := by simp [hd, hd2]
    rw [hf] at hB
    exact ⟨env, env', hE, hE', .next h.bob (by rw [hl.env]; exact hB) hs⟩

/-- **C107, `tests/bob.sh`, where `getopt` takes options from everywhere** (glibc): the commands succeed too.  But in the first, bob is built in the given directory and then builds itself in
`.bob`; in the second, bob is built in the second directory, then by that one in `.bob`, and by that one in `.bob` again.  (The two commands are started on different systems `mw` and `mw2`,
because what a script is acted on as depends on the output directory.) -/
theorem C107_self_test_glibc {isBob : Bytes → Prop} {out out2 : Bytes} {mw mw2 : MainWorld} (hp : mw.posix = false) (hp2 : mw2.posix = false) (h : OwnProject isBob mw (outOpts out))
    (h2 : OwnProject isBob mw2 (outOpts out2))
    {sys sys' : Env → MainWorld} (hl : Later isBob false sys .init) (hl' : Later isBob false sys' .init) :
    (∃ env, Extended out mw.env env ∧ Succeeds isBob [(mw, selfArgs1 out), (sys env, [b!"build"])]) ∧
    ∃ env env', Extended out2 mw2.env env ∧ Extended b!".bob" env env' ∧ Succeeds isBob [(mw2, selfArgs2 out out2), (sys env, [b!"run", b!"build"]), (sys' env', [b!"build"])] := by
  have hb : ∀ env, (bobMain (sys env) [b!"build"]).2 = .exit true := fun env => build_self (reads_build _) (hl.project env)
  refine ⟨self_next (l := fun _ => []) (by rw [hp]; exact reads_self1 out) h (by decide) (by decide) hl fun env _ => .last (hb env), ?_⟩
  obtain ⟨env, hE, hB⟩ := C107_run_self (rest := [b!"run", b!"build"]) (by rw [hp2]; exact reads_self2 out out2) h2 (by decide)
  obtain ⟨env', hE', hs⟩ := self_next (l := fun _ => []) (mw := sys env) (args' := [b!"build"]) (by rw [hl.posix]; exact reads_run_build) (hl.project env) (by decide) (by decide) hl'
    fun env' _ => .last (build_self (reads_build _) (hl'.project env'))
  rw [hl.env] at hE'
  exact ⟨env, env', hE, hE', .next h2.bob (by rw [hl.env]; exact hB) hs⟩

/-- **C107 is false** there if the second command should have anything to do with the first directory: it makes no difference which one it is. -/
theorem C107_first_directory_false {mw : MainWorld} (hp : mw.posix = false) (out out' out2 : Bytes) :
    ReadAsOpts mw.posix (selfArgs2 out out2) (outOpts out2) [b!"run", b!"run", b!"build"] ∧ bobMain mw (selfArgs2 out out2) = bobMain mw (selfArgs2 out' out2) := by
  refine ⟨by rw [hp]; exact reads_self2 out out2, ?_⟩
  unfold bobMain
  rw [hp, show getoptScan false none (selfArgs2 out out2) .init [] = _ from reads_self2 out out2, show getoptScan false none (selfArgs2 out' out2) .init [] = _ from reads_self2 out' out2]

end Bob.Fl
