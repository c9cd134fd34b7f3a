import Verif.Props.Tests
import Verif.Props.BootstrapInst
/-!
# Samples for C122
-/

namespace Bob.Boot
open Bob.Fts

/-- What is in `tests`. -/
def ownTests : List (Bytes × Bool) := [(b!"bob.sh", false), (b!"chown", true), (b!"chown.sh", false), (b!"common.sh", false), (b!"frugality", true), (b!"frugality.sh", false), (b!"install.sh", false),
  (b!"run_path_traversal_order", true), (b!"run_path_traversal_order.sh", false), (b!"sh.sh", false)]

/-- A machine on which the tests pass if they are run with a certain bob. -/
def sampleHost (good : Option File) : Host where
  root := true
  entries _ := ownTests
  isDir _ n := n == b!"src"
  install fs := (fs.set b!"/usr/local/bin/bob" (fs b!".bootstrap/bob"), true)
  test fs _ := (fs.set b!".bob/prefix/bin/bob" good, decide (fs b!"/usr/local/bin/bob" = good))

theorem own_plain : Plain ownTests := by
  have : ownTests.all (fun e => !e.1.isEmpty && e.1.all fun c => !(b!" \t\n*?[/").contains c) = true := by decide
  intro e he
  have h := List.all_eq_true.1 this e he
  simp only [Bool.and_eq_true, Bool.not_eq_true', List.all_eq_true] at h
  refine ⟨fun e' => by rw [e'] at h; exact absurd h.1 (by decide), fun c hc hm => ?_⟩
  have := h.2 c hc
  rw [← Bool.not_eq_true, List.contains_iff_mem] at this
  exact this hm

/-- The tests of bob are those. -/
theorem own_wanted : wanted ownTests = [b!"bob.sh", b!"chown.sh", b!"frugality.sh", b!"install.sh", b!"run_path_traversal_order.sh", b!"sh.sh"] := by decide

/-- The hypotheses of `C122_all_tests_count_partial` hold for them. -/
theorem C122_sample (good : Option File) (fs : FS) : InTurn (sampleHost good) (installed (sampleHost good) fs) (wanted ownTests) (testsFrom (sampleHost good) fs).tests :=
  (C122_all_tests_count_partial (sampleHost good) fs own_plain (fun _ n hn => by
    have hn : n ∈ wanted ownTests := hn
    rw [own_wanted] at hn
    have : ∀ n ∈ [b!"bob.sh", b!"chown.sh", b!"frugality.sh", b!"install.sh", b!"run_path_traversal_order.sh", b!"sh.sh"], (n == b!"src") = false := by decide
    exact this n hn) fun _ => rfl).1

/-- A compiler that accepts nothing. -/
def strictTool : Toolchain where
  deps _ _ _ := none
  obj _ _ _ := none
  diag _ _ _ := []
  objFailRemoves _ _ _ := false
  link _ _ _ _ := none
  linkDiag _ _ _ _ := []
  linkFailRemoves _ _ _ _ := false

/-- A machine with an old bob. -/
def oldFiles : FS := fun p => if p = b!"/usr/local/bin/bob" then some ⟨b!"old", 1⟩ else none

theorem old_boots : Boots (flat [(b!"main.c", .to 1)]) noLinks (.to 0) strictTool oldFiles 5 (cleaned oldFiles) false := by
  have hs : sources (flat [(b!"main.c", .to 1)]) noLinks (.to 0) = some [b!"src/main.c", b!"src/flamingo/flamingo.c"] := by
    unfold sources
    rw [flat_one.2]
    decide
  refine .run hs ?_
  have hc : compiled strictTool (cleaned oldFiles) 5 [b!"src/main.c", b!"src/flamingo/flamingo.c"] = cleaned oldFiles := rfl
  rw [← hc]
  refine .failed (objs := []) ⟨List.nodup_nil, fun p => ⟨fun h => (nomatch h), fun h => ?_⟩⟩ rfl
  rw [hc, cleaned_none h.1] at h
  exact absurd h.2.2 (by decide)

/-- **C122 is false** if a success should mean that the bob made of the sources was tested: nothing was compiled, and all tests passed with a bob that was installed before. -/
theorem C122_present_bob_false : ¬ ∀ (h : Host) (T : Disk) (L : Links) (t : Target) (tc : Toolchain) (fs fs' : FS) (now : Nat) (ok : Bool), h.root = true → Boots T L t tc fs now fs' ok →
    (testsFrom h fs').tests ≠ [] → (testsFrom h fs').status = 0 → ok = true := fun h => by
  have := h (sampleHost (some ⟨b!"old", 1⟩)) _ _ _ _ _ _ _ _ rfl old_boots (by
    have hs := C122_sample (some ⟨b!"old", 1⟩) (cleaned oldFiles)
    rw [own_wanted] at hs
    intro e
    rw [e] at hs
    cases hs) (by decide +kernel)
  cases this

/-- A machine with a test that is called as a directory beside `tests.sh`, and that fails. -/
def hiddenHost : Host where
  root := true
  entries _ := [(b!"common.sh", false), (b!"src", false)]
  isDir _ n := n == b!"src"
  install fs := (fs, true)
  test fs _ := (fs, false)

/-- **C122 is false** for a test with the name of a directory beside `tests.sh`: `[ -d $test ]` looks there instead of in `tests`, so the test is left out, and all tests are said to have passed. -/
theorem C122_all_tests_run_false : ¬ ∀ (h : Host) (fs : FS), Plain (h.entries (installed h fs)) → (∀ fs', h.isDir fs' b!"common.sh" = false) → (testsFrom h fs).status = 0 →
    (testsFrom h fs).tests.map (·.name) = wanted (h.entries (installed h fs)) := fun h => by
  have := h hiddenHost (fun _ => none) (fun e he => by
    have : e = (b!"common.sh", false) ∨ e = (b!"src", false) := by simpa [hiddenHost] using he
    rcases this with rfl | rfl
    · exact own_plain (b!"common.sh", false) (by decide)
    · refine ⟨List.cons_ne_nil _ _, ?_⟩
      show ∀ c ∈ b!"src", c ∉ b!" \t\n*?[/"
      decide) (fun _ => rfl) (by decide +kernel)
  revert this
  decide +kernel

end Bob.Boot
