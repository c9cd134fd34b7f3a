import Verif.Props.Place
/-!
# C123, C124: samples and what is false
-/

namespace Bob.PlaceDemo

/-- `/w/a` and `/w/b` are projects, each with a program `tool` that it has built; there is another directory `b` in `/w/a`, and `/bin/tool`. -/
def tree : Tree := fun p =>
  if p ∈ [[], [b!"bin"], [b!"w"], [b!"w", b!"a"], [b!"w", b!"b"], [b!"w", b!"a", b!"b"], [b!"w", b!"a", b!".bob"], [b!"w", b!"a", b!".bob", b!"prefix"],
      [b!"w", b!"a", b!".bob", b!"prefix", b!"bin"], [b!"w", b!"b", b!".bob"], [b!"w", b!"b", b!".bob", b!"prefix"], [b!"w", b!"b", b!".bob", b!"prefix", b!"bin"]] then some (.dir 1)
  else if p = [b!"w", b!"a", b!".bob", b!"prefix", b!"bin", b!"tool"] then some (.file b!"a" 2)
  else if p = [b!"w", b!"b", b!".bob", b!"prefix", b!"bin", b!"tool"] then some (.file b!"b" 2)
  else if p = [b!"bin", b!"tool"] then some (.file b!"old" 1)
  else none

def env : Env := [(b!"PATH", b!"/bin")]

/-- A build system that is there in `/w/b` only; the instruction `build` succeeds. -/
def view (d : Path) : MainWorld where
  posix := false
  env := []
  realpath _ := true
  chdir _ := true
  root := false
  statDot := true
  mkdir _ := true
  there _ := true
  bsys := [{ bsysStub with identify := d == [b!"w", b!"b"] }]
  kind _ := none
  xok _ := false
  execv _ _ := false

def machine : Machine Path := .onTree false env tree view

theorem built : mainAt machine [b!"w", b!"b"] [b!"build"] = ([.mkdir b!".bob"], .exit true) := by decide +kernel

/-- The hypotheses of `C123_project_directory` are met, and the instruction is done there: from `/w`, and from `/w/a` by going up. -/
example : mainAt machine [b!"w"] [b!"-C", b!"b", b!"build"] = ([.mkdir b!".bob"], .exit true) ∧ mainAt machine [b!"w", b!"a"] [b!"-C../b", b!"build"] = ([.mkdir b!".bob"], .exit true) := by
  have hs : tree.stat [b!"w"] b!"b" = .ok ([b!"w", b!"b"], .dir 1) := by decide +kernel
  have hs' : tree.stat [b!"w", b!"a"] b!"../b" = .ok ([b!"w", b!"b"], .dir 1) := by decide +kernel
  have hn : NoMove false [b!"build"] := by
    intro o rest h
    have : getoptScan false none [b!"build"] .init [] = some (.init, [b!"build"]) := by decide
    rw [this] at h
    cases h
    rfl
  obtain ⟨h1, h2⟩ := C123_on_tree false env tree view hs
  obtain ⟨h1', h2'⟩ := C123_on_tree false env tree view hs'
  exact ⟨(C123_project_directory (m := machine) h1 h2 hn).1.trans built, ((C123_project_directory (m := machine) h1' h2' hn).2 (by decide)).trans built⟩

/-- A directory that is not there. -/
example : mainAt machine [b!"w"] [b!"-C", b!"c", b!"build"] = ([], .exit false) :=
  C123_no_directory (m := machine) (d := [b!"w"]) (p := b!"c") (by decide +kernel) (args := [b!"build"]) (by
    intro o rest h
    have : getoptScan false none [b!"build"] .init [] = some (.init, [b!"build"]) := by decide
    rw [show machine.posix = false from rfl, this] at h
    cases h
    rfl)

/-- **C123, false.** Giving a project directory is not like going there if another one follows: `bob -C a -C b build` in `/w` builds `/w/b`, and started in `/w/a`, with `-C b`, it would try
`/w/a/b` (and fail). -/
theorem C123_twice_false : ¬ ∀ (m : Machine Path) (d d' : Path) (p : Bytes) (args : List Bytes), m.cd d p = some d' → m.Stays d' → mainAt m d (b!"-C" :: p :: args) = mainAt m d' args := by
  intro h
  have := h machine [b!"w"] [b!"w", b!"a"] b!"a" [b!"-C", b!"b", b!"build"] (by decide +kernel) (by unfold Machine.Stays; decide +kernel)
  exact absurd this (by decide +kernel)

/-! ## Going elsewhere -/

def shell : Env := setupEnvironment b!".bob" env

theorem shell_extended (out : Bytes) (env : Env) : Extended out env (setupEnvironment out env) := by
  obtain ⟨e1, e2, e3⟩ := C36_environment out env
  refine ⟨?_, ?_, e3⟩
  · rw [e1]; cases getenv b!"PATH" env <;> simp [withFirst]
  · rw [e2]; cases getenv b!"LD_LIBRARY_PATH" env <;> simp [withFirst]

theorem shell_path : getenv b!"PATH" shell = some b!".bob/prefix/bin:/bin" := by decide

theorem own : RunsAs tree (fun _ => true) [b!"w", b!"a"] b!".bob/prefix/bin/tool" [b!"w", b!"a", b!".bob", b!"prefix", b!"bin", b!"tool"] :=
  ⟨⟨b!"a", 2, by decide +kernel⟩, rfl⟩

/-- **C124, false.** In the shell of `/w/a`, `tool` is the one that was built; after `cd ../b` it is the one of another project, and after `cd /` the one that was installed before. -/
theorem C124_anywhere_false :
    ¬ (∀ (out : Bytes) (env env' : Env) (t : Tree) (x : Path → Bool) (proj e : Path) (name l : Bytes) (q : Path), COLON ∉ out → Extended out env env' →
        getenv b!"PATH" env' = some l → RunsAs t x proj (out ++ b!"/prefix/bin/" ++ name) q → Finds t x e l name q) ∧
    Finds tree (fun _ => true) [b!"w", b!"a"] b!".bob/prefix/bin:/bin" b!"tool" [b!"w", b!"a", b!".bob", b!"prefix", b!"bin", b!"tool"] ∧
    Finds tree (fun _ => true) [b!"w", b!"b"] b!".bob/prefix/bin:/bin" b!"tool" [b!"w", b!"b", b!".bob", b!"prefix", b!"bin", b!"tool"] ∧
    Finds tree (fun _ => true) [] b!".bob/prefix/bin:/bin" b!"tool" [b!"bin", b!"tool"] := by
  have hx := shell_extended b!".bob" env
  have hb : Finds tree (fun _ => true) [b!"w", b!"b"] b!".bob/prefix/bin:/bin" b!"tool" [b!"w", b!"b", b!".bob", b!"prefix", b!"bin", b!"tool"] := by
    obtain ⟨l, h1, h2, -⟩ := C124_elsewhere (t := tree) (x := fun _ => true) (name := b!"tool") (by decide) hx [b!"w", b!"b"]
    cases h1.symm.trans shell_path
    exact h2 _ ⟨⟨b!"b", 2, by decide +kernel⟩, rfl⟩
  refine ⟨fun h => ?_, ?_, hb, ?_⟩
  · exact absurd ((h _ _ _ _ _ _ [b!"w", b!"b"] b!"tool" _ _ (by decide) hx shell_path own).unique hb) (by decide)
  · obtain ⟨l, h1, h2⟩ := C124_staying_partial (by decide) hx own
    cases h1.symm.trans shell_path
    exact h2
  · obtain ⟨l, h1, -, h2⟩ := C124_elsewhere (t := tree) (x := fun _ => true) (name := b!"tool") (by decide) hx []
    cases h1.symm.trans shell_path
    refine (h2 ?_ _).2 ⟨b!"/bin", rfl, [], b!"/bin", [], by decide, ⟨⟨b!"old", 1, by decide +kernel⟩, rfl⟩, fun y hy => nomatch hy⟩
    rintro q ⟨⟨c, m, h⟩, -⟩
    have : tree.stat [] (b!".bob" ++ b!"/prefix/bin/" ++ b!"tool") = .error .noent := by decide +kernel
    rw [this] at h
    cases h

/-- The hypotheses of `C124_absolute_partial` are met: with `-o /w/a/.bob` the program that was built is found from `/w/b`. -/
example : ∃ l, getenv b!"PATH" (setupEnvironment b!"/w/a/.bob" env) = some l ∧
    Finds tree (fun _ => true) [b!"w", b!"b"] l b!"tool" [b!"w", b!"a", b!".bob", b!"prefix", b!"bin", b!"tool"] :=
  C124_absolute_partial (out := b!"/w/a/.bob") (by decide) (by decide) (shell_extended _ _) (proj := [b!"w", b!"a"]) ⟨⟨b!"a", 2, by decide +kernel⟩, rfl⟩ _

/-- A machine in which bob has something to become. -/
def machine' : Machine Path := .onTree false env tree fun _ =>
  { view [] with bsys := [bsysBob true true [(b!"install", .none)] (fun _ => true) fun _ => true], kind := fun p => if p = b!"/bin/sh" then some false else none, xok := fun _ => true, execv := fun _ _ => true }

/-- The hypotheses of `C124_environment` are met: `bob -C a sh` in `/w` becomes `/bin/sh`, with that list of directories. -/
example : MainAct.exec b!"/bin/sh" [b!"sh"] shell ∈ (mainAt machine' [b!"w"] [b!"-C", b!"a", b!"sh", b!"sh"]).1 ∧
    ∃ out, .install (out ++ b!"/prefix") ∈ (mainAt machine' [b!"w"] [b!"-C", b!"a", b!"sh", b!"sh"]).1 ∧ Extended out env shell := by
  have h : MainAct.exec b!"/bin/sh" [b!"sh"] shell ∈ (mainAt machine' [b!"w"] [b!"-C", b!"a", b!"sh", b!"sh"]).1 := by decide +kernel
  exact ⟨h, C124_environment machine' _ _ (fun _ => ⟨_, _, _, _, _, rfl⟩) _ _ _ h⟩

end Bob.PlaceDemo
