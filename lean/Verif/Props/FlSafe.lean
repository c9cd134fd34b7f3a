import Verif.Lemmas.FlSafeStmt
import Verif.Props.FlCrash
import Verif.Spec.FlHost
/-!
# Disciplined scripts (C69)
-/

namespace Bob.Fl

section
variable {L : Discipline} {C P T : List Nat} {s : St}

theorem inPlace_init (paths : List Bytes) : InPlace .top [] (St.init paths) := ⟨⟨0, [], rfl, fun h => (nomatch h)⟩, fun _ => rfl, fun h => (nomatch h)⟩

theorem safe_script {w : World} (hW : w.Ok L) (n : Nat) (paths : List Bytes) {p : List Stmt} (hp : okStmts L .top p = true) :
    Safe (forEach (interp w n).exec p) (St.init paths) fun _ s => Wf L [] [] [] s :=
  (safe_stmts (safeX hW n).exec hp (wf_init L paths) (inPlace_init paths)).mono fun _ _ h => h.1.wf

theorem Wf.partLive (h : Wf L C P T s) {c p : Nat} (hp : s.Part c p) : (∀ x, s.cells[c]? = some x → x.refs ≠ 0) → ∀ x, s.cells[p]? = some x → x.refs ≠ 0 := by
  have key : ∀ {c e : Nat} {d : Data}, s.Holds c d → e ∈ d.parts → ∀ x, s.cells[e]? = some x → x.refs ≠ 0 := by
    rintro c e d ⟨y, hy, rfl⟩ he x hx
    exact h.live hx (.inl (.inl (.inr (.inl ⟨c, y, hy, he⟩))))
  induction hp with
  | self => exact id
  | elem hd he _ ih => exact fun _ => ih (key hd he)
  | key hd he _ ih => exact fun _ => ih (key hd (List.mem_flatMap.2 ⟨_, he, List.mem_cons_self⟩))
  | value hd he _ ih => exact fun _ => ih (key hd (List.mem_flatMap.2 ⟨_, he, List.mem_cons_of_mem _ List.mem_cons_self⟩))

theorem Wf.notLost (h : Wf L C P T s) {c : Nat} (hc : ∀ x, s.cells[c]? = some x → x.refs ≠ 0) : ¬ s.Lost c := by
  rintro (⟨buf, size, ⟨x, hx, hd⟩, hb⟩ | ⟨f, b, ⟨x, hx, hd⟩, hf, hb⟩)
  · obtain ⟨t, ht, _⟩ := (h.mem.buf c x buf size hx hd).2 (hc x hx)
    rw [hb] at ht
    cases ht
  · obtain ⟨t, ht, _⟩ := (h.mem.body c x f b hx hd hf).2 (hc x hx)
    rw [hb] at ht
    cases ht

theorem Wf.noneLost (h : Wf L C P T s) : s.NoneLost :=
  fun _ _ _ _ _ hx hv hc hp => h.notLost (h.partLive hp fun _ hy => h.live_var hx.1 hv hc hy)

end

/-! ## C69 -/

/-- **C69.**  A script that follows the discipline, as do the files it can import, never makes the interpreter use memory that was released or never there, nor run into an assertion: whatever
the length of the run, it ends normally, or with an error, or for one of the reasons listed. -/
theorem C69_no_memory_errors {L : Discipline} {w : World} (hW : w.Ok L) {p : List Stmt} (hp : okStmts L .top p = true) (n : Nat) (paths : List Bytes) (s : St)
    (h : runScript w n paths p = .ub s ∨ runScript w n paths p = .abort s) : s.cause ∈ [Cause.message, .overflow, .uninit, .returnCall, .host, .whereInst] := by
  have hs := safe_script hW n paths hp
  unfold Safe at hs
  have hc : s.cause ≠ .other := by
    unfold runScript at h
    rcases h with h | h <;> rw [h] at hs <;> exact hs
  revert hc
  cases s.cause <;> simp

/-- **C69.**  When such a script has ended, no variable has a value with a part whose memory was released, and no scope was released either. -/
theorem C69_values_kept {L : Discipline} {w : World} (hW : w.Ok L) {p : List Stmt} (hp : okStmts L .top p = true) {n : Nat} {paths : List Bytes} {s : St}
    (h : runScript w n paths p = .ok () s) : s.NoneLost ∧ ∀ x ∈ s.scopes, x.freed = false := by
  have hw := (safe_script hW n paths hp).get_ok h
  refine ⟨hw.noneLost, fun x hx => ?_⟩
  obtain ⟨i, hi⟩ := List.getElem?_of_mem hx
  exact (hw.shape.scopes i x hi).freed

/-! ## The scripts of the project -/

/-- What is assigned to, and which classes there are, if nothing but `import/bob.fl` is imported. -/
def bobDiscipline : Discipline where
  assigned := [b!"install", b!"run"]
  classes := [b!"Fs", b!"Cc", b!"Linker"]

/-- `build.fl` at the root. -/
def ownBuild : List Stmt := [sBob,
  sLet b!"src" (.bin .add (eMeth (eMeth (eVar b!"Fs") b!"list" [eStr b!"src"]) b!"where" [.lambda [b!"path"] (.expr (.bin .and (eMeth (eVar b!"path") b!"endswith" [eStr b!".c"])
    (.un .not (eMeth (eVar b!"path") b!"startswith" [eStr b!"src/flamingo"]))))]) (.vec [eStr b!"src/flamingo/flamingo.c"])),
  sLet b!"obj" (eMeth (eNew b!"Cc" [b!"-std=c11", b!"-g", b!"-Wall", b!"-Wextra", b!"-Werror", b!"-Wno-unused-parameter", b!"-Isrc", b!"-Isrc/flamingo/runtime"]) b!"compile" [eVar b!"src"]),
  sLet b!"cmd" (eMeth (eNew b!"Linker" [b!"-lm", b!"-lpthread"]) b!"link" [eVar b!"obj"]),
  sSet b!"install" (.map [(eVar b!"cmd", eStr b!"bin/bob"), (eStr b!"import/bob.fl", eStr b!"share/flamingo/import/bob.fl"), (eStr b!"skeletons", eStr b!"share/bob/skeletons")]),
  sSet b!"run" (.vec [eStr b!"bob"])]

/-- `skeletons/c/build.fl`. -/
def skeletonBuild : List Stmt := [sBob,
  sLet b!"src" (eMeth (eMeth (eVar b!"Fs") b!"list" [eStr b!"src"]) b!"where" [.lambda [b!"path"] (.expr (eMeth (eVar b!"path") b!"endswith" [eStr b!".c"]))]),
  sLet b!"obj" (eMeth (eNew b!"Cc" [b!"-std=c99", b!"-Wall", b!"-Wextra", b!"-Werror"]) b!"compile" [eVar b!"src"]),
  sLet b!"cmd" (eMeth (eNew b!"Linker" []) b!"link" [eVar b!"obj"]),
  sSet b!"install" (.map [(eVar b!"cmd", eStr b!"bin/bob-skeleton-c")]),
  sSet b!"run" (.vec [eStr b!"bob-skeleton-c"])]

/-- `tests/frugality/build.fl`. -/
def frugalityBuild : List Stmt := [sBob, sLet b!"src1" (eStr b!"src1.c"), sLet b!"src2" (eStr b!"src2.c"),
  sLet b!"obj" (eMeth (eNew b!"Cc" [b!"-std=c11"]) b!"compile" [.vec [eVar b!"src1", eVar b!"src2"]]),
  sLet b!"linked" (eMeth (eNew b!"Linker" []) b!"link" [eVar b!"obj"]),
  sSet b!"install" (.map [(.index (eVar b!"obj") (eNum b!"0"), eStr b!"obj1.o"), (.index (eVar b!"obj") (eNum b!"1"), eStr b!"obj2.o"), (eVar b!"linked", eStr b!"bin")])]

/-- `tests/chown/build.fl`. -/
def chownBuild : List Stmt := [sBob, sSet b!"install" (.map [(eStr b!"build.fl", eStr b!"share/bob_chown_test.fl")])]

/-- `tests/run_path_traversal_order/build.fl`. -/
def orderBuild : List Stmt := [sBob, sSet b!"run" (.vec [eStr b!"test_command"])]

/-- A world in which `import/bob.fl`, wherever it is, is all there is to import. -/
structure World.OnlyBob (w : World) : Prop where
  file : ∀ path p, w.file path = .src p → p = bobFl
  list : ∀ path ps, w.list path = some ps → ∀ p ∈ ps, NUL ∉ p
  out : NUL ∉ w.outPath

theorem World.OnlyBob.ok {w : World} (h : w.OnlyBob) : w.Ok bobDiscipline :=
  ⟨fun path p hp => by rw [h.file path p hp]; decide +kernel, h.list, h.out, by decide⟩

/-- **C69.**  The build scripts of the project follow the discipline, so that whatever files there are, none of them makes the interpreter use released memory. -/
theorem C69_project_scripts : ∀ p ∈ [ownBuild, skeletonBuild, frugalityBuild, chownBuild, orderBuild], okStmts bobDiscipline .top p = true ∧
    ∀ w : World, w.OnlyBob → ∀ n paths s, (runScript w n paths p = .ok () s → s.NoneLost) ∧
      (runScript w n paths p = .ub s ∨ runScript w n paths p = .abort s → s.cause ∈ [Cause.message, .overflow, .uninit, .returnCall, .host, .whereInst]) := by
  intro p hp
  have hok : okStmts bobDiscipline .top p = true := by
    have hall : ∀ p ∈ [ownBuild, skeletonBuild, frugalityBuild, chownBuild, orderBuild], okStmts bobDiscipline .top p = true := by decide +kernel
    exact hall p hp
  exact ⟨hok, fun w hw n paths s => ⟨fun h => (C69_values_kept hw.ok hok h).1, fun h => C69_no_memory_errors hw.ok hok n paths s h⟩⟩

theorem bobWorld_only : bobWorld.OnlyBob where
  file := by
    intro path p h
    unfold bobWorld at h
    dsimp only at h
    split at h
    · cases h
      rfl
    · cases h
  list := by
    intro path ps h
    unfold bobWorld at h
    dsimp only at h
    split at h
    · cases h
      decide
    · cases h
  out := by decide

/-- They do run. -/
example : ((runScript bobWorld 40 bobPaths ownBuild).requests.map fun r => r.length) = some 2 ∧ ((runScript bobWorld 40 bobPaths frugalityBuild).requests.map fun r => r.length) = some 2 := by
  decide +kernel

/-! ## What is left -/

/-- What a crash is put down to. -/
def Out.cause : Out Unit → Option Cause
  | .ub s => some s.cause
  | .abort s => some s.cause
  | _ => none

/-- **C69.**  Disciplined scripts can still crash for each of the other reasons (no such script is known for `whereInst`). -/
theorem C69_crashes_left (c : Cause) (hc : c ≠ .other) (hw : c ≠ .whereInst) : ∃ L p, okStmts L .top p = true ∧ bobWorld.Ok L ∧ (runScript bobWorld 40 bobPaths p).cause = some c := by
  have hb := bobWorld_only.ok
  cases c with
  | message => exact ⟨bobDiscipline, [sPrint (eVar (List.replicate 208 120))], by decide +kernel, hb, by decide +kernel⟩
  | overflow => exact ⟨bobDiscipline, [sPrint (.bin .add (eNum b!"9223372036854775807") (eNum b!"1"))], by decide +kernel, hb, by decide +kernel⟩
  | uninit => exact ⟨bobDiscipline, [sLet b!"x" (eVar b!"x")], by decide +kernel, hb, by decide +kernel⟩
  | returnCall => exact ⟨bobDiscipline, [sFn b!"f" [] [sRet (eNum b!"1")], sFn b!"g" [] [sRet (eCall (eVar b!"f") [])], sDo (eCall (eVar b!"g") [])], by decide +kernel, hb, by decide +kernel⟩
  | host => exact ⟨bobDiscipline, [sBob, sDo (eMeth (eVar b!"Fs") b!"list" [eNum b!"1"])], by decide +kernel, hb, by decide +kernel⟩
  | whereInst => exact absurd rfl hw
  | other => exact absurd rfl hc

/-- The scripts by which C65 is refuted do not follow any discipline. -/
theorem not_disciplined (L : Discipline) : okStmts L .top mapFrees = false ∧ okStmts L .top callFrees = false ∧ okStmts L .top elemFrees = false ∧ okStmts L .top instFrees = false := by
  refine ⟨Bool.eq_false_iff.2 fun h => ?_, Bool.eq_false_iff.2 fun h => ?_, Bool.eq_false_iff.2 fun h => ?_, Bool.eq_false_iff.2 fun h => ?_⟩
  · simp [mapFrees, okStmts, Stmt.ok, Line.ok, Lhs.ok, sLet, sFn, sSet, sDo, sRet, Discipline.param] at h
    grind
  · simp [callFrees, okStmts, Stmt.ok, Line.ok, Lhs.ok, sLet, sFn, sSet, sRet, Expr.ok, Expr.isOwn, eCall, Expr.isCalm, eVar] at h
    grind
  · simp [elemFrees, okStmts, Stmt.ok, Line.ok] at h
  · simp [instFrees, okStmts, Stmt.ok, Line.ok, Lhs.ok, sLet, sSet, Expr.ok, Expr.isOwn, eCall, Expr.isNew, Expr.isClass, eVar] at h
    grind

end Bob.Fl
