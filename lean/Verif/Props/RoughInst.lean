import Verif.Props.Rough
import Verif.Props.TornInst
import Verif.Props.FlTextsInst
/-!
# A concrete case for C114: a project made from the C skeleton, killed while its program was being linked
-/

namespace Bob.Fl
open Bob.Parse

/-- The bob of the skeleton with one source. -/
def plainProc : Proc := ⟨plainInst [srcA], 1, plainReqs [srcA]⟩

theorem bobProc_of {w : World} {paths : List Bytes} {pre : Option Bytes} {bad : Bytes → Bool} {n : Nat} {A : List Bytes} (hW : w.Ok (assigning A)) {p : List Stmt}
    (hp : okStmts (assigning A) .top p = true) (hb : w.file (importPath w false b!"bob.fl" paths) = .src bobFl) {ρ : Names} {r : List Ask} {o : List Bytes} (h : Runs w A bobNames p ρ r o)
    {v : Val} (hv : ρ.lookup b!"install" = some v) {g : InstGlobals} (hg : setupInstallMap [(b!"install", v.script)] pre .init = (g, true)) :
    BobProc w paths (sBob :: p) pre bad n ⟨⟨g.pre, g.map.getD [], bad⟩, n, r.map (Ask.req w)⟩ := by
  obtain ⟨st, N, h1, h2, -, h4⟩ := C72_script_means hW hp hb h
  obtain ⟨v', hv'⟩ := Option.isSome_iff_exists.1 (h.knows (x := b!"__bob_has_been_imported__") rfl)
  refine ⟨N, st, g, h1 N (Nat.le_refl N), congrArg some (lookup_any (h4 _ _ hv')), ?_, h2, rfl, rfl⟩
  rw [← hg]
  unfold setupInstallMap
  rw [find_lookup (h4 _ _ hv)]
  rfl

theorem plain_proc {fs : FS} (hw : Shown (plainWorld [srcA]) bobPaths true b!"out" fs [srcA]) :
    BobProc (plainWorld [srcA]) bobPaths skeletonBuild (some b!"pre") (fun _ => false) 1 plainProc := by
  obtain ⟨ρ, h1, h2, -⟩ := skeleton_means hw.list
  exact bobProc_of (A := [b!"install", b!"run"]) hw.only.ok (by decide +kernel) hw.bob h1 h2 (g := ⟨some _, some b!"pre"⟩) rfl

theorem plain_started {fs : FS} (hall : ∀ p, b!"src/" <+: p → (fs p).isSome → p ∈ [srcA]) : Launched skeletonProj skeletonText plainPlan true b!"out" fs [srcA] plainProc where
  seen := by
    have hw := plain_shown (Or.inl rfl) hall
    obtain ⟨w, h1, h2⟩ := hw.text
    obtain ⟨p, h3, h4⟩ := reads_sound skeletonProj_reads
    exact ⟨w, bobPaths, h1, p, h3, bobProc_like (withBob_like h1) h4 (by rw [h2]; exact plain_proc hw)⟩
  sources := Or.inl rfl
  place := plain_place [srcA]
  workers := by decide

/-- The program of the project. -/
def plainProg : Bytes := progOf true b!"out" [srcA]

/-- Killed while the program was being linked: it is there, and empty. -/
@[irreducible] def roughCfg : Cfg := autoRun plainTc (plainInst [srcA]) 19 (.idle (plainReqs [srcA]) (plain0.later 1))
@[irreducible] def roughCut : Store := roughCfg.store.write plainProg []
/-- It is removed. -/
def roughMend : Store := roughCut.remove plainProg

theorem rough_opened : roughCfg.opened (plainInst [srcA]) = some plainProg := by
  unfold roughCfg
  decide +kernel

theorem rough_run : BuildReaches plainTc (plainInst [srcA]) 1 (plainReqs [srcA]) (plain0.later 1) roughCfg := by
  unfold roughCfg
  exact autoRun_reaches 19 _ (.refl _)

theorem rough_edits : Steps (EditNext plainTc (MidEdit plainTc (plainPlan.layout true b!"out")) plainProc.c plainProc.n) (.idle plainProc.reqs (plain0.later 1)) roughCfg := by
  unfold roughCfg
  exact autoRun_edits 19 (.refl _)

theorem rough_cut_other {q : Bytes} (h : q ≠ plainProg) : roughCut.fs q = roughCfg.store.fs q := by
  unfold roughCut
  exact write_other _ _ h

theorem rough_mend : Rough plainTc skeletonProj skeletonText plainPlan true b!"out" roughMend := by
  refine .built (q := plainProc) (cfg := roughCfg) (s2 := roughCut) (.start plain_pristine.managed) (Rough.edits skeleton_sure plainOk plainTool (.start plain_pristine.managed) (edit_later _ 1 (by decide))) (plain_started fun p _ h => by simp [plain0_src h]) rough_edits ?_
    ⟨rfl, fun p => ?_, fun o ho => ?_⟩
  · unfold roughCut
    exact torn_empty (opened_writing rough_opened)
  · by_cases e : p = plainProg
    · subst e
      exact Or.inr ⟨Or.inr ⟨[srcA], Or.inl rfl, rfl⟩, remove_same _ _⟩
    · exact Or.inl (remove_other _ e)
  · by_cases e : o = plainProg
    · subst e; exact Or.inl (remove_same _ _)
    · refine Or.inr ⟨rough_cut_other e, rough_cut_other fun e' => ?_⟩
      have := congrArg List.getLast? e'
      rw [show plainProg.getLast? = some 108 by decide +kernel] at this
      simp [depsPath] at this

theorem rough_src {p : Bytes} (hp : b!"src/" <+: p) (h : ((roughMend.later 1).fs p).isSome) : p ∈ [srcA] := by
  have hne : p ≠ plainProg := by
    rintro rfl
    revert hp
    decide +kernel
  have h1 : (roughMend.later 1).fs p = roughCfg.store.fs p := (remove_other _ hne).trans (rough_cut_other hne)
  rw [h1, plain_kept (Or.inl rfl) (by decide) rough_run hp] at h
  simp [plain0_src h]

/-- The build after that. -/
def roughEnd (s : Store) : Cfg := autoBuild plainTc (plainInst [srcA]) (plainReqs [srcA]) (s.later 1)

theorem rough_facts : roughCut.fs.content plainProg = some [] ∧ (roughEnd roughMend).result = some true ∧ (roughEnd roughMend).store.fs.content plainProg = some b!"A" ∧
    (roughEnd roughCut).result = some true ∧ (roughEnd roughCut).store.fs.content plainProg = some [] := by
  unfold roughMend roughCut roughCfg
  decide +kernel

/-- The program is right if what was half written was removed (and, as `rough_facts` shows, is not if it was left). -/
example : Linked plainTc (roughEnd roughMend).store.fs skeletonProj.flags skeletonProj.linkFlags [srcA] plainProg := by
  have hs := plain_started (fs := (roughMend.later 1).fs) fun p hp h => rough_src hp h
  have hb := autoBuild_reaches rough_facts.2.1
  exact (C114_program_right (i := 0) (q := plainProc) (qs := [plainProc]) (ls := [srcA]) skeleton_sure plainOk plainTool rough_mend (rough_mend.edits skeleton_sure plainOk plainTool (edit_later _ 1 (by decide)))
    (fun q hq => ⟨[srcA], by cases List.mem_singleton.1 hq; exact hs⟩) (crowd_of_one hb) rfl ⟨_, rfl⟩ hs).1

end Bob.Fl
