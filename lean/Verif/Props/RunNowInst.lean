import Verif.Props.RunNow
import Verif.Props.FlTextsInst
import Verif.Props.SelfTestInst
/-!
# Cases of C118
-/

namespace Bob.Fl
open Bob.Parse

/-- Where building has left things like this, and installing works, bob can be such a process. -/
theorem process_of {X : OneProj} {tc : Toolchain} {w : World} {paths : List Bytes} {text pre : Bytes} {bad : Bytes → Bool} {n : Nat} {s s2 : Store} {sg : Bool} {out : Bytes} {fs : FS} {ps : List Bytes}
    (hX : X.Sure text) (hw : ShownText w paths sg out fs ps) (hb : BobBuildText tc w paths text (some pre) bad n s (.finished true s2))
    (hi : ∃ e times t t' l, installAllG e times ⟨some (X.map sg out (X.sources ps)), some pre⟩ t = .ok t' l) :
    ∃ vars, (setupInstallMap vars (some pre) .init).2 = true ∧
      ∀ mw : MainWorld, mw.bsys = [bsysBob true true vars (fun _ => true) (fun _ => true)] → Process mw tc w paths text pre bad n s s2 := by
  obtain ⟨p, hp, depth, st, reqs, g, h1, h2, h3, h4, h5⟩ := hb
  obtain ⟨p', k1, k2⟩ := reads_sound hX.text
  cases hp.unique k1
  have hq := hX.proc hw.shown (bobProc_like (q := ⟨⟨g.pre, g.map.getD [], bad⟩, n, reqs⟩) (withBob_like hw).symm k2.symm ⟨depth, st, g, h1, h2, h3, h4, rfl, rfl⟩)
  simp only [Proc.mk.injEq, InstCfg.mk.injEq, true_and, and_true] at hq
  have hg : g = ⟨some (X.map sg out (X.sources ps)), some pre⟩ := by
    obtain ⟨⟨e1, e2⟩, -⟩ := hq
    obtain ⟨gm, gp⟩ := g
    dsimp only at e1 e2
    subst e1
    cases gm with
    | none => cases e2
    | some m => rw [← e2]; rfl
  refine ⟨st.scriptVars, by rw [h3], fun mw hm => ⟨p, _, depth, fun _ => true, fun _ => true, hp, by rw [hm]; rfl, ?_, ?_⟩⟩
  · unfold bsysOf
    rw [h1, h2]
  · intro st' hst g' hg'
    rw [h1] at hst
    cases hst
    rw [h3] at hg'
    cases hg'
    refine ⟨⟨reqs, h4, h5⟩, ?_⟩
    obtain ⟨e, times, t, t', l, h⟩ := hi
    rw [hg]
    exact ⟨e, times, t, fun _ => ⟨t', l, h⟩, fun _ => rfl⟩

/-! ## A source that comes and goes -/

def nowInst (qs : List Bytes) : InstCfg := ⟨some b!"out/prefix", skeletonProj.map true b!"out" qs, fun _ => false⟩
def nowProg : Bytes := b!"out/prefix/bin/bob-skeleton-c"

@[irreducible] def now1 : Cfg := autoBuild plainTc (nowInst [srcA]) (plainReqs [srcA]) (plain0.later 1)
@[irreducible] def now2 : Cfg := autoBuild plainTc (nowInst [srcA, srcB]) (plainReqs [srcA, srcB]) ((now1.store.later 1).write srcB b!"B")
@[irreducible] def now3 : Cfg := autoBuild plainTc (nowInst [srcA]) (plainReqs [srcA]) ((now2.store.later 1).remove srcB)

theorem now_place (ps : List Bytes) : PlaceOk plainPlan b!"out" (nowInst ps) := by
  intro d hd e he
  cases hd
  cases List.mem_singleton.1 he
  constructor
  · show ¬ b!"src/" <+: b!"out/prefix/bin/bob-skeleton-c"
    decide
  · show ¬ b!"out/bob/" <+: b!"out/prefix/bin/bob-skeleton-c"
    decide

theorem now_kept {ps : List Bytes} (h : plainPlan.lists ps) {n : Nat} (hn : 0 < n) {s : Store} {cfg : Cfg} (hb : BuildReaches plainTc (nowInst ps) n (plainReqs ps) s cfg) {p : Bytes}
    (hp : b!"src/" <+: p) : cfg.store.fs p = s.fs p := by
  have hL := one_layoutOk plainOk (now_place ps)
  have hR := one_reqsOk (flags := skeletonProj.flags) (linkFlags := skeletonProj.linkFlags) plainOk h (by rcases h with rfl | rfl <;> decide) skeleton_right.flags skeleton_right.linkFlags
  refine build_outside hR.ord hn hb p ?_
  rintro o ho (h | h)
  · exact hL.outNotUser o p (reqs_isOut hR o ho) h hp
  · exact hL.destNotUser o p h hp

theorem now1_ends : BuildReaches plainTc (nowInst [srcA]) 1 (plainReqs [srcA]) (plain0.later 1) (.finished true now1.store) := by
  unfold now1
  exact autoBuild_reaches (by decide +kernel)
theorem now2_ends : BuildReaches plainTc (nowInst [srcA, srcB]) 1 (plainReqs [srcA, srcB]) ((now1.store.later 1).write srcB b!"B") (.finished true now2.store) := by
  unfold now2
  exact autoBuild_reaches (by decide +kernel)
theorem now3_ends : BuildReaches plainTc (nowInst [srcA]) 1 (plainReqs [srcA]) ((now2.store.later 1).remove srcB) (.finished true now3.store) := by
  unfold now3
  exact autoBuild_reaches (by decide +kernel)

theorem now1_src {p : Bytes} (hp : b!"src/" <+: p) (h : (now1.store.fs p).isSome) : p = srcA := by
  have := now_kept (Or.inl rfl) (by decide) now1_ends hp
  rw [show now1.store.fs p = _ from this] at h
  exact plain0_src h

theorem now2_src {p : Bytes} (hp : b!"src/" <+: p) (h : (now2.store.fs p).isSome) : p ∈ [srcA, srcB] := by
  have := now_kept (Or.inr rfl) (by decide) now2_ends hp
  rw [show now2.store.fs p = _ from this] at h
  by_cases e : p = srcB
  · simp [e]
  · simp only [Store.write, Store.later, FS.set, e, if_false] at h
    simp [now1_src hp h]

theorem now_shown2 : Shown (plainWorld [srcA, srcB]) bobPaths true b!"out" ((now1.store.later 1).write srcB b!"B").fs [srcA, srcB] := by
  refine plain_shown (Or.inr rfl) fun p hp h => ?_
  by_cases e : p = srcB
  · simp [e]
  · simp only [Store.write, Store.later, FS.set, e, if_false] at h
    simp [now1_src hp h]

theorem now_shown3 : Shown (plainWorld [srcA]) bobPaths true b!"out" ((now2.store.later 1).remove srcB).fs [srcA] := by
  refine plain_shown (Or.inl rfl) fun p hp h => ?_
  by_cases e : p = srcB
  · simp [Store.remove, FS.set, e] at h
  · simp only [Store.remove, Store.later, FS.set, e, if_false] at h
    have := now2_src hp h
    simp only [List.mem_cons, e, List.not_mem_nil, or_false] at this
    simp [this]

/-- What bob does, as a command. -/
theorem now_bob {ps : List Bytes} (h : plainPlan.lists ps) {fs : FS} (hw : Shown (plainWorld ps) bobPaths true b!"out" fs ps) {s : Store} {cfg : Cfg}
    (hb : BuildReaches plainTc (nowInst ps) 1 (plainReqs ps) s cfg) :
    ∃ w, ShownText w bobPaths true b!"out" fs ps ∧ BobBuildText plainTc w bobPaths skeletonText (some b!"out/prefix") (fun _ => false) 1 s cfg := by
  obtain ⟨w, h1, h2⟩ := hw.text
  refine ⟨w, h1, (C101_build_from_text h1 skeleton_reads).2 ?_⟩
  rw [h2, skeleton_iff hw, plain_sources h]
  exact hb

theorem now_life1 : InstLifeText plainTc skeletonProj skeletonText plainPlan true b!"out" nowProg [[srcA]] now1.store := by
  obtain ⟨w, hw, hb⟩ := now_bob (Or.inl rfl) plain_shown1 now1_ends
  exact .built (cfg := .finished true now1.store) (ps := [srcA]) (.start plain_pristine (by decide)) (edit_later _ 1 (by decide)) (fun _ _ => Or.inl rfl) (Or.inl rfl) hw (Or.inl rfl) (now_place [srcA])
    (fun p h => by cases h; rfl) (by decide : 0 < 1) hb

theorem now_edit2 : Edit (plainPlan.layout true b!"out") now1.store ((now1.store.later 1).write srcB b!"B") :=
  edit_write (one_layoutOk plainOk (now_place [])) _ 1 (by decide) _ _ (by show b!"src/" <+: srcB; decide)

theorem now_rec2 : ∀ o, (plainPlan.layout true b!"out").isOut o →
    ((now1.store.later 1).write srcB b!"B").fs (flagsPath o) = now1.store.fs (flagsPath o) ∨ ((now1.store.later 1).write srcB b!"B").fs o = none :=
  fun o ho => Or.inl (by simp [Store.write, Store.later, FS.set, managed_not_src ho (managed_flags o)])

theorem now_copy2 : ((now1.store.later 1).write srcB b!"B").fs nowProg = now1.store.fs nowProg := by
  simp [Store.write, Store.later, FS.set, srcB, nowProg]

theorem now_life2 : InstLifeText plainTc skeletonProj skeletonText plainPlan true b!"out" nowProg [[srcA, srcB], [srcA]] now2.store := by
  obtain ⟨w, hw, hb⟩ := now_bob (Or.inr rfl) now_shown2 now2_ends
  exact .built (cfg := .finished true now2.store) (ps := [srcA, srcB]) now_life1 now_edit2 now_rec2 (Or.inl now_copy2) hw (Or.inr rfl) (now_place [srcA, srcB])
    (fun p h => by cases h; rfl) (by decide : 0 < 1) hb

theorem now_edit3 : Edit (plainPlan.layout true b!"out") now2.store ((now2.store.later 1).remove srcB) := by
  refine ⟨by simp [Store.later, Store.remove], fun q _ => ?_, fun o ho q hq => Or.inl ?_⟩
  · by_cases e : q = srcB
    · exact Or.inr (Or.inl (by simp [Store.remove, FS.set, e]))
    · exact Or.inl (by simp [Store.remove, Store.later, FS.set, e])
  · simp [Store.remove, Store.later, FS.set, managed_not_src ho hq]

theorem now3_files : now3.store.fs.content (progOf true b!"out" [srcA]) = some b!"A" ∧ now3.store.fs.content nowProg = some b!"AB" := by
  decide +kernel

/-- The system these processes run on: the installed program can be run, and perhaps one of that name in the project's directory. -/
def nowMain (own : Bool) (b : Bsys) : MainWorld where
  posix := false
  env := [(b!"HOME", b!"/h"), (b!"PATH", b!"/bin")]
  realpath _ := true
  chdir _ := true
  root := false
  statDot := true
  mkdir _ := true
  there p := p = b!"/usr/local"
  bsys := [b]
  kind p := if p = nowProg ∨ (own ∧ p = b!"bob-skeleton-c") then some false else none
  xok _ := true
  execv _ _ := true

def nowArgs : List Bytes := [b!"-o", b!"out", b!"run", b!"x"]

def nowTree (ps : List Bytes) : Tree := treeOf [([], .dir 1), ([b!"p"], .dir 5), ([b!"p", b!"out"], .dir 5), ([b!"p", b!"out", b!"bob"], .dir 5), ([b!"p", b!"out", b!"prefix"], .dir 5),
  (b!"p" :: strsepAll SLASH (progOf true b!"out" ps), .file b!"program" 5)]

theorem now_installs {ps : List Bytes} (h : plainPlan.lists ps) :
    ∃ e times t t' l, installAllG e times ⟨some (skeletonProj.map true b!"out" (skeletonProj.sources ps)), some b!"out/prefix"⟩ t = .ok t' l := by
  refine ⟨selfEnv b!"out", fun _ => 9, nowTree ps, ?_⟩
  have h : (match installAllG (selfEnv b!"out") (fun _ => 9) ⟨some (skeletonProj.map true b!"out" (skeletonProj.sources ps)), some b!"out/prefix"⟩ (nowTree ps) with
    | .ok _ _ => true
    | _ => false) = true := by rcases h with rfl | rfl <;> decide +kernel
  split at h
  · rename_i t' l he; exact ⟨t', l, he⟩
  · cases h

/-- `bob run` after such a build: what it becomes. -/
theorem now_becomes (own : Bool) {ps : List Bytes} (h : plainPlan.lists ps) {w : World} {fs : FS} (hw : ShownText w bobPaths true b!"out" fs ps) {s s2 : Store}
    (hb : BobBuildText plainTc w bobPaths skeletonText (some b!"out/prefix") (fun _ => false) 1 s (.finished true s2)) :
    ∃ b env, Process (nowMain own b) plainTc w bobPaths skeletonText b!"out/prefix" (fun _ => false) 1 s s2 ∧
      Becomes (nowMain own b) nowArgs (if own then b!"bob-skeleton-c" else nowProg) [b!"bob-skeleton-c", b!"x"] env := by
  obtain ⟨vars, hm, hp⟩ := process_of skeleton_sure hw hb (now_installs h)
  refine ⟨bsysBob true true vars (fun _ => true) (fun _ => true), ?_⟩
  have hP := hp (nowMain own (bsysBob true true vars (fun _ => true) (fun _ => true))) rfl
  obtain ⟨vars', steps, installs, hf, hrv, -⟩ := hP.builds (X := skeletonProj) hw skeleton_reads skeleton_named
  generalize hmw : nowMain own (bsysBob true true vars (fun _ => true) (fun _ => true)) = mw at hP hf
  have he : bsysBob true true vars (fun _ => true) (fun _ => true) = bsysBob true true vars' steps installs := by
    rw [← hmw] at hf
    exact Option.some.inj hf
  have hg : getoptScan mw.posix none nowArgs .init [] = some (outOpts b!"out", b!"run" :: [b!"x"]) := by rw [← hmw]; rfl
  have hc : ChecksOk mw (outOpts b!"out") := by rw [← hmw]; exact ⟨rfl, rfl, fun _ => rfl, rfl, rfl, rfl⟩
  have hi : InstallOk mw (outOpts b!"out") (bsysBob true true vars' steps installs) ((outOpts b!"out").out ++ b!"/prefix") true := by
    rw [← he, ← hmw]
    intro f hf
    cases hf
    refine ⟨fun _ => rfl, fun f hf => ?_, rfl⟩
    cases hf
    refine ⟨fun k hk => rfl, ?_⟩
    beta_reduce
    have : (setupInstallMap vars (some ((outOpts b!"out").out ++ b!"/prefix")) .init).2 = true := hm
    rw [this]
    rfl
  obtain ⟨h1, -⟩ := (C37_run_command vars' [b!"x"]).1 b!"run" [b!"bob-skeleton-c"] (find_lookup hrv)
  have hexec : runBob vars' [b!"x"] = .exec [b!"bob-skeleton-c", b!"x"] := h1 (by decide)
  obtain ⟨env, path, hE, hpath, hB, -⟩ := C104_run_becomes hg hc hf (by simp [bsysBob]) hi rfl hexec (by decide)
  refine ⟨env, hP, hB _ ?_ (by rw [← hmw]; rfl)⟩
  have hpp := hE.path
  rw [hpath, ← hmw] at hpp
  have hpa : path = b!"out/prefix/bin:/bin" := Option.some.inj hpp
  clear hpp
  cases own with
  | true => exact .itself (by rw [← hmw]; exact ⟨rfl, rfl⟩)
  | false =>
    exact .entry (pre := []) (post := [b!"/bin"]) (d := b!"out/prefix/bin") (by rw [← hmw]; exact fun h => nomatch h.1) (by decide) hpa (by rw [← hmw]; exact ⟨rfl, rfl⟩) (fun _ h => nomatch h)

/-- The second time, `bob run` becomes the program of both sources. -/
theorem C118_sample : ∃ w b env, ShownText w bobPaths true b!"out" ((now1.store.later 1).write srcB b!"B").fs [srcA, srcB] ∧
    Becomes (nowMain false b) nowArgs nowProg [b!"bob-skeleton-c", b!"x"] env ∧ now2.store.fs.content nowProg = some b!"AB" ∧
    Linked plainTc now2.store.fs skeletonProj.flags skeletonProj.linkFlags [srcA, srcB] nowProg := by
  obtain ⟨w, hw, hb⟩ := now_bob (Or.inr rfl) now_shown2 now2_ends
  obtain ⟨b, env, hP, hB⟩ := now_becomes false (Or.inr rfl) hw hb
  refine ⟨w, b, env, hw, hB, by decide +kernel, ?_⟩
  exact (C118_skeleton_partial plainTc plainPlan true _ now1.store _ now2.store w bobPaths [srcA, srcB] (fun _ => false) 1 (nowMain false b) (outOpts b!"out") nowArgs [b!"x"] _ _ _ plainOk plainTool
    (by decide) (by decide) now_life1 now_edit2 now_rec2 (Or.inl now_copy2) hw (Or.inr rfl) (now_place [srcA, srcB]) (by decide) (fun _ h => nomatch h.1)
    ⟨Or.inr (by decide), Or.inr (by decide), trivial⟩ rfl hP (fun _ => ⟨rfl, rfl⟩) hB).1

/-- **C118** is false, even if there is no other program of that name: add a source, `bob run`, take it away again, `bob run`, and what runs is the program with the source that is gone. -/
theorem C118_stale_false : ¬ RunsThePresent skeletonProj skeletonText b!"bob-skeleton-c" True fun _ => True := by
  intro h
  obtain ⟨w, hw, hb⟩ := now_bob (Or.inl rfl) now_shown3 now3_ends
  obtain ⟨b, env, hP, hB⟩ := now_becomes false (Or.inl rfl) hw hb
  obtain ⟨⟨objs, h1, x, h2, h3⟩, -⟩ := h plainTc plainPlan true _ now2.store _ now3.store w bobPaths [srcA] (fun _ => false) 1 (nowMain false b) (outOpts b!"out") nowArgs [b!"x"] _ _ _ plainOk plainTool
    (by decide) (by decide) now_life2 now_edit3 (fun o ho => Or.inl (by simp [Store.remove, Store.later, FS.set, managed_not_src ho (managed_flags o)]))
    (Or.inl (by simp [Store.remove, Store.later, FS.set, srcB, skeletonProj, outOpts])) hw (Or.inl rfl) (now_place [srcA]) (by decide) (fun _ h => nomatch h.1)
    trivial rfl hP (fun _ => ⟨rfl, rfl⟩) hB
  rw [plain_sources (Or.inl rfl)] at h1
  cases h1 with
  | cons h4 h5 =>
    cases h5
    obtain ⟨y, h6, h7⟩ := h4
    have h8 : y = b!"A" := by
      have : plainTc.obj now3.store.fs srcA skeletonProj.flags = some b!"A" := by decide +kernel
      rw [this] at h6
      exact (Option.some.inj h6).symm
    have h9 : x = b!"AB" := by
      have h := now3_files.2
      exact Option.some.inj (h3.symm.trans h)
    subst h8 h9
    simp [plainTc, h7] at h2

/-! ## Another program of that name -/

/-- There is one in the project's directory, perhaps from building by hand. -/
def hand0 : Store where
  fs p := if p = srcA then some ⟨b!"A", 1⟩ else if p = b!"bob-skeleton-c" then some ⟨b!"old", 1⟩ else none
  now := 5
  trace := []
  buf _ := []
@[irreducible] def hand1 : Cfg := autoBuild plainTc (nowInst [srcA]) (plainReqs [srcA]) (hand0.later 1)

theorem hand1_ends : BuildReaches plainTc (nowInst [srcA]) 1 (plainReqs [srcA]) (hand0.later 1) (.finished true hand1.store) := by
  unfold hand1
  exact autoBuild_reaches (by decide +kernel)

theorem hand_pristine : Pristine (plainPlan.layout true b!"out") hand0 where
  user := by
    intro p _ f hf
    simp only [hand0] at hf ⊢
    split at hf
    · cases hf; decide
    · split at hf
      · cases hf; decide
      · cases hf
  managed := by
    intro o ho p hp
    have h := (layout_below ho).trans (managed_prefix hp)
    have h1 : p ≠ srcA := by
      rintro rfl
      revert h
      decide
    have h2 : p ≠ b!"bob-skeleton-c" := by
      rintro rfl
      revert h
      decide
    simp only [hand0, h1, h2, if_false]

theorem hand_shown : Shown (plainWorld [srcA]) bobPaths true b!"out" (hand0.later 1).fs [srcA] := by
  refine plain_shown (Or.inl rfl) fun p hp h => ?_
  simp only [hand0, Store.later] at h
  split at h
  · rename_i e; simp [e]
  · split at h
    · rename_i e
      subst e
      revert hp
      decide
    · cases h

/-- **C118** is false, even if no list of sources comes back: a program of that name in the project's directory is run instead. -/
theorem C118_shadowed_false : ¬ RunsThePresent skeletonProj skeletonText b!"bob-skeleton-c" False Onward := by
  intro h
  obtain ⟨w, hw, hb⟩ := now_bob (Or.inl rfl) hand_shown hand1_ends
  obtain ⟨b, env, hP, hB⟩ := now_becomes true (Or.inl rfl) hw hb
  obtain ⟨⟨objs, h1, x, h2, h3⟩, -⟩ := h plainTc plainPlan true [] hand0 (hand0.later 1) hand1.store w bobPaths [srcA] (fun _ => false) 1 (nowMain true b) (outOpts b!"out") nowArgs [b!"x"] _ _ _ plainOk plainTool
    (by decide) (by decide) (.start hand_pristine (by decide)) (edit_later _ 1 (by decide)) (fun _ _ => Or.inl rfl) (Or.inl rfl) hw (Or.inl rfl) (now_place [srcA]) (by decide) (fun h => h.elim)
    ⟨Or.inr (by decide), trivial⟩ rfl hP (fun _ => ⟨rfl, rfl⟩) hB
  rw [plain_sources (Or.inl rfl)] at h1
  cases h1 with
  | cons h4 h5 =>
    cases h5
    obtain ⟨y, h6, h7⟩ := h4
    have h8 : y = b!"A" := by
      have : plainTc.obj hand1.store.fs srcA skeletonProj.flags = some b!"A" := by decide +kernel
      rw [this] at h6
      exact (Option.some.inj h6).symm
    have h9 : x = b!"old" := by
      have h : hand1.store.fs.content b!"bob-skeleton-c" = some b!"old" := by decide +kernel
      exact Option.some.inj (h3.symm.trans h)
    subst h8 h9
    simp [plainTc, h7] at h2

end Bob.Fl
