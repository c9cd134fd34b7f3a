import Verif.Spec.Rough
import Verif.Props.Times
import Verif.Props.FlTexts
/-!
# From the script to the program, whatever happens in between (C114)
-/

namespace Bob.Fl

variable {tc : Toolchain} {w w' : World} {paths : List Bytes} {pre : Option Bytes} {bad : Bytes → Bool} {n : Nat} {X : OneProj} {text : Bytes} {P : Plan} {sg : Bool} {out : Bytes}

theorem bobProc_like {p p' : List Stmt} {q : Proc} (hw : WorldLike true w w') (hp : StmtsLike true p p') (h : BobProc w paths p pre bad n q) : BobProc w' paths p' pre bad n q := by
  obtain ⟨depth, st, g, h1, h2, h3, h4, h5⟩ := h
  have hl := runScript_like hw (Nat.lt_succ_self depth) paths hp
  rw [h1] at hl
  revert hl
  generalize ho : runScript w' (depth + 1) paths p' = o
  intro hl
  cases hl with
  | @ok _ _ st' hs =>
    refine ⟨depth + 1, st', g, ho, ?_, ?_, ?_, h5⟩
    · rw [hs.same]; exact h2
    · rw [hs.same]; exact h3
    · rw [hs.same]; exact h4

/-- `bob build` is: find out what to build, then build it. -/
theorem bobBuild_proc {script : List Stmt} {s : Store} {cfg : Cfg} :
    BobBuild tc w paths script pre bad n s cfg ↔ ∃ q, BobProc w paths script pre bad n q ∧ BuildReaches tc q.c q.n q.reqs s cfg := by
  constructor
  · rintro ⟨depth, st, reqs, g, h1, h2, h3, h4, h5⟩
    exact ⟨⟨_, n, reqs⟩, ⟨depth, st, g, h1, h2, h3, h4, rfl, rfl⟩, h5⟩
  · rintro ⟨⟨c, m, reqs⟩, ⟨depth, st, g, h1, h2, h3, h4, h5, h6⟩, h7⟩
    dsimp only at h4 h5 h6 h7
    subst h5 h6
    exact ⟨depth, st, reqs, g, h1, h2, h3, h4, h7⟩

/-- What a script with a meaning makes bob build. -/
theorem bobProc_described {A : List Bytes} (hW : w.Ok (assigning A)) {p : List Stmt} (hp : okStmts (assigning A) .top p = true)
    (hb : w.file (importPath w false b!"bob.fl" paths) = .src bobFl) {ρ : Names} {r : List Ask} {o : List Bytes} (h : Runs w A bobNames p ρ r o) {q : Proc}
    (hr : BobProc w paths (sBob :: p) pre bad n q) :
    ∃ g, q = ⟨⟨g.pre, g.map.getD [], bad⟩, n, r.map (Ask.req w)⟩ ∧ ∀ v, ρ.lookup b!"install" = some v → setupInstallMap [(b!"install", v.script)] pre .init = (g, true) := by
  obtain ⟨st, N, h1, h2, -, h4⟩ := C72_script_means hW hp hb h
  obtain ⟨depth, st', g, k1, -, k3, k4, k5, k6⟩ := hr
  have e := C64_unique (w := w) (paths := paths) (p := sBob :: p) (o := .ok () st) (o' := .ok () st') ⟨(nomatch ·), N, h1 N (Nat.le_refl N)⟩ ⟨(nomatch ·), depth, k1⟩
  injection e with _ e
  subst e
  rw [h2] at k4
  injection k4 with k4
  refine ⟨g, ?_, fun v hv => ?_⟩
  · cases q
    dsimp only at k4 k5 k6
    rw [k4, k5, k6]
  · rw [← k3]
    unfold setupInstallMap
    rw [find_lookup (h4 _ _ hv)]
    rfl

/-- The script, as statements and as text, is for one program. -/
structure OneProj.Sure (X : OneProj) (text : Bytes) : Prop extends X.Right where
  text : reads text X.script = true
  proc : ∀ {w paths sg out fs ps pre bad n q}, Shown w paths sg out fs ps → BobProc w paths X.script pre bad n q →
    q = ⟨⟨pre, X.map sg out (X.sources ps), bad⟩, n, oneReqs sg out X.flags X.linkFlags (X.sources ps)⟩

theorem skeleton_sure : skeletonProj.Sure skeletonText where
  toRight := skeleton_right
  text := skeletonProj_reads
  proc := by
    intro w paths sg out fs ps pre bad n q hw hb
    obtain ⟨ρ, h1, h2, -⟩ := skeleton_means hw.list
    rw [← hw.signed, ← hw.outPath]
    obtain ⟨g, h3, h4⟩ := bobProc_described (A := [b!"install", b!"run"]) hw.only.ok (by decide +kernel) hw.bob h1 hb
    have h5 := h4 _ h2
    rw [show g = ⟨some _, pre⟩ from (congrArg Prod.fst h5).symm] at h3
    exact h3

theorem own_sure : ownProj.Sure ownText where
  toRight := own_right
  text := ownProj_reads
  proc := by
    intro w paths sg out fs ps pre bad n q hw hb
    obtain ⟨ρ, h1, h2, -⟩ := own_means hw.list
    rw [← hw.signed, ← hw.outPath]
    obtain ⟨g, h3, h4⟩ := bobProc_described (A := [b!"install", b!"run"]) hw.only.ok (by decide +kernel) hw.bob h1 hb
    have h5 := h4 _ h2
    rw [show g = ⟨some _, pre⟩ from (congrArg Prod.fst h5).symm] at h3
    exact h3

/-- What a bob that was started there builds. -/
theorem Launched.proc (hX : X.Sure text) {fs : FS} {ls : List Bytes} {q : Proc} (h : Launched X text P sg out fs ls q) :
    q = ⟨⟨q.c.pre, X.map sg out (X.sources ls), q.c.bad⟩, q.n, oneReqs sg out X.flags X.linkFlags (X.sources ls)⟩ := by
  obtain ⟨w, paths, h1, p, h2, h3⟩ := h.seen
  obtain ⟨p', h4, h5⟩ := reads_sound hX.text
  cases h2.unique h4
  exact hX.proc h1.shown (bobProc_like (withBob_like h1).symm h5.symm h3)

theorem Launched.nodup {fs : FS} {ls : List Bytes} {q : Proc} (h : Launched X text P sg out fs ls q) : ls.Nodup := by
  obtain ⟨w, paths, h1, -⟩ := h.seen
  exact h1.nodup

theorem Launched.reqs (hX : X.Sure text) {fs : FS} {ls : List Bytes} {q : Proc} (h : Launched X text P sg out fs ls q) :
    q.reqs = oneReqs sg out X.flags X.linkFlags (X.sources ls) := (congrArg Proc.reqs (h.proc hX)).trans rfl

theorem Launched.ok (hX : X.Sure text) (hP : P.Ok sg out) {fs : FS} {ls : List Bytes} {q : Proc} (h : Launched X text P sg out fs ls q) :
    ProcOk (P.layout sg out) (oneFlags P sg out X.flags X.linkFlags) q where
  layout := one_layoutOk hP h.place
  reqs := by
    rw [h.reqs hX]
    exact one_reqsOk hP h.sources (hX.nodup _ h.nodup) hX.flags hX.linkFlags
  workers := h.workers
  flags := by
    rw [h.reqs hX]
    exact one_flags hP h.sources
  closed := by
    rw [h.reqs hX]
    intro j hj p hp
    rw [outs_one]
    simp only [oneReqs, List.mem_cons, List.not_mem_nil, or_false, reduceCtorEq, false_or, Req.link.injEq] at hj
    subst hj
    exact Or.inr (List.mem_append_left _ hp)

theorem Rough.lived (hX : X.Sure text) (hP : P.Ok sg out) {s : Store} (h : Rough tc X text P sg out s) :
    Lived tc (P.layout sg out) (oneFlags P sg out X.flags X.linkFlags) s := by
  induction h with
  | start h => exact .start h
  | built _ he hq hr ht hm ih => exact .built ih he (hq.ok hX hP) hr ht hm
  | crowd _ he hqs hr ht hm ih => exact .crowd ih he (fun q hq => let ⟨_, h⟩ := hqs q hq; h.ok hX hP) hr ht hm

/-- Edits with the time at which they are made are such changes. -/
theorem Rough.edits (hX : X.Sure text) (hP : P.Ok sg out) (hT : ToolOk tc (P.layout sg out)) {s s1 : Store} (h : Rough tc X text P sg out s) (he : Edit (P.layout sg out) s s1) :
    Change (P.layout sg out) s s1 := by
  have hL := one_layoutOk (c := ⟨none, [], fun _ => false⟩) hP (fun _ h => nomatch h)
  exact (lived_settled hT hL.linkSrcs (fun o ho => hL.outNotUser o o ho (Or.inl rfl)) (h.lived hX hP)).edits he

/-- **C114.** However the project was edited and built before, by one bob at a time or several, with edits while they were building or without, and with or without being killed while files were being
written (if damaged products were then removed): each bob that now succeeds, while others may be at work, leaves the program linked from the objects of just the present sources, each compiled as
it is now, and nothing of the user's has been touched. -/
theorem C114_program_right (hX : X.Sure text) (hP : P.Ok sg out) (hT : ToolOk tc (P.layout sg out)) {s s1 : Store} (h : Rough tc X text P sg out s) (he : Change (P.layout sg out) s s1) {qs : List Proc}
    (hqs : ∀ q ∈ qs, ∃ ls, Launched X text P sg out s1.fs ls q) {m : Crowd} (hr : CrowdReaches tc qs s1 m) {i : Nat} {q : Proc} (hq : qs[i]? = some q) (hi : m.succeeded i) {ls : List Bytes}
    (hs : Launched X text P sg out s1.fs ls q) :
    Linked tc m.fs X.flags X.linkFlags (X.sources ls) (progOf sg out (X.sources ls)) ∧ ∀ p, P.user p → m.fs p = s1.fs p := by
  obtain ⟨h1, h2⟩ := C115_any_times_partial hT (h.lived hX hP) he (fun q hq => let ⟨_, h⟩ := hqs q hq; h.ok hX hP) hr hq hi
  rw [hs.reqs hX] at h1
  exact ⟨one_linked h1, h2⟩

/-- **C114**, for the C skeleton as it is in its file. -/
theorem C114_skeleton (hP : P.Ok sg out) (hT : ToolOk tc (P.layout sg out)) (hsrc : ∀ p, b!"src/" <+: p → P.user p) {s s1 : Store} (h : Rough tc skeletonProj skeletonText P sg out s)
    (he : Change (P.layout sg out) s s1) {qs : List Proc} (hqs : ∀ q ∈ qs, ∃ ls, Launched skeletonProj skeletonText P sg out s1.fs ls q) {m : Crowd} (hr : CrowdReaches tc qs s1 m) {i : Nat}
    (hi : m.succeeded i) (hin : i < qs.length) :
    ∃ cs : List Bytes, cs.Nodup ∧ (∀ p, p ∈ cs ↔ b!"src/" <+: p ∧ b!".c" <:+ p ∧ (m.fs p).isSome) ∧
      Linked tc m.fs [b!"-std=c99", b!"-Wall", b!"-Wextra", b!"-Werror"] [] cs (linkCookie sg out false (cs.map fun p => genCookie sg out p b!"o")) := by
  obtain ⟨ls, hs⟩ := hqs _ (List.getElem_mem hin)
  obtain ⟨h1, h2⟩ := C114_program_right skeleton_sure hP hT h he hqs hr (List.getElem?_eq_getElem hin) hi hs
  obtain ⟨w, paths, hw, -⟩ := hs.seen
  refine ⟨skeletonProj.sources ls, hw.nodup.filter _, fun p => ⟨fun hq => ?_, fun hq => ?_⟩, h1⟩
  · have hex : (m.fs p).isSome := by
      obtain ⟨objs, h3, -⟩ := h1
      obtain ⟨o, x, h4, -⟩ := forall₂_mem h3 hq
      obtain ⟨items, h5⟩ := hT.objDeps _ _ _ _ h4
      exact (hT.depsOk _ _ _ _ h5).1
    obtain ⟨hq1, hq2⟩ := List.mem_filter.1 hq
    rw [isSuffix_iff] at hq2
    rcases hw.below p hq1 with rfl | hb
    · exact absurd hq2 (by decide)
    · exact ⟨hb, hq2, hex⟩
  · obtain ⟨h3, h4, h5⟩ := hq
    rw [h2 p (hsrc p h3)] at h5
    exact List.mem_filter.2 ⟨hw.all p h3 h5, (isSuffix_iff ..).2 h4⟩

/-- **C114**, for bob's own build script. -/
theorem C114_own (hP : P.Ok sg out) (hT : ToolOk tc (P.layout sg out)) {s s1 : Store} (h : Rough tc ownProj ownText P sg out s)
    (he : Change (P.layout sg out) s s1) {qs : List Proc} (hqs : ∀ q ∈ qs, ∃ ls, Launched ownProj ownText P sg out s1.fs ls q) {m : Crowd} (hr : CrowdReaches tc qs s1 m) {i : Nat} {q : Proc}
    (hq : qs[i]? = some q) (hi : m.succeeded i) {ls : List Bytes} (hs : Launched ownProj ownText P sg out s1.fs ls q) :
    Linked tc m.fs [b!"-std=c11", b!"-g", b!"-Wall", b!"-Wextra", b!"-Werror", b!"-Wno-unused-parameter", b!"-Isrc", b!"-Isrc/flamingo/runtime"] [b!"-lm", b!"-lpthread"]
      (ls.filter (fun p => b!".c".isSuffixOf p && !b!"src/flamingo".isPrefixOf p) ++ [b!"src/flamingo/flamingo.c"])
      (progOf sg out (ownSources ls)) := (C114_program_right own_sure hP hT h he hqs hr hq hi hs).1

end Bob.Fl
