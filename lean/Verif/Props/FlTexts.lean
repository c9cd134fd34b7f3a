import Verif.Spec.FlTexts
import Verif.Lemmas.FlLikeCheck
import Verif.Props.FlLayout
import Verif.Props.RoundTrip
import Verif.Props.Whole
/-!
# C101: the scripts of the project, from their texts
-/

namespace Bob.Fl
open Bob.Parse

/-! ## Texts and scripts -/

theorem ReadAs.unique {text : Bytes} {p p' : List Stmt} (h : ReadAs text p) (h' : ReadAs text p') : p = p' := by
  obtain ⟨t, h1, h2⟩ := h
  obtain ⟨t', h3, h4⟩ := h'
  obtain ⟨o, -, ho⟩ := C94_parsing_ends text
  cases ((ho _).1 h1).trans ((ho _).1 h3).symm
  exact Except.ok.inj (h2.symm.trans h4)

/-- What can be read from a text, checked against statements. -/
def reads (text : Bytes) (p : List Stmt) : Bool :=
  match parse text with
  | some (.tree t) =>
    match lower t with
    | .ok p' => likeStmts p p'
    | .error _ => false
  | _ => false

theorem reads_sound {text : Bytes} {p : List Stmt} (h : reads text p = true) : ∃ p', ReadAs text p' ∧ StmtsLike true p p' := by
  unfold reads at h
  split at h
  · rename_i t ht
    split at h
    · rename_i p' hp
      exact ⟨p', ⟨t, (parse_iff _ _).2 ht, hp⟩, likeStmts_sound h⟩
    · cases h
  · cases h

theorem withEnds_like : ∀ ss : List Stmt, StmtsLike true ss (withEnds ss)
  | [] => .nil
  | .skip :: ss => .cons (.refl _) (withEnds_like ss)
  | .block _ :: ss => .cons (.refl _) (withEnds_like ss)
  | .fn _ _ _ _ :: ss => .cons (.refl _) (withEnds_like ss)
  | .cls _ _ _ _ :: ss => .cons (.refl _) (withEnds_like ss)
  | .line _ :: ss => .cons (.refl _) (.right rfl (withEnds_like ss))

/-- **C101.** Every script that is written down as a text is run as if it had not been: what is read from the text does the same. -/
theorem C101_texts_run_as_scripts (w : World) (paths : List Bytes) {p : List Stmt} (h : stmtsProper p = true) :
    ∃ p', (∀ q, ReadAs (scriptText p) q ↔ q = p') ∧ ∀ x, Shows w paths p' x ↔ Shows w paths p x := by
  obtain ⟨t, h1, h2⟩ := C96_written_scripts_are_read_back h
  have hr : ReadAs (scriptText p) (withEnds p) := ⟨t, (h1 _).2 rfl, h2⟩
  exact ⟨withEnds p, fun q => ⟨fun hq => hq.unique hr, fun hq => hq ▸ hr⟩, fun x => (C100_layout_has_no_effect (.refl w) (withEnds_like p) paths x).symm⟩

/-! ## The scripts of the project -/

set_option maxRecDepth 100000 in
theorem bob_reads : reads bobText bobFl = true := by decide +kernel

set_option maxRecDepth 100000 in
theorem own_reads : reads ownText ownBuild = true := by decide +kernel

set_option maxRecDepth 100000 in
theorem skeleton_reads : reads skeletonText skeletonBuild = true := by decide +kernel

set_option maxRecDepth 100000 in
theorem frugality_reads : reads frugalityText frugalityBuild = true := by decide +kernel

set_option maxRecDepth 100000 in
theorem chown_reads : reads chownText chownBuild = true := by decide +kernel

set_option maxRecDepth 100000 in
theorem order_reads : reads orderText orderBuild = true := by decide +kernel

/-- **C101.** The statements used elsewhere for the scripts of the project are what bob reads in their files. -/
theorem C101_project_scripts : ∀ x ∈ [(bobText, bobFl), (ownText, ownBuild), (skeletonText, skeletonBuild), (frugalityText, frugalityBuild), (chownText, chownBuild), (orderText, orderBuild)],
    ∃ p, (∀ q, ReadAs x.1 q ↔ q = p) ∧ StmtsLike true x.2 p := by
  intro x hx
  have : reads x.1 x.2 = true := by
    simp only [List.mem_cons, List.not_mem_nil, or_false] at hx
    rcases hx with rfl | rfl | rfl | rfl | rfl | rfl
    · exact bob_reads
    · exact own_reads
    · exact skeleton_reads
    · exact frugality_reads
    · exact chown_reads
    · exact order_reads
  obtain ⟨p, h1, h2⟩ := reads_sound this
  exact ⟨p, fun q => ⟨fun hq => hq.unique h1, fun hq => hq ▸ h1⟩, h2⟩

/-! ## Using bob with texts -/

theorem bobBuild_like {tc : Toolchain} {w w' : World} {paths : List Bytes} {p p' : List Stmt} {pre : Option Bytes} {bad : Bytes → Bool} {n : Nat} {s : Store} {cfg : Cfg}
    (hw : WorldLike true w w') (hp : StmtsLike true p p') (h : BobBuild tc w paths p pre bad n s cfg) : BobBuild tc w' paths p' pre bad n s cfg := by
  obtain ⟨depth, st, reqs, g, h1, h2, h3, h4, h5⟩ := h
  have hl := runScript_like hw (Nat.lt_succ_self depth) paths hp
  rw [h1] at hl
  revert hl
  generalize ho : runScript w' (depth + 1) paths p' = o
  intro hl
  cases hl with
  | @ok _ _ st' hs =>
    refine ⟨depth + 1, st', reqs, g, ho, ?_, ?_, ?_, h5⟩
    · rw [hs.same]; exact h2
    · rw [hs.same]; exact h3
    · rw [hs.same]; exact h4

/-- The same world with statements instead of texts. -/
def World.withBob (w : World) : World := { w with file := fun path => match w.file path with
  | .src _ => .src bobFl
  | f => f }

theorem withBob_only {w : World} (h : ∀ path p, w.file path = .src p → ReadAs bobText p) : WorldLike true w.withBob w := by
  refine ⟨fun path => ?_, rfl, rfl, rfl, rfl⟩
  have hf := h path
  unfold World.withBob
  dsimp only
  revert hf
  generalize w.file path = f
  intro hf
  cases f with
  | src p =>
    obtain ⟨p', h1, h2⟩ := reads_sound bob_reads
    cases (hf p rfl).unique h1
    exact .src h2
  | _ => exact .refl _

theorem withBob_like {w : World} {paths : List Bytes} {sg : Bool} {out : Bytes} {fs : FS} {ps : List Bytes} (h : ShownText w paths sg out fs ps) : WorldLike true w.withBob w :=
  withBob_only h.only

theorem withBob_src {w : World} {path : Bytes} {p : List Stmt} (h : w.file path = .src p) : w.withBob.file path = .src bobFl := by
  unfold World.withBob
  dsimp only
  rw [h]

theorem withBob_file {w : World} : ∀ path p, w.withBob.file path = .src p → p = bobFl := by
  intro path p hp
  unfold World.withBob at hp
  dsimp only at hp
  split at hp
  · cases hp; rfl
  · rename_i hf
    exact absurd hp (hf p)

theorem ShownText.shown {w : World} {paths : List Bytes} {sg : Bool} {out : Bytes} {fs : FS} {ps : List Bytes} (h : ShownText w paths sg out fs ps) :
    Shown w.withBob paths sg out fs ps where
  signed := h.signed
  outPath := h.outPath
  only := ⟨withBob_file, h.names, h.outName⟩
  bob := by
    obtain ⟨p, hp⟩ := h.bob
    rw [(withBob_like h).importPath] at hp
    exact withBob_src hp
  list := h.list
  nodup := h.nodup
  all := h.all
  below := h.below

/-- **C101.** Using bob with the text of a script of the project is the same as using it with its statements. -/
theorem C101_build_from_text {tc : Toolchain} {w : World} {paths : List Bytes} {sg : Bool} {out : Bytes} {fs : FS} {ps : List Bytes} (hw : ShownText w paths sg out fs ps) {text : Bytes}
    {p : List Stmt} (hp : reads text p = true) {pre : Option Bytes} {bad : Bytes → Bool} {n : Nat} {s : Store} {cfg : Cfg} :
    BobBuildText tc w paths text pre bad n s cfg ↔ BobBuild tc w.withBob paths p pre bad n s cfg := by
  obtain ⟨p', h1, h2⟩ := reads_sound hp
  refine ⟨fun ⟨q, h3, h4⟩ => ?_, fun h => ⟨p', h1, bobBuild_like (withBob_like hw) h2 h⟩⟩
  cases h3.unique h1
  exact bobBuild_like (withBob_like hw).symm h2.symm h4

/-- As `Life`, where bob is used with texts. -/
inductive LifeText (tc : Toolchain) (X : OneProj) (text : Bytes) (P : Plan) (sg : Bool) (out : Bytes) : Store → Prop where
  | start {s} (h : Pristine (P.layout sg out) s) : LifeText tc X text P sg out s
  | built {s s1 cfg w paths ps pre bad n} (h : LifeText tc X text P sg out s) (he : Edit (P.layout sg out) s s1)
      (hrec : ∀ o, (P.layout sg out).isOut o → s1.fs (flagsPath o) = s.fs (flagsPath o) ∨ s1.fs o = none) (hw : ShownText w paths sg out s1.fs ps) (hl : P.lists (X.sources ps))
      (hp : PlaceOk P out ⟨pre, X.map sg out (X.sources ps), bad⟩) (hn : 0 < n) (hb : BobBuildText tc w paths text pre bad n s1 cfg) : LifeText tc X text P sg out cfg.store

theorem LifeText.life {tc : Toolchain} {X : OneProj} {text : Bytes} {P : Plan} {sg : Bool} {out : Bytes} (hx : reads text X.script = true) {s : Store}
    (h : LifeText tc X text P sg out s) : Life tc X P sg out s := by
  induction h with
  | start h => exact .start h
  | built _ he hrec hw hl hp hn hb ih => exact .built ih he hrec hw.shown hl hp hn ((C101_build_from_text hw hx).1 hb)

theorem skeletonProj_reads : reads skeletonText skeletonProj.script = true := skeleton_reads
theorem ownProj_reads : reads ownText ownProj.script = true := own_reads

/-- **C101, from C75.** Take the C skeleton as it is in its file.  Edit the files in `src` as you like, use `bob` as often as you like: if `bob build` succeeds, then the program is linked from the objects of just
the C files that are there now, each compiled as it is now. -/
theorem C101_skeleton {tc : Toolchain} {P : Plan} {sg : Bool} {out : Bytes} {w : World} {paths : List Bytes} {pre : Option Bytes} {bad : Bytes → Bool} {n : Nat} (hP : P.Ok sg out)
    (hT : ToolOk tc (P.layout sg out)) (hsrc : ∀ p, b!"src/" <+: p → P.user p) {s s1 s2 : Store} (h : LifeText tc skeletonProj skeletonText P sg out s)
    (he : Edit (P.layout sg out) s s1) {ps : List Bytes} (hw : ShownText w paths sg out s1.fs ps) (hl : P.lists (skeletonProj.sources ps))
    (hp : PlaceOk P out ⟨pre, skeletonProj.map sg out (skeletonProj.sources ps), bad⟩) (hn : 0 < n) (hb : BobBuildText tc w paths skeletonText pre bad n s1 (.finished true s2)) :
    ∃ qs : List Bytes, qs.Nodup ∧ (∀ p, p ∈ qs ↔ b!"src/" <+: p ∧ b!".c" <:+ p ∧ (s2.fs p).isSome) ∧
      Linked tc s2.fs [b!"-std=c99", b!"-Wall", b!"-Wextra", b!"-Werror"] [] qs (linkCookie sg out false (qs.map fun p => genCookie sg out p b!"o")) :=
  C75_skeleton hP hT hsrc (h.life skeletonProj_reads) he hw.shown hl hp hn ((C101_build_from_text hw skeletonProj_reads).1 hb)

/-- **C101, from C75.** The same for bob itself. -/
theorem C101_own {tc : Toolchain} {P : Plan} {sg : Bool} {out : Bytes} {w : World} {paths : List Bytes} {pre : Option Bytes} {bad : Bytes → Bool} {n : Nat} (hP : P.Ok sg out)
    (hT : ToolOk tc (P.layout sg out)) {s s1 s2 : Store} (h : LifeText tc ownProj ownText P sg out s)
    (he : Edit (P.layout sg out) s s1) {ps : List Bytes} (hw : ShownText w paths sg out s1.fs ps) (hl : P.lists (ownSources ps))
    (hp : PlaceOk P out ⟨pre, ownProj.map sg out (ownSources ps), bad⟩) (hn : 0 < n) (hb : BobBuildText tc w paths ownText pre bad n s1 (.finished true s2)) :
    Linked tc s2.fs [b!"-std=c11", b!"-g", b!"-Wall", b!"-Wextra", b!"-Werror", b!"-Wno-unused-parameter", b!"-Isrc", b!"-Isrc/flamingo/runtime"] [b!"-lm", b!"-lpthread"]
      (ps.filter (fun p => b!".c".isSuffixOf p && !b!"src/flamingo".isPrefixOf p) ++ [b!"src/flamingo/flamingo.c"])
      (progOf sg out (ownSources ps)) :=
  C75_own hP hT (h.life ownProj_reads) he hw.shown hl hp hn ((C101_build_from_text hw ownProj_reads).1 hb)

end Bob.Fl
