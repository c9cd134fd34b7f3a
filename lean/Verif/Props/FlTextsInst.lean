import Verif.Props.FlTexts
import Verif.Props.WholeInst
/-!
# Samples for C101: a directory with one C file, the skeleton and `bob`
-/

namespace Bob.Fl
open Bob.Parse

theorem Shown.text {w : World} {paths : List Bytes} {sg : Bool} {out : Bytes} {fs : FS} {ps : List Bytes} (h : Shown w paths sg out fs ps) :
    ∃ w', ShownText w' paths sg out fs ps ∧ w'.withBob = w := by
  obtain ⟨p, h1, h2⟩ := reads_sound bob_reads
  let w' : World := { w with file := fun path => match w.file path with
    | .src _ => .src p
    | f => f }
  have hl : WorldLike true w w' := by
    refine ⟨fun path => ?_, rfl, rfl, rfl, rfl⟩
    dsimp only [w']
    have := h.only.file path
    revert this
    generalize w.file path = f
    intro hf
    cases f with
    | src q => cases hf q rfl; exact .src h2
    | _ => exact .refl _
  refine ⟨w', ⟨h.signed, h.outPath, fun path q hq => ?_, h.only.list, h.only.out, ⟨p, ?_⟩, h.list, h.nodup, h.all, h.below⟩, ?_⟩
  · dsimp only [w'] at hq
    split at hq
    · cases hq; exact h1
    · rename_i hf
      exact absurd hq (hf q)
  · rw [hl.importPath]
    dsimp only [w']
    rw [h.bob]
  · have : w'.withBob.file = w.file := by
      funext path
      have := h.only.file path
      unfold World.withBob
      dsimp only [w']
      revert this
      generalize w.file path = f
      intro hf
      cases f with
      | src q => cases hf q rfl; rfl
      | _ => rfl
    show ({ w with file := w'.withBob.file } : World) = w
    rw [this]

/-- A project with one C file, made from the skeleton and built once. -/
theorem C101_sample : ∃ w, ShownText w bobPaths true b!"out" (plain0.later 1).fs [srcA] ∧
    BobBuildText plainTc w bobPaths skeletonText (some b!"pre") (fun _ => false) 1 (plain0.later 1) plain1 := by
  obtain ⟨w, h1, h2⟩ := plain_shown1.text
  refine ⟨w, h1, (C101_build_from_text h1 skeleton_reads).2 ?_⟩
  rw [h2]
  exact plain_bob (Or.inl rfl) plain_shown1 plain1_run

end Bob.Fl
