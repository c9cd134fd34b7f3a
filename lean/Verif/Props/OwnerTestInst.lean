import Verif.Props.OwnerTest
import Verif.Props.RunTestsInst
/-!
# A sample for C105: `tests/chown.sh` in `/p`
-/

namespace Bob.Fl
open Bob.Parse

/-- The project, and `/usr/local`. -/
def chownTree : Tree := treeOf [([], .dir 1), ([b!"p"], .dir 5), ([b!"p", b!"build.fl"], .file b!"import bob" 4), ([b!"p", b!".bob"], .dir 5),
  ([b!"usr"], .dir 1), ([b!"usr", b!"local"], .dir 1)]

def chownEnv : InstEnv := { deny := noDeny, cwd := [b!"p"], absOut := b!"/p/.bob", pre := b!"/usr/local" }

theorem chown_installs : ∃ t' l, installAllG (fun _ => chownEnv) (fun _ => 9) { map := some chownMap, pre := some b!"/usr/local" } chownTree = .ok t' l ∧
    t' [b!"usr", b!"local", b!"share", b!"bob_chown_test.fl"] = some (.file b!"import bob" 9) := by
  have h : (match installAllG (fun _ => chownEnv) (fun _ => 9) { map := some chownMap, pre := some b!"/usr/local" } chownTree with
    | .ok t' _ => t' [b!"usr", b!"local", b!"share", b!"bob_chown_test.fl"] == some (.file b!"import bob" 9)
    | _ => false) = true := by decide +kernel
  split at h
  · rename_i t' l he
    exact ⟨t', l, he, by simpa using h⟩
  · cases h

/-- root, in a project of user 1000. -/
def chownOwners : Owners where
  me := 0
  owner := 1000
  absOut := b!"/p/.bob"
  full p := b!"/p/" ++ p

/-- The test can be run, and its file is root's in the end. -/
theorem C105_chown_sample : ∃ mw w, Started mw w bobPaths chownText ∧ chownOwners.inside b!".bob/bob" ∧
    ∃ t' own', Steps (TreeOwn chownOwners) (chownTree, fun _ => 1000) (t', own') ∧ own' [b!"usr", b!"local", b!"share", b!"bob_chown_test.fl"] = 0 := by
  obtain ⟨pb, hb, -⟩ := reads_sound bob_reads
  let w : World := { bobWorld with file := fun p => if p = b!"import/bob.fl" then .src pb else .missing b!"No such file or directory" }
  have only : ∀ path p, w.file path = .src p → ReadAs bobText p := by
    intro path p hp
    dsimp only [w] at hp
    split at hp
    · cases hp; exact hb
    · cases hp
  have names : ∀ path ps, w.list path = some ps → ∀ p ∈ ps, NUL ∉ p := by
    intro path ps hps p hp
    dsimp only [w, bobWorld] at hps
    split at hps
    · cases hps
      simp only [List.mem_cons, List.not_mem_nil, or_false] at hp
      rcases hp with rfl | rfl <;> decide
    · cases hps
  have bob : ∃ p, w.file (importPath w false b!"bob.fl" bobPaths) = .src p := by
    refine ⟨pb, ?_⟩
    dsimp only [w]
    rw [if_pos]
    rfl
  obtain ⟨t', l, h1, h2⟩ := chown_installs
  obtain ⟨ρ, hr, hi⟩ := chown_means w.withBob
  obtain ⟨p, b, k1, k2, k3⟩ := text_acts only names (show NUL ∉ b!"out" by decide) bob chown_reads (by decide +kernel) hr fun vars hv q g hg => by
    rw [chown_map (hv _ _ hi)] at hg
    cases hg
    exact ⟨fun _ => chownEnv, fun _ => 9, chownTree, t', l, h1⟩
  have hs : Started (orderMain b b!"/bin") w bobPaths chownText := ⟨only, names, by show NUL ∉ b!"out"; decide, bob, p, b, k1, k2, by simp [orderMain, k3]⟩
  have hin : chownOwners.inside b!".bob/bob" := ⟨b!"/bob", by decide⟩
  refine ⟨_, w, hs, hin, t', _, Steps.tail (Steps.refl _) (.change chownTree t' (fun _ => 1000)), ?_⟩
  obtain ⟨_, _, _, -, -, -, h⟩ := C105_chown_test hs (e := chownOwners) rfl hin
  refine ((h b!"/usr/local").2 (env := fun _ => chownEnv) (cwd := [b!"p"]) (prePath := [b!"usr", b!"local"]) rfl rfl ?_ ?_ ?_ ?_ ?_ ?_ ?_ h1).2 _ _
    (Steps.tail (Steps.refl _) (.change chownTree t' (fun _ => 1000)))
  · exact ⟨[b!"usr", b!"local"], by simp, by unfold Bob.Plain; decide, Or.inr ⟨by decide, rfl⟩⟩
  · exact ⟨[b!"build.fl"], by simp, by unfold Bob.Plain; decide, Or.inl ⟨by decide, rfl⟩⟩
  · exact treeOf_wf ⟨1, by decide⟩ (by decide)
  · unfold Bob.Apart; decide
  · decide
  · decide
  · decide

end Bob.Fl
