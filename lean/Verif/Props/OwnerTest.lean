import Verif.Props.Owner
import Verif.Props.RunTests
import Verif.Props.Install
/-!
# C105: `tests/chown.sh`
-/

namespace Bob

/-- Installed files are not given away. -/
theorem tree_elsewhere {e : Owners} {a b : Tree × (Path → Nat)} (h : Steps (TreeOwn e) a b) {p : Path} (hp : ¬ isCookie e.absOut (pathStr p) = true) (ha : a.1 p = none) (hb : b.1 p ≠ none) :
    b.2 p = e.me := by
  induction h with
  | refl => exact (hb ha).elim
  | tail _ r ih =>
    cases r with
    | change t t' own =>
      show (if _ then e.me else own p) = e.me
      split
      · rfl
      · rename_i h
        refine ih fun h1 => h ?_
        have h1 : t p = none := h1
        rw [h1]
        simpa [Option.isSome_iff_ne_none] using hb
    | chown t own q hq =>
      show (if p = q then e.owner else own p) = e.me
      rw [if_neg]
      · exact ih hb
      · rintro rfl
        exact hp hq

namespace Fl
open Bob.Parse

def chownMap : List (Bytes × Bytes) := [(b!"build.fl", b!"share/bob_chown_test.fl")]

theorem chown_means (w : World) : ∃ ρ, Runs w [b!"install", b!"run"] bobNames chownBuild.tail ρ [] [] ∧
    ρ.lookup b!"install" = some (.map [(.str b!"build.fl", .str b!"share/bob_chown_test.fl")]) := by
  refine ⟨_, .assign (r := []) (r' := []) rfl (.map (.cons (r := []) (r' := []) (r'' := []) (.value (.str _)) (.value (.str _)) .nil) ?_ ?_) .nil, rfl⟩
  · exact strKeys_proper [(_, _)]
  · exact strKeys_apart (ks := [(_, _)]) (.cons (fun _ h => nomatch h) .nil)

theorem chown_map {vars : List (Bytes × ScriptVal)} (h : vars.lookup b!"install" = some (Val.map [(.str b!"build.fl", .str b!"share/bob_chown_test.fl")]).script) (pre : Option Bytes) :
    setupInstallMap vars pre .init = ({ map := some chownMap, pre := pre }, true) := by
  unfold setupInstallMap
  rw [find_lookup h]
  rfl

/-- Building nothing makes nothing. -/
theorem nothing_made {e : Owners} {tc : Toolchain} {c : InstCfg} {n : Nat} {s : Store} {own : Bytes → Nat} {o : OCfg} (h : OReaches e tc c n [] s own o) :
    (o.cfg.store.fs = s.fs ∧ ((∃ s', o.cfg = .idle [] s') ∨ ∃ s', o.cfg = .finished true s')) ∧ (∀ t, o.due t = none) ∧ ∀ p, o.own p = own p := by
  unfold OReaches at h
  generalize ho : (⟨.idle [] s, own, fun _ => none⟩ : OCfg) = o0 at h
  induction h with
  | refl => subst ho; exact ⟨⟨rfl, .inl ⟨s, rfl⟩⟩, fun _ => rfl, fun _ => rfl⟩
  | tail _ r ih =>
    obtain ⟨⟨h1, h2⟩, h3, h4⟩ := ih
    cases r with
    | @main a b own' due anew ha hd h =>
      rcases h2 with ⟨s', e'⟩ | ⟨s', e'⟩
      · cases e'
        cases h
        refine ⟨⟨h1, .inr ⟨_, rfl⟩⟩, fun t => ?_, fun p => ?_⟩
        · by_cases ht : t = none
          · subst ht; rfl
          · exact (setDue_other ht).trans (h3 t)
        · refine Eq.trans (if_neg ?_) (h4 p)
          intro hh
          rw [Bool.and_eq_true, Bool.or_eq_true] at hh
          rcases hh.2 with hh' | hh'
          · have hs : (s'.fs p).isSome = true := hh.1
            have hn : (s'.fs p).isNone = true := hh'
            cases hx : s'.fs p with
            | none => rw [hx] at hs; cases hs
            | some _ => rw [hx] at hn; cases hn
          · cases ha p hh'
      · cases e'; cases h
    | work => rcases h2 with ⟨s', e'⟩ | ⟨s', e'⟩ <;> cases e'
    | join => rcases h2 with ⟨s', e'⟩ | ⟨s', e'⟩ <;> cases e'
    | tick t h => rcases h2 with ⟨s', e'⟩ | ⟨s', e'⟩ <;> cases e' <;> first | exact ⟨⟨h1, .inl ⟨_, rfl⟩⟩, h3, h4⟩ | exact ⟨⟨h1, .inr ⟨_, rfl⟩⟩, h3, h4⟩
    | chown t p h => cases h.symm.trans (h3 t)

/-- **C105, `tests/chown.sh`.** bob runs as root in a directory of which all belongs to its owner, with the test's script, as it is.  After `bob build` all there belongs to the owner, whatever
was there before; `bob install` puts a file at the place in the script, and it belongs to root if it is not in the output directory. -/
theorem C105_chown_test {mw : MainWorld} {w : World} {paths : List Bytes} (h : Started mw w paths chownText) {e : Owners} (hme : e.me = 0) (hb : e.inside b!".bob/bob") :
    ∃ vars steps installs, mw.bsys.find? (·.identify) = some (bsysBob true true vars steps installs) ∧ (∀ pre, steps pre = true) ∧
      (∀ (there : Bytes → Bool) tc c n s (own : Bytes → Nat) o, (∀ p, own p = e.owner) → OReaches e tc c n [] s (dirsOwn e there b!".bob" false own) o → ∀ p, o.own p = e.owner) ∧
      ∀ pre, setupInstallMap vars (some pre) .init = ({ map := some chownMap, pre := some pre }, true) ∧
        ∀ {env : Bytes → InstEnv} {times : Nat → Nat} {t t' : Tree} {cwd prePath : Path} {l : List (Bytes × Bytes)}, (env pre).absOut = e.absOut → (env pre).cwd = cwd →
          Denotes cwd (env pre).pre prePath → Denotes cwd b!"build.fl" (cwd ++ [b!"build.fl"]) → t.Wf → Bob.Apart (cwd ++ [b!"build.fl"]) (prePath ++ [b!"share", b!"bob_chown_test.fl"]) →
          ¬ isCookie e.absOut (pathStr (cwd ++ [b!"build.fl"])) = true → ¬ isCookie e.absOut (pathStr (prePath ++ [b!"share", b!"bob_chown_test.fl"])) = true →
          t (prePath ++ [b!"share", b!"bob_chown_test.fl"]) = none → installAllG env times { map := some chownMap, pre := some pre } t = .ok t' l →
          Bob.SameData t (cwd ++ [b!"build.fl"]) t' (prePath ++ [b!"share", b!"bob_chown_test.fl"]) ∧
          ∀ own own', Steps (TreeOwn e) (t, own) (t', own') → own' (prePath ++ [b!"share", b!"bob_chown_test.fl"]) = 0 := by
  obtain ⟨ρ, hr, hi⟩ := chown_means w.withBob
  obtain ⟨vars, steps, installs, hf, hvars, hends⟩ := h.build (p := chownBuild.tail) chown_reads (by decide +kernel) hr
  have hinst := hvars _ _ hi
  refine ⟨vars, steps, installs, hf, fun pre => ?_, fun there tc c n s own o h0 ho p => ?_, fun pre => ⟨chown_map hinst _, ?_⟩⟩
  · obtain ⟨⟨_, _, _, _, _, hb⟩, -⟩ := hends pre _ (chown_map hinst pre)
    exact nothing_built hb
  · rw [(nothing_made ho).2.2 p]
    have hc : isCookie e.absOut (e.full b!".bob/bob") = true := by unfold isCookie; rw [List.isPrefixOf_iff_prefix]; exact hb
    have hown : own = fun _ => e.owner := funext h0
    subst hown
    simp only [dirsOwn, mkdirOwn, setOwner, chowns]
    by_cases h1 : p = b!".bob/bob" <;> by_cases h2 : p = b!".bob" <;> cases there b!".bob" <;> cases there b!".bob/bob" <;> simp_all
  · intro env times t t' cwd prePath l habs hcwd hpre hsrc hw hap hnp1 hnp2 hnone hok
    subst hcwd
    let x : Ent := { key := b!"build.fl", val := b!"share/bob_chown_test.fl", src := (env pre).cwd ++ [b!"build.fl"], dst := prePath ++ [b!"share", b!"bob_chown_test.fl"] }
    have hes : EntsOk (env pre) prePath [(x, times 0)] := by
      refine ⟨fun y hy => ?_, fun y hy z hz => ?_, .cons (fun _ h => nomatch h) .nil⟩
      · cases List.mem_singleton.1 hy
        exact ⟨hsrc, [b!"share"], b!"bob_chown_test.fl", by unfold Bob.Plain; decide, by unfold Bob.Plain; decide, rfl, rfl⟩
      · cases List.mem_singleton.1 hy
        cases List.mem_singleton.1 hz
        exact hap
    have hnc : NoClash t [(x, times 0)] := by
      intro y hy c m _ hd
      cases List.mem_singleton.1 hy
      obtain ⟨m, hd⟩ := hd
      rw [show t x.dst = none from hnone] at hd
      cases hd
    have hall : installAll (env pre) (asEntries [(x, times 0)]) t [] = .ok t' l := hok
    rcases C29_install_copies hes hpre hw hnc hall (x, times 0) (by simp) (by unfold Ent.product; rw [habs]; exact hnp1) with ⟨h1, h2⟩ | ⟨-, _, _, _, h2, -⟩
    · refine ⟨h1, fun own own' hs => ?_⟩
      rw [← hme]
      exact tree_elsewhere hs hnp2 hnone h2
    · rw [show t x.dst = none from hnone] at h2
      cases h2

end Fl

end Bob
