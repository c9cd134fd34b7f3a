import Verif.Props.LinksAgain
import Verif.Props.LinksAgainDir
import Verif.Props.LinksBesideInst
/-!
# C127: samples and what is false
-/

namespace Bob.LinksDemo

/-- `C127_file_partial`: `a` is installed in a new directory, and then where it is a link to `/etc/a`; the second time nothing is copied. -/
example : (∃ t', after b!"a" b!"share/a" = some t' ∧ linstallSingle env b!"a" b!"share/a" false 11 t' = .already t') ∧
    ∃ t', after b!"a" b!"bin/a" = some t' ∧ linstallSingle env b!"a" b!"bin/a" false 11 t' = .already t' := by
  have go : ∀ val w, (after b!"a" val).map (·.stat true env.cwd (env.pre ++ b!"/" ++ cstr val)) = some (.ok (w, .file b!"mine" 9)) →
      ∃ t', after b!"a" val = some t' ∧ linstallSingle env b!"a" val false 11 t' = .already t' := by
    intro val w hs
    cases h : after b!"a" val with
    | none => rw [h] at hs; cases hs
    | some t' =>
      rw [h] at hs
      refine ⟨t', rfl, C127_file_partial (after_some h) (own := [b!"w", b!"a"]) (c := b!"mine") (m0 := 5) (by decide +kernel) (by decide) ?_⟩
      rintro ⟨p, m, hp⟩
      have := (Option.some.inj hs).symm.trans hp
      cases this
  exact ⟨go b!"share/a" [b!"p", b!"share", b!"a"] (by decide +kernel), go b!"bin/a" [b!"etc", b!"a"] (by decide +kernel)⟩

/-- `C127_link`: a link with an absolute target is not copied again. -/
example : ∃ t', after b!"abs.so" b!"lib/abs.so" = some t' ∧ linstallSingle env b!"abs.so" b!"lib/abs.so" false 11 t' = .already t' := by
  have h : (after b!"abs.so" b!"lib/abs.so").isSome := by decide +kernel
  obtain ⟨t', ht'⟩ := Option.isSome_iff_exists.1 h
  have e1 : (after b!"abs.so" b!"lib/abs.so").map (·.stat true env.cwd b!"abs.so") = some (.ok ([b!"w", b!"l.so.1"], .file lib1 5)) := by decide +kernel
  have e2 : (after b!"abs.so" b!"lib/abs.so").map (·.stat true env.cwd b!"/p/lib/abs.so") = some (.ok ([b!"w", b!"l.so.1"], .file lib1 5)) := by decide +kernel
  have h1 : ∀ f, (lmkdirs env.deny env.cwd 9 (destBits (cstr b!"lib/abs.so")) env.pre tree).1.stat f env.cwd (env.pre ++ b!"/" ++ cstr b!"lib/abs.so") = .error .noent := by decide +kernel
  rw [ht'] at e1 e2
  refine ⟨t', ht', (C127_link (after_some ht') (c := lib1) (target := b!"/w/l.so.1") ⟨[b!"w", b!"l.so.1"], 5, by decide +kernel⟩ ⟨_, [b!"w", b!"abs.so"], 5, by decide +kernel, rfl⟩ rfl ?_ ?_
    (Option.some.inj e1) (by decide +kernel)).2 ⟨_, _, Option.some.inj e2, Nat.le_refl _⟩⟩
  · rintro ⟨p, m, hp⟩
    rw [h1] at hp
    cases hp
  · rintro l d ⟨p, m, hp, -⟩
    rw [h1] at hp
    cases hp

/-- `C127_directory_partial`: a link to a directory with a link in it, to a new place. -/
example : ∃ t', after b!"e" b!"share/d" = some t' ∧ linstallSingle env b!"e" b!"share/d" false 11 t' = .already t' := by
  have h : (after b!"e" b!"share/d").isSome := by decide +kernel
  obtain ⟨t', ht'⟩ := Option.isSome_iff_exists.1 h
  have h1 : (lmkdirs env.deny env.cwd 9 (destBits (cstr b!"share/d")) env.pre tree).1.stat false env.cwd (env.pre ++ b!"/" ++ cstr b!"share/d") = .error .noent := by decide +kernel
  refine ⟨t', ht', C127_directory_partial (after_some ht') (real := [b!"w", b!"d"]) (m0 := 1) (by decide +kernel) (by decide) rfl (fun q n hq => ?_) sound cwd_dir⟩
  rw [h1] at hq
  cases hq

/-- A link that leads nowhere once it is installed is copied again every time: installing twice does not come to rest. -/
theorem C127_again_false : ¬ ∀ (e : LInstEnv) (key val c : Bytes) (now now' : Nat) (t t' : LTree), linstallSingle e key val false now t = .copied t' → t.Reads e.cwd (cstr key) c → now < now' →
    linstallSingle e key val false now' t' = .already t' := by
  intro hall
  have h : (after b!"l.so" b!"lib/l.so").isSome := by decide +kernel
  obtain ⟨t', ht'⟩ := Option.isSome_iff_exists.1 h
  have hs : (after b!"l.so" b!"lib/l.so").map (fun t => match linstallSingle env b!"l.so" b!"lib/l.so" false 11 t with | .copied _ => true | _ => false) = some true := by decide +kernel
  rw [ht'] at hs
  have hs := Option.some.inj hs
  dsimp only at hs
  rw [hall env b!"l.so" b!"lib/l.so" lib1 9 11 tree t' (after_some ht') ⟨[b!"w", b!"l.so.1"], 5, by decide +kernel⟩ (by decide)] at hs
  cases hs

/-- `C125_nowhere`: `/p/gone` leads nowhere, and `a` cannot be installed there. -/
example : ∀ t', linstallSingle env b!"a" b!"gone" false 9 tree ≠ .copied t' ∧ linstallSingle env b!"a" b!"gone" false 9 tree ≠ .already t' := by
  have hs : (lmkdirs env.deny env.cwd 9 (destBits (cstr b!"gone")) env.pre tree).1.stat true env.cwd (env.pre ++ b!"/" ++ cstr b!"gone") = .error .noent := by decide +kernel
  refine C125_nowhere (c := b!"mine") (target := b!"/nowhere") ⟨[b!"w", b!"a"], 5, by decide +kernel⟩ rfl ⟨[b!"p", b!"gone"], 5, by decide +kernel, rfl⟩ fun q n h => ?_
  rw [hs] at h
  cases h

end Bob.LinksDemo
