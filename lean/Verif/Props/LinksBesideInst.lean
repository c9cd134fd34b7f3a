import Verif.Props.LinksBeside
import Verif.Props.LinksInst
/-!
# C126: samples and what is false
-/

namespace Bob.LinksDemo

/-- Installing several entries one after the other; `none`: one of them was not copied. -/
def afterAll (t : LTree) : List (Bytes × Bytes) → Option LTree
  | [] => some t
  | (key, val) :: rest => match linstallSingle env key val false 9 t with | .copied t => afterAll t rest | _ => none

def lib : Bytes × Bytes := (b!"l.so.1", b!"lib/l.so.1")
def link : Bytes × Bytes := (b!"l.so", b!"lib/l.so")

theorem afterAll_cons {t t' : LTree} {x : Bytes × Bytes} {l : List (Bytes × Bytes)} (h : afterAll t (x :: l) = some t') : ∃ t1, linstallSingle env x.1 x.2 false 9 t = .copied t1 ∧ afterAll t1 l = some t' := by
  unfold afterAll at h
  split at h
  · rename_i t1 h1
    exact ⟨t1, h1, h⟩
  · cases h

theorem afterAll_one {t t1 : LTree} {x : Bytes × Bytes} (h : linstallSingle env x.1 x.2 false 9 t = .copied t1) : afterAll t [x] = some t1 := by
  unfold afterAll
  rw [h]
  rfl

/-- In both orders the link can be read in the end. -/
example : (afterAll tree [lib, link]).map (·.stat true env.cwd b!"/p/lib/l.so") = some (.ok ([b!"p", b!"lib", b!"l.so.1"], .file lib1 9)) ∧
    (afterAll tree [link, lib]).map (·.stat true env.cwd b!"/p/lib/l.so") = some (.ok ([b!"p", b!"lib", b!"l.so.1"], .file lib1 9)) := by decide +kernel

theorem cwd_dir : ∃ m, tree env.cwd = some (.dir m) := ⟨1, by decide +kernel⟩

/-- The hypotheses of `C126_link_before` are met, after the link was installed. -/
example : ∃ t', afterAll tree [link, lib] = some t' ∧ t'.Reads env.cwd b!"/p/lib/l.so" lib1 := by
  have hsome : (afterAll tree [link, lib]).isSome := by decide +kernel
  obtain ⟨t', h⟩ := Option.isSome_iff_exists.1 hsome
  have e1 : (afterAll tree [link]).map (·.stat false env.cwd b!"/p/lib/l.so") = some (.ok ([b!"p", b!"lib", b!"l.so"], .link b!"l.so.1" 9)) := by decide +kernel
  have e2 : (afterAll tree [link]).map (·.stat false env.cwd b!"l.so.1") = some (.ok ([b!"w", b!"l.so.1"], .file lib1 5)) := by decide +kernel
  have e3 : (afterAll tree [link, lib]).map (·.stat true env.cwd b!"/p/lib/l.so.1") = some (.ok ([b!"p", b!"lib", b!"l.so.1"], .file lib1 9)) := by decide +kernel
  have e4 : (afterAll tree [link, lib]).map (·.stat false env.cwd b!"/p/lib/l.so.1") = some (.ok ([b!"p", b!"lib", b!"l.so.1"], .file lib1 9)) := by decide +kernel
  have e5 : (afterAll tree [link, lib]).map (·.stat true env.cwd b!"/p/lib/l.so") = some (.ok ([b!"p", b!"lib", b!"l.so.1"], .file lib1 9)) := by decide +kernel
  rw [h] at e3 e4 e5
  obtain ⟨t1, h1, h2⟩ := afterAll_cons h
  rw [afterAll_one h1] at e1 e2
  obtain ⟨t2, h3, h4⟩ := afterAll_cons h2
  cases h4
  obtain ⟨hs, hc⟩ := copied_sound h1 (c := lib1) ⟨[b!"w", b!"l.so.1"], 5, by decide +kernel⟩ sound cwd_dir
  refine ⟨_, h, C126_link_before (e := env) (dir := b!"lib") (name := b!"l.so.1") (a := b!"l.so") (by unfold Plain; decide) (by unfold Plain; decide) ⟨_, _, _, Option.some.inj e1, rfl⟩ (by decide +kernel) h3
    ⟨_, _, Option.some.inj e2⟩ ?_ ?_ hs hc ?_⟩
  · rintro ⟨p, m, hp⟩
    have := (Option.some.inj e3).symm.trans hp
    cases this
  · rintro l d ⟨p, m, hp, -⟩
    have := (Option.some.inj e4).symm.trans hp
    cases this
  · intro hp
    have := (Option.some.inj e5).symm.trans hp
    cases this

/-- The hypotheses of `C126_link_after` are met, after the library was installed. -/
example : ∃ t', afterAll tree [lib, link] = some t' ∧ t'.Reads env.cwd b!"/p/lib/l.so" lib1 := by
  have hsome : (afterAll tree [lib, link]).isSome := by decide +kernel
  obtain ⟨t', h⟩ := Option.isSome_iff_exists.1 hsome
  have e1 : (afterAll tree [lib]).map (·.stat false env.cwd b!"/p/lib/l.so.1") = some (.ok ([b!"p", b!"lib", b!"l.so.1"], .file lib1 9)) := by decide +kernel
  have e2 : (afterAll tree [lib]).map (·.stat true env.cwd b!"l.so") = some (.ok ([b!"w", b!"l.so.1"], .file lib1 5)) := by decide +kernel
  have e3 : (afterAll tree [lib]).map (·.stat false env.cwd b!"l.so") = some (.ok ([b!"w", b!"l.so"], .link b!"l.so.1" 5)) := by decide +kernel
  have e4 : ∀ f, (afterAll tree [lib]).map (fun t => (lmkdirs env.deny env.cwd 9 (destBits (cstr b!"lib/l.so")) env.pre t).1.stat f env.cwd b!"/p/lib/l.so") = some (.error .noent) := by decide +kernel
  have e5 : (afterAll tree [lib, link]).map (·.stat true env.cwd b!"/p/lib/l.so") = some (.ok ([b!"p", b!"lib", b!"l.so.1"], .file lib1 9)) := by decide +kernel
  rw [h] at e5
  obtain ⟨t1, h1, h2⟩ := afterAll_cons h
  rw [afterAll_one h1] at e1 e2 e3 e4
  obtain ⟨t2, h3, h4⟩ := afterAll_cons h2
  cases h4
  obtain ⟨hs, hc⟩ := copied_sound h1 (c := lib1) ⟨[b!"w", b!"l.so.1"], 5, by decide +kernel⟩ sound cwd_dir
  refine ⟨_, h, C126_link_after (e := env) (dir := b!"lib") (name := b!"l.so.1") (a := b!"l.so") (by unfold Plain; decide) (by unfold Plain; decide) (by decide) ⟨_, _, Option.some.inj e1⟩ (by decide +kernel) h3
    ⟨_, _, Option.some.inj e2⟩ ⟨_, _, _, Option.some.inj e3, rfl⟩ rfl ?_ ?_ hs hc ?_⟩
  · rintro ⟨p, m, hp⟩
    have := (Option.some.inj (e4 true)).symm.trans hp
    cases this
  · rintro l d ⟨p, m, hp, -⟩
    have := (Option.some.inj (e4 false)).symm.trans hp
    cases this
  · intro hp
    have := (Option.some.inj e5).symm.trans hp
    cases this

/-- Later: there is `l.so.2`, with an older time than the installed `l.so.1`, and the link was made to lead to it. -/
def tree2 : LTree := fun p =>
  (([([], .dir 1), ([b!"w"], .dir 20), ([b!"p"], .dir 9), ([b!"p", b!"lib"], .dir 9), ([b!"w", b!"l.so.2"], .file b!"new" 8), ([b!"w", b!"l.so"], .link b!"l.so.2" 20),
    ([b!"p", b!"lib", b!"l.so.1"], .file lib1 9), ([b!"p", b!"lib", b!"l.so"], .link b!"l.so.1" 9)] : List (Path × LNode)).find? (·.1 = p)).map (·.2)

/-- A link that was made to lead to something else, after all that is at the destination, need not be installed again: `l.so` still leads to `l.so.1`. -/
theorem C126_retarget_false : ¬ ∀ (e : LInstEnv) (key val target target' : Bytes) (now m m' m'' : Nat) (t : LTree) (p q q' : Path) (c : Bytes), t.stat false e.cwd (cstr key) = .ok (p, .link target m) →
    t.stat false e.cwd (e.pre ++ b!"/" ++ cstr val) = .ok (q, .link target' m') → t.stat true e.cwd (e.pre ++ b!"/" ++ cstr val) = .ok (q', .file c m'') → target ≠ target' → m' < m → m'' < m →
    ∀ t', linstallSingle e key val false now t ≠ .already t' := by
  intro hall
  have h : (match linstallSingle env b!"l.so" b!"lib/l.so" false 21 tree2 with | .already _ => true | _ => false) = true := by decide +kernel
  split at h
  · rename_i t' h'
    exact hall env b!"l.so" b!"lib/l.so" b!"l.so.2" b!"l.so.1" 21 20 9 9 tree2 [b!"w", b!"l.so"] [b!"p", b!"lib", b!"l.so"] [b!"p", b!"lib", b!"l.so.1"] lib1 (by decide +kernel) (by decide +kernel)
      (by decide +kernel) (by decide) (by decide) (by decide) t' h'
  · cases h

end Bob.LinksDemo
