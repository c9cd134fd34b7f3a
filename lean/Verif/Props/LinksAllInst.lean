import Verif.Props.LinksAll
import Verif.Props.LinksAllNone
import Verif.Props.LinksInst
/-!
# C128: samples and what is false
-/

namespace Bob.LinksDemo

/-- The prefix is a link to `/etc`, below which there are no links. -/
def envS : LInstEnv := { env with pre := b!"/p/sbin" }

theorem noLinks_etc : LTree.NoLinks tree [b!"etc"] := by
  intro q l m hq h
  have hall : ∀ x ∈ nodes, [b!"etc"].isPrefixOf x.1 = true → (match x.2 with | .link _ _ => false | _ => true) = true := by decide +kernel
  obtain ⟨x, hx, hx2⟩ := Option.map_eq_some_iff.1 h
  have hp : x.1 = q := by simpa using List.find?_some hx
  have := hall x (List.mem_of_find?_eq_some hx) (List.isPrefixOf_iff_prefix.2 (hp ▸ hq))
  rw [hx2] at this
  cases this

/-- The tree after all entries, if that succeeds. -/
def allOk (e : LInstEnv) (l : List ((Bytes × Bytes) × Nat)) (t : LTree) : Option LTree := match linstallAll e l t with | .ok t => some t | _ => none

theorem allOk_some {e : LInstEnv} {l : List ((Bytes × Bytes) × Nat)} {t t' : LTree} (h : allOk e l t = some t') : linstallAll e l t = .ok t' := by
  unfold allOk at h
  split at h
  · cases h; assumption
  · cases h

/-- `C128_below_partial`: two files, one of them over a file, one in a new directory. -/
example : ∃ t', allOk envS [((b!"a", b!"a"), 9), ((b!"l.so.1", b!"lib/l"), 10)] tree = some t' ∧ LTree.SameOutside tree t' [b!"etc"] ∧ t' [b!"etc", b!"a"] = some (.file b!"mine" 9) ∧
    t' [b!"etc", b!"lib", b!"l"] = some (.file lib1 10) := by
  have hs : (allOk envS [((b!"a", b!"a"), 9), ((b!"l.so.1", b!"lib/l"), 10)] tree).map (fun t => (t [b!"etc", b!"a"], t [b!"etc", b!"lib", b!"l"])) =
    some (some (.file b!"mine" 9), some (.file lib1 10)) := by decide +kernel
  cases h : allOk envS [((b!"a", b!"a"), 9), ((b!"l.so.1", b!"lib/l"), 10)] tree with
  | none => rw [h] at hs; cases hs
  | some t' =>
    rw [h] at hs
    obtain ⟨h1, h2⟩ := Prod.mk.inj (Option.some.inj hs)
    refine ⟨t', rfl, C128_below_partial _ _ _ ?_ ?_ ⟨1, by decide +kernel⟩ noLinks_etc (allOk_some h), h1, h2⟩
    · intro x hx
      rcases List.mem_cons.1 hx with rfl | hx
      · exact ⟨[], b!"a", by decide +kernel, by unfold Plain; decide⟩
      · rw [List.mem_singleton.1 hx]
        exact ⟨[b!"lib"], b!"l", by decide +kernel, by unfold Plain; decide⟩
    · intro x hx
      rcases List.mem_cons.1 hx with rfl | hx
      · exact ⟨b!"mine", [b!"w", b!"a"], 5, by decide +kernel⟩
      · rw [List.mem_singleton.1 hx]
        exact ⟨lib1, [b!"w", b!"l.so.1"], 5, by decide +kernel⟩

/-- `C128_written`: `/etc/a` is written through `/p/bin/a`; `/w/a` stays. -/
example : ∃ t', allOk env [((b!"a", b!"bin/a"), 9)] tree = some t' ∧ t' [b!"etc", b!"a"] ≠ some (.file b!"yours" 2) ∧
    (∃ before key val now after t0 t1, [((b!"a", b!"bin/a"), 9)] = before ++ ((key, val), now) :: after ∧ linstallAll env before tree = .ok t0 ∧
      linstallSingle env key val false now t0 = .copied t1 ∧ linstallAll env after t1 = .ok t' ∧
      LTree.Written (lmkdirs env.deny env.cwd now (destBits (cstr val)) env.pre t0).1 env.cwd (cstr key) (env.pre ++ b!"/" ++ cstr val) [b!"etc", b!"a"]) := by
  have hs : (allOk env [((b!"a", b!"bin/a"), 9)] tree).map (fun t => t [b!"etc", b!"a"]) = some (some (.file b!"mine" 9)) := by decide +kernel
  cases h : allOk env [((b!"a", b!"bin/a"), 9)] tree with
  | none => rw [h] at hs; cases hs
  | some t' =>
    rw [h] at hs
    have h1 : t' [b!"etc", b!"a"] ≠ some (.file b!"yours" 2) := by
      have : t' [b!"etc", b!"a"] = some (.file b!"mine" 9) := Option.some.inj hs
      rw [this]
      decide
    exact ⟨t', rfl, h1, (C128_written _ _ _ (allOk_some h) (c := b!"yours") (m := 2) (by decide +kernel)).resolve_left h1⟩

/-- `C128_every`: a product, a file, and the same file, which is there then; the last is installed as well. -/
example : ∃ t' t0 t1, allOk env [((b!"o", b!"o"), 9), ((b!"a", b!"bin/a"), 9), ((b!"a", b!"bin/a"), 10), ((b!"l.so.1", b!"l"), 11)] tree = some t' ∧ t' [b!"p", b!"l"] = some (.file lib1 11) ∧
    linstallAll env [((b!"o", b!"o"), 9), ((b!"a", b!"bin/a"), 9)] tree = .ok t0 ∧ linstallSingle env b!"a" b!"bin/a" false 10 t0 = .already t1 := by
  have hs : (allOk env [((b!"o", b!"o"), 9), ((b!"a", b!"bin/a"), 9), ((b!"a", b!"bin/a"), 10), ((b!"l.so.1", b!"l"), 11)] tree).map (fun t => t [b!"p", b!"l"]) = some (some (.file lib1 11)) := by
    decide +kernel
  have ha : ((allOk env [((b!"o", b!"o"), 9), ((b!"a", b!"bin/a"), 9)] tree).map fun t => match linstallSingle env b!"a" b!"bin/a" false 10 t with | .already _ => true | _ => false) = some true := by
    decide +kernel
  cases h : allOk env [((b!"o", b!"o"), 9), ((b!"a", b!"bin/a"), 9), ((b!"a", b!"bin/a"), 10), ((b!"l.so.1", b!"l"), 11)] tree with
  | none => rw [h] at hs; cases hs
  | some t' =>
    rw [h] at hs
    obtain ⟨t0, t1, h1, h2, h3⟩ := C128_every (before := [((b!"o", b!"o"), 9), ((b!"a", b!"bin/a"), 9)]) (allOk_some h)
    unfold allOk at ha
    rw [h1] at ha
    have ha := Option.some.inj ha
    dsimp only at ha
    rcases h3 with ⟨h3, -⟩ | h3 | h3
    · rw [h3] at ha; cases ha
    · exact ⟨t', t0, t1, rfl, Option.some.inj hs, h1, h3⟩
    · rw [h3] at ha; cases ha

/-- `a` was changed after the library. -/
def tree3 : LTree := tree.set [b!"w", b!"a"] (.file b!"mine" 6)

/-- Without links below the prefix, installing still need not stay there: an entry may be a link, and a later one is written through it.  Here the project's own library is overwritten. -/
theorem C128_below_false : ¬ ∀ (e : LInstEnv) (P : Path) (l : List ((Bytes × Bytes) × Nat)) (t t' : LTree), (∀ x ∈ l, ∃ vs last, cstr x.1.2 = joinP (vs ++ [last]) ∧ ∀ c ∈ vs ++ [last], Plain c) →
    (∃ m, t.stat true e.cwd e.pre = .ok (P, .dir m)) → LTree.NoLinks t P → linstallAll e l t = .ok t' → LTree.SameOutside t t' P := by
  intro hall
  have hs : (allOk envS [((b!"abs.so", b!"x"), 9), ((b!"a", b!"x"), 10)] tree3).map (fun t => t [b!"w", b!"l.so.1"]) = some (some (.file b!"mine" 10)) := by decide +kernel
  cases h : allOk envS [((b!"abs.so", b!"x"), 9), ((b!"a", b!"x"), 10)] tree3 with
  | none => rw [h] at hs; cases hs
  | some t' =>
    rw [h] at hs
    have h1 : t' [b!"w", b!"l.so.1"] = some (.file b!"mine" 10) := Option.some.inj hs
    have h0 : tree3 [b!"w", b!"l.so.1"] = some (.file lib1 5) := by decide +kernel
    have hn : LTree.NoLinks tree3 [b!"etc"] := by
      intro q l m hq hl
      unfold tree3 at hl
      by_cases e : q = [b!"w", b!"a"]
      · rw [e, LTree.set_self] at hl; cases hl
      · rw [LTree.set_ne e] at hl
        exact noLinks_etc q l m hq hl
    have hv : ∀ x ∈ [((b!"abs.so", b!"x"), 9), ((b!"a", b!"x"), 10)], ∃ vs last, cstr x.1.2 = joinP (vs ++ [last]) ∧ ∀ c ∈ vs ++ [last], Plain c := by
      intro x hx
      refine ⟨[], b!"x", ?_, by unfold Plain; decide⟩
      rcases List.mem_cons.1 hx with rfl | hx
      · decide +kernel
      · rw [List.mem_singleton.1 hx]
        decide +kernel
    rcases hall envS [b!"etc"] _ tree3 t' hv ⟨1, by decide +kernel⟩ hn (allOk_some h) [b!"w", b!"l.so.1"] (by decide) with h2 | ⟨m, m', h2, -⟩
    · rw [h0, h1] at h2
      revert h2
      decide
    · rw [h0] at h2
      cases h2

end Bob.LinksDemo
