import Verif.Props.LinksCopies
import Verif.Props.LinksAllInst
/-!
# C129: samples and what is false
-/

namespace Bob.LinksDemo

def two : List ((Bytes × Bytes) × Nat) := [((b!"a", b!"bin/a"), 9), ((b!"l.so.1", b!"lib/l"), 10)]

/-- `C129_copies_partial`: the first of two entries is written through a link; in the end its destination reads as its key. -/
example : ∃ t', allOk env two tree = some t' ∧ t'.Reads env.cwd b!"/p/bin/a" b!"mine" ∧ t'.Reads env.cwd b!"a" b!"mine" := by
  have e1 : (allOk env two tree).map (·.stat true env.cwd b!"/p/bin/a") = some (.ok ([b!"etc", b!"a"], .file b!"mine" 9)) := by decide +kernel
  have e2 : (allOk env two tree).map (·.stat true env.cwd b!"/p/lib/l") = some (.ok ([b!"p", b!"lib", b!"l"], .file lib1 10)) := by decide +kernel
  have e3 : (allOk env two tree).map (·.resolve true env.cwd b!"a") = some (.ok [b!"w", b!"a"]) := by decide +kernel
  cases h : allOk env two tree with
  | none => rw [h] at e1; cases e1
  | some t' =>
    rw [h] at e1 e2 e3
    replace e1 := Option.some.inj e1
    replace e2 := Option.some.inj e2
    replace e3 := Option.some.inj e3
    obtain ⟨r1, -⟩ := LTree.stat_ok.1 e1
    obtain ⟨r2, -⟩ := LTree.stat_ok.1 e2
    have hc : (after b!"a" b!"bin/a").isSome := by decide +kernel
    obtain ⟨t1, ht1⟩ := Option.isSome_iff_exists.1 hc
    have h1 := after_some ht1
    have h2 := allOk_some h
    have hst : linstallAll env two tree = linstallAll env [((b!"l.so.1", b!"lib/l"), 10)] t1 := by
      unfold two
      rw [linstallAll, h1]
    rw [hst] at h2
    refine ⟨t', rfl, C129_copies_partial (e := env) (before := []) (after := [((b!"l.so.1", b!"lib/l"), 10)]) (t := tree) (t0 := tree) (fun x hx => ?_) rfl h1 h2
      ⟨[b!"w", b!"a"], 5, by decide +kernel⟩ (fun x hx => ?_) (fun x hx q hq => ?_) (fun x hx q hq => ?_)⟩
    · rcases List.mem_cons.1 hx with rfl | hx
      · exact ⟨b!"mine", [b!"w", b!"a"], 5, by decide +kernel⟩
      · rw [List.mem_singleton.1 hx]
        exact ⟨lib1, [b!"w", b!"l.so.1"], 5, by decide +kernel⟩
    · rintro ⟨p, m, hp⟩
      rcases List.mem_cons.1 hx with rfl | hx
      · have := e1.symm.trans hp; cases this
      · rw [List.mem_singleton.1 hx] at hp
        have := e2.symm.trans hp; cases this
    · rw [List.mem_singleton.1 hx]
      intro hr
      have h3 := r1.symm.trans hq
      have h4 := r2.symm.trans hr
      cases h3
      revert h4
      decide
    · intro hr
      have h3 := e3.symm.trans hq
      cases h3
      rcases List.mem_cons.1 hx with rfl | hx
      · have h4 := r1.symm.trans hr
        revert h4
        decide
      · rw [List.mem_singleton.1 hx] at hr
        have h4 := r2.symm.trans hr
        revert h4
        decide

/-- The library was made later. -/
def tree4 : LTree := tree.set [b!"w", b!"l.so.1"] (.file lib1 20)

def copiedOf : LSingleRes → Option LTree
  | .copied t => some t
  | _ => none

/-- Destinations that are written differently may lead to the same file, which then reads as the key of the last: `/p/bin/a` is a link to `/etc/a`, and `/p/sbin` to `/etc`. -/
theorem C129_copies_false : ¬ ∀ (e : LInstEnv) (key val c : Bytes) (now : Nat) (l : List ((Bytes × Bytes) × Nat)) (t t1 t' : LTree), linstallSingle e key val false now t = .copied t1 →
    linstallAll e l t1 = .ok t' → t.IsFile e.cwd (cstr key) c → (∀ x ∈ l, ∃ c, t.IsFile e.cwd (cstr x.1.1) c) → (∀ x ∈ l, cstr x.1.2 ≠ cstr val) →
    (∀ x ∈ l, cstr x.1.2 ≠ cstr key) → t'.Reads e.cwd (e.pre ++ b!"/" ++ cstr val) c := by
  intro hall
  have hs : ((copiedOf (linstallSingle env b!"a" b!"bin/a" false 9 tree4)).bind (allOk env [((b!"l.so.1", b!"sbin/a"), 21)])).map (·.stat true env.cwd b!"/p/bin/a") =
    some (.ok ([b!"etc", b!"a"], .file lib1 21)) := by decide +kernel
  cases h1 : linstallSingle env b!"a" b!"bin/a" false 9 tree4 with
  | failed _ => rw [h1] at hs; cases hs
  | abort => rw [h1] at hs; cases hs
  | product => rw [h1] at hs; cases hs
  | already _ => rw [h1] at hs; cases hs
  | copied t1 =>
    rw [h1] at hs
    cases h2 : allOk env [((b!"l.so.1", b!"sbin/a"), 21)] t1 with
    | none => simp only [copiedOf, Option.bind_some, h2] at hs; cases hs
    | some t' =>
      simp only [copiedOf, Option.bind_some, h2] at hs
      obtain ⟨p, m, hp⟩ := hall env b!"a" b!"bin/a" b!"mine" 9 [((b!"l.so.1", b!"sbin/a"), 21)] tree4 t1 t' h1 (allOk_some h2) ⟨[b!"w", b!"a"], 5, by decide +kernel⟩
        (fun x hx => by rw [List.mem_singleton.1 hx]; exact ⟨lib1, [b!"w", b!"l.so.1"], 20, by decide +kernel⟩) (fun x hx => by rw [List.mem_singleton.1 hx]; decide +kernel)
        (fun x hx => by rw [List.mem_singleton.1 hx]; decide +kernel)
      have := (Option.some.inj hs).symm.trans hp
      revert this
      intro this
      have h4 := (Prod.mk.inj (Except.ok.inj this)).2
      injection h4 with h5
      revert h5
      decide

end Bob.LinksDemo
