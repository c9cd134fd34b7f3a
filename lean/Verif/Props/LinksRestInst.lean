import Verif.Props.LinksRest
import Verif.Props.LinksCopiesInst
/-!
# C127, for all entries: samples and what is false
-/

namespace Bob.LinksDemo

/-- `C127_all_partial`: two entries, one of them written through a link; then both are installed again in the other order, one of them twice. -/
example : ∃ t', allOk env two tree = some t' ∧ linstallAll env [((b!"l.so.1", b!"lib/l"), 30), ((b!"a", b!"bin/a"), 31), ((b!"l.so.1", b!"lib/l"), 2)] t' = .ok t' := by
  have e1 : (allOk env two tree).map (·.stat true env.cwd b!"/p/bin/a") = some (.ok ([b!"etc", b!"a"], .file b!"mine" 9)) := by decide +kernel
  have e2 : (allOk env two tree).map (·.stat true env.cwd b!"/p/lib/l") = some (.ok ([b!"p", b!"lib", b!"l"], .file lib1 10)) := by decide +kernel
  have e3 : (allOk env two tree).map (·.resolve true env.cwd b!"a") = some (.ok [b!"w", b!"a"]) := by decide +kernel
  have e4 : (allOk env two tree).map (·.resolve true env.cwd b!"l.so.1") = some (.ok [b!"w", b!"l.so.1"]) := by decide +kernel
  cases h : allOk env two tree with
  | none => rw [h] at e1; cases e1
  | some t' =>
    rw [h] at e1 e2 e3 e4
    replace e1 := Option.some.inj e1
    replace e2 := Option.some.inj e2
    replace e3 := Option.some.inj e3
    replace e4 := Option.some.inj e4
    obtain ⟨r1, -⟩ := LTree.stat_ok.1 e1
    obtain ⟨r2, -⟩ := LTree.stat_ok.1 e2
    refine ⟨t', rfl, (C127_all_partial (l := two) (t := tree) (fun x hx => ?_) (allOk_some h) (fun x hx q n hq => ?_) (fun x hx y hy q hq hr => ?_) _ (by decide)).1⟩
    · rcases List.mem_cons.1 hx with rfl | hx
      · exact ⟨[b!"w", b!"a"], b!"mine", 5, by decide +kernel, by decide⟩
      · rw [List.mem_singleton.1 hx]
        exact ⟨[b!"w", b!"l.so.1"], lib1, 5, by decide +kernel, by decide⟩
    · rcases List.mem_cons.1 hx with rfl | hx
      · have := e1.symm.trans hq; cases this; exact ⟨_, _, rfl⟩
      · rw [List.mem_singleton.1 hx] at hq
        have := e2.symm.trans hq; cases this; exact ⟨_, _, rfl⟩
    · have hq' : q = [b!"w", b!"a"] ∨ q = [b!"w", b!"l.so.1"] := by
        rcases List.mem_cons.1 hx with rfl | hx
        · have := e3.symm.trans hq; cases this; exact .inl rfl
        · rw [List.mem_singleton.1 hx] at hq
          have := e4.symm.trans hq; cases this; exact .inr rfl
      have hr' : q = [b!"etc", b!"a"] ∨ q = [b!"p", b!"lib", b!"l"] := by
        rcases List.mem_cons.1 hy with rfl | hy
        · have := r1.symm.trans hr; cases this; exact .inl rfl
        · rw [List.mem_singleton.1 hy] at hr
          have := r2.symm.trans hr; cases this; exact .inr rfl
      rcases hq' with rfl | rfl <;> revert hr' <;> decide

/-- The prefix is the project itself. -/
def envW : LInstEnv := { env with pre := b!"/w" }

/-- `a` was made later. -/
def tree5 : LTree := tree.set [b!"w", b!"a"] (.file b!"mine" 20)

def chain : List ((Bytes × Bytes) × Nat) := [((b!"l.so.1", b!"c"), 21), ((b!"a", b!"l.so.1"), 22)]

/-- One installation is not enough if a destination is the key of an earlier entry: that key is then newer than what was made of it, and is copied the next time. -/
theorem C127_all_false : ¬ ∀ (e : LInstEnv) (l : List ((Bytes × Bytes) × Nat)) (t t' : LTree), (∀ x ∈ l, ∃ p c m, t.stat false e.cwd (cstr x.1.1) = .ok (p, .file c m) ∧ ∀ y ∈ l, m ≤ y.2) →
    linstallAll e l t = .ok t' → ∀ x ∈ l, ∀ now t'', linstallSingle e x.1.1 x.1.2 false now t' ≠ .copied t'' := by
  intro hall
  have hs : ((allOk envW chain tree5).bind fun t => copiedOf (linstallSingle envW b!"l.so.1" b!"c" false 23 t)).isSome := by decide +kernel
  cases h : allOk envW chain tree5 with
  | none => rw [h] at hs; cases hs
  | some t' =>
    rw [h, Option.bind_some] at hs
    have hne := hall envW chain tree5 t' (fun x hx => by
      rcases List.mem_cons.1 hx with rfl | hx
      · exact ⟨[b!"w", b!"l.so.1"], lib1, 5, by decide +kernel, by decide⟩
      · rw [List.mem_singleton.1 hx]
        exact ⟨[b!"w", b!"a"], b!"mine", 20, by decide +kernel, by decide⟩) (allOk_some h) ((b!"l.so.1", b!"c"), 21) List.mem_cons_self 23
    dsimp only at hne
    cases h2 : linstallSingle envW b!"l.so.1" b!"c" false 23 t' with
    | copied t'' => exact hne t'' h2
    | failed _ => rw [h2] at hs; cases hs
    | abort => rw [h2] at hs; cases hs
    | product => rw [h2] at hs; cases hs
    | already _ => rw [h2] at hs; cases hs

end Bob.LinksDemo
