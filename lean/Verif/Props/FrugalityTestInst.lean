import Verif.Props.FrugalityTest
import Verif.Spec.Demo
/-!
# A sample for C103: the test with a small compiler
-/

namespace Bob

/-- A compiler that knows which headers each source includes; objects are made of the texts of all of them and the flags. -/
def tableTc (inc : Bytes → Option (List Bytes)) : Toolchain where
  deps fs src _ := (inc src).bind fun hs => if (src :: hs).all (fun p => (fs p).isSome) then some ((false, src) :: hs.map fun h => (true, h)) else none
  obj fs src F := (inc src).bind fun hs => if (src :: hs).all (fun p => (fs p).isSome) then some ((src :: hs).flatMap (fun p => (fs.content p).getD []) ++ F.flatten) else none
  diag _ _ _ := []
  objFailRemoves _ _ _ := false
  link _ fs srcs F := if srcs.all (fun p => (fs p).isSome) then some (srcs.flatMap (fun p => (fs.content p).getD []) ++ F.flatten) else none
  linkDiag _ _ _ _ := []
  linkFailRemoves _ _ _ _ := true

theorem all_same {fs fs' : FS} {ps : List Bytes} (h : ∀ p ∈ ps, fs'.content p = fs.content p) :
    ps.all (fun p => (fs' p).isSome) = ps.all (fun p => (fs p).isSome) ∧ ps.flatMap (fun p => (fs'.content p).getD []) = ps.flatMap (fun p => (fs.content p).getD []) := by
  constructor
  · rw [Bool.eq_iff_iff]
    simp only [List.all_eq_true]
    refine forall_congr' fun p => forall_congr' fun hp => ?_
    rw [← content_isSome, ← content_isSome, h p hp]
  · simp only [List.flatMap_def]
    congr 1
    exact List.map_congr_left fun p hp => by rw [h p hp]

theorem tableToolOk {inc : Bytes → Option (List Bytes)} {L : Layout} (h : ∀ src hs, inc src = some hs → ∀ p ∈ src :: hs, CleanName p ∧ L.user p) : ToolOk (tableTc inc) L where
  depsOk := by
    intro fs src F items hd
    unfold tableTc at hd
    dsimp only at hd
    cases hi : inc src with
    | none => rw [hi] at hd; cases hd
    | some hs =>
      rw [hi, Option.bind_some] at hd
      split at hd
      · rename_i hall
        rw [List.all_eq_true] at hall
        cases hd
        refine ⟨hall src (List.mem_cons_self ..), fun it hit => ?_⟩
        have : it.2 ∈ src :: hs := by
          rcases List.mem_cons.1 hit with rfl | hit
          · exact List.mem_cons_self ..
          · obtain ⟨x, hx, rfl⟩ := List.mem_map.1 hit
            exact List.mem_cons_of_mem _ hx
        exact ⟨(h src hs hi _ this).1, (h src hs hi _ this).2, hall _ this⟩
      · cases hd
  depsLaw := by
    intro fs fs' src F items hd hsame
    unfold tableTc at hd ⊢
    dsimp only at hd ⊢
    cases hi : inc src with
    | none => rw [hi] at hd; cases hd
    | some hs =>
      rw [hi, Option.bind_some] at hd
      split at hd
      · rename_i hall
        cases hd
        have hs' : ∀ p ∈ src :: hs, fs'.content p = fs.content p := by
          intro p hp
          refine hsame p ?_
          rcases List.mem_cons.1 hp with rfl | hp
          · exact List.mem_cons_self ..
          · simp [hp]
        obtain ⟨e1, e2⟩ := all_same hs'
        simp only [Option.bind_some]
        rw [e1, e2, if_pos hall]
        exact ⟨rfl, rfl, trivial⟩
      · cases hd
  objDeps := by
    intro fs src F o ho
    unfold tableTc at ho ⊢
    dsimp only at ho ⊢
    cases hi : inc src with
    | none => rw [hi] at ho; cases ho
    | some hs =>
      rw [hi, Option.bind_some] at ho
      split at ho
      · rename_i hall
        exact ⟨_, by rw [Option.bind_some, if_pos hall]⟩
      · cases ho
  linkLaw := by
    intro a fs fs' srcs F hsame
    obtain ⟨e1, e2⟩ := all_same hsame
    unfold tableTc
    dsimp only
    rw [e1, e2]
    exact ⟨rfl, rfl⟩
  linkExists := by
    intro a fs srcs F o ho p hp
    unfold tableTc at ho
    dsimp only at ho
    split at ho
    · rename_i hall
      rw [List.all_eq_true] at hall
      exact hall p hp
    · cases ho

namespace Fl.FrugalityTest

def benchInc (src : Bytes) : Option (List Bytes) := if src = b!"src1.c" then some [] else if src = b!"src2.c" then some [b!"src2.h"] else none
def bench : Toolchain := tableTc benchInc
def mine (p : Bytes) : Prop := p ∈ [b!"build.fl", b!"src1.c", b!"src2.c", b!"src2.h"]

theorem bench_cases {src : Bytes} {hs : List Bytes} (h : benchInc src = some hs) : (src = b!"src1.c" ∧ hs = []) ∨ (src = b!"src2.c" ∧ hs = [b!"src2.h"]) := by
  unfold benchInc at h
  split at h
  · cases h; exact .inl ⟨by assumption, rfl⟩
  · split at h
    · cases h; exact .inr ⟨by assumption, rfl⟩
    · cases h

theorem benchOk : ToolOk bench ((plan mine).layout true b!".bob") := by
  refine tableToolOk fun src hs h p hp => ?_
  rcases bench_cases h with ⟨rfl, rfl⟩ | ⟨rfl, rfl⟩
  · cases List.mem_singleton.1 hp
    exact ⟨by decide, by simp [plan, Plan.layout, mine]⟩
  · simp only [List.mem_cons, List.not_mem_nil, or_false] at hp
    rcases hp with rfl | rfl <;> exact ⟨by decide, by simp [plan, Plan.layout, mine]⟩

theorem benchIncludes : Includes bench := by
  constructor
  · intro fs F items _ h
    change (if [b!"src1.c"].all (fun p => (fs p).isSome) then some [(false, b!"src1.c")] else none) = some items at h
    split at h
    · cases h; decide
    · cases h
  · intro fs F items _ h
    change (if [b!"src2.c", b!"src2.h"].all (fun p => (fs p).isSome) then some [(false, b!"src2.c"), (true, b!"src2.h")] else none) = some items at h
    split at h
    · cases h; decide
    · cases h

/-- The files before the test. -/
def b0 : Store where
  fs p := if p = b!"build.fl" then some ⟨script std99, 1⟩ else if p = b!"src1.c" then some ⟨src1Text, 1⟩ else if p = b!"src2.c" then some ⟨src2Text, 1⟩ else if p = b!"src2.h" then some ⟨src2Head, 1⟩ else none
  now := 2
  trace := []
  buf := fun _ => []

def good : Bytes → Bool := fun _ => false
def go (std : Bytes) (s : Store) : Store := (autoBuild bench (inst good) (reqs true std) s).store
def touch (E : List Bytes) (s : Store) : Store := { s with now := s.now + 1, trace := [], fs := fun p => if p ∈ E then (s.fs p).map (fun f => ⟨f.content, s.now + 1⟩) else s.fs p }
def sed (s : Store) : Store := { s with now := s.now + 1, trace := [], fs := fun p => if p = b!"build.fl" then some ⟨script std11, s.now + 1⟩ else s.fs p }

def b1 : Store := go std99 b0
def b2 : Store := go std99 (touch [b!"src2.c"] b1)
def b3 : Store := go std99 (touch [b!"src1.c", b!"src2.c"] b2)
def b4 : Store := go std99 (touch [] b3)
def b5 : Store := go std99 (touch [b!"src2.h"] b4)
def b6 : Store := go std11 (sed b5)

theorem runs1 : (autoBuild bench (inst good) (reqs true std99) b0).result = some true := by decide +kernel
theorem runs2 : (autoBuild bench (inst good) (reqs true std99) (touch [b!"src2.c"] b1)).result = some true := by decide +kernel
theorem runs3 : (autoBuild bench (inst good) (reqs true std99) (touch [b!"src1.c", b!"src2.c"] b2)).result = some true := by decide +kernel
theorem runs4 : (autoBuild bench (inst good) (reqs true std99) (touch [] b3)).result = some true := by decide +kernel
theorem runs5 : (autoBuild bench (inst good) (reqs true std99) (touch [b!"src2.h"] b4)).result = some true := by decide +kernel
theorem runs6 : (autoBuild bench (inst good) (reqs true std11) (sed b5)).result = some true := by decide +kernel

theorem there : ∃ w paths, Place true w paths := by
  obtain ⟨p, h1, -⟩ := reads_sound bob_reads
  refine ⟨{ bobWorld with file := fun path => if path = b!"import/bob.fl" then .src p else .missing [], outPath := b!".bob" }, bobPaths, rfl, rfl, fun path q hq => ?_, ?_, p, ?_⟩
  · dsimp only at hq
    split at hq
    · cases hq; exact h1
    · cases hq
  · intro path ps hps q hq
    simp only [bobWorld] at hps
    split at hps
    · cases hps
      simp only [List.mem_cons, List.not_mem_nil, or_false] at hq
      rcases hq with rfl | rfl <;> decide
    · cases hps
  · dsimp only
    rw [if_pos]
    rfl

theorem build_go {std : Bytes} (hstd : std = std99 ∨ std = std11) {s : Store} (ht : s.fs.content b!"build.fl" = some (script std))
    (h : (autoBuild bench (inst good) (reqs true std) s).result = some true) : Build bench true good s (go std s) := by
  obtain ⟨w, paths, hw⟩ := there
  exact ⟨w, paths, 1, script std, hw, by omega, ht, (place_iff hstd hw).2 (autoBuild_reaches h)⟩

theorem touched {E : List Bytes} {s : Store} (h : ∀ p ∈ E, (s.fs p).isSome) : Saved E s (touch E s) ∧ ∀ p, (touch E s).fs.content p = s.fs.content p := by
  refine ⟨⟨Nat.lt_succ_self _, fun p hp => ?_, fun p hp => if_neg hp, rfl⟩, fun p => ?_⟩
  · obtain ⟨f, hf⟩ := Option.isSome_iff_exists.1 (h p hp)
    refine ⟨⟨f.content, s.now + 1⟩, ?_, Nat.lt_succ_self _, Nat.le_refl _⟩
    show (if p ∈ E then _ else _) = _
    rw [if_pos hp, hf]
    rfl
  · show Option.map _ (if p ∈ E then _ else _) = Option.map _ _
    split
    · rw [Option.map_map]; rfl
    · rfl

theorem sample_start : Start mine b0 where
  outside p hp := by
    simp only [mine, List.mem_cons, List.not_mem_nil, or_false] at hp
    rcases hp with rfl | rfl | rfl | rfl <;> decide
  mine _ h := h
  stamps p _ f hf := by
    simp only [b0] at hf
    repeat' split at hf
    all_goals first | (cases hf; decide) | cases hf
  clean p hp := by
    simp only [b0]
    repeat' split
    all_goals first | rfl | (subst_vars; exact absurd hp (by decide))
  script := rfl
  src1 := rfl
  src2 := rfl
  head := rfl

theorem go_touch {E : List Bytes} {s : Store} (h : ∀ p ∈ E, (s.fs p).isSome) (ht : s.fs.content b!"build.fl" = some (script std99))
    (hr : (autoBuild bench (inst good) (reqs true std99) (touch E s)).result = some true) : Touch bench true good E s (go std99 (touch E s)) := by
  obtain ⟨h1, h2⟩ := touched h
  exact ⟨_, h1, h2, build_go (.inl rfl) ((h2 _).trans ht) hr⟩

theorem go_sed {s : Store} (hr : (autoBuild bench (inst good) (reqs true std11) (sed s)).result = some true) : Sed bench true good s (go std11 (sed s)) := by
  refine ⟨sed s, ⟨Nat.lt_succ_self _, fun p hp => ?_, fun p hp => if_neg (by simpa using hp), rfl⟩, rfl, build_go (.inr rfl) rfl hr⟩
  cases List.mem_singleton.1 hp
  exact ⟨⟨script std11, s.now + 1⟩, rfl, Nat.lt_succ_self _, Nat.le_refl _⟩

/-- The test, run. -/
theorem C103_sample : Start mine b0 ∧ Test bench true good b0 b1 b2 b3 b4 b5 b6 := by
  refine ⟨sample_start, build_go (.inl rfl) rfl runs1, go_touch (by decide +kernel) (by decide +kernel) runs2, go_touch (by decide +kernel) (by decide +kernel) runs3,
    go_touch (by decide +kernel) (by decide +kernel) runs4, go_touch (by decide +kernel) (by decide +kernel) runs5, go_sed runs6⟩

example : update b3.fs b4.fs = some (false, false, false) ∧ update b4.fs b5.fs = some (false, true, true) :=
  have h := C103_frugality_test_passes benchOk benchIncludes C103_sample.1 C103_sample.2
  ⟨h.2.2.1, h.2.2.2.1⟩

/-- **C103.** Without `sleep 1` the test would fail: a source that is touched in the second of the build is not compiled again. -/
theorem C103_needs_the_sleep :
    update b1.fs (go std99 { b1 with fs := fun p => if p = b!"src2.c" then some ⟨src2Text, b1.now⟩ else b1.fs p }).fs = some (false, false, false) := by decide +kernel

end Fl.FrugalityTest
end Bob
