import Verif.Props.Whole
import Verif.Props.Replay
/-!
# The installed program (C76)
-/

namespace Bob.Fl

variable {tc : Toolchain} {w : World} {paths : List Bytes} {pre : Option Bytes} {bad : Bytes → Bool} {n : Nat} {X : OneProj} {P : Plan} {sg : Bool} {out : Bytes}

/-- The working directory of a project whose program goes to `d`, after edits and uses of `bob`, some of which may have failed or been killed at any point, with the lists of sources `bob` saw, the last
first.  Nobody writes the installed program but `bob`. -/
inductive InstLife (tc : Toolchain) (X : OneProj) (P : Plan) (sg : Bool) (out d : Bytes) : List (List Bytes) → Store → Prop where
  | start {s} (h : Pristine (P.layout sg out) s) (hd : s.fs d = none) : InstLife tc X P sg out d [] s
  | built {l s s1 cfg w paths ps pre bad n} (h : InstLife tc X P sg out d l s) (he : Edit (P.layout sg out) s s1)
      (hrec : ∀ o, (P.layout sg out).isOut o → s1.fs (flagsPath o) = s.fs (flagsPath o) ∨ s1.fs o = none) (hd : s1.fs d = s.fs d ∨ s1.fs d = none)
      (hw : Shown w paths sg out s1.fs ps) (hl : P.lists (X.sources ps)) (hp : PlaceOk P out ⟨pre, X.map sg out (X.sources ps), bad⟩)
      (hpre : ∀ p, pre = some p → p ++ b!"/" ++ X.entry = d) (hn : 0 < n) (hb : BobBuild tc w paths X.script pre bad n s1 cfg) :
      InstLife tc X P sg out d (X.sources ps :: l) cfg.store

theorem InstLife.life {d : Bytes} {l : List (List Bytes)} {s : Store} (h : InstLife tc X P sg out d l s) : Life tc X P sg out s := by
  induction h with
  | start h _ => exact .start h
  | built _ he hrec _ hw hl hp _ hn hb ih => exact .built ih he hrec hw hl hp hn hb

/-- **C76.**  If `bob` succeeds for a prefix, then what is installed is the program of the present sources. -/
def InstalledRight (X : OneProj) : Prop :=
  ∀ (tc : Toolchain) (P : Plan) (sg : Bool) (out : Bytes) (l : List (List Bytes)) (s s1 s2 : Store) (w : World) (paths ps : List Bytes) (pre : Bytes) (bad : Bytes → Bool) (n : Nat), P.Ok sg out →
    ToolOk tc (P.layout sg out) → InstLife tc X P sg out (pre ++ b!"/" ++ X.entry) l s → Edit (P.layout sg out) s s1 →
    (∀ o, (P.layout sg out).isOut o → s1.fs (flagsPath o) = s.fs (flagsPath o) ∨ s1.fs o = none) →
    (s1.fs (pre ++ b!"/" ++ X.entry) = s.fs (pre ++ b!"/" ++ X.entry) ∨ s1.fs (pre ++ b!"/" ++ X.entry) = none) → Shown w paths sg out s1.fs ps → P.lists (X.sources ps) →
    PlaceOk P out ⟨some pre, X.map sg out (X.sources ps), bad⟩ → 0 < n → BobBuild tc w paths X.script (some pre) bad n s1 (.finished true s2) →
    Linked tc s2.fs X.flags X.linkFlags (X.sources ps) (pre ++ b!"/" ++ X.entry)

/-- A list of sources that `bob` saw, once it has seen another, does not come back. -/
def Onward : List (List Bytes) → Prop
  | [] => True
  | q :: l => (l.head? = some q ∨ q ∉ l) ∧ Onward l

/-- What holds of the installed program as long as no list comes back: it is only as new as the program of the last list if it is a copy of it, and lists not seen have no program. -/
structure CopyInv (P : Plan) (sg : Bool) (out d : Bytes) (l : List (List Bytes)) (s : Store) : Prop where
  future : ∀ o, (P.layout sg out).isOut o → ∀ f, s.fs o = some f → f.mtime ≤ s.now
  destTime : ∀ g, s.fs d = some g → g.mtime ≤ s.now
  fresh : ∀ qs, P.lists qs → qs ∉ l → s.fs (progOf sg out qs) = none
  agree : ∀ q, l.head? = some q → Agree s.fs (progOf sg out q) d

theorem right_map (hX : X.Right) (qs : List Bytes) : MapOk P sg out qs X.entry (X.map sg out qs) := by
  refine ⟨X.rest, rfl, fun e he ho => ?_⟩
  rcases ho with ⟨p, _, h⟩ | ⟨rs, _, h⟩
  · exact (hX.rest e he sg out p []).1 h
  · exact (hX.rest e he sg out [] rs).2 h

/-- The start of a build. -/
theorem CopyInv.start (hX : X.Right) {d : Bytes} {l : List (List Bytes)} {s s1 : Store} (h : CopyInv P sg out d l s) (he : Edit (P.layout sg out) s s1)
    (hd : s1.fs d = s.fs d ∨ s1.fs d = none) {q : List Bytes} (hq : P.lists q) (ho : Onward (q :: l)) (hpre : ∀ p, pre = some p → p ++ b!"/" ++ X.entry = d) :
    DestStart (P.layout sg out) ⟨pre, X.map sg out q, bad⟩ s1 ∧ (∀ g, s1.fs d = some g → g.mtime < s1.now) ∧ Agree s1.fs (progOf sg out q) d ∧
      ∀ qs, P.lists qs → qs ∉ l → s1.fs (progOf sg out qs) = none := by
  have hl := he.later
  have ho' : ∀ o, (P.layout sg out).isOut o → ∀ f, s1.fs o = some f → s.fs o = some f := by
    intro o hoo f hf
    rcases he.managed o hoo o (Or.inl rfl) with h1 | h1
    · rw [← h1]; exact hf
    · rw [h1] at hf; cases hf
  have hd' : ∀ g, s1.fs d = some g → s.fs d = some g := by
    intro g hg
    rcases hd with h1 | h1
    · rw [← h1]; exact hg
    · rw [h1] at hg; cases hg
  have ht : ∀ g, s1.fs d = some g → g.mtime < s1.now := by
    intro g hg
    have := h.destTime g (hd' g hg)
    omega
  have hf : ∀ qs, P.lists qs → qs ∉ l → s1.fs (progOf sg out qs) = none := by
    intro qs hqs hn
    cases hs : s1.fs (progOf sg out qs) with
    | none => rfl
    | some f =>
      have := ho' _ (Or.inr ⟨qs, hqs, rfl⟩) f hs
      rw [h.fresh qs hqs hn] at this
      cases this
  have ha : Agree s1.fs (progOf sg out q) d := by
    intro f g hf1 hg hle
    rcases ho.1 with h1 | h1
    · exact h.agree q h1 f g (ho' _ (Or.inr ⟨q, hq, rfl⟩) f hf1) (hd' g hg) hle
    · rw [hf q hq h1] at hf1
      cases hf1
  refine ⟨⟨fun o hoo f hf1 => ?_, ?_, ?_⟩, ht, ha, hf⟩
  · have := h.future o hoo f (ho' o hoo f hf1)
    omega
  · intro o d' hoo hdd
    obtain ⟨rfl, p, hp, rfl⟩ := one_dest (right_map hX q) hoo hdd
    rw [hpre p hp]
    exact ha
  · intro o d' hoo hdd g hg
    obtain ⟨rfl, p, hp, rfl⟩ := one_dest (right_map hX q) hoo hdd
    rw [hpre p hp] at hg
    exact ht g hg

theorem InstLife.inv (hX : X.Right) (hP : P.Ok sg out) {d : Bytes} {l : List (List Bytes)} {s : Store} (h : InstLife tc X P sg out d l s) (ho : Onward l) (hd : ¬ (out ++ b!"/bob/") <+: d) :
    CopyInv P sg out d l s := by
  induction h with
  | start h hd =>
    refine ⟨?_, ?_, ?_, fun _ h => nomatch h⟩
    · intro o ho f hf; rw [h.managed o ho o (Or.inl rfl)] at hf; cases hf
    · intro g hg; rw [hd] at hg; cases hg
    · intro qs hq _
      exact h.managed _ (Or.inr ⟨qs, hq, rfl⟩) _ (Or.inl rfl)
  | @built l s s1 cfg w paths ps pre bad n _ he _ hdd hw hl hp hpre hn hb ih =>
    obtain ⟨h1, ht, ha, hf⟩ := (ih ho.2).start (pre := pre) (bad := bad) hX he hdd hl ho hpre
    have hR := one_reqsOk hP hl (hX.nodup _ hw.nodup) hX.flags hX.linkFlags
    have hL := one_layoutOk hP hp
    have hr := hX.build hw hb
    have hFl := (FlowInv.reach (dest_flow (tc := tc) hL (one_destInj (right_map hX _)) h1 (reqs_isOut hR)) hR.ord hn (Nat.le_refl _) (h1.todo (reqs_isOut hR)) hr).any
    obtain ⟨hnow, hnew⟩ := build_new hR.ord hn hr
    have hprog : (P.layout sg out).isOut (progOf sg out (X.sources ps)) := Or.inr ⟨_, hl, rfl⟩
    have hmem : progOf sg out (X.sources ps) ∈ outsOf (oneReqs sg out X.flags X.linkFlags (X.sources ps)) := by rw [outs_one]; simp
    refine ⟨?_, ?_, ?_, ?_⟩
    · intro o ho f hf
      rcases hnew o with h | h | ⟨g, h, _, h3⟩
      · rw [h] at hf; exact Nat.le_trans (h1.future o ho f hf) hnow
      · rw [h] at hf; cases hf
      · rw [h] at hf; injection hf with hf; subst hf; exact h3
    · intro g hg
      rcases hnew d with h | h | ⟨g', h, _, h3⟩
      · rw [h] at hg; exact Nat.le_trans (Nat.le_of_lt (ht g hg)) hnow
      · rw [h] at hg; cases hg
      · rw [h] at hg; injection hg with hg; subst hg; exact h3
    · intro qs hqs hn'
      obtain ⟨hne, hnl⟩ := not_or.1 (fun h => hn' (List.mem_cons.2 h))
      rw [build_outside hR.ord hn hr (progOf sg out qs) ?_]
      · exact hf qs hqs hnl
      · rintro o' ho' (h | h)
        · have e := managed_disjoint hL (reqs_isOut hR o' ho') (Or.inr ⟨qs, hqs, rfl⟩) h (managed_out _)
          rw [outs_one, List.mem_append, List.mem_map, List.mem_singleton] at ho'
          rcases ho' with ⟨p, _, e'⟩ | e'
          · exact (C14_kinds_never_clash sg out p (qs.map (objOf sg out)) []).1 (e'.trans e)
          · exact hne (hP.programs _ _ hqs hl (e.symm.trans e'))
        · exact hL.destNotManaged o' _ h _ (Or.inr ⟨qs, hqs, rfl⟩) (managed_out _)
    · intro q hq
      cases hq
      cases hpp : pre with
      | some p =>
        have h2 := one_dest_some (c := ⟨pre, X.map sg out (X.sources ps), bad⟩) (right_map (P := P) hX (X.sources ps)) hpp
        rw [hpre p hpp] at h2
        rw [← prodsOf_out] at hmem
        obtain ⟨Q, hQ, hQo⟩ := List.mem_map.mp hmem
        obtain ⟨st, hst⟩ := hFl.2 Q hQ
        rw [← hQo]
        exact hst.agree d (by rw [hQo]; exact h2)
      | none =>
        intro f g hf hg hle
        rw [build_outside hR.ord hn hr d] at hg
        · rcases hnew (progOf sg out (X.sources ps)) with h | h | ⟨f', h, h3, _⟩
          · rw [h] at hf; exact ha f g hf hg hle
          · rw [h] at hf; cases hf
          · rw [h] at hf; injection hf with hf; subst hf
            have := ht g hg
            omega
        · rintro o' ho' (h | h)
          · exact hd ((layout_below (reqs_isOut hR o' ho')).trans (managed_prefix h))
          · obtain ⟨-, p, hp', -⟩ := one_dest (right_map hX _) (reqs_isOut hR o' ho') h
            dsimp only at hp'
            rw [hpp] at hp'
            cases hp'

/-- **C76**, partial: as long as no list of sources comes back after another.  If `bob` succeeds for a prefix, then what is installed is the program of the present sources. -/
theorem C76_installed_right_partial (hX : X.Right) (hP : P.Ok sg out) (hT : ToolOk tc (P.layout sg out)) {pre : Bytes} {l : List (List Bytes)} {s s1 s2 : Store}
    (h : InstLife tc X P sg out (pre ++ b!"/" ++ X.entry) l s) (he : Edit (P.layout sg out) s s1)
    (hd : s1.fs (pre ++ b!"/" ++ X.entry) = s.fs (pre ++ b!"/" ++ X.entry) ∨ s1.fs (pre ++ b!"/" ++ X.entry) = none) {ps : List Bytes} (hw : Shown w paths sg out s1.fs ps)
    (hl : P.lists (X.sources ps)) (ho : Onward (X.sources ps :: l)) (hp : PlaceOk P out ⟨some pre, X.map sg out (X.sources ps), bad⟩) (hn : 0 < n)
    (hb : BobBuild tc w paths X.script (some pre) bad n s1 (.finished true s2)) : Linked tc s2.fs X.flags X.linkFlags (X.sources ps) (pre ++ b!"/" ++ X.entry) := by
  obtain ⟨⟨objs, h1, x, h2, h3⟩, -⟩ := C75_program_right hX hP hT h.life he hw hl hp hn hb
  suffices hc : s2.fs.content (pre ++ b!"/" ++ X.entry) = s2.fs.content (progOf sg out (X.sources ps)) from ⟨objs, h1, x, h2, hc.trans h3⟩
  have hdn := (hp pre rfl _ (List.mem_cons_self ..)).2
  obtain ⟨hS, -⟩ := (h.inv hX hP ho.2 hdn).start (pre := some pre) (bad := bad) hX he hd hl ho (fun p e => by cases e; rfl)
  have hR := one_reqsOk hP hl (hX.nodup _ hw.nodup) hX.flags hX.linkFlags
  have hfl := (flow_success (dest_flow (tc := tc) (one_layoutOk hP hp) (one_destInj (right_map hX _)) hS (reqs_isOut hR)) hR.ord hn (Nat.le_refl _) (hS.todo (reqs_isOut hR)) (hX.build hw hb)).2
  have hmem : progOf sg out (X.sources ps) ∈ outsOf (oneReqs sg out X.flags X.linkFlags (X.sources ps)) := by rw [outs_one]; simp
  rw [← prodsOf_out] at hmem
  obtain ⟨Q, hQ, hQo⟩ := List.mem_map.mp hmem
  have h4 := one_dest_some (c := ⟨some pre, X.map sg out (X.sources ps), bad⟩) (right_map (P := P) hX (X.sources ps)) rfl
  obtain ⟨_, f, g, h5, h6, h7, _⟩ := (hfl Q hQ).good rfl _ (by rw [hQo]; exact h4)
  rw [hQo] at h5
  unfold FS.content
  rw [h5, h6]
  exact congrArg some h7

/-! ## A case -/

def srcA : Bytes := b!"src/a.c"
def srcB : Bytes := b!"src/b.c"

/-- A toolchain for these two files: objects are the sources, programs the objects one after the other. -/
def plainTc : Toolchain where
  deps fs src _ := if (src = srcA ∨ src = srcB) ∧ (fs src).isSome then some [(false, src)] else none
  obj fs src _ := if src = srcA ∨ src = srcB then fs.content src else none
  diag _ _ _ := []
  objFailRemoves _ _ _ := false
  link _ fs srcs _ := if srcs.all fun p => (fs p).isSome then some (srcs.flatMap fun p => (fs.content p).getD []) else none
  linkDiag _ _ _ _ := []
  linkFailRemoves _ _ _ _ := false

def plainPlan : Plan where
  lists qs := qs = [srcA] ∨ qs = [srcA, srcB]
  user p := b!"src/" <+: p

theorem plain_src {p : Bytes} (h : plainPlan.src p) : p = srcA ∨ p = srcB := by
  obtain ⟨qs, rfl | rfl, h⟩ := h <;> simp at h
  · exact Or.inl h
  · exact h

theorem plain_head {d p : Bytes} (hd : d.head? ≠ some 115) (hne : d ≠ []) (h : b!"src/" <+: p) : ¬ d <+: p := by
  rintro ⟨t, rfl⟩
  cases d with
  | nil => exact hne rfl
  | cons x d =>
    obtain ⟨u, hu⟩ := h
    simp at hu hd
    exact hd hu.1.symm

theorem plainOk : plainPlan.Ok true b!"out" where
  objects := by
    intro p q hp hq
    rcases plain_src hp with rfl | rfl <;> rcases plain_src hq with rfl | rfl <;> decide +kernel
  programs := by
    rintro p q (rfl | rfl) (rfl | rfl) <;> decide +kernel
  user := by
    intro p hp
    unfold plainPlan
    rcases plain_src hp with rfl | rfl <;> decide
  outside := fun p hp => plain_head (by decide) (by decide) hp

theorem plainTool : ToolOk plainTc (plainPlan.layout true b!"out") where
  depsOk := by
    intro fs src F items h
    simp only [plainTc] at h
    split at h
    · rename_i h1
      cases h
      refine ⟨h1.2, fun it hi => ?_⟩
      cases List.mem_singleton.1 hi
      refine ⟨?_, ?_, h1.2⟩
      · rcases h1.1 with rfl | rfl <;> decide
      · show b!"src/" <+: src
        rcases h1.1 with rfl | rfl <;> decide
    · cases h
  depsLaw := by
    intro fs fs' src F items h hc
    have h1 : fs'.content src = fs.content src := hc src (List.mem_cons_self ..)
    refine ⟨?_, by simp only [plainTc, h1], rfl⟩
    rw [← h]
    have h2 : (fs' src).isSome = (fs src).isSome := by
      have := congrArg Option.isSome h1
      simpa [FS.content] using this
    simp only [plainTc, h2]
  objDeps := by
    intro fs src F o h
    simp only [plainTc] at h ⊢
    split at h
    · rename_i h1
      refine ⟨_, if_pos ⟨h1, ?_⟩⟩
      have := congrArg Option.isSome h
      simpa [FS.content] using this
    · cases h
  linkLaw := by
    intro a fs fs' srcs F h
    refine ⟨?_, rfl⟩
    have h2 : ∀ p ∈ srcs, (fs' p).isSome = (fs p).isSome := by
      intro p hp
      have := congrArg Option.isSome (h p hp)
      simpa [FS.content] using this
    have h3 : (srcs.all fun p => (fs' p).isSome) = srcs.all fun p => (fs p).isSome := by
      rw [Bool.eq_iff_iff, List.all_eq_true, List.all_eq_true]
      exact ⟨fun h p hp => h2 p hp ▸ h p hp, fun h p hp => (h2 p hp).symm ▸ h p hp⟩
    have h4 : (srcs.flatMap fun p => (fs'.content p).getD []) = srcs.flatMap fun p => (fs.content p).getD [] :=
      List.flatMap_congr fun p hp => by rw [h p hp]
    simp only [plainTc, h3, h4]
  linkExists := by
    intro a fs srcs F o h p hp
    simp only [plainTc] at h
    split at h
    · rename_i h1
      exact List.all_eq_true.1 h1 p hp
    · cases h

/-- The world with these files. -/
def plainWorld (ps : List Bytes) : World := { bobWorld with list := fun d => if d = b!"src" then some ps else none }

theorem plain_shown {ps : List Bytes} (hps : plainPlan.lists ps) {fs : FS} (hall : ∀ p, b!"src/" <+: p → (fs p).isSome → p ∈ ps) :
    Shown (plainWorld ps) bobPaths true b!"out" fs ps where
  signed := rfl
  outPath := rfl
  only := by
    refine ⟨bobWorld_only.file, fun path qs h => ?_, bobWorld_only.out⟩
    simp only [plainWorld] at h
    split at h
    · cases h
      rcases hps with rfl | rfl <;> decide
    · cases h
  bob := by
    have : importPath (plainWorld ps) false b!"bob.fl" bobPaths = importPath bobWorld false b!"bob.fl" bobPaths := rfl
    rw [this]
    have h : bobWorld.file (importPath bobWorld false b!"bob.fl" bobPaths) = .src bobFl := by
      have hp : importPath bobWorld false b!"bob.fl" bobPaths = b!"import/bob.fl" := by decide +kernel
      rw [hp]
      rfl
    exact h
  list := rfl
  nodup := by rcases hps with rfl | rfl <;> decide
  all := hall
  below := by rcases hps with rfl | rfl <;> decide

def plainReqs (qs : List Bytes) : List Req := oneReqs true b!"out" skeletonProj.flags skeletonProj.linkFlags qs
def plainInst (qs : List Bytes) : InstCfg := ⟨some b!"pre", skeletonProj.map true b!"out" qs, fun _ => false⟩

/-- Built with one source, then with two, then with the first alone again. -/
def plain0 : Store where
  fs p := if p = srcA then some ⟨b!"A", 1⟩ else none
  now := 5
  trace := []
  buf _ := []
@[irreducible] def plain1 : Cfg := autoBuild plainTc (plainInst [srcA]) (plainReqs [srcA]) (plain0.later 1)
@[irreducible] def plain2 : Cfg := autoBuild plainTc (plainInst [srcA, srcB]) (plainReqs [srcA, srcB]) ((plain1.store.later 1).write srcB b!"B")
@[irreducible] def plain3 : Cfg := autoBuild plainTc (plainInst [srcA]) (plainReqs [srcA]) ((plain2.store.later 1).remove srcB)

theorem plain_sources {ps : List Bytes} (h : plainPlan.lists ps) : skeletonProj.sources ps = ps := by
  rcases h with rfl | rfl <;> decide

theorem plain_place (ps : List Bytes) : PlaceOk plainPlan b!"out" (plainInst ps) := by
  intro d hd e he
  cases hd
  cases List.mem_singleton.1 he
  constructor
  · show ¬ b!"src/" <+: b!"pre/bin/bob-skeleton-c"
    decide
  · show ¬ b!"out/bob/" <+: b!"pre/bin/bob-skeleton-c"
    decide

/-- Builds leave the sources alone. -/
theorem plain_kept {ps : List Bytes} (h : plainPlan.lists ps) {n : Nat} (hn : 0 < n) {s : Store} {cfg : Cfg} (hb : BuildReaches plainTc (plainInst ps) n (plainReqs ps) s cfg) {p : Bytes}
    (hp : b!"src/" <+: p) : cfg.store.fs p = s.fs p := by
  have hL := one_layoutOk plainOk (plain_place ps)
  have hR := one_reqsOk (flags := skeletonProj.flags) (linkFlags := skeletonProj.linkFlags) plainOk h (by rcases h with rfl | rfl <;> decide) skeleton_right.flags skeleton_right.linkFlags
  refine build_outside hR.ord hn hb p ?_
  rintro o ho (h | h)
  · exact hL.outNotUser o p (reqs_isOut hR o ho) h hp
  · exact hL.destNotUser o p h hp

theorem plain_pristine : Pristine (plainPlan.layout true b!"out") plain0 where
  user := by
    intro p _ f hf
    simp only [plain0] at hf ⊢
    split at hf
    · cases hf; decide
    · cases hf
  managed := by
    intro o ho p hp
    have h := (layout_below ho).trans (managed_prefix hp)
    have : p ≠ srcA := by
      rintro rfl
      revert h
      decide
    simp [plain0, this]

theorem plain1_run : BuildReaches plainTc (plainInst [srcA]) 1 (plainReqs [srcA]) (plain0.later 1) plain1 := by
  unfold plain1
  exact autoRun_reaches 100 _ (.refl _)
theorem plain2_run : BuildReaches plainTc (plainInst [srcA, srcB]) 1 (plainReqs [srcA, srcB]) ((plain1.store.later 1).write srcB b!"B") plain2 := by
  unfold plain2
  exact autoRun_reaches 100 _ (.refl _)
theorem plain2_ends : BuildReaches plainTc (plainInst [srcA, srcB]) 1 (plainReqs [srcA, srcB]) ((plain1.store.later 1).write srcB b!"B") (.finished true plain2.store) := by
  unfold plain2
  exact autoBuild_reaches (by decide +kernel)
theorem plain3_ends : BuildReaches plainTc (plainInst [srcA]) 1 (plainReqs [srcA]) ((plain2.store.later 1).remove srcB) (.finished true plain3.store) := by
  unfold plain3
  exact autoBuild_reaches (by decide +kernel)

theorem plain_bob {ps : List Bytes} (h : plainPlan.lists ps) {fs : FS} (hw : Shown (plainWorld ps) bobPaths true b!"out" fs ps) {s : Store} {cfg : Cfg}
    (hb : BuildReaches plainTc (plainInst ps) 1 (plainReqs ps) s cfg) : BobBuild plainTc (plainWorld ps) bobPaths skeletonBuild (some b!"pre") (fun _ => false) 1 s cfg := by
  rw [skeleton_iff hw, plain_sources h]
  exact hb

theorem plain0_src {p : Bytes} (h : (plain0.fs p).isSome) : p = srcA := by
  simp only [plain0] at h
  split at h
  · assumption
  · cases h

theorem plain1_src {p : Bytes} (hp : b!"src/" <+: p) (h : (plain1.store.fs p).isSome) : p = srcA := by
  rw [plain_kept (Or.inl rfl) (by decide) plain1_run hp] at h
  exact plain0_src h

theorem plain2_src {p : Bytes} (hp : b!"src/" <+: p) (h : (plain2.store.fs p).isSome) : p ∈ [srcA, srcB] := by
  rw [plain_kept (Or.inr rfl) (by decide) plain2_run hp] at h
  by_cases e : p = srcB
  · simp [e]
  · simp only [Store.write, Store.later, FS.set, e, if_false] at h
    simp [plain1_src hp h]

theorem plain_shown1 : Shown (plainWorld [srcA]) bobPaths true b!"out" (plain0.later 1).fs [srcA] :=
  plain_shown (Or.inl rfl) fun _ _ h => by simp [plain0_src h]

theorem plain_shown2 : Shown (plainWorld [srcA, srcB]) bobPaths true b!"out" ((plain1.store.later 1).write srcB b!"B").fs [srcA, srcB] := by
  refine plain_shown (Or.inr rfl) fun p hp h => ?_
  by_cases e : p = srcB
  · simp [e]
  · simp only [Store.write, Store.later, FS.set, e, if_false] at h
    simp [plain1_src hp h]

theorem plain_shown3 : Shown (plainWorld [srcA]) bobPaths true b!"out" ((plain2.store.later 1).remove srcB).fs [srcA] := by
  refine plain_shown (Or.inl rfl) fun p hp h => ?_
  by_cases e : p = srcB
  · simp [Store.remove, FS.set, e] at h
  · simp only [Store.remove, Store.later, FS.set, e, if_false] at h
    have := plain2_src hp h
    simp only [List.mem_cons, e, List.not_mem_nil, or_false] at this
    simp [this]

theorem plain_life1 : InstLife plainTc skeletonProj plainPlan true b!"out" b!"pre/bin/bob-skeleton-c" [[srcA]] plain1.store :=
  .built (ps := [srcA]) (.start plain_pristine (by decide)) (edit_later _ 1 (by decide)) (fun _ _ => Or.inl rfl) (Or.inl rfl) plain_shown1 (Or.inl rfl) (plain_place [srcA])
    (fun p h => by cases h; rfl) (by decide : 0 < 1) (plain_bob (Or.inl rfl) plain_shown1 plain1_run)

theorem plain_edit2 : Edit (plainPlan.layout true b!"out") plain1.store ((plain1.store.later 1).write srcB b!"B") :=
  edit_write (one_layoutOk plainOk (plain_place [])) _ 1 (by decide) _ _ (by show b!"src/" <+: srcB; decide)

theorem managed_not_src {o p : Bytes} (ho : (plainPlan.layout true b!"out").isOut o) (h : Managed o p) : p ≠ srcB := by
  rintro rfl
  have := (layout_below ho).trans (managed_prefix h)
  revert this
  decide

theorem plain_rec2 : ∀ o, (plainPlan.layout true b!"out").isOut o →
    ((plain1.store.later 1).write srcB b!"B").fs (flagsPath o) = plain1.store.fs (flagsPath o) ∨ ((plain1.store.later 1).write srcB b!"B").fs o = none :=
  fun o ho => Or.inl (by simp [Store.write, Store.later, FS.set, managed_not_src ho (managed_flags o)])

theorem plain_copy2 : ((plain1.store.later 1).write srcB b!"B").fs b!"pre/bin/bob-skeleton-c" = plain1.store.fs b!"pre/bin/bob-skeleton-c" := by
  simp [Store.write, Store.later, FS.set, srcB]

theorem plain_life2 : InstLife plainTc skeletonProj plainPlan true b!"out" b!"pre/bin/bob-skeleton-c" [[srcA, srcB], [srcA]] plain2.store :=
  .built (ps := [srcA, srcB]) plain_life1 plain_edit2 plain_rec2 (Or.inl plain_copy2) plain_shown2 (Or.inr rfl) (plain_place [srcA, srcB])
    (fun p h => by cases h; rfl) (by decide : 0 < 1) (plain_bob (Or.inr rfl) plain_shown2 plain2_run)

/-- The second build installs the program of both. -/
example : Linked plainTc plain2.store.fs skeletonProj.flags skeletonProj.linkFlags [srcA, srcB] b!"pre/bin/bob-skeleton-c" :=
  C76_installed_right_partial (ps := [srcA, srcB]) (pre := b!"pre") skeleton_right plainOk plainTool plain_life1 plain_edit2 (Or.inl plain_copy2) plain_shown2 (Or.inr rfl)
    ⟨Or.inr (by decide), Or.inr (by decide), trivial⟩ (plain_place [srcA, srcB]) (by decide : 0 < 1) (plain_bob (Or.inr rfl) plain_shown2 plain2_ends)

theorem plain_edit3 : Edit (plainPlan.layout true b!"out") plain2.store ((plain2.store.later 1).remove srcB) := by
  refine ⟨by simp [Store.later, Store.remove], fun q _ => ?_, fun o ho q hq => Or.inl ?_⟩
  · by_cases e : q = srcB
    · exact Or.inr (Or.inl (by simp [Store.remove, FS.set, e]))
    · exact Or.inl (by simp [Store.remove, Store.later, FS.set, e])
  · simp [Store.remove, Store.later, FS.set, managed_not_src ho hq]

theorem plain_place3 : PlaceOk plainPlan b!"out" ⟨some b!"pre", skeletonProj.map true b!"out" (skeletonProj.sources [srcA]), fun _ => false⟩ := plain_place [srcA]

/-- After the third build the program is right again, but the installed one still contains the file that was deleted. -/
theorem plain3_files : plain3.store.fs.content (progOf true b!"out" [srcA]) = some b!"A" ∧ plain3.store.fs.content b!"pre/bin/bob-skeleton-c" = some b!"AB" := by
  decide +kernel

/-- **C76** is false: take a source away that was added before, and what `bob install` leaves installed is the program with that source. -/
theorem C76_installed_right_false : ¬ InstalledRight skeletonProj := by
  intro h
  obtain ⟨objs, h1, x, h2, h3⟩ := h plainTc plainPlan true b!"out" _ plain2.store _ plain3.store (plainWorld [srcA]) bobPaths [srcA] b!"pre" (fun _ => false) 1 plainOk plainTool plain_life2 plain_edit3
    (fun o ho => Or.inl (by simp [Store.remove, Store.later, FS.set, managed_not_src ho (managed_flags o)]))
    (Or.inl (by simp [Store.remove, Store.later, FS.set, srcB, skeletonProj])) plain_shown3 (Or.inl rfl) plain_place3 (by decide)
    (plain_bob (Or.inl rfl) plain_shown3 plain3_ends)
  rw [plain_sources (Or.inl rfl)] at h1
  cases h1 with
  | cons h4 h5 =>
    cases h5
    obtain ⟨y, h6, h7⟩ := h4
    have h8 : y = b!"A" := by
      have : plainTc.obj plain3.store.fs srcA skeletonProj.flags = some b!"A" := by decide +kernel
      rw [this] at h6
      exact (Option.some.inj h6).symm
    have h9 : x = b!"AB" := by
      have h := plain3_files.2
      exact Option.some.inj (h3.symm.trans h)
    subst h8 h9
    simp [plainTc, h7] at h2

/-- The life of C75 is one of these. -/
example : Linked plainTc plain3.store.fs skeletonProj.flags skeletonProj.linkFlags [srcA] (progOf true b!"out" [srcA]) :=
  (C75_program_right (ps := [srcA]) skeleton_right plainOk plainTool plain_life2.life plain_edit3 plain_shown3 (Or.inl rfl) plain_place3 (by decide : 0 < 1)
    (plain_bob (Or.inl rfl) plain_shown3 plain3_ends)).1

end Bob.Fl
