import Verif.Lemmas.BuildFlow
import Verif.Spec.Crowd
/-!
# Products while several bobs are at work
-/

namespace Bob

variable {tc : Toolchain} {L : Layout} {flags : Bytes → List Bytes} {c : InstCfg} {s0 : Store}

/-- A product that is, with all the products it is made from, what the tools yield for the present files. -/
inductive RightNow (tc : Toolchain) (L : Layout) (flags : Bytes → List Bytes) (fs : FS) : Bytes → Prop where
  | c {o src x} (hout : L.isOut o) (hk : L.kind o = .compile src) (hu : L.user src) (hx : tc.obj fs src (flags o) = some x) (ho : fs.content o = some x) :
      RightNow tc L flags fs o
  | l {o a srcs x} (hout : L.isOut o) (hk : L.kind o = .link a srcs) (hs : ∀ p ∈ srcs, ¬ L.user p → RightNow tc L flags fs p)
      (hx : tc.link a fs srcs (flags o) = some x) (ho : fs.content o = some x) : RightNow tc L flags fs o

theorem obj_user (hT : ToolOk tc L) {fs fs' : FS} {src : Bytes} {F : List Bytes} {x : Bytes} (hsrc : L.user src)
    (hu : ∀ p, L.user p → fs' p = fs p) (h : tc.obj fs src F = some x) : tc.obj fs' src F = some x := by
  obtain ⟨items, hi⟩ := hT.objDeps _ _ _ _ h
  have := deps_back hT (fs := fs') (fs' := fs) hsrc (fun p hp => (hu p hp).symm) hi
  rw [this.2.1]; exact h

theorem RightNow.keep (hT : ToolOk tc L) {fs fs' : FS} (hu : ∀ p, L.user p → fs' p = fs p)
    (hk : ∀ o, RightNow tc L flags fs o → fs'.content o = fs.content o) {o : Bytes} (h : RightNow tc L flags fs o) : RightNow tc L flags fs' o := by
  induction h with
  | @c o src x hout hk' hs hx ho =>
    exact .c hout hk' hs (obj_user hT hs hu hx) (by rw [hk _ (.c hout hk' hs hx ho)]; exact ho)
  | @l o a srcs x hout hk' hs hx ho ih =>
    refine .l hout hk' ih ?_ (by rw [hk _ (.l hout hk' hs hx ho)]; exact ho) (x := x)
    rw [(hT.linkLaw a fs fs' srcs (flags o) ?_).1]
    · exact hx
    · intro p hp
      by_cases h : L.user p
      · exact content_congr (hu p h)
      · exact hk p (hs p hp h)

theorem RightNow.cval {fs : FS} {o src : Bytes} (h : RightNow tc L flags fs o) (hk : L.kind o = .compile src) :
    ∃ x, tc.obj fs src (flags o) = some x ∧ fs.content o = some x := by
  cases h with
  | c _ hk' _ hx ho => rw [hk] at hk'; cases hk'; exact ⟨_, hx, ho⟩
  | l _ hk' _ _ _ => rw [hk] at hk'; cases hk'

theorem RightNow.lval {fs : FS} {o : Bytes} {a : Bool} {srcs : List Bytes} (h : RightNow tc L flags fs o) (hk : L.kind o = .link a srcs) :
    ∃ x, tc.link a fs srcs (flags o) = some x ∧ fs.content o = some x := by
  cases h with
  | c _ hk' _ _ _ => rw [hk] at hk'; cases hk'
  | l _ hk' _ hx ho => rw [hk] at hk'; cases hk'; exact ⟨_, hx, ho⟩

/-- The record of what an object is made from is right for the present files. -/
def DepsNow (tc : Toolchain) (L : Layout) (flags : Bytes → List Bytes) (fs : FS) (o : Bytes) : Prop :=
  ∀ src, L.kind o = .compile src → L.user src → ∀ items, tc.deps fs src (flags o) = some items →
    ∃ d, fs (depsPath o) = some d ∧ d.content = depsText (ruleText items)

/-- What is known about an existing object. -/
def CMade (tc : Toolchain) (L : Layout) (flags : Bytes → List Bytes) (fs : FS) (o src : Bytes) : Prop :=
  ∀ x, fs o = some x → (∃ g, tc.obj g src (flags o) = some x.content ∧ Snap fs x.mtime g L.user) ∧
    ∀ d, fs (depsPath o) = some d → ∃ g items, tc.deps g src (flags o) = some items ∧ d.content = depsText (ruleText items) ∧
      Snap fs x.mtime g L.user

/-- What is known about an existing link product. -/
def LMade (tc : Toolchain) (flags : Bytes → List Bytes) (fs : FS) (o : Bytes) (a : Bool) (srcs : List Bytes) (x : File) : Prop :=
  ∃ g, tc.link a g srcs (flags o) = some x.content ∧ Snap fs x.mtime g (· ∈ srcs)

/-- What is known about a product between the times at which bobs are at work. -/
def CrowdMade (tc : Toolchain) (L : Layout) (flags : Bytes → List Bytes) (fs : FS) (o : Bytes) : Prop :=
  match L.kind o with
  | .compile src => CMade tc L flags fs o src
  | .link a srcs => ∀ x, fs o = some x → LMade tc flags fs o a srcs x

/-- What is known about a product while bobs are at work, since `t0`. -/
def MadeSince (tc : Toolchain) (L : Layout) (flags : Bytes → List Bytes) (t0 : Nat) (fs : FS) (o : Bytes) : Prop :=
  match L.kind o with
  | .compile src => CMade tc L flags fs o src
  | .link a srcs => ∀ x, fs o = some x → (x.mtime < t0 ∧ LMade tc flags fs o a srcs x) ∨ RightNow tc L flags fs o

/-- What holds all the time. -/
structure CrowdG (tc : Toolchain) (L : Layout) (flags : Bytes → List Bytes) (s0 s : Store) : Prop where
  user : ∀ p, L.user p → s.fs p = s0.fs p
  future : ∀ p, L.isOut p → ∀ f, s.fs p = some f → f.mtime ≤ s.now
  clock : s0.now ≤ s.now
  outs : ∀ o, L.isOut o → MadeSince tc L flags s0.now s.fs o

/-- What no bob undoes. -/
structure CrowdE (tc : Toolchain) (L : Layout) (flags : Bytes → List Bytes) (s s' : Store) : Prop where
  right : ∀ o, RightNow tc L flags s.fs o → RightNow tc L flags s'.fs o
  deps : ∀ o, L.isOut o → DepsNow tc L flags s.fs o → DepsNow tc L flags s'.fs o

theorem CrowdE.refl (s : Store) : CrowdE tc L flags s s := ⟨fun _ h => h, fun _ _ h => h⟩

theorem CrowdE.trans {a b d : Store} (h1 : CrowdE tc L flags a b) (h2 : CrowdE tc L flags b d) : CrowdE tc L flags a d :=
  ⟨fun o h => h2.right o (h1.right o h), fun o ho h => h2.deps o ho (h1.deps o ho h)⟩

/-- What is known about a product of a bob. -/
def CrowdQ (tc : Toolchain) (L : Layout) (flags : Bytes → List Bytes) (P : Prod) (st : PStat) (s : Store) : Prop :=
  match st with
  | .task k f => (1 ≤ k → DepsNow tc L flags s.fs P.out) ∧ (2 ≤ k → f = false → RightNow tc L flags s.fs P.out)
  | .linking => ∀ j, P = .l j → ∀ p ∈ j.srcs, ¬ L.user p → RightNow tc L flags s.fs p
  | .linkRan ok => ok = true → RightNow tc L flags s.fs P.out
  | .linked | .done => RightNow tc L flags s.fs P.out
  | .todo | .failed => True

theorem CrowdQ.mono {P : Prod} (hP : L.isOut P.out) {st : PStat} {s s' : Store} (hE : CrowdE tc L flags s s') (h : CrowdQ tc L flags P st s) :
    CrowdQ tc L flags P st s' := by
  cases st with
  | todo => trivial
  | failed => trivial
  | task k f => exact ⟨fun hk => hE.deps _ hP (h.1 hk), fun hk hf => hE.right _ (h.2 hk hf)⟩
  | linking => exact fun j e p hp hu => hE.right p (h j e p hp hu)
  | linkRan ok => exact fun e => hE.right _ (h e)
  | linked => exact hE.right _ h
  | done => exact hE.right _ h

/-! ## Actions -/

/-- The products links are made from are products. -/
def SrcsKnown (L : Layout) : Prop := ∀ o a srcs, L.isOut o → L.kind o = .link a srcs → ∀ p ∈ srcs, L.user p ∨ L.isOut p

theorem RightNow.isSome {fs : FS} {o : Bytes} (h : RightNow tc L flags fs o) : (fs o).isSome := by
  have key : ∃ x, fs.content o = some x := by cases h with
    | c _ _ _ _ h => exact ⟨_, h⟩
    | l _ _ _ _ h => exact ⟨_, h⟩
  obtain ⟨x, hx⟩ := key
  cases ho : fs o with
  | none => simp [FS.content, ho] at hx
  | some f => rfl

theorem deps_user (hT : ToolOk tc L) {fs fs' : FS} {src : Bytes} {F : List Bytes} (hsrc : L.user src)
    (hu : ∀ p, L.user p → fs' p = fs p) {items} (h : tc.deps fs' src F = some items) : tc.deps fs src F = some items :=
  (deps_back hT hsrc hu h).1

theorem CMade.congr {fs fs' : FS} {o src : Bytes} (h : CMade tc L flags fs o src) (ho : fs' o = fs o) (hd : fs' (depsPath o) = fs (depsPath o))
    (hu : ∀ p, L.user p → fs' p = fs p) : CMade tc L flags fs' o src := by
  intro x hx
  rw [ho] at hx
  obtain ⟨⟨g, h1, h2⟩, h3⟩ := h x hx
  refine ⟨⟨g, h1, snap_congr hu h2⟩, fun d hd' => ?_⟩
  rw [hd] at hd'
  obtain ⟨g', items, h4, h5, h6⟩ := h3 d hd'
  exact ⟨g', items, h4, h5, snap_congr hu h6⟩

/-- Nothing changes for a product whose files and inputs stay, or, if it is an old link product, whose inputs are only made anew. -/
theorem MadeSince.congr (hS : SrcsKnown L) {fs fs' : FS} {t0 now : Nat} {o : Bytes} (hout : L.isOut o) (h : MadeSince tc L flags t0 fs o)
    (ho : fs' o = fs o) (hd : fs' (depsPath o) = fs (depsPath o)) (hu : ∀ p, L.user p → fs' p = fs p) (ht : t0 ≤ now)
    (hnew : ∀ p, L.isOut p → fs' p = fs p ∨ fs' p = none ∨ ∃ f, fs' p = some f ∧ f.mtime = now)
    (hr : RightNow tc L flags fs o → RightNow tc L flags fs' o) : MadeSince tc L flags t0 fs' o := by
  unfold MadeSince at h ⊢
  cases hk : L.kind o with
  | compile src =>
    rw [hk] at h
    exact CMade.congr h ho hd hu
  | link a srcs =>
    rw [hk] at h
    intro x hx
    rw [ho] at hx
    rcases h x hx with ⟨h1, g, h2, h3⟩ | h1
    · refine Or.inl ⟨h1, g, h2, h3.mono fun p hp f hf hle => ?_⟩
      rcases hS o a srcs hout hk p hp with hpu | hpo
      · rw [← hu p hpu]; exact hf
      · rcases hnew p hpo with h4 | h4 | ⟨f', h4, h5⟩
        · rw [← h4]; exact hf
        · rw [h4] at hf; cases hf
        · rw [h4] at hf; cases hf; omega
    · exact Or.inr (hr h1)

theorem RightNow.isOut {fs : FS} {o : Bytes} (h : RightNow tc L flags fs o) : L.isOut o := by cases h <;> assumption

/-- An action on the files of product `o`. -/
theorem touch_keep (hT : ToolOk tc L) (hL : LayoutOk L c) {o : Bytes} (ho : L.isOut o) {s s' : Store} (hG : CrowdG tc L flags s0 s)
    (ht : Touch (fun p => Managed o p ∨ IsDest c p) s s')
    (hc : RightNow tc L flags s.fs o → s'.fs.content o = s.fs.content o) (hd : DepsNow tc L flags s.fs o → DepsNow tc L flags s'.fs o)
    (hm : CrowdE tc L flags s s' → MadeSince tc L flags s0.now s'.fs o) : CrowdG tc L flags s0 s' ∧ CrowdE tc L flags s s' := by
  have hu := touch_user hL ho ht
  have hman := fun o' ho' hne p hp => touch_managed hL (o' := o') ho ho' hne ht p hp
  have hE : CrowdE tc L flags s s' := by
    refine ⟨fun o' h => h.keep hT hu fun q hq => ?_, fun o' ho' h => ?_⟩
    · by_cases e : q = o
      · subst e; exact hc hq
      · exact content_congr (hman q hq.isOut e q (Or.inl rfl))
    · by_cases e : o' = o
      · subst e; exact hd h
      · intro src hk hsrc items hi
        rw [hman o' ho' e _ (Or.inr (Or.inl rfl))]
        exact h src hk hsrc items (deps_user hT hsrc hu hi)
  refine ⟨⟨fun p hp => (hu p hp).trans (hG.user p hp), ?_, by rw [ht.now]; exact hG.clock, ?_⟩, hE⟩
  · intro p hp f hf
    rw [ht.now]
    rcases ht.new p with h1 | h1 | ⟨g, h1, h2⟩
    · rw [h1] at hf; exact hG.future p hp f hf
    · rw [h1] at hf; cases hf
    · rw [h1] at hf; cases hf; omega
  · intro o' ho'
    by_cases e : o' = o
    · subst e; exact hm hE
    · exact (hG.outs o' ho').congr hL.linkSrcs ho' (hman o' ho' e _ (Or.inl rfl)) (hman o' ho' e _ (Or.inr (Or.inl rfl))) hu hG.clock
        (fun p _ => ht.new p) (hE.right o')

/-- An action that leaves the product and the record of what it is made from alone. -/
theorem quiet_keep (hT : ToolOk tc L) (hL : LayoutOk L c) {o : Bytes} (ho : L.isOut o) {s s' : Store} (hG : CrowdG tc L flags s0 s)
    (ht : Touch (fun p => Managed o p ∨ IsDest c p) s s') (h1 : s'.fs o = s.fs o) (h2 : s'.fs (depsPath o) = s.fs (depsPath o)) :
    CrowdG tc L flags s0 s' ∧ CrowdE tc L flags s s' := by
  have hu := touch_user hL ho ht
  refine touch_keep hT hL ho hG ht (fun _ => content_congr h1) ?_ ?_
  · intro h src hk hsrc items hi
    rw [h2]
    exact h src hk hsrc items (deps_user hT hsrc hu hi)
  · intro hE
    exact (hG.outs o ho).congr hL.linkSrcs ho h1 h2 hu hG.clock (fun p _ => ht.new p) (hE.right o)

/-- Installing. -/
theorem dest_keep (hT : ToolOk tc L) (hL : LayoutOk L c) {o : Bytes} (ho : L.isOut o) {s s' : Store} (hG : CrowdG tc L flags s0 s)
    (ht : Touch (IsDest c) s s') : CrowdG tc L flags s0 s' ∧ CrowdE tc L flags s s' :=
  quiet_keep hT hL ho hG (ht.mono fun _ => Or.inr) (ht.same o (not_dest_managed hL ho (Or.inl rfl)))
    (ht.same _ (not_dest_managed hL ho (Or.inr (Or.inl rfl))))

theorem tick_keep {s s' : Store} (hG : CrowdG tc L flags s0 s) (ht : Tick s s') : CrowdG tc L flags s0 s' ∧ CrowdE tc L flags s s' := by
  obtain ⟨t, ht, rfl⟩ := ht
  exact ⟨⟨hG.user, fun p hp f hf => Nat.le_trans (hG.future p hp f hf) ht, Nat.le_trans hG.clock ht, hG.outs⟩, ⟨fun _ h => h, fun _ _ h => h⟩⟩

theorem flags_keep (hT : ToolOk tc L) (hL : LayoutOk L c) {o : Bytes} (ho : L.isOut o) {F : List Bytes} {s s' : Store} {b : Bool}
    (hG : CrowdG tc L flags s0 s) (h : checkFlags o F s = (s', b)) : CrowdG tc L flags s0 s' ∧ CrowdE tc L flags s s' := by
  cases b with
  | false => rw [(checkFlags_false h).1]; exact ⟨hG, .refl _⟩
  | true =>
    rw [(checkFlags_true h).1]
    exact quiet_keep hT hL ho hG (touch_write s _ (Or.inl (Or.inr (Or.inr (Or.inl rfl))))) (write_other s _ (flagsPath_ne o).symm)
      (write_other s _ (flagsPath_ne_depsPath o).symm)

theorem validate_keep (hT : ToolOk tc L) (hL : LayoutOk L c) {j : CJob} (ho : L.isOut j.out) {s s' : Store} {v : Validation}
    (hG : CrowdG tc L flags s0 s) (h : validate j s = (s', v)) : CrowdG tc L flags s0 s' ∧ CrowdE tc L flags s s' := by
  unfold validate at h
  rcases hc : checkFlags j.out j.flags s with ⟨s1, b⟩
  rw [hc] at h
  have key := flags_keep hT hL ho hG hc
  have : s' = s1 := by
    cases b with
    | true => exact (Prod.mk.inj h).1.symm
    | false =>
      simp only at h
      split at h
      · exact (Prod.mk.inj h).1.symm
      · split at h <;> exact (Prod.mk.inj h).1.symm
  rw [this]; exact key

theorem linkCheck_keep (hT : ToolOk tc L) (hL : LayoutOk L c) {j : LJob} (ho : L.isOut j.out) {s s' : Store} {b : Bool}
    (hG : CrowdG tc L flags s0 s) (h : linkCheck j s = (s', b)) : CrowdG tc L flags s0 s' ∧ CrowdE tc L flags s s' := by
  unfold linkCheck at h
  rcases hc : checkFlags j.out j.flags s with ⟨s1, b'⟩
  rw [hc] at h
  have key := flags_keep hT hL ho hG hc
  have : s' = s1 := by
    cases b' with
    | true => exact (Prod.mk.inj h).1.symm
    | false =>
      simp only at h
      split at h <;> exact (Prod.mk.inj h).1.symm
  rw [this]; exact key

theorem log_keep (hT : ToolOk tc L) (hL : LayoutOk L c) {o output : Bytes} (ho : L.isOut o) {s : Store} (hG : CrowdG tc L flags s0 s) :
    CrowdG tc L flags s0 (writeLog o output s) ∧ CrowdE tc L flags s (writeLog o output s) :=
  quiet_keep hT hL ho hG (touch_writeLog o output s (Or.inl (managed_log o))) (writeLog_other o output s (logPath_ne o).symm)
    (writeLog_other o output s (depsPath_ne_logPath o))

theorem depsOp_keep (hT : ToolOk tc L) (hL : LayoutOk L c) {j : CJob} (hj : CJobOk L j) (hF : j.flags = flags j.out) {f : Bool} {s : Store}
    (hG : CrowdG tc L flags s0 s) :
    (CrowdG tc L flags s0 (depsOp tc j f s).1 ∧ CrowdE tc L flags s (depsOp tc j f s).1) ∧ DepsNow tc L flags (depsOp tc j f s).1.fs j.out := by
  have ht : Touch (fun p => Managed j.out p ∨ IsDest c p) s (depsOp tc j f s).1 := touch_depsOp j f s
  have hu := touch_user hL hj.isOut ht
  have ho : (depsOp tc j f s).1.fs j.out = s.fs j.out := by
    unfold depsOp
    split
    · rfl
    · exact write_other s _ (depsPath_ne _).symm
  have hnow : DepsNow tc L flags (depsOp tc j f s).1.fs j.out := by
    intro src hk hsrc items hi
    rw [hj.kind] at hk; cases hk
    have := deps_user hT hsrc hu hi
    rw [← hF] at this
    refine ⟨⟨depsText (ruleText items), s.now⟩, ?_, rfl⟩
    unfold depsOp; rw [this]; exact write_same _ _ _
  refine ⟨touch_keep hT hL hj.isOut hG ht (fun _ => content_congr ho) (fun _ => hnow) (fun _ => ?_), hnow⟩
  have hold := hG.outs _ hj.isOut
  unfold MadeSince at hold ⊢
  rw [hj.kind] at hold ⊢
  intro x hx
  rw [ho] at hx
  obtain ⟨⟨g, h1, h2⟩, h3⟩ := hold x hx
  refine ⟨⟨g, h1, snap_congr hu h2⟩, fun d hd => ?_⟩
  cases hi : tc.deps s.fs j.src j.flags with
  | none =>
    have e : (depsOp tc j f s).1 = s := by unfold depsOp; rw [hi]
    rw [e] at hd ⊢
    exact h3 d hd
  | some items =>
    have e : (depsOp tc j f s).1 = s.write (depsPath j.out) (depsText (ruleText items)) := by unfold depsOp; rw [hi]
    refine ⟨s.fs, items, by rw [← hF]; exact hi, ?_, snap_now hu⟩
    rw [e, write_same] at hd
    cases hd; rfl

theorem objOp_keep (hT : ToolOk tc L) (hL : LayoutOk L c) {j : CJob} (hj : CJobOk L j) (hF : j.flags = flags j.out) {f : Bool} {s : Store}
    (hG : CrowdG tc L flags s0 s) (hd : DepsNow tc L flags s.fs j.out) :
    (CrowdG tc L flags s0 (objOp tc j f s).1 ∧ CrowdE tc L flags s (objOp tc j f s).1) ∧
      ((objOp tc j f s).2 = false → RightNow tc L flags (objOp tc j f s).1.fs j.out) := by
  have ht : Touch (fun p => Managed j.out p ∨ IsDest c p) s (objOp tc j f s).1 := touch_objOp j f s
  have hu := touch_user hL hj.isOut ht
  have hdp : (objOp tc j f s).1.fs (depsPath j.out) = s.fs (depsPath j.out) := by
    unfold objOp
    simp only
    split
    · exact write_other _ _ (depsPath_ne _)
    · split
      · exact remove_other _ (depsPath_ne _)
      · rfl
  have hdk : DepsNow tc L flags s.fs j.out → DepsNow tc L flags (objOp tc j f s).1.fs j.out := by
    intro h src hk hsrc items hi
    rw [hdp]; exact h src hk hsrc items (deps_user hT hsrc hu hi)
  cases hx : tc.obj s.fs j.src j.flags with
  | some x =>
    have hout : (objOp tc j f s).1.fs j.out = some ⟨x, s.now⟩ := by
      unfold objOp; rw [hx]; exact write_same _ _ _
    have hR : RightNow tc L flags (objOp tc j f s).1.fs j.out :=
      .c hj.isOut hj.kind hj.user (obj_user hT hj.user hu (by rw [← hF]; exact hx)) (by rw [FS.content, hout]; rfl)
    refine ⟨touch_keep hT hL hj.isOut hG ht ?_ hdk (fun _ => ?_), fun _ => hR⟩
    · intro h
      obtain ⟨y, h1, h2⟩ := h.cval hj.kind
      rw [← hF, hx] at h1; cases h1
      rw [h2, FS.content, hout]; rfl
    · unfold MadeSince
      rw [hj.kind]
      intro y hy
      rw [hout] at hy; cases hy
      refine ⟨⟨s.fs, by rw [← hF]; exact hx, snap_now hu⟩, fun d hd' => ?_⟩
      rw [hdp] at hd'
      obtain ⟨items, hi⟩ := hT.objDeps _ _ _ _ hx
      obtain ⟨d', h1, h2⟩ := hd _ hj.kind hj.user items (by rw [← hF]; exact hi)
      rw [h1] at hd'; cases hd'
      exact ⟨s.fs, items, by rw [← hF]; exact hi, h2, snap_now hu⟩
  | none =>
    refine ⟨touch_keep hT hL hj.isOut hG ht ?_ hdk (fun _ => ?_), fun h => ?_⟩
    · intro h
      obtain ⟨y, h1, h2⟩ := h.cval hj.kind
      rw [← hF, hx] at h1; cases h1
    · have hold := hG.outs _ hj.isOut
      unfold MadeSince at hold ⊢
      rw [hj.kind] at hold ⊢
      by_cases hrm : tc.objFailRemoves s.fs j.src j.flags = true
      · have : (objOp tc j f s).1.fs j.out = none := by
          unfold objOp; rw [hx]; simp only; rw [if_pos hrm]; exact remove_same _ _
        intro y hy; rw [this] at hy; cases hy
      · have : (objOp tc j f s).1.fs = s.fs := by
          unfold objOp; rw [hx]; simp only; rw [if_neg hrm]; rfl
        rw [this]; exact hold
    · unfold objOp at h; rw [hx] at h; cases h

theorem linkOp_keep (hT : ToolOk tc L) (hL : LayoutOk L c) {j : LJob} (hj : LJobOk L j) (hself : j.out ∉ j.srcs) (hF : j.flags = flags j.out)
    {s : Store} (hG : CrowdG tc L flags s0 s) (hs : ∀ p ∈ j.srcs, ¬ L.user p → RightNow tc L flags s.fs p) :
    (CrowdG tc L flags s0 (linkOp tc j s).1 ∧ CrowdE tc L flags s (linkOp tc j s).1) ∧
      ((linkOp tc j s).2 = true → RightNow tc L flags (linkOp tc j s).1.fs j.out) := by
  have ht : Touch (fun p => Managed j.out p ∨ IsDest c p) s (linkOp tc j s).1 := touch_linkOp j s
  have hu := touch_user hL hj.isOut ht
  have hdp : DepsNow tc L flags s.fs j.out → DepsNow tc L flags (linkOp tc j s).1.fs j.out := by
    intro _ src hk
    rw [hj.kind] at hk; cases hk
  cases hx : tc.link j.archive s.fs j.srcs j.flags with
  | some x =>
    have hout : (linkOp tc j s).1.fs j.out = some ⟨x, s.now⟩ := by
      unfold linkOp; rw [hx]; exact write_same _ _ _
    have hc : RightNow tc L flags s.fs j.out → (linkOp tc j s).1.fs.content j.out = s.fs.content j.out := by
      intro h
      obtain ⟨y, h1, h2⟩ := h.lval hj.kind
      rw [← hF, hx] at h1; cases h1
      rw [h2, FS.content, hout]; rfl
    have hR : CrowdE tc L flags s (linkOp tc j s).1 → RightNow tc L flags (linkOp tc j s).1.fs j.out := by
      intro hE
      refine .l hj.isOut hj.kind (fun p hp hn => hE.right p (hs p hp hn)) ?_ (by rw [FS.content, hout]; rfl)
      rw [← hF, (hT.linkLaw j.archive s.fs _ j.srcs j.flags fun p hp => content_congr (srcs_touch hL hj hself ht p hp)).1]
      exact hx
    have key := touch_keep hT hL hj.isOut hG ht hc hdp (fun hE => by
      unfold MadeSince
      rw [hj.kind]
      exact fun _ _ => Or.inr (hR hE))
    exact ⟨key, fun _ => hR key.2⟩
  | none =>
    refine ⟨touch_keep hT hL hj.isOut hG ht ?_ hdp (fun hE => ?_), fun h => ?_⟩
    · intro h
      obtain ⟨y, h1, h2⟩ := h.lval hj.kind
      rw [← hF, hx] at h1; cases h1
    · by_cases hrm : tc.linkFailRemoves j.archive s.fs j.srcs j.flags = true
      · have : (linkOp tc j s).1.fs j.out = none := by
          unfold linkOp; rw [hx]; simp only; rw [if_pos hrm]; exact remove_same _ _
        unfold MadeSince
        rw [hj.kind]
        intro y hy; rw [this] at hy; cases hy
      · have : (linkOp tc j s).1.fs = s.fs := by
          unfold linkOp; rw [hx]; simp only; rw [if_neg hrm]; rfl
        rw [this]; exact hG.outs _ hj.isOut
    · unfold linkOp at h; rw [hx] at h; cases h

end Bob
