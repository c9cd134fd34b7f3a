import Verif.Lemmas.Build
/-!
# What holds during a build
-/

namespace Bob

/-! ## Effects of the elementary actions -/

/-- `s'` comes from `s` by writing or removing files satisfying `M`. -/
structure Touch (M : Bytes → Prop) (s s' : Store) : Prop where
  now : s'.now = s.now
  same : ∀ p, ¬ M p → s'.fs p = s.fs p
  new : ∀ p, s'.fs p = s.fs p ∨ s'.fs p = none ∨ ∃ f, s'.fs p = some f ∧ f.mtime = s.now

theorem Touch.refl (M : Bytes → Prop) (s : Store) : Touch M s s := ⟨rfl, fun _ _ => rfl, fun _ => Or.inl rfl⟩

theorem Touch.trans {M : Bytes → Prop} {a b c : Store} (h1 : Touch M a b) (h2 : Touch M b c) : Touch M a c := by
  refine ⟨h2.now.trans h1.now, fun p hp => (h2.same p hp).trans (h1.same p hp), fun p => ?_⟩
  rcases h2.new p with h | h | ⟨f, h, hm⟩
  · rw [h]; exact h1.new p
  · exact Or.inr (Or.inl h)
  · exact Or.inr (Or.inr ⟨f, h, hm.trans h1.now⟩)

theorem Touch.mono {M M' : Bytes → Prop} {a b : Store} (h : Touch M a b) (hM : ∀ p, M p → M' p) : Touch M' a b :=
  ⟨h.now, fun p hp => h.same p (fun h' => hp (hM p h')), h.new⟩

theorem touch_write {M : Bytes → Prop} (s : Store) {p : Bytes} (content : Bytes) (hp : M p) : Touch M s (s.write p content) := by
  refine ⟨rfl, fun q hq => ?_, fun q => ?_⟩
  · have : q ≠ p := fun h => hq (h ▸ hp)
    simp [Store.write, FS.set, this]
  · by_cases h : q = p
    · exact Or.inr (Or.inr ⟨⟨content, s.now⟩, by simp [Store.write, FS.set, h], rfl⟩)
    · exact Or.inl (by simp [Store.write, FS.set, h])

theorem touch_remove {M : Bytes → Prop} (s : Store) {p : Bytes} (hp : M p) : Touch M s (s.remove p) := by
  refine ⟨rfl, fun q hq => ?_, fun q => ?_⟩
  · have : q ≠ p := fun h => hq (h ▸ hp)
    simp [Store.remove, FS.set, this]
  · by_cases h : q = p
    · exact Or.inr (Or.inl (by simp [Store.remove, FS.set, h]))
    · exact Or.inl (by simp [Store.remove, FS.set, h])

theorem touch_emit {M : Bytes → Prop} (s : Store) (e : BEvent) : Touch M s (s.emit e) :=
  ⟨rfl, fun _ _ => rfl, fun _ => Or.inl rfl⟩

@[simp] theorem write_same (s : Store) (p content : Bytes) : (s.write p content).fs p = some ⟨content, s.now⟩ := by
  simp [Store.write, FS.set]
theorem write_other (s : Store) {p q : Bytes} (content : Bytes) (h : q ≠ p) : (s.write p content).fs q = s.fs q := by
  simp [Store.write, FS.set, h]
@[simp] theorem remove_same (s : Store) (p : Bytes) : (s.remove p).fs p = none := by simp [Store.remove, FS.set]
theorem remove_other (s : Store) {p q : Bytes} (h : q ≠ p) : (s.remove p).fs q = s.fs q := by simp [Store.remove, FS.set, h]
@[simp] theorem emit_fs (s : Store) (e : BEvent) : (s.emit e).fs = s.fs := rfl
@[simp] theorem emit_now (s : Store) (e : BEvent) : (s.emit e).now = s.now := rfl
@[simp] theorem write_now (s : Store) (p content : Bytes) : (s.write p content).now = s.now := rfl
@[simp] theorem remove_now (s : Store) (p : Bytes) : (s.remove p).now = s.now := rfl

def IsDest (c : InstCfg) (p : Bytes) : Prop := ∃ o, c.dest o = some p

theorem touch_install (c : InstCfg) (out : Bytes) (s : Store) : Touch (IsDest c) s (installCookie c out s).1 := by
  unfold installCookie
  cases hd : c.dest out with
  | none => exact Touch.refl _ _
  | some dst =>
    simp only
    split
    · exact Touch.refl _ _
    · split
      · exact Touch.refl _ _
      · split
        · exact Touch.refl _ _
        · exact Touch.refl _ _
        · exact (touch_write s _ ⟨out, hd⟩).trans (touch_emit _ _)

theorem touch_writeLog {M : Bytes → Prop} (out output : Bytes) (s : Store) (h : M (logPath out)) :
    Touch M s (writeLog out output s) := by
  unfold writeLog
  split
  · exact touch_remove s h
  · exact touch_write s _ h

theorem writeLog_other (out output : Bytes) (s : Store) {q : Bytes} (h : q ≠ logPath out) :
    (writeLog out output s).fs q = s.fs q := by
  unfold writeLog
  split
  · exact remove_other s h
  · exact write_other s _ h

@[simp] theorem capture_fs (s : Store) (out output : Bytes) : (s.capture out output).fs = s.fs := rfl
@[simp] theorem capture_now (s : Store) (out output : Bytes) : (s.capture out output).now = s.now := rfl
@[simp] theorem capture_buf (s : Store) (out output : Bytes) : (s.capture out output).buf out = output := by simp [Store.capture]
theorem capture_buf_other (s : Store) {out out' : Bytes} (output : Bytes) (h : out' ≠ out) :
    (s.capture out output).buf out' = s.buf out' := by simp [Store.capture, h]

theorem touch_capture {M : Bytes → Prop} (s : Store) (out output : Bytes) : Touch M s (s.capture out output) :=
  ⟨rfl, fun _ _ => rfl, fun _ => Or.inl rfl⟩

theorem writeLog_content (out output : Bytes) (s : Store) : (writeLog out output s).fs.content (logPath out) = logOf output := by
  unfold writeLog logOf FS.content
  split <;> simp

theorem writeLog_log (out output : Bytes) (s : Store) (l : File) (h : (writeLog out output s).fs (logPath out) = some l) :
    l.content = cstr output ∧ l.mtime = s.now := by
  unfold writeLog at h
  split at h
  · simp at h
  · simp at h; rw [← h]; exact ⟨rfl, rfl⟩

/-- The record of flags says `F`. -/
def Recorded (fs : FS) (out : Bytes) (F : List Bytes) : Prop := ∃ r, fs (flagsPath out) = some r ∧ cstr r.content = flagText F

theorem checkFlags_false {out : Bytes} {F : List Bytes} {s s' : Store} (h : checkFlags out F s = (s', false)) :
    s' = s ∧ Recorded s.fs out F := by
  unfold checkFlags frugalFlags FS.content at h
  cases hr : s.fs (flagsPath out) with
  | none => simp [hr] at h
  | some r =>
    by_cases hc : cstr r.content = flagText F
    · simp [hr, hc] at h
      exact ⟨h.symm, r, hr, hc⟩
    · simp [hr, hc] at h

theorem checkFlags_true {out : Bytes} {F : List Bytes} {s s' : Store} (h : checkFlags out F s = (s', true)) :
    s' = s.write (flagsPath out) (flagText F) ∧ ¬ Recorded s.fs out F := by
  unfold checkFlags frugalFlags FS.content at h
  cases hr : s.fs (flagsPath out) with
  | none =>
    simp [hr] at h
    refine ⟨h.symm, ?_⟩
    rintro ⟨r, h1, _⟩
    rw [hr] at h1; cases h1
  | some r =>
    by_cases hc : cstr r.content = flagText F
    · simp [hr, hc] at h
    · simp [hr, hc] at h
      refine ⟨h.symm, ?_⟩
      rintro ⟨r', h1, h2⟩
      rw [hr] at h1; injection h1 with h1; subst h1
      exact hc h2

theorem recorded_write (out : Bytes) (F : List Bytes) (s : Store) : Recorded (s.write (flagsPath out) (flagText F)).fs out F :=
  ⟨_, write_same _ _ _, by exact cstr_eq_self (nul_not_mem_flagText F)⟩

/-! ## The invariant of a build -/

structure RunInv (tc : Toolchain) (L : Layout) (T TL : Bytes → Prop) (s0 : Store) (reqs0 done : List Req) (s : Store) : Prop where
  user : ∀ p, L.user p → s.fs p = s0.fs p
  future : ∀ p, L.user p ∨ L.isOut p → ∀ f, s.fs p = some f → f.mtime ≤ s.now
  clock : s0.now ≤ s.now
  outs : ∀ o, L.isOut o → ¬ T o → ¬ FlagsChanged s0 reqs0 o → OutInv tc L (TL o ∨ o ∈ outsOf done) s.fs o
  untouched : ∀ o, L.isOut o → o ∉ outsOf done → ∀ p, Managed o p → s.fs p = s0.fs p
  recs : ∀ o, L.isOut o → (s.fs o).isSome → ((s0.fs o).isSome ∧ s.fs (flagsPath o) = s0.fs (flagsPath o)) ∨
    ∃ r ∈ reqs0, ∃ F, r.flagsOf o F ∧ Recorded s.fs o F

/-- What is assumed about the state in which a build starts. -/
structure StartOk (tc : Toolchain) (L : Layout) (T TL : Bytes → Prop) (s0 : Store) : Prop where
  future : ∀ p, L.user p → ∀ f, s0.fs p = some f → f.mtime ≤ s0.now
  old : ∀ o, L.isOut o → ∀ f, s0.fs o = some f → f.mtime < s0.now
  outs : ∀ o, L.isOut o → ¬ T o → OutInv tc L (TL o) s0.fs o

variable {tc : Toolchain} {L : Layout} {c : InstCfg} {T TL U : Bytes → Prop} {s0 : Store} {reqs0 : List Req}

theorem RunInv.init (h : StartOk tc L T TL s0) : RunInv tc L T TL s0 reqs0 [] s0 := by
  refine ⟨fun _ _ => rfl, ?_, Nat.le_refl _, fun o ho hT _ => (h.outs o ho hT).weaken Or.inl, fun _ _ _ _ _ => rfl,
    fun _ _ h => Or.inl ⟨h, rfl⟩⟩
  intro p hp f hf
  rcases hp with hp | hp
  · exact h.future p hp f hf
  · exact Nat.le_of_lt (h.old p hp f hf)

theorem RunInv.tick {done : List Req} {s s' : Store} (h : RunInv tc L T TL s0 reqs0 done s) (ht : Tick s s') :
    RunInv tc L T TL s0 reqs0 done s' := by
  obtain ⟨t, ht, rfl⟩ := ht
  refine ⟨h.user, ?_, Nat.le_trans h.clock ht, h.outs, h.untouched, h.recs⟩
  intro p hp f hf
  exact Nat.le_trans (h.future p hp f hf) ht

theorem mem_outsOf {reqs : List Req} {o : Bytes} : o ∈ outsOf reqs ↔ ∃ r ∈ reqs, o ∈ r.outs := by
  simp [outsOf, List.mem_flatMap]

@[simp] theorem outsOf_append (a b : List Req) : outsOf (a ++ b) = outsOf a ++ outsOf b := by simp [outsOf]
@[simp] theorem outsOf_cons (a : Req) (b : List Req) : outsOf (a :: b) = a.outs ++ outsOf b := by simp [outsOf]
@[simp] theorem outsOf_nil : outsOf [] = [] := rfl

/-- Marking more as done loses information only. -/
theorem RunInv.more {done done' : List Req} {s : Store} (h : RunInv tc L T TL s0 reqs0 done s)
    (hd : ∀ o, o ∈ outsOf done → o ∈ outsOf done') : RunInv tc L T TL s0 reqs0 done' s :=
  ⟨h.user, h.future, h.clock, fun o ho h1 h2 => (h.outs o ho h1 h2).weaken (Or.imp_right (hd o)),
    fun o ho hn => h.untouched o ho (fun h' => hn (hd o h')), h.recs⟩

theorem not_dest_user (hL : LayoutOk L c) {p : Bytes} (hp : L.user p) : ¬ IsDest c p :=
  fun ⟨o, ho⟩ => hL.destNotUser o p ho hp

theorem not_dest_managed (hL : LayoutOk L c) {o p : Bytes} (ho : L.isOut o) (hp : Managed o p) : ¬ IsDest c p :=
  fun ⟨o', ho'⟩ => hL.destNotManaged o' p ho' o ho hp

/-- A product's link kind determines its request. -/
theorem link_of_kind {done : List Req} (hok : ∀ r ∈ done, ReqOk L r) {o : Bytes} {a : Bool} {srcs : List Bytes}
    (ho : o ∈ outsOf done) (hk : L.kind o = .link a srcs) : ∃ j, .link j ∈ done ∧ j.out = o ∧ j.srcs = srcs ∧ j.archive = a := by
  obtain ⟨r, hr, hor⟩ := mem_outsOf.mp ho
  have := hok r hr
  cases r with
  | compile jobs =>
    simp only [Req.outs, List.mem_map] at hor
    obtain ⟨j, hj, rfl⟩ := hor
    have hk' := (this j hj).kind
    rw [hk] at hk'; cases hk'
  | link j =>
    simp only [Req.outs, List.mem_singleton] at hor
    subst hor
    have hk' := this.kind
    rw [hk] at hk'
    injection hk' with h1 h2
    exact ⟨j, hr, rfl, h2.symm, h1.symm⟩

theorem managed_three {o p : Bytes} (h : p = o ∨ p = depsPath o ∨ p = flagsPath o) : Managed o p := by
  rcases h with h | h | h
  · exact Or.inl h
  · exact Or.inr (Or.inl h)
  · exact Or.inr (Or.inr (Or.inl h))

theorem managed_log (o : Bytes) : Managed o (logPath o) := Or.inr (Or.inr (Or.inr rfl))

/-- An action that keeps the user's files and the files of other products, and does not write what a finished link product was
made from, keeps the invariant, if it does so for product `o`. -/
theorem RunInv.frame (hS : StartOk tc L T TL s0) {done : List Req} (hok : ∀ r ∈ done, ReqOk L r)
    {s s' : Store} {o : Bytes → Prop} (hod : ∀ x, o x → x ∈ outsOf done)
    (hsep : ∀ j, .link j ∈ done → ∀ x, o x → x ∉ j.srcs)
    (h : RunInv tc L T TL s0 reqs0 done s) (hnow : s'.now = s.now)
    (huser : ∀ p, L.user p → s'.fs p = s.fs p)
    (hman : ∀ o', L.isOut o' → ¬ o o' → ∀ p, Managed o' p → s'.fs p = s.fs p)
    (hnew : ∀ p, s'.fs p = s.fs p ∨ s'.fs p = none ∨ ∃ f, s'.fs p = some f ∧ f.mtime = s.now)
    (hI : ∀ x, o x → L.isOut x → ¬ T x → ¬ FlagsChanged s0 reqs0 x → OutInv tc L (TL x ∨ x ∈ outsOf done) s'.fs x)
    (hrec : ∀ x, o x → (s'.fs x = s.fs x ∧ s'.fs (flagsPath x) = s.fs (flagsPath x)) ∨
      ∃ r ∈ reqs0, ∃ F, r.flagsOf x F ∧ Recorded s'.fs x F) :
    RunInv tc L T TL s0 reqs0 done s' := by
  refine ⟨fun p hp => (huser p hp).trans (h.user p hp), ?_, by rw [hnow]; exact h.clock, ?_, ?_, ?_⟩
  · intro p hp f hf
    rw [hnow]
    rcases hnew p with h1 | h1 | ⟨g, h1, hm⟩
    · rw [h1] at hf; exact h.future p hp f hf
    · rw [h1] at hf; cases hf
    · rw [h1] at hf; injection hf with e; subst e; omega
  · intro o' ho' hTo hFo
    by_cases hne : o o'
    · exact hI o' hne ho' hTo hFo
    · have hold := h.outs o' ho' hTo hFo
      have hlog : ¬ (TL o' ∨ o' ∈ outsOf done) →
          (s'.fs (logPath o') = s.fs (logPath o') ∧ ¬ (TL o' ∨ o' ∈ outsOf done)) ∨ s'.fs o' = none :=
        fun hn => Or.inl ⟨hman o' ho' hne _ (managed_log o'), hn⟩
      unfold OutInv at hold ⊢
      cases hk : L.kind o' with
      | compile src =>
        rw [hk] at hold
        simp only at hold ⊢
        exact hold.congr (fun p hp => Or.inl (hman o' ho' hne p (managed_three hp))) hlog
          (fun x _ p hp f hf _ => by rw [← huser p hp]; exact hf)
      | link a srcs =>
        rw [hk] at hold
        simp only at hold ⊢
        refine hold.congr (fun p hp => Or.inl (hman o' ho' hne p (managed_three hp))) hlog ?_
        intro x hx p hp f hf hle
        by_cases hod' : o' ∈ outsOf done
        · obtain ⟨j, hj, rfl, rfl, _⟩ := link_of_kind hok hod' hk
          rcases (hok _ hj).srcs p hp with hu | hu
          · rw [← huser p hu]; exact hf
          · rw [← hman p hu (fun h => hsep j hj p h hp) p (Or.inl rfl)]; exact hf
        · have hx0 := h.untouched o' ho' hod' o' (Or.inl rfl)
          rw [hx] at hx0
          have := hS.old o' ho' x hx0.symm
          have hc := h.clock
          rcases hnew p with h1 | h1 | ⟨g, h1, hm⟩
          · rw [← h1]; exact hf
          · rw [h1] at hf; cases hf
          · rw [h1] at hf; injection hf with e; subst e; omega
  · intro o' ho' hn p hp
    rw [hman o' ho' (fun h => hn (hod o' h)) p hp]
    exact h.untouched o' ho' hn p hp
  · intro o' ho' hs
    have key : (s'.fs o' = s.fs o' ∧ s'.fs (flagsPath o') = s.fs (flagsPath o')) ∨
        ∃ r ∈ reqs0, ∃ F, r.flagsOf o' F ∧ Recorded s'.fs o' F := by
      by_cases hne : o o'
      · exact hrec o' hne
      · exact Or.inl ⟨hman o' ho' hne _ (Or.inl rfl), hman o' ho' hne _ (Or.inr (Or.inr (Or.inl rfl)))⟩
    rcases key with ⟨k1, k2⟩ | hk
    · rw [k1] at hs
      rcases h.recs o' ho' hs with ⟨h1, h2⟩ | ⟨r, hr, F, hF, x, hx, hc⟩
      · exact Or.inl ⟨h1, k2.trans h2⟩
      · exact Or.inr ⟨r, hr, F, hF, x, by rw [k2]; exact hx, hc⟩
    · exact Or.inr hk

theorem touch_user (hL : LayoutOk L c) {o : Bytes} (ho : L.isOut o) {s s' : Store}
    (ht : Touch (fun p => Managed o p ∨ IsDest c p) s s') (p : Bytes) (hp : L.user p) : s'.fs p = s.fs p :=
  ht.same p (fun h => h.elim (fun h => hL.outNotUser o p ho h hp) (not_dest_user hL hp))

theorem touch_managed (hL : LayoutOk L c) {o o' : Bytes} (ho : L.isOut o) (ho' : L.isOut o') (hne : o' ≠ o) {s s' : Store}
    (ht : Touch (fun p => Managed o p ∨ IsDest c p) s s') (p : Bytes) (hp : Managed o' p) : s'.fs p = s.fs p :=
  ht.same p (fun h => h.elim (fun h => hne (managed_disjoint hL ho' ho hp h)) (not_dest_managed hL ho' hp))

/-- An action that writes only files of product `o` (or installed files) keeps the invariant, if it does so for `o`. -/
theorem RunInv.touch (hL : LayoutOk L c) (hS : StartOk tc L T TL s0) {done : List Req} (hok : ∀ r ∈ done, ReqOk L r)
    {s s' : Store} {o : Bytes} (ho : L.isOut o) (hod : o ∈ outsOf done)
    (hsep : ∀ j, .link j ∈ done → o ∉ j.srcs)
    (h : RunInv tc L T TL s0 reqs0 done s) (ht : Touch (fun p => Managed o p ∨ IsDest c p) s s')
    (hI : ¬ T o → ¬ FlagsChanged s0 reqs0 o → OutInv tc L (TL o ∨ o ∈ outsOf done) s'.fs o)
    (hrec : (s'.fs o = s.fs o ∧ s'.fs (flagsPath o) = s.fs (flagsPath o)) ∨ ∃ r ∈ reqs0, ∃ F, r.flagsOf o F ∧ Recorded s'.fs o F) :
    RunInv tc L T TL s0 reqs0 done s' := by
  refine h.frame hS hok (o := (· = o)) (fun x hx => hx ▸ hod) (fun j hj x hx => hx ▸ hsep j hj) ht.now
    (touch_user hL ho ht) (fun o' ho' hne => touch_managed hL ho ho' hne ht) ht.new ?_ (fun x hx => hx ▸ hrec)
  rintro x rfl _
  exact hI

/-- Writing installed files alone disturbs nothing. -/
theorem RunInv.dest (hL : LayoutOk L c) (hS : StartOk tc L T TL s0) {done : List Req} (hok : ∀ r ∈ done, ReqOk L r)
    {s s' : Store} (h : RunInv tc L T TL s0 reqs0 done s) (ht : Touch (IsDest c) s s') : RunInv tc L T TL s0 reqs0 done s' :=
  h.frame hS hok (o := fun _ => False) (fun _ hx => hx.elim) (fun _ _ _ hx => hx.elim) ht.now
    (fun p hp => ht.same p (not_dest_user hL hp)) (fun _ ho' _ p hp => ht.same p (not_dest_managed hL ho' hp)) ht.new
    (fun _ hx => hx.elim) (fun _ hx => hx.elim)

/-- Freshness depends only on the product's files, the user's files, and what it was linked from. -/
theorem reqFresh_congr (hT : ToolOk tc L) {fs fs' : FS} {r : Req} (hr : ReqOk L r)
    (huser : ∀ p, L.user p → fs' p = fs p) (hman : ∀ o ∈ r.outs, ∀ p, Managed o p → fs' p = fs p)
    (hsrc : ∀ j, r = .link j → ∀ p ∈ j.srcs, fs' p = fs p) (h : ReqFreshT tc U TL fs r) : ReqFreshT tc U TL fs' r := by
  cases r with
  | compile jobs =>
    intro j hj hTj
    have hm := hman j.out (by simp only [Req.outs, List.mem_map]; exact ⟨j, hj, rfl⟩)
    have h1 := h j hj hTj
    have h2 := h1.1.congr hT (hr j hj) (fun p hp => hm p (managed_three hp)) huser
    refine ⟨h2.1, fun hn => ?_⟩
    rw [h2.2, content_congr (hm _ (managed_log _))]
    exact h1.2 hn
  | link j =>
    intro hTj
    have hm := hman j.out (by simp [Req.outs])
    have h1 := h hTj
    have h2 := h1.1.congr hT (fun p hp => hm p (managed_three (hp.elim Or.inl (fun h => Or.inr (Or.inr h))))) (hsrc j rfl)
    refine ⟨h2.1, fun hn => ?_⟩
    rw [h2.2, content_congr (hm _ (managed_log _))]
    exact h1.2 hn

/-- Freshness of other products survives. -/
theorem fresh_touch (hL : LayoutOk L c) (hT : ToolOk tc L) {s s' : Store} {o : Bytes} (ho : L.isOut o)
    (ht : Touch (fun p => Managed o p ∨ IsDest c p) s s') {r : Req} (hr : ReqOk L r) (hno : o ∉ r.outs)
    (hsep : ∀ j, r = .link j → o ∉ j.srcs) (h : ReqFreshT tc U TL s.fs r) : ReqFreshT tc U TL s'.fs r := by
  have hout : ∀ x ∈ r.outs, L.isOut x := by
    intro x hx
    cases r with
    | compile jobs =>
      simp only [Req.outs, List.mem_map] at hx
      obtain ⟨j, hj, rfl⟩ := hx
      exact (hr j hj).isOut
    | link j =>
      simp only [Req.outs, List.mem_singleton] at hx
      subst hx
      exact hr.isOut
  refine reqFresh_congr hT hr (touch_user hL ho ht) ?_ ?_ h
  · intro x hx
    exact touch_managed hL ho (hout x hx) (fun e => hno (e ▸ hx)) ht
  · rintro j rfl p hp
    rcases hr.srcs p hp with hu | hu
    · exact touch_user hL ho ht p hu
    · exact touch_managed hL ho hu (fun e => hsep j rfl (e ▸ hp)) ht p (Or.inl rfl)

theorem fresh_dest (hL : LayoutOk L c) (hT : ToolOk tc L) {s s' : Store} (ht : Touch (IsDest c) s s') {r : Req}
    (hr : ReqOk L r) (h : ReqFreshT tc U TL s.fs r) : ReqFreshT tc U TL s'.fs r := by
  have hout : ∀ x ∈ r.outs, L.isOut x := by
    intro x hx
    cases r with
    | compile jobs =>
      simp only [Req.outs, List.mem_map] at hx
      obtain ⟨j, hj, rfl⟩ := hx
      exact (hr j hj).isOut
    | link j =>
      simp only [Req.outs, List.mem_singleton] at hx
      subst hx
      exact hr.isOut
  refine reqFresh_congr hT hr (fun p hp => ht.same p (not_dest_user hL hp))
    (fun x hx p hp => ht.same p (not_dest_managed hL (hout x hx) hp)) ?_ h
  rintro j rfl p hp
  exact ht.same p ((hr.srcs p hp).elim (fun h => not_dest_user hL h) (fun h => not_dest_managed hL h (Or.inl rfl)))

/-! ## The invariant of a product under changes of its records -/

/-- An existing object's flags are the recorded ones. -/
theorem csnap_flags {wl : Prop} {fs : FS} {out src : Bytes} {o : File} {F0 F : List Bytes} {fs0 : FS}
    (hs : CSnap tc L.user wl fs out src o F0 fs0) (hF : ∀ f ∈ F, CleanFlag f) (hr : Recorded fs out F) : F = F0 := by
  obtain ⟨r, h1, h2⟩ := hr
  exact flagText_inj hF hs.clean (by rw [← h2, ← hs.flags r h1])

theorem snap_congr {fs fs' g : FS} {t : Nat} {P : Bytes → Prop} (hP : ∀ p, P p → fs' p = fs p) (h : Snap fs t g P) :
    Snap fs' t g P := h.mono (fun p hp f hf _ => by rw [← hP p hp]; exact hf)

theorem snap_now {fs fs' : FS} {t : Nat} {P : Bytes → Prop} (hP : ∀ p, P p → fs' p = fs p) : Snap fs' t fs P :=
  snap_congr hP (snap_self fs t P)

theorem CInv.setDeps {wl : Prop} {fs fs' : FS} {out src : Bytes} {F : List Bytes} {items : List (Bool × Bytes)}
    (h : CInv tc L.user wl fs out src) (hF : ∀ f ∈ F, CleanFlag f) (hr : Recorded fs out F)
    (hitems : tc.deps fs src F = some items)
    (hu : ∀ p, L.user p → fs' p = fs p) (ho : fs' out = fs out) (hl : fs' (logPath out) = fs (logPath out))
    (hf : fs' (flagsPath out) = fs (flagsPath out))
    (hd : ∀ d, fs' (depsPath out) = some d → d.content = depsText (ruleText items)) : CInv tc L.user wl fs' out src := by
  intro o ho'
  rw [ho] at ho'
  obtain ⟨F0, fs0, hs⟩ := h o ho'
  have hFF := csnap_flags hs hF hr
  subst hFF
  refine ⟨F, fs0, hs.clean, hs.obj, snap_congr hu hs.snap, ?_, ?_, ?_⟩
  · intro d hd'
    exact ⟨fs, items, hitems, hd d hd', snap_now hu⟩
  · intro hn
    obtain ⟨fsl, h1, h2⟩ := hs.log hn
    exact ⟨fsl, by rw [content_congr hl]; exact h1, snap_congr hu h2⟩
  · intro r hr'
    rw [hf] at hr'
    exact hs.flags r hr'

theorem CInv.gone {user : Bytes → Prop} {wl : Prop} {fs : FS} {out src : Bytes} (h : fs out = none) : CInv tc user wl fs out src := by
  intro o ho; rw [h] at ho; cases ho

theorem LInv.gone {wl : Prop} {fs : FS} {a : Bool} {out : Bytes} {srcs : List Bytes} (h : fs out = none) : LInv tc wl fs a out srcs := by
  intro o ho; rw [h] at ho; cases ho

theorem OutInv.gone {wl : Prop} {fs : FS} {out : Bytes} (h : fs out = none) : OutInv tc L wl fs out := by
  unfold OutInv
  split
  · exact CInv.gone h
  · exact LInv.gone h

end Bob
