import Verif.Lemmas.BuildFlow
import Verif.Lemmas.BuildHist
/-!
# Installed files during a build
-/

namespace Bob

variable {tc : Toolchain} {c : InstCfg} {n : Nat} {reqs0 : List Req} {L : Layout}

/-- The files an action for a product may write. -/
def Own (c : InstCfg) (out p : Bytes) : Prop := Managed out p ∨ c.dest out = some p

def nowhere : InstCfg := ⟨none, [], fun _ => false⟩

theorem not_isDest_nowhere (p : Bytes) : ¬ IsDest nowhere p := by
  rintro ⟨o, ho⟩
  simp [nowhere, InstCfg.dest] at ho

theorem Touch.own {out : Bytes} {s s' : Store} (h : Touch (fun p => Managed out p ∨ IsDest nowhere p) s s') : Touch (Managed out) s s' :=
  h.mono (fun p hp => hp.elim id (fun h => (not_isDest_nowhere p h).elim))

/-- `install_cookie` writes the destination only. -/
theorem touch_install_dest (c : InstCfg) (out : Bytes) (s : Store) : Touch (fun p => c.dest out = some p) s (installCookie c out s).1 := by
  unfold installCookie
  cases hd : c.dest out with
  | none => exact Touch.refl _ _
  | some dst =>
    simp only
    split
    · exact Touch.refl _ _
    · split
      · exact Touch.refl _ _
      · split
        · exact Touch.refl _ _
        · exact Touch.refl _ _
        · exact Touch.trans (touch_write (M := fun p => some dst = some p) _ _ rfl) (touch_emit _ _)

theorem validate_cases {j : CJob} {s s' : Store} {v : Validation} (h : validate j s = (s', v)) :
    (s' = s ∧ Recorded s.fs j.out j.flags) ∨
    (s' = s.write (flagsPath j.out) (flagText j.flags) ∧ v = .compile ∧ ¬ Recorded s.fs j.out j.flags) := by
  unfold validate at h
  rcases hc : checkFlags j.out j.flags s with ⟨s1, b⟩
  rw [hc] at h
  cases b with
  | true =>
    simp only [Prod.mk.injEq] at h
    obtain ⟨rfl, rfl⟩ := h
    have := checkFlags_true hc
    exact Or.inr ⟨this.1, rfl, this.2⟩
  | false =>
    have hc' := checkFlags_false hc
    obtain ⟨rfl, hrec⟩ := hc'
    left
    refine ⟨?_, hrec⟩
    simp only at h
    split at h
    · simp only [Prod.mk.injEq] at h; exact h.1.symm
    · split at h <;> · simp only [Prod.mk.injEq] at h; exact h.1.symm

theorem linkCheck_cases {j : LJob} {s s' : Store} {b : Bool} (h : linkCheck j s = (s', b)) :
    (s' = s ∧ Recorded s.fs j.out j.flags) ∨
    (s' = s.write (flagsPath j.out) (flagText j.flags) ∧ b = true ∧ ¬ Recorded s.fs j.out j.flags) := by
  unfold linkCheck at h
  rcases hc : checkFlags j.out j.flags s with ⟨s1, b⟩
  rw [hc] at h
  cases b with
  | true =>
    simp only [Prod.mk.injEq] at h
    obtain ⟨rfl, rfl⟩ := h
    have := checkFlags_true hc
    exact Or.inr ⟨this.1, rfl, this.2⟩
  | false =>
    have hc' := checkFlags_false hc
    obtain ⟨rfl, hrec⟩ := hc'
    left
    refine ⟨?_, hrec⟩
    simp only at h
    split at h <;> · simp only [Prod.mk.injEq] at h; exact h.1.symm

theorem managed_out (o : Bytes) : Managed o o := Or.inl rfl
theorem managed_deps (o : Bytes) : Managed o (depsPath o) := Or.inr (Or.inl rfl)
theorem managed_flags (o : Bytes) : Managed o (flagsPath o) := Or.inr (Or.inr (Or.inl rfl))

theorem touch_validate {j : CJob} {s s' : Store} {v : Validation} (h : validate j s = (s', v)) : Touch (fun p => p = flagsPath j.out) s s' := by
  rcases validate_cases h with ⟨rfl, _⟩ | ⟨rfl, _, _⟩
  · exact Touch.refl _ _
  · exact touch_write _ _ rfl

theorem touch_linkCheck {j : LJob} {s s' : Store} {b : Bool} (h : linkCheck j s = (s', b)) : Touch (fun p => p = flagsPath j.out) s s' := by
  rcases linkCheck_cases h with ⟨rfl, _⟩ | ⟨rfl, _, _⟩
  · exact Touch.refl _ _
  · exact touch_write _ _ rfl

/-- The four actions of a task. -/
theorem compileTask_cases {j : CJob} {k : Nat} {op : TaskOp Store} (h : (compileTask tc c j)[k]? = some op) :
    (k = 0 ∧ op = depsOp tc j) ∨ (k = 1 ∧ op = objOp tc j) ∨ (k = 2 ∧ op = logOp j) ∨ (k = 3 ∧ op = instOp c j) := by
  unfold compileTask at h
  match k, h with
  | 0, h => simp at h; exact Or.inl ⟨rfl, h.symm⟩
  | 1, h => simp at h; exact Or.inr (Or.inl ⟨rfl, h.symm⟩)
  | 2, h => simp at h; exact Or.inr (Or.inr (Or.inl ⟨rfl, h.symm⟩))
  | 3, h => simp at h; exact Or.inr (Or.inr (Or.inr ⟨rfl, h.symm⟩))
  | k + 4, h => simp at h

theorem act_touch {P : Prod} {st st' : PStat} {s s' : Store} (h : Act tc c P st s st' s') : Touch (Own c P.out) s s' := by
  have hm : ∀ {out : Bytes} {a b : Store}, Touch (Managed out) a b → Touch (Own c out) a b := fun h => h.mono (fun _ => Or.inl)
  have hd : ∀ {out : Bytes} {a b : Store}, Touch (fun p => c.dest out = some p) a b → Touch (Own c out) a b := fun h => h.mono (fun _ => Or.inr)
  have hf : ∀ {out : Bytes} {a b : Store}, Touch (fun p => p = flagsPath out) a b → Touch (Own c out) a b :=
    fun h => h.mono (fun _ e => Or.inl (e ▸ managed_flags _))
  cases h with
  | compile h => exact hf (touch_validate h)
  | err h => exact hf (touch_validate h)
  | skip h hi =>
    have := touch_install_dest c _ _ |> fun t => hi ▸ t
    exact ((hf (touch_validate h)).trans (touch_emit _ _)).trans (hd this)
  | task h =>
    rcases compileTask_cases h with ⟨_, rfl⟩ | ⟨_, rfl⟩ | ⟨_, rfl⟩ | ⟨_, rfl⟩
    · exact hm (touch_depsOp (c := nowhere) _ _ _).own
    · exact hm (touch_objOp (c := nowhere) _ _ _).own
    · exact hm (touch_logOp (c := nowhere) _ _ _).own
    · unfold instOp
      split
      · exact Touch.refl _ _
      · exact hd (touch_install_dest c _ _)
  | taskOk => exact Touch.refl _ _
  | linkYes h => exact hf (touch_linkCheck h)
  | linkSkip h hi =>
    have := touch_install_dest c _ _ |> fun t => hi ▸ t
    exact ((hf (touch_linkCheck h)).trans (touch_emit _ _)).trans (hd this)
  | linkRun h =>
    have := touch_linkOp (tc := tc) (c := nowhere) _ _ |>.own |> fun t => h ▸ t
    exact hm this
  | linkLog => exact touch_writeLog _ _ _ (Or.inl (managed_log _))
  | linkFail => exact touch_writeLog _ _ _ (Or.inl (managed_log _))
  | linkInst h =>
    have := touch_install_dest c _ _ |> fun t => h ▸ t
    exact hd this

/-- A build writes nothing but the files of its products. -/
theorem build_outside (hR : Ord reqs0) (hn : 0 < n) {s : Store} {cfg : Cfg} (h : BuildReaches tc c n reqs0 s cfg) (p : Bytes)
    (hp : ∀ o ∈ outsOf reqs0, ¬ Own c o p) : cfg.store.fs p = s.fs p := by
  have hF : Flow tc c reqs0 (fun s' => s'.fs p = s.fs p) (fun _ _ _ => True) := by
    refine ⟨?_, fun _ _ _ _ _ _ h => h, ?_, fun _ _ _ _ _ _ _ _ _ _ _ _ _ _ h => h⟩
    · rintro a b ⟨t, _, rfl⟩ h; exact h
    · intro P hP st a st' b ha hG _
      refine ⟨?_, trivial⟩
      rw [← hG]
      refine (act_touch ha).same p (hp P.out ?_)
      rw [← prodsOf_out]; exact List.mem_map_of_mem hP
  exact (FlowInv.reach hF hR hn rfl (fun _ _ => trivial) h).any.1

/-! ## Installed copies -/

/-- A copy that is not older than the product has its content. -/
def Agree (fs : FS) (o d : Bytes) : Prop := ∀ f g, fs o = some f → fs d = some g → f.mtime ≤ g.mtime → g.content = f.content

/-- The product was installed. -/
def Installed (c : InstCfg) (fs : FS) (o d : Bytes) : Prop :=
  c.bad d = false ∧ ∃ f g, fs o = some f ∧ fs d = some g ∧ g.content = f.content ∧ f.mtime ≤ g.mtime

theorem frugal_one {fs : FS} {o d : Bytes} {f : File} (ho : fs o = some f) :
    frugalMtime fs.stat [o] d = some (match fs d with | none => true | some g => decide (g.mtime < f.mtime)) := by
  have hs : fs.stat o = .ok f.mtime := by simp [FS.stat, ho]
  cases hd : fs d with
  | none =>
    have : fs.stat d = .enoent := by simp [FS.stat, hd]
    simp [frugalMtime, this]
  | some g =>
    have hg : fs.stat d = .ok g.mtime := by simp [FS.stat, hd]
    by_cases h : g.mtime < f.mtime
    · simp [frugalMtime, hg, mtimeLoop, hs, h]
    · simp [frugalMtime, hg, mtimeLoop, hs, h]

/-- What `install_cookie` establishes. -/
theorem installCookie_ok {out d : Bytes} {s s' : Store} (hd : c.dest out = some d) (hne : d ≠ out) (hag : Agree s.fs out d)
    (hfut : ∀ f, s.fs out = some f → f.mtime ≤ s.now) (h : installCookie c out s = (s', true)) : Installed c s'.fs out d := by
  unfold installCookie at h
  rw [hd] at h
  simp only at h
  cases ho : s.fs out with
  | none => simp [ho] at h
  | some f =>
    rw [ho] at h
    simp only at h
    by_cases hb : c.bad d = true
    · simp [hb] at h
    · simp only [hb, Bool.false_eq_true, if_false] at h
      have hb' : c.bad d = false := by simpa using hb
      rw [frugal_one ho] at h
      cases hdd : s.fs d with
      | none =>
        simp only [hdd, Prod.mk.injEq, and_true] at h
        subst h
        refine ⟨hb', f, ⟨f.content, s.now⟩, ?_, by simp, rfl, hfut f ho⟩
        rw [emit_fs, write_other _ _ (Ne.symm hne)]; exact ho
      | some g =>
        simp only [hdd] at h
        by_cases hlt : g.mtime < f.mtime
        · simp only [hlt, decide_true, Prod.mk.injEq, and_true] at h
          subst h
          refine ⟨hb', f, ⟨f.content, s.now⟩, ?_, by simp, rfl, hfut f ho⟩
          rw [emit_fs, write_other _ _ (Ne.symm hne)]; exact ho
        · simp only [hlt, decide_false, Prod.mk.injEq, and_true] at h
          subst h
          exact ⟨hb', f, g, ho, hdd, hag f g ho hdd (by omega), by omega⟩

/-- Installing what is installed does nothing. -/
theorem installCookie_noop {out : Bytes} {s : Store} (h : ∀ d, c.dest out = some d → Installed c s.fs out d) : installCookie c out s = (s, true) := by
  unfold installCookie
  cases hd : c.dest out with
  | none => rfl
  | some d =>
    obtain ⟨hb, f, g, h1, h2, h3, h4⟩ := h d hd
    simp only [h1, hb, Bool.false_eq_true, if_false, frugal_one h1, h2]
    have : ¬ g.mtime < f.mtime := by omega
    simp [this]

/-- A product is made later than the copy that was there before. -/
def PStat.early : PStat → Bool
  | .todo | .linking | .linkRan _ | .linked => true
  | .task k _ => decide (k ≤ 3)
  | _ => false

def PStat.good : PStat → Bool
  | .done | .task 4 false => true
  | _ => false

structure DestAt (c : InstCfg) (s0 : Store) (P : Prod) (st : PStat) (s : Store) : Prop where
  future : ∀ f, s.fs P.out = some f → f.mtime ≤ s.now
  agree : ∀ d, c.dest P.out = some d → Agree s.fs P.out d
  before : st.early = true → ∀ d, c.dest P.out = some d → s.fs d = s0.fs d
  destTime : ∀ d, c.dest P.out = some d → ∀ g, s.fs d = some g → g.mtime ≤ s.now
  good : st.good = true → ∀ d, c.dest P.out = some d → Installed c s.fs P.out d

/-- What is assumed about installed files when a build starts. -/
structure DestStart (L : Layout) (c : InstCfg) (s0 : Store) : Prop where
  future : ∀ o, L.isOut o → ∀ f, s0.fs o = some f → f.mtime ≤ s0.now
  agree : ∀ o d, L.isOut o → c.dest o = some d → Agree s0.fs o d
  old : ∀ o d, L.isOut o → c.dest o = some d → ∀ g, s0.fs d = some g → g.mtime < s0.now

theorem agree_congr {fs fs' : FS} {o d : Bytes} (ho : fs' o = fs o) (hd : fs' d = fs d) (h : Agree fs o d) : Agree fs' o d := by
  intro f g hf hg
  rw [ho] at hf; rw [hd] at hg
  exact h f g hf hg

theorem installed_congr {fs fs' : FS} {o d : Bytes} (ho : fs' o = fs o) (hd : fs' d = fs d) (h : Installed c fs o d) : Installed c fs' o d := by
  obtain ⟨hb, f, g, h1, h2, h3⟩ := h
  exact ⟨hb, f, g, by rw [ho]; exact h1, by rw [hd]; exact h2, h3⟩

theorem dest_ne_managed (hL : LayoutOk L c) {o o' d p : Bytes} (ho : L.isOut o) (hd : c.dest o' = some d) (hp : Managed o p) : d ≠ p :=
  fun e => hL.destNotManaged o' d hd o ho (e ▸ hp)

/-- An action that changes neither the product nor its copy. -/
theorem DestAt.keep {s0 : Store} {P : Prod} {st st' : PStat} {s s' : Store} (h : DestAt c s0 P st s) (hnow : s'.now = s.now)
    (ho : s'.fs P.out = s.fs P.out) (hd : ∀ d, c.dest P.out = some d → s'.fs d = s.fs d)
    (he : st'.early = true → st.early = true) (hg : st'.good = true → st.good = true) : DestAt c s0 P st' s' where
  future := by rw [ho, hnow]; exact h.future
  agree d hdd := agree_congr ho (hd d hdd) (h.agree d hdd)
  before h1 d hdd := by rw [hd d hdd]; exact h.before (he h1) d hdd
  destTime d hdd := by rw [hd d hdd, hnow]; exact h.destTime d hdd
  good h1 d hdd := installed_congr ho (hd d hdd) (h.good (hg h1) d hdd)

/-- The product was made, or making it failed. -/
theorem DestAt.made {s0 : Store} (hS : DestStart L c s0) {P : Prod} (hP : L.isOut P.out) {st st' : PStat} {s s' : Store} (h : DestAt c s0 P st s) (hclock : s0.now ≤ s.now)
    (hnow : s'.now = s.now) (ho : s'.fs P.out = s.fs P.out ∨ s'.fs P.out = none ∨ ∃ f, s'.fs P.out = some f ∧ f.mtime = s.now)
    (hd : ∀ d, c.dest P.out = some d → s'.fs d = s.fs d)
    (hst : st.early = true) (hg : st'.good = false) : DestAt c s0 P st' s' where
  future f hf := by
    rw [hnow]
    rcases ho with e | e | ⟨f', e, hm⟩
    · rw [e] at hf; exact h.future f hf
    · rw [e] at hf; cases hf
    · rw [e] at hf; injection hf with hf; subst hf; omega
  agree d hdd := by
    rcases ho with e | e | ⟨f', e, hm⟩
    · exact agree_congr e (hd d hdd) (h.agree d hdd)
    · intro f g hf; rw [e] at hf; cases hf
    · intro f g hf hgg hle
      rw [e] at hf; injection hf with hf; subst hf
      rw [hd d hdd, h.before hst d hdd] at hgg
      have := hS.old _ d hP hdd g hgg
      omega
  before _ d hdd := by rw [hd d hdd]; exact h.before hst d hdd
  destTime d hdd := by rw [hd d hdd, hnow]; exact h.destTime d hdd
  good h1 := by rw [hg] at h1; cases h1

/-- The product is being installed. -/
theorem DestAt.install (hL : LayoutOk L c) {s0 : Store} {P : Prod} (hP : L.isOut P.out) {st st' : PStat} {s s' : Store} {ok : Bool}
    (h : DestAt c s0 P st s) (hi : installCookie c P.out s = (s', ok)) (he : st'.early = false) (hg : st'.good = true → ok = true) :
    DestAt c s0 P st' s' := by
  have ht : Touch (fun p => c.dest P.out = some p) s s' := by
    have := touch_install_dest c P.out s; rw [hi] at this; exact this
  have ho : s'.fs P.out = s.fs P.out := ht.same _ (fun hd => dest_ne_managed hL hP hd (managed_out _) rfl)
  cases ok with
  | true =>
    have hin : ∀ d, c.dest P.out = some d → Installed c s'.fs P.out d := fun d hd =>
      installCookie_ok hd (dest_ne_managed hL hP hd (managed_out _)) (h.agree d hd) h.future hi
    refine ⟨?_, ?_, ?_, ?_, fun _ => hin⟩
    · rw [ho, ht.now]; exact h.future
    · intro d hd f g hf hgg _
      obtain ⟨_, f', g', h1, h2, h3, _⟩ := hin d hd
      rw [hf] at h1; rw [hgg] at h2
      injection h1 with h1; injection h2 with h2; subst h1; subst h2
      exact h3
    · intro h1; rw [he] at h1; cases h1
    · intro d hd g hgg
      rw [ht.now]
      rcases ht.new d with e | e | ⟨f, e, hm⟩
      · rw [e] at hgg; exact h.destTime d hd g hgg
      · rw [e] at hgg; cases hgg
      · rw [e] at hgg; injection hgg with hgg; subst hgg; omega
  | false =>
    have hs : s' = s := by
      unfold installCookie at hi
      split at hi
      · simp at hi
      · split at hi
        · simp at hi; exact hi.symm
        · split at hi
          · simp at hi; exact hi.symm
          · split at hi
            · simp at hi; exact hi.symm
            · simp at hi
            · simp at hi
    subst hs
    have hg' : st'.good = false := by
      cases hgg : st'.good with
      | false => rfl
      | true => exact absurd (hg hgg) (by simp)
    exact h.keep rfl rfl (fun _ _ => rfl) (by rw [he]; simp) (by rw [hg']; simp)

theorem dest_flow (hL : LayoutOk L c) (hD : DestInj L c) {s0 : Store} (hS : DestStart L c s0) (hok : ∀ o ∈ outsOf reqs0, L.isOut o) :
    Flow tc c reqs0 (fun s => s0.now ≤ s.now) (DestAt c s0) := by
  have hisOut : ∀ P ∈ prodsOf reqs0, L.isOut P.out := fun P hP => hok _ (by rw [← prodsOf_out]; exact List.mem_map_of_mem hP)
  refine ⟨?_, ?_, ?_, ?_⟩
  · rintro a b ⟨t, ht, rfl⟩ h; exact Nat.le_trans h ht
  · rintro P st a b ⟨t, ht, rfl⟩ _ h
    exact ⟨fun f hf => Nat.le_trans (h.future f hf) ht, h.agree, h.before, fun d hd g hg => Nat.le_trans (h.destTime d hd g hg) ht, h.good⟩
  · intro P hP st s st' s' ha hG hQ
    have hPo := hisOut P hP
    have ht := act_touch ha
    refine ⟨by rw [ht.now]; exact hG, ?_⟩
    -- actions on files other than the product and the copy
    have keep : ∀ {a : Store} {q : PStat} (M : Bytes → Prop), Touch M s a → (∀ p, M p → Managed P.out p ∧ p ≠ P.out) →
        (q.early = true → st.early = true) → (q.good = true → st.good = true) → DestAt c s0 P q a := by
      intro a q M hM hMp h1 h2
      refine hQ.keep hM.now (hM.same _ (fun h => (hMp _ h).2 rfl)) (fun d hd => hM.same _ (fun h => ?_)) h1 h2
      exact dest_ne_managed hL hPo hd (hMp _ h).1 rfl
    have hfl : ∀ p, p = flagsPath P.out → Managed P.out p ∧ p ≠ P.out := fun p e => e ▸ ⟨managed_flags _, flagsPath_ne _⟩
    have hlg : ∀ p, p = logPath P.out → Managed P.out p ∧ p ≠ P.out := fun p e => e ▸ ⟨managed_log _, logPath_ne _⟩
    have hdp : ∀ p, p = depsPath P.out → Managed P.out p ∧ p ≠ P.out := fun p e => e ▸ ⟨managed_deps _, depsPath_ne _⟩
    have made : ∀ {a : Store} {q : PStat}, Touch (Managed P.out) s a → st.early = true → q.good = false → DestAt c s0 P q a := by
      intro a q hM h1 h2
      exact hQ.made hS hPo hG hM.now (hM.new _) (fun d hd => hM.same _ (fun h => dest_ne_managed hL hPo hd h rfl)) h1 h2
    cases ha with
    | compile h => exact keep _ (touch_validate h) hfl (by simp [PStat.early]) (by simp [PStat.good])
    | err h => exact keep _ (touch_validate h) hfl (by simp [PStat.early]) (by simp [PStat.good])
    | skip h hi =>
      rename_i j s1 ok
      have h1 := keep (q := .todo) _ ((touch_validate h).trans (touch_emit _ (.already j.out (s1.fs.content (logPath j.out))))) hfl (by simp [PStat.early]) (by simp [PStat.good])
      exact h1.install hL hPo hi (by cases ok <;> rfl) (by cases ok <;> simp [okStat, PStat.good])
    | task h =>
      rename_i j k f op
      rcases compileTask_cases h with ⟨rfl, rfl⟩ | ⟨rfl, rfl⟩ | ⟨rfl, rfl⟩ | ⟨rfl, rfl⟩
      · refine keep (fun p => p = depsPath j.out) ?_ hdp (by simp [PStat.early]) (by simp [PStat.good])
        unfold depsOp
        split
        · exact Touch.refl _ _
        · exact touch_write _ _ rfl
      · exact made (touch_objOp (c := nowhere) _ _ _).own (by simp [PStat.early]) (by simp [PStat.good])
      · exact keep (fun p => p = logPath _) (touch_writeLog _ _ _ rfl) hlg (by simp [PStat.early]) (by simp [PStat.good])
      · unfold instOp
        cases f with
        | true => exact hQ.keep rfl rfl (fun _ _ => rfl) (by simp [PStat.early]) (by simp [PStat.good])
        | false =>
          exact hQ.install hL hPo (ok := (installCookie c j.out s).2) rfl (by simp [PStat.early])
            (by cases h : (installCookie c j.out s).2 <;> simp [PStat.good])
    | taskOk => exact hQ.keep rfl rfl (fun _ _ => rfl) (by simp [PStat.early]) (by simp [PStat.good])
    | linkYes h => exact keep _ (touch_linkCheck h) hfl (by simp [PStat.early]) (by simp [PStat.good])
    | linkSkip h hi =>
      rename_i j s1 ok
      have h1 := keep (q := .todo) _ ((touch_linkCheck h).trans (touch_emit _ (.already j.out (s1.fs.content (logPath j.out))))) hfl (by simp [PStat.early]) (by simp [PStat.good])
      exact h1.install hL hPo hi (by cases ok <;> rfl) (by cases ok <;> simp [okStat, PStat.good])
    | linkRun h =>
      rename_i j ok
      have := (touch_linkOp (tc := tc) (c := nowhere) j s).own
      rw [h] at this
      exact made this (by simp [PStat.early]) (by simp [PStat.good])
    | linkLog => exact keep (fun p => p = logPath _) (touch_writeLog _ _ _ rfl) hlg (by simp [PStat.early]) (by simp [PStat.good])
    | linkFail => exact keep (fun p => p = logPath _) (touch_writeLog _ _ _ rfl) hlg (by simp [PStat.early]) (by simp [PStat.good])
    | linkInst h =>
      rename_i j ok
      exact hQ.install hL hPo h (by cases ok <;> rfl) (by cases ok <;> simp [okStat, PStat.good])
  · intro P hP P' hP' hne st s st' s' ha hG hQ q _ hq
    have ht := act_touch ha
    have hPo := hisOut P hP
    have hPo' := hisOut P' hP'
    refine hq.keep ht.now (ht.same _ ?_) (fun d hd => ht.same _ ?_) id id
    · rintro (h | h)
      · exact hne (managed_disjoint hL hPo' hPo (managed_out _) h)
      · exact dest_ne_managed hL hPo' h (managed_out _) rfl
    · rintro (h | h)
      · exact dest_ne_managed hL hPo hd h rfl
      · exact hne (hD _ _ _ hPo' hPo hd h)

theorem DestStart.todo {s0 : Store} (hS : DestStart L c s0) (hok : ∀ o ∈ outsOf reqs0, L.isOut o) : All (DestAt c s0) .todo (prodsOf reqs0) s0 := by
  intro P hP
  have hPo := hok P.out (by rw [← prodsOf_out]; exact List.mem_map_of_mem hP)
  exact ⟨hS.future _ hPo, fun d => hS.agree _ d hPo, fun _ _ _ => rfl, fun d hd g hg => Nat.le_of_lt (hS.old _ d hPo hd g hg), by simp [PStat.good]⟩

end Bob
