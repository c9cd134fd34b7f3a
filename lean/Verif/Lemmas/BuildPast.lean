import Verif.Lemmas.BuildRes
/-!
# Facts about builds that need few assumptions
-/

namespace Bob

variable {tc : Toolchain} {c : InstCfg} {n : Nat} {reqs0 : List Req} {L : Layout} {s0 : Store}

/-- The clock does not go back, and every file is unchanged, deleted, or stamped with a time during the build. -/
theorem build_new (hR : Ord reqs0) (hn : 0 < n) {s : Store} {cfg : Cfg} (h : BuildReaches tc c n reqs0 s cfg) :
    s.now ≤ cfg.store.now ∧ ∀ p, cfg.store.fs p = s.fs p ∨ cfg.store.fs p = none ∨
      ∃ f, cfg.store.fs p = some f ∧ s.now ≤ f.mtime ∧ f.mtime ≤ cfg.store.now := by
  have hF : Flow tc c reqs0 (fun a => s.now ≤ a.now ∧ ∀ p, a.fs p = s.fs p ∨ a.fs p = none ∨
      ∃ f, a.fs p = some f ∧ s.now ≤ f.mtime ∧ f.mtime ≤ a.now) (fun _ _ _ => True) := by
    refine ⟨?_, fun _ _ _ _ _ _ h => h, ?_, fun _ _ _ _ _ _ _ _ _ _ _ _ _ _ h => h⟩
    · rintro a b ⟨t, ht, rfl⟩ ⟨h1, h2⟩
      refine ⟨Nat.le_trans h1 ht, fun p => ?_⟩
      rcases h2 p with h | h | ⟨f, h, h3, h4⟩
      · exact Or.inl h
      · exact Or.inr (Or.inl h)
      · exact Or.inr (Or.inr ⟨f, h, h3, Nat.le_trans h4 ht⟩)
    · intro P hP st a st' b ha hG _
      refine ⟨?_, trivial⟩
      have ht := act_touch ha
      refine ⟨by rw [ht.now]; exact hG.1, fun p => ?_⟩
      rcases ht.new p with h | h | ⟨f, h, hm⟩
      · rw [h, ht.now]; exact hG.2 p
      · exact Or.inr (Or.inl h)
      · exact Or.inr (Or.inr ⟨f, h, by have := hG.1; omega, by rw [ht.now]; omega⟩)
  exact (FlowInv.reach hF hR hn ⟨Nat.le_refl _, fun _ => Or.inl rfl⟩ (fun _ _ => trivial) h).any.1

/-- The recorded dependencies of products are files of the user. -/
def DepsUser (L : Layout) (fs : FS) : Prop := ∀ o, L.isOut o → ∀ d, fs (depsPath o) = some d → ∀ p ∈ readDeps d.content, L.user p

theorem act_deps {P : Prod} {st st' : PStat} {s s' : Store} (h : Act tc c P st s st' s') (p : Bytes) (hp : ∀ o, c.dest o ≠ some p)
    (hf : p ≠ flagsPath P.out) (ho : p ≠ P.out) (hl : p ≠ logPath P.out) :
    s'.fs p = s.fs p ∨ (p = depsPath P.out ∧ ∃ j items, P = .c j ∧ tc.deps s.fs j.src j.flags = some items ∧
      s'.fs p = some ⟨depsText (ruleText items), s.now⟩) := by
  cases h with
  | compile h => exact Or.inl ((touch_validate h).same p hf)
  | err h => exact Or.inl ((touch_validate h).same p hf)
  | skip h hi =>
    left
    have := touch_install_dest c _ _ |> fun t => hi ▸ t
    rw [this.same p (hp _), emit_fs]
    exact (touch_validate h).same p hf
  | task h =>
    rename_i j k f op
    rcases compileTask_cases h with ⟨_, rfl⟩ | ⟨_, rfl⟩ | ⟨_, rfl⟩ | ⟨_, rfl⟩
    · unfold depsOp
      cases hd : tc.deps s.fs j.src j.flags with
      | none => exact Or.inl rfl
      | some items =>
        simp only
        by_cases e : p = depsPath j.out
        · subst e
          exact Or.inr ⟨rfl, j, items, rfl, hd, write_same _ _ _⟩
        · exact Or.inl (write_other _ _ e)
    · left
      unfold objOp
      simp only
      split
      · exact write_other _ _ ho
      · split
        · exact remove_other _ ho
        · rfl
    · exact Or.inl (writeLog_other _ _ _ hl)
    · left
      unfold instOp
      split
      · rfl
      · exact (touch_install_dest c _ _).same p (hp _)
  | taskOk => exact Or.inl rfl
  | linkYes h => exact Or.inl ((touch_linkCheck h).same p hf)
  | linkSkip h hi =>
    left
    have := touch_install_dest c _ _ |> fun t => hi ▸ t
    rw [this.same p (hp _), emit_fs]
    exact (touch_linkCheck h).same p hf
  | linkRun h =>
    rename_i j ok
    left
    have e : s' = (linkOp tc j s).1 := by rw [h]
    rw [e]
    unfold linkOp
    simp only
    split
    · exact write_other _ _ ho
    · split
      · exact remove_other _ ho
      · rfl
  | linkLog => exact Or.inl (writeLog_other _ _ _ hl)
  | linkFail => exact Or.inl (writeLog_other _ _ _ hl)
  | linkInst h =>
    have := touch_install_dest c _ _ |> fun t => h ▸ t
    exact Or.inl (this.same p (hp _))

theorem build_deps (hL : LayoutOk L c) (hT : ToolOk tc L) (hR : ReqsOk L reqs0) (hn : 0 < n) {s : Store} {cfg : Cfg}
    (h : BuildReaches tc c n reqs0 s cfg) (hd : DepsUser L s.fs) : DepsUser L cfg.store.fs := by
  have hF : Flow tc c reqs0 (fun a => DepsUser L a.fs) (fun _ _ _ => True) := by
    refine ⟨?_, fun _ _ _ _ _ _ h => h, ?_, fun _ _ _ _ _ _ _ _ _ _ _ _ _ _ h => h⟩
    · rintro a b ⟨t, _, rfl⟩ h; exact h
    · intro P hP st a st' b ha hG _
      refine ⟨?_, trivial⟩
      intro o ho d hd p hp
      have hPo := prod_isOut hR hP
      have hmd : ∀ {q}, Managed P.out q → q ≠ depsPath P.out → depsPath o ≠ q := by
        intro q hq hne e
        have := managed_disjoint hL ho hPo (managed_deps o) (e ▸ hq)
        subst this
        exact hne e.symm
      rcases act_deps ha (depsPath o) (fun o' h => hL.destNotManaged o' _ h o ho (managed_deps o))
          (hmd (managed_flags _) (flagsPath_ne_depsPath _)) (hmd (managed_out _) (depsPath_ne _).symm)
          (hmd (managed_log _) (depsPath_ne_logPath _).symm) with h | ⟨_, j, items, rfl, h1, h2⟩
      · rw [h] at hd; exact hG o ho d hd p hp
      · rw [h2] at hd
        injection hd with hd
        subst hd
        have hok := (hT.depsOk _ _ _ _ h1).2
        have hr : readDeps (depsText (ruleText items)) = items.map (·.2) := C06_include_deps_roundtrip items (fun it hit => (hok it hit).1)
        rw [show (⟨depsText (ruleText items), a.now⟩ : File).content = depsText (ruleText items) from rfl, hr] at hp
        obtain ⟨it, hit, rfl⟩ := List.mem_map.mp hp
        exact (hok it hit).2.1
  exact (FlowInv.reach hF hR.ord hn hd (fun _ _ => trivial) h).any.1

theorem Past.inv (hT : ToolOk tc L) {s : Store} (h : Past tc L s) :
    (∀ p, L.user p ∨ L.isOut p → ∀ f, s.fs p = some f → f.mtime ≤ s.now) ∧ DepsUser L s.fs := by
  induction h with
  | start hp =>
    refine ⟨fun p hpp f hf => ?_, fun o ho d hd => ?_⟩
    · rcases hpp with hu | hu
      · exact hp.user p hu f hf
      · rw [hp.managed p hu p (Or.inl rfl)] at hf; cases hf
    · rw [hp.managed o ho _ (managed_deps o)] at hd; cases hd
  | @built s s1 cfg c n reqs _ he hL hR hn hb ih =>
    have hlater := he.later
    have h1 : ∀ p, L.user p ∨ L.isOut p → ∀ f, s1.fs p = some f → f.mtime ≤ s1.now := by
      intro p hp f hf
      rcases hp with hp | hp
      · rcases he.user p hp with e | e | ⟨g, e, h1, h2⟩
        · rw [e] at hf; have := ih.1 p (Or.inl hp) f hf; omega
        · rw [e] at hf; cases hf
        · rw [e] at hf; injection hf with hf; subst hf; exact h2
      · rcases he.managed p hp p (managed_out p) with e | e
        · rw [e] at hf; have := ih.1 p (Or.inr hp) f hf; omega
        · rw [e] at hf; cases hf
    have h2 : DepsUser L s1.fs := by
      intro o ho d hd
      rcases he.managed o ho _ (managed_deps o) with e | e
      · rw [e] at hd; exact ih.2 o ho d hd
      · rw [e] at hd; cases hd
    have hnew := build_new hR.ord hn hb
    refine ⟨fun p hp f hf => ?_, build_deps hL hT hR hn hb h2⟩
    rcases hnew.2 p with e | e | ⟨g, e, _, h4⟩
    · rw [e] at hf; have := h1 p hp f hf; have := hnew.1; omega
    · rw [e] at hf; cases hf
    · rw [e] at hf; injection hf with hf; subst hf; exact h4

/-- A build that starts after an edit starts in order. -/
theorem Past.settled (hT : ToolOk tc L) {s s1 : Store} (h : Past tc L s) (he : Edit L s s1) : Settled L s1 := by
  have hi := h.inv hT
  have hlater := he.later
  refine ⟨fun p hp f hf => ?_, fun o ho f hf => ?_, fun o ho d hd => ?_⟩
  · rcases he.user p hp with e | e | ⟨g, e, h1, h2⟩
    · rw [e] at hf; have := hi.1 p (Or.inl hp) f hf; omega
    · rw [e] at hf; cases hf
    · rw [e] at hf; injection hf with hf; subst hf; exact h2
  · rcases he.managed o ho o (managed_out o) with e | e
    · rw [e] at hf; have := hi.1 o (Or.inr ho) f hf; omega
    · rw [e] at hf; cases hf
  · rcases he.managed o ho _ (managed_deps o) with e | e
    · rw [e] at hd; exact hi.2 o ho d hd
    · rw [e] at hd; cases hd

end Bob
