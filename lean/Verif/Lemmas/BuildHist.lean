import Verif.Lemmas.BuildCfg
/-!
# What holds after any history of edits and builds
-/

namespace Bob

variable {tc : Toolchain} {L : Layout} {c : InstCfg} {T TL : Bytes → Prop}

structure HistInv (tc : Toolchain) (L : Layout) (T TL : Bytes → Prop) (s : Store) : Prop where
  future : ∀ p, L.user p ∨ L.isOut p → ∀ f, s.fs p = some f → f.mtime ≤ s.now
  outs : ∀ o, L.isOut o → ¬ T o → OutInv tc L (TL o) s.fs o

theorem HistInv.edit (hL : LayoutOk L c) {s s' : Store} (h : HistInv tc L T TL s) (he : Edit L s s') :
    StartOk tc L T (fun o => TL o ∨ s'.fs (logPath o) ≠ s.fs (logPath o)) s' := by
  have hlater := he.later
  refine ⟨?_, ?_, ?_⟩
  · intro p hp f hf
    rcases he.user p hp with h1 | h1 | ⟨g, h1, _, h3⟩
    · rw [h1] at hf
      have := h.future p (Or.inl hp) f hf
      omega
    · rw [h1] at hf; cases hf
    · rw [h1] at hf; injection hf with e; subst e; exact h3
  · intro o ho f hf
    rcases he.managed o ho o (Or.inl rfl) with h1 | h1
    · rw [h1] at hf
      have := h.future o (Or.inr ho) f hf
      omega
    · rw [h1] at hf; cases hf
  · intro o ho hTo
    have hold := h.outs o ho hTo
    unfold OutInv at hold ⊢
    have huser : ∀ x, s.fs o = some x → ∀ p, L.user p → ∀ f, s'.fs p = some f → f.mtime ≤ x.mtime → s.fs p = some f := by
      intro x hx p hp f hf hle
      have hxn := h.future o (Or.inr ho) x hx
      rcases he.user p hp with h1 | h1 | ⟨g, h1, h2, _⟩
      · rw [← h1]; exact hf
      · rw [h1] at hf; cases hf
      · rw [h1] at hf; injection hf with e; subst e; omega
    have hm : ∀ p, p = o ∨ p = depsPath o ∨ p = flagsPath o → s'.fs p = s.fs p ∨ s'.fs p = none :=
      fun p hp => he.managed o ho p (managed_three hp)
    have hl : ¬ (TL o ∨ s'.fs (logPath o) ≠ s.fs (logPath o)) → (s'.fs (logPath o) = s.fs (logPath o) ∧ ¬ TL o) ∨ s'.fs o = none := by
      intro hn
      rw [not_or, Classical.not_not] at hn
      exact Or.inl ⟨hn.2, hn.1⟩
    cases hk : L.kind o with
    | compile src =>
      rw [hk] at hold
      exact hold.congr hm hl huser
    | link a srcs =>
      rw [hk] at hold
      refine hold.congr hm hl ?_
      intro x hx p hp f hf hle
      rcases hL.linkSrcs o a srcs ho hk p hp with hu | hu
      · exact huser x hx p hu f hf hle
      · rcases he.managed p hu p (Or.inl rfl) with h1 | h1
        · rw [← h1]; exact hf
        · rw [h1] at hf; cases hf

theorem flagsChanged_outs {s : Store} {reqs : List Req} {o : Bytes} (h : FlagsChanged s reqs o) : o ∈ outsOf reqs := by
  obtain ⟨_, r, hr, F, hF, _⟩ := h
  refine mem_outsOf.mpr ⟨r, hr, ?_⟩
  cases r with
  | compile jobs =>
    obtain ⟨j, hj, rfl, _⟩ := hF
    simp only [Req.outs, List.mem_map]
    exact ⟨j, hj, rfl⟩
  | link j =>
    obtain ⟨rfl, _⟩ := hF
    simp [Req.outs]

/-- A build that succeeded leaves no suspects other than those it has skipped. -/
theorem fresh_outInv {s0 s : Store} {reqs : List Req} (hR : ReqsOk L reqs) (hrun : RunInv tc L T TL s0 reqs reqs s)
    (hfresh : ∀ r ∈ reqs, ReqFreshT tc (Bad T s0 reqs) TL s.fs r) (o : Bytes) (ho : L.isOut o) (hTo : ¬ Bad T s0 reqs o) :
    OutInv tc L (TL o) s.fs o := by
  by_cases hout : o ∈ outsOf reqs
  · obtain ⟨r, hr, hor⟩ := mem_outsOf.mp hout
    have hok := hR.jobs r hr
    have hf := hfresh r hr
    unfold OutInv
    cases r with
    | compile jobs =>
      simp only [Req.outs, List.mem_map] at hor
      obtain ⟨j, hj, rfl⟩ := hor
      rw [(hok j hj).kind]
      obtain ⟨h1, h2⟩ := hf j hj hTo
      exact h1.inv (hok j hj) h2
    | link j =>
      simp only [Req.outs, List.mem_singleton] at hor
      subst hor
      have hok : LJobOk L j := hok
      rw [hok.kind]
      obtain ⟨h1, h2⟩ := hf hTo
      exact h1.inv hok h2
  · have hnf : ¬ FlagsChanged s0 reqs o := fun h => hout (flagsChanged_outs h)
    exact (hrun.outs o ho (fun h => hTo ⟨h, hnf⟩) hnf).weaken (fun h => h.elim id (fun h => absurd h hout))

theorem hist_inv (hT : ToolOk tc L) {s : Store} (h : History tc L T TL s) : HistInv tc L T TL s := by
  induction h with
  | start hp =>
    refine ⟨?_, ?_⟩
    · intro p hpp f hf
      rcases hpp with hu | hu
      · exact hp.user p hu f hf
      · rw [hp.managed p hu p (Or.inl rfl)] at hf; cases hf
    · intro o ho _
      exact OutInv.gone (hp.managed o ho o (Or.inl rfl))
  | built _ he hL hR hn hb ih =>
    have hS := ih.edit hL he
    have hinv := CfgInv.reach hL hT hS hR hn hb
    have hrun := hinv.run
    refine ⟨hrun.future, ?_⟩
    cases hinv with
    | finished run fresh => exact fun o ho hB => fresh_outInv hR run (fresh rfl) o ho hB
  | stopped _ he hL hR hn hb ih =>
    have hS := ih.edit hL he
    have hrun := (CfgInv.reach hL hT hS hR hn hb).run
    refine ⟨hrun.future, fun o ho hB => ?_⟩
    rw [not_or] at hB
    exact hrun.outs o ho hB.1 hB.2
  | @forget T1 T2 TL1 TL2 s' _ hTT hTL ih =>
    refine ⟨ih.future, ?_⟩
    intro o ho hT2
    by_cases hgone : s'.fs o = none
    · exact OutInv.gone hgone
    · have h1 : ¬ T1 o := fun h => (hTT o h).elim hT2 hgone
      exact (ih.outs o ho h1).weaken (fun h => (hTL o h).elim id (fun h => absurd h hgone))

end Bob
