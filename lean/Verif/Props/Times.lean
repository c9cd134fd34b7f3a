import Verif.Spec.Times
import Verif.Props.Torn
import Verif.Props.Replay
/-!
# Times of files (C115)
-/

namespace Bob

variable {tc : Toolchain} {L : Layout} {flags : Bytes → List Bytes} {c : InstCfg} {n n' : Nat} {reqs : List Req}

theorem lived_settled (hT : ToolOk tc L) (hS : SrcsKnown L) (hU : ∀ o, L.isOut o → ¬ L.user o) {s : Store} (h : Lived tc L flags s) : CrowdS tc L flags s := by
  induction h with
  | @start s h =>
    have hno : ∀ o, L.isOut o → ∀ x, s.fs o = some x → False := fun o ho x hx => by
      have := h o ho o (Or.inl rfl)
      rw [this] at hx; cases hx
    refine ⟨fun p hp f hf => (hno p hp f hf).elim, fun o ho => ?_⟩
    unfold CrowdMade
    cases L.kind o with
    | compile src => exact fun x hx => (hno o ho x hx).elim
    | link a srcs => exact fun x hx => (hno o ho x hx).elim
  | built _ he hp hr ht hm ih =>
    have hinv := edit_reach hT hS ih he hp hr
    exact (edit_settled hinv).torn hS (fun q hw => writing_not_user hp hinv hw) ht hm hU
  | crowd _ he hps hr ht hm ih =>
    have hinv := CrowdInv.reach hT hps (ih.change hS he) hr
    exact hinv.glob.settle.torn hS (fun q hw => crowd_writing_not_user hps hinv hw) ht hm hU

/-- This includes all that C113 allows. -/
theorem Survived.lived (hT : ToolOk tc L) (hS : SrcsKnown L) (hU : ∀ o, L.isOut o → ¬ L.user o) {s : Store} (h : Survived tc L flags s) : Lived tc L flags s := by
  induction h with
  | start h => exact .start h.managed
  | built _ he hp hr ht hm ih => exact .built ih ((lived_settled hT hS hU ih).edits he) hp hr ht hm
  | crowd _ he hps hr ht hm ih => exact .crowd ih ((lived_settled hT hS hU ih).edits he) hps hr ht hm

/-- **C115**, partial: the general claim is false, see `C115_unnoticed`, `C115_older_false` and `C115_clock_false`.  Files may have any times, in the past or the future.  If those that were changed were
newer than every product there was then, and the clock of the machine that runs bob goes forward, then a build that succeeds leaves all products as the compiler or linker yields them for the present
files, whatever happened before. -/
theorem C115_any_times_partial (hT : ToolOk tc L) {s s1 : Store} (h : Lived tc L flags s) (he : Change L s s1) {ps : List Proc}
    (hps : ∀ p ∈ ps, ProcOk L flags p) {m : Crowd} (hr : CrowdReaches tc ps s1 m) {i : Nat} {p : Proc} (hp : ps[i]? = some p)
    (hi : m.succeeded i) : ProjFresh tc m.fs p.reqs ∧ ∀ q, L.user q → m.fs q = s1.fs q := by
  have hpk := hps p (List.mem_of_getElem? hp)
  obtain ⟨h1, h2⟩ := settled_right hT (lived_settled hT hpk.layout.linkSrcs (fun o ho => hpk.layout.outNotUser o o ho (Or.inl rfl)) h) he hps hr hp hi
  exact ⟨fresh_of_right hpk h1, h2⟩

/-- For one bob. -/
theorem C115_one_partial (hT : ToolOk tc L) {s s1 s2 : Store} (h : Lived tc L flags s) (he : Change L s s1) {p : Proc} (hp : ProcOk L flags p)
    (hr : BuildReaches tc p.c p.n p.reqs s1 (.finished true s2)) : ProjFresh tc s2.fs p.reqs ∧ ∀ q, L.user q → s2.fs q = s1.fs q :=
  C115_any_times_partial hT h he (ps := [p]) (i := 0) (by simpa using hp) (crowd_of_one hr) rfl ⟨s2, rfl⟩

theorem Backdated.stat {s s' : Store} (h : Backdated L s s') {p : Bytes} {t : Nat} (hp : s.fs.stat p = .ok t) : ∃ t', s'.fs.stat p = .ok t' ∧ t' ≤ t := by
  have hf : ∃ f, s.fs p = some f ∧ f.mtime = t := by
    unfold FS.stat at hp
    split at hp
    · rename_i f hf
      cases hp
      exact ⟨f, hf, rfl⟩
    · cases hp
  obtain ⟨f, hf, rfl⟩ := hf
  by_cases hu : L.user p
  · rcases h.user p hu with h1 | ⟨f', g, h1, h2, h3⟩
    · exact ⟨f.mtime, by simp [FS.stat, h1, hf], Nat.le_refl _⟩
    · rw [hf] at h1; cases h1
      exact ⟨g.mtime, by simp [FS.stat, h2], h3⟩
  · exact ⟨f.mtime, by simp [FS.stat, h.rest p hu, hf], Nat.le_refl _⟩

theorem Backdated.le {s s' : Store} (h : Backdated L s s') {p : Bytes} {f : File} (hp : s.fs p = some f) : ∃ g, s'.fs p = some g ∧ g.mtime ≤ f.mtime := by
  by_cases hu : L.user p
  · rcases h.user p hu with h1 | ⟨f', g, h1, h2, h3⟩
    · exact ⟨f, h1.trans hp, Nat.le_refl _⟩
    · rw [hp] at h1; cases h1
      exact ⟨g, h2, h3⟩
  · exact ⟨f, (h.rest p hu).trans hp, Nat.le_refl _⟩

/-- **C115**, the other way round: a change that leaves times as they were, or makes files older, is never noticed.  Whatever is in them, after a successful build the next one runs no compiler and no
linker, changes no file, and cannot fail. -/
theorem C115_unnoticed (hT : ToolOk tc L) (hL : LayoutOk L c) (hD : DestInj L c) (hR : ReqsOk L reqs) (hn : 0 < n) (hn' : 0 < n')
    {s s1 s2 s3 : Store} (hp : Past tc L s) (he : Edit L s s1) (hb : BuildReaches tc c n reqs s1 (.finished true s2))
    (hold : Backdated L s2 s3) {cfg : Cfg} (hb' : BuildReaches tc c n' reqs s3 cfg) :
    cfg.store.fs = s3.fs ∧
    (∃ es, cfg.store.trace = s3.trace ++ es ∧ ∀ e ∈ es, ∃ o l, e = .already o l) ∧
    cfg.result ≠ some false ∧
    ∃ s4, Steps (BuildNext tc c n') cfg (.finished true s4) := by
  refine quiet_build hR hn' (fun P hP => ?_) hb'
  have hall := allDone_of_success hL hD hT (hp.settled hT he) hR hn hb P hP
  have hout : L.isOut P.out := reqs_isOut hR _ (mem_outs_of_prod hP)
  have hman : ∀ p, Managed P.out p → s3.fs p = s2.fs p := fun p hm => hold.rest p (hL.outNotUser _ _ hout hm)
  refine ⟨fun d hd => ?_, ?_⟩
  · obtain ⟨h1, f, g, h2, h3, h4⟩ := hall.1 d hd
    exact ⟨h1, f, g, (hman _ (managed_out _)).trans h2, (hold.rest d (hL.destNotUser _ _ hd)).trans h3, h4⟩
  · cases P with
    | c j =>
      obtain ⟨h1, d, h2, h3⟩ := hall.2
      refine ⟨(recorded_congr (hman _ (managed_flags _))).mpr h1, d, (hman _ (Or.inr (Or.inl rfl))).trans h2, ?_⟩
      rw [(C01_mtime_decision_exact _ _ _).2.1] at h3 ⊢
      obtain ⟨t, h4, h5⟩ := h3
      refine ⟨t, ?_, fun p hp => ?_⟩
      · unfold FS.stat at h4 ⊢
        rw [show s3.fs j.out = s2.fs j.out from hman _ (managed_out _)]
        exact h4
      · obtain ⟨u, h6, h7⟩ := h5 p hp
        obtain ⟨u', h8, h9⟩ := hold.stat h6
        exact ⟨u', h8, Nat.le_trans h9 h7⟩
    | l j =>
      obtain ⟨h1, o, h2, h3⟩ := hall.2
      refine ⟨(recorded_congr (hman _ (managed_flags _))).mpr h1, o, (hman _ (managed_out _)).trans h2, fun p hp => ?_⟩
      obtain ⟨f, h4, h5⟩ := h3 p hp
      obtain ⟨g, h6, h7⟩ := hold.le h4
      exact ⟨g, h6, Nat.le_trans h7 h5⟩

end Bob
