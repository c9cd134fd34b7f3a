import Verif.Lemmas.BuildDest
/-!
# What exactly a build does for each product
-/

namespace Bob

variable {tc : Toolchain} {c : InstCfg} {n : Nat} {reqs0 : List Req} {L : Layout} {s0 : Store}

/-- The product an event is about. -/
def BEvent.about : BEvent → Bytes
  | .compiled _ o _ => o
  | .linked o _ _ => o
  | .already o _ => o
  | .installed o _ => o

/-- The events about a product. -/
def evs (o : Bytes) (tr : List BEvent) : List BEvent := tr.filter fun e => e.about == o

theorem evs_append (o : Bytes) (a b : List BEvent) : evs o (a ++ b) = evs o a ++ evs o b := by simp [evs]

theorem evs_own {o : Bytes} {es : List BEvent} (h : ∀ e ∈ es, e.about = o) : evs o es = es := by
  unfold evs
  rw [List.filter_eq_self]
  intro e he; simp [h e he]

theorem evs_other {o o' : Bytes} {es : List BEvent} (h : ∀ e ∈ es, e.about = o) (hne : o' ≠ o) : evs o' es = [] := by
  unfold evs
  rw [List.filter_eq_nil_iff]
  intro e he; simp [h e he, Ne.symm hne]

/-! ## What is said about a product -/

def FlagsRes (s0 : Store) (out : Bytes) (F : List Bytes) (s : Store) : Prop :=
  (Recorded s0.fs out F ∧ s.fs (flagsPath out) = s0.fs (flagsPath out)) ∨
  (¬ Recorded s0.fs out F ∧ ∃ r, s.fs (flagsPath out) = some r ∧ r.content = flagText F)

def DepsRes (tc : Toolchain) (s0 : Store) (j : CJob) (s : Store) : Prop :=
  match tc.deps s0.fs j.src j.flags with
  | none => s.fs (depsPath j.out) = s0.fs (depsPath j.out)
  | some items => ∃ d, s.fs (depsPath j.out) = some d ∧ d.content = depsText (ruleText items)

/-- bob finds an object up to date. -/
def CSkip (fs : FS) (j : CJob) : Prop :=
  Recorded fs j.out j.flags ∧ ∃ d, fs (depsPath j.out) = some d ∧ frugalMtime fs.stat (j.src :: readDeps d.content) j.out = some false

def NeedInst (fs0 : FS) (d : Bytes) (f : File) : Prop := ∀ g, fs0 d = some g → g.mtime < f.mtime

def InstRes (c : InstCfg) (s0 : Store) (out : Bytes) (ins : List BEvent) (s : Store) : Prop :=
  (c.dest out = none ∧ ins = []) ∨
  ∃ d f, c.dest out = some d ∧ c.bad d = false ∧ s.fs out = some f ∧
    ((NeedInst s0.fs d f ∧ ins = [.installed out d] ∧ ∃ g, s.fs d = some g ∧ g.content = f.content ∧ f.mtime ≤ g.mtime ∧ s0.now ≤ g.mtime) ∨
     (¬ NeedInst s0.fs d f ∧ ins = [] ∧ s.fs d = s0.fs d))

structure Untouched (c : InstCfg) (s0 : Store) (out : Bytes) (s : Store) : Prop where
  files : ∀ p, Managed out p → s.fs p = s0.fs p
  dest : ∀ d, c.dest out = some d → s.fs d = s0.fs d
  evs : evs out s.trace = evs out s0.trace

def MadeC (tc : Toolchain) (s0 : Store) (j : CJob) (s : Store) : Prop :=
  ∃ f, s.fs j.out = some f ∧ tc.obj s0.fs j.src j.flags = some f.content ∧ s0.now ≤ f.mtime

/-- A compile task that has done `k` actions. -/
structure CTask (tc : Toolchain) (c : InstCfg) (s0 : Store) (j : CJob) (k : Nat) (f : Bool) (s : Store) : Prop where
  run : ¬ CSkip s0.fs j
  flags : FlagsRes s0 j.out j.flags s
  deps0 : k = 0 → s.fs (depsPath j.out) = s0.fs (depsPath j.out)
  deps : 1 ≤ k → DepsRes tc s0 j s
  early : k ≤ 1 → f = false ∧ s.fs j.out = s0.fs j.out
  made : 2 ≤ k → f = false → MadeC tc s0 j s
  buf : k = 2 → f = false → s.buf j.out = tc.diag s0.fs j.src j.flags
  log0 : k ≤ 2 → s.fs (logPath j.out) = s0.fs (logPath j.out)
  log : 3 ≤ k → f = false → s.fs.content (logPath j.out) = logOf (tc.diag s0.fs j.src j.flags)
  dest0 : k ≤ 3 → ∀ d, c.dest j.out = some d → s.fs d = s0.fs d
  inst : k = 4 → f = false → ∃ ins, InstRes c s0 j.out ins s ∧
    evs j.out s.trace = evs j.out s0.trace ++ .compiled j.src j.out j.flags :: ins
  ev0 : k ≤ 1 → evs j.out s.trace = evs j.out s0.trace
  ev : 2 ≤ k → (k = 4 → f = true) → evs j.out s.trace = evs j.out s0.trace ++ [.compiled j.src j.out j.flags]

structure CSkipped (c : InstCfg) (s0 : Store) (j : CJob) (s : Store) : Prop where
  skip : CSkip s0.fs j
  files : ∀ p, Managed j.out p → s.fs p = s0.fs p
  inst : ∃ ins, InstRes c s0 j.out ins s ∧
    evs j.out s.trace = evs j.out s0.trace ++ .already j.out (s0.fs.content (logPath j.out)) :: ins

def CAt (tc : Toolchain) (c : InstCfg) (s0 : Store) (j : CJob) : PStat → Store → Prop
  | .todo, s => Untouched c s0 j.out s
  | .task k f, s => CTask tc c s0 j k f s
  | .done, s => CSkipped c s0 j s ∨ CTask tc c s0 j 4 false s
  | .failed, s => evs j.out s.trace = evs j.out s0.trace ∨
      (CSkip s0.fs j ∧ evs j.out s.trace = evs j.out s0.trace ++ [.already j.out (s0.fs.content (logPath j.out))])
  | _, _ => False

/-- bob finds a link product up to date, given its inputs. -/
def LSkip (s0 : Store) (fs : FS) (j : LJob) : Prop :=
  Recorded s0.fs j.out j.flags ∧ ∃ o, s0.fs j.out = some o ∧ ∀ p ∈ j.srcs, ∃ f, fs p = some f ∧ f.mtime ≤ o.mtime

def MadeL (tc : Toolchain) (s0 : Store) (j : LJob) (s : Store) : Prop :=
  ∃ f, s.fs j.out = some f ∧ tc.link j.archive s.fs j.srcs j.flags = some f.content ∧ s0.now ≤ f.mtime ∧
    ∀ p ∈ j.srcs, ∃ g, s.fs p = some g ∧ g.mtime ≤ f.mtime

/-- A link request that has done `k` actions. -/
structure LRun (tc : Toolchain) (c : InstCfg) (s0 : Store) (j : LJob) (k : Nat) (s : Store) : Prop where
  run : ¬ LSkip s0 s.fs j
  flags : FlagsRes s0 j.out j.flags s
  deps : s.fs (depsPath j.out) = s0.fs (depsPath j.out)
  out0 : k = 0 → s.fs j.out = s0.fs j.out
  made : 1 ≤ k → MadeL tc s0 j s
  buf : k = 1 → s.buf j.out = tc.linkDiag j.archive s.fs j.srcs j.flags
  log0 : k ≤ 1 → s.fs (logPath j.out) = s0.fs (logPath j.out)
  log : 2 ≤ k → s.fs.content (logPath j.out) = logOf (tc.linkDiag j.archive s.fs j.srcs j.flags)
  dest0 : k ≤ 2 → ∀ d, c.dest j.out = some d → s.fs d = s0.fs d
  inst : k = 3 → ∃ ins, InstRes c s0 j.out ins s ∧ evs j.out s.trace = evs j.out s0.trace ++ .linked j.out j.srcs j.flags :: ins
  ev0 : k = 0 → evs j.out s.trace = evs j.out s0.trace
  ev : 1 ≤ k → k ≤ 2 → evs j.out s.trace = evs j.out s0.trace ++ [.linked j.out j.srcs j.flags]

structure LSkipped (c : InstCfg) (s0 : Store) (j : LJob) (s : Store) : Prop where
  skip : LSkip s0 s.fs j
  files : ∀ p, Managed j.out p → s.fs p = s0.fs p
  inst : ∃ ins, InstRes c s0 j.out ins s ∧
    evs j.out s.trace = evs j.out s0.trace ++ .already j.out (s0.fs.content (logPath j.out)) :: ins

def LAt (tc : Toolchain) (c : InstCfg) (s0 : Store) (j : LJob) : PStat → Store → Prop
  | .todo, s => Untouched c s0 j.out s
  | .linking, s => LRun tc c s0 j 0 s
  | .linkRan true, s => LRun tc c s0 j 1 s
  | .linkRan false, s => evs j.out s.trace = evs j.out s0.trace ++ [.linked j.out j.srcs j.flags]
  | .linked, s => LRun tc c s0 j 2 s
  | .done, s => LSkipped c s0 j s ∨ LRun tc c s0 j 3 s
  | .failed, s => evs j.out s.trace = evs j.out s0.trace ++ [.linked j.out j.srcs j.flags] ∨
      (LSkip s0 s.fs j ∧ evs j.out s.trace = evs j.out s0.trace ++ [.already j.out (s0.fs.content (logPath j.out))])
  | _, _ => False

def ProdAt (tc : Toolchain) (c : InstCfg) (s0 : Store) : Prod → PStat → Store → Prop
  | .c j => CAt tc c s0 j
  | .l j => LAt tc c s0 j

structure Glob (L : Layout) (s0 s : Store) : Prop where
  clock : s0.now ≤ s.now
  user : ∀ p, L.user p → s.fs p = s0.fs p
  future : ∀ p, L.user p ∨ L.isOut p → ∀ f, s.fs p = some f → f.mtime ≤ s.now

/-! ## Frames -/

theorem instRes_congr {out : Bytes} {ins : List BEvent} {s s' : Store} (ho : s'.fs out = s.fs out)
    (hd : ∀ d, c.dest out = some d → s'.fs d = s.fs d) (h : InstRes c s0 out ins s) : InstRes c s0 out ins s' := by
  rcases h with h | ⟨d, f, h1, h2, h3, h4⟩
  · exact Or.inl h
  · refine Or.inr ⟨d, f, h1, h2, by rw [ho]; exact h3, ?_⟩
    rw [hd d h1]; exact h4

theorem CTask.congr {j : CJob} {k : Nat} {f : Bool} {s s' : Store} (hm : ∀ p, Managed j.out p → s'.fs p = s.fs p)
    (hd : ∀ d, c.dest j.out = some d → s'.fs d = s.fs d) (he : evs j.out s'.trace = evs j.out s.trace) (hb : s'.buf j.out = s.buf j.out)
    (h : CTask tc c s0 j k f s) : CTask tc c s0 j k f s' := by
  have mo := hm _ (managed_out _)
  have mf := hm _ (managed_flags _)
  have md := hm _ (managed_deps _)
  have ml := hm _ (managed_log _)
  refine ⟨h.run, ?_, ?_, ?_, ?_, ?_, ?_, ?_, ?_, ?_, ?_, ?_, ?_⟩
  · unfold FlagsRes; rw [mf]; exact h.flags
  · rw [md]; exact h.deps0
  · unfold DepsRes; rw [md]; exact h.deps
  · rw [mo]; exact h.early
  · unfold MadeC; rw [mo]; exact h.made
  · rw [hb]; exact h.buf
  · rw [ml]; exact h.log0
  · rw [content_congr ml]; exact h.log
  · intro hk d hdd; rw [hd d hdd]; exact h.dest0 hk d hdd
  · intro hk hf
    obtain ⟨ins, h1, h2⟩ := h.inst hk hf
    exact ⟨ins, instRes_congr mo hd h1, by rw [he]; exact h2⟩
  · rw [he]; exact h.ev0
  · rw [he]; exact h.ev

theorem CAt.congr {j : CJob} {st : PStat} {s s' : Store} (hm : ∀ p, Managed j.out p → s'.fs p = s.fs p)
    (hd : ∀ d, c.dest j.out = some d → s'.fs d = s.fs d) (he : evs j.out s'.trace = evs j.out s.trace) (hb : s'.buf j.out = s.buf j.out)
    (h : CAt tc c s0 j st s) : CAt tc c s0 j st s' := by
  cases st with
  | todo =>
    have h : Untouched c s0 j.out s := h
    exact ⟨fun p hp => by rw [hm p hp]; exact h.files p hp, fun d hdd => by rw [hd d hdd]; exact h.dest d hdd, by rw [he]; exact h.evs⟩
  | task k f => exact CTask.congr hm hd he hb h
  | done =>
    rcases h with h | h
    · refine Or.inl ⟨h.skip, fun p hp => by rw [hm p hp]; exact h.files p hp, ?_⟩
      obtain ⟨ins, h1, h2⟩ := h.inst
      exact ⟨ins, instRes_congr (hm _ (managed_out _)) hd h1, by rw [he]; exact h2⟩
    · exact Or.inr (CTask.congr hm hd he hb h)
  | failed =>
    rcases h with h | h
    · exact Or.inl (he.trans h)
    · exact Or.inr ⟨h.1, he.trans h.2⟩
  | linking => exact h.elim
  | linkRan => exact h.elim
  | linked => exact h.elim

theorem LSkip.congr {j : LJob} {fs fs' : FS} (hs : ∀ p ∈ j.srcs, fs' p = fs p) (h : LSkip s0 fs j) : LSkip s0 fs' j := by
  obtain ⟨h1, o, h2, h3⟩ := h
  exact ⟨h1, o, h2, fun p hp => by rw [hs p hp]; exact h3 p hp⟩

theorem MadeL.congr (hT : ToolOk tc L) {j : LJob} {s s' : Store} (ho : s'.fs j.out = s.fs j.out) (hs : ∀ p ∈ j.srcs, s'.fs p = s.fs p)
    (h : MadeL tc s0 j s) : MadeL tc s0 j s' := by
  obtain ⟨f, h1, h2, h3, h4⟩ := h
  refine ⟨f, by rw [ho]; exact h1, ?_, h3, fun p hp => by rw [hs p hp]; exact h4 p hp⟩
  rw [(hT.linkLaw j.archive s.fs s'.fs j.srcs j.flags (fun p hp => content_congr (hs p hp))).1]; exact h2

theorem LRun.congr (hT : ToolOk tc L) {j : LJob} {k : Nat} {s s' : Store} (hm : ∀ p, Managed j.out p → s'.fs p = s.fs p)
    (hd : ∀ d, c.dest j.out = some d → s'.fs d = s.fs d) (he : evs j.out s'.trace = evs j.out s.trace) (hb : s'.buf j.out = s.buf j.out)
    (hs : ∀ p ∈ j.srcs, s'.fs p = s.fs p) (h : LRun tc c s0 j k s) : LRun tc c s0 j k s' := by
  have mo := hm _ (managed_out _)
  have mf := hm _ (managed_flags _)
  have md := hm _ (managed_deps _)
  have ml := hm _ (managed_log _)
  have hlaw := (hT.linkLaw j.archive s.fs s'.fs j.srcs j.flags (fun p hp => content_congr (hs p hp))).2
  refine ⟨?_, ?_, ?_, ?_, ?_, ?_, ?_, ?_, ?_, ?_, ?_, ?_⟩
  · exact fun h' => h.run (h'.congr (fun p hp => (hs p hp).symm))
  · unfold FlagsRes; rw [mf]; exact h.flags
  · rw [md]; exact h.deps
  · rw [mo]; exact h.out0
  · exact fun hk => (h.made hk).congr hT mo hs
  · rw [hb, hlaw]; exact h.buf
  · rw [ml]; exact h.log0
  · rw [content_congr ml, hlaw]; exact h.log
  · intro hk d hdd; rw [hd d hdd]; exact h.dest0 hk d hdd
  · intro hk
    obtain ⟨ins, h1, h2⟩ := h.inst hk
    exact ⟨ins, instRes_congr mo hd h1, by rw [he]; exact h2⟩
  · rw [he]; exact h.ev0
  · rw [he]; exact h.ev

theorem LAt.congr (hT : ToolOk tc L) {j : LJob} {st : PStat} {s s' : Store} (hm : ∀ p, Managed j.out p → s'.fs p = s.fs p)
    (hd : ∀ d, c.dest j.out = some d → s'.fs d = s.fs d) (he : evs j.out s'.trace = evs j.out s.trace) (hb : s'.buf j.out = s.buf j.out)
    (hs : st ≠ .todo → ∀ p ∈ j.srcs, s'.fs p = s.fs p) (h : LAt tc c s0 j st s) : LAt tc c s0 j st s' := by
  cases st with
  | todo =>
    have h : Untouched c s0 j.out s := h
    exact ⟨fun p hp => by rw [hm p hp]; exact h.files p hp, fun d hdd => by rw [hd d hdd]; exact h.dest d hdd, by rw [he]; exact h.evs⟩
  | task => exact h.elim
  | done =>
    rcases h with h | h
    · refine Or.inl ⟨h.skip.congr (hs (by simp)), fun p hp => by rw [hm p hp]; exact h.files p hp, ?_⟩
      obtain ⟨ins, h1, h2⟩ := h.inst
      exact ⟨ins, instRes_congr (hm _ (managed_out _)) hd h1, by rw [he]; exact h2⟩
    · exact Or.inr (LRun.congr hT hm hd he hb (hs (by simp)) h)
  | failed =>
    rcases h with h | h
    · exact Or.inl (by rw [he]; exact h)
    · exact Or.inr ⟨h.1.congr (hs (by simp)), by rw [he]; exact h.2⟩
  | linking => exact LRun.congr hT hm hd he hb (hs (by simp)) h
  | linkRan ok =>
    cases ok with
    | true => exact LRun.congr hT hm hd he hb (hs (by simp)) h
    | false => exact he.trans h
  | linked => exact LRun.congr hT hm hd he hb (hs (by simp)) h

/-! ## Events and buffers -/

theorem installCookie_false {out : Bytes} {s s' : Store} (hi : installCookie c out s = (s', false)) : s' = s := by
  unfold installCookie at hi
  split at hi
  · simp at hi
  · split at hi
    · simp at hi; exact hi.symm
    · split at hi
      · simp at hi; exact hi.symm
      · split at hi
        · simp at hi; exact hi.symm
        · simp at hi
        · simp at hi

theorem installCookie_res {out : Bytes} {s s' : Store} (hd : ∀ d, c.dest out = some d → s.fs d = s0.fs d ∧ d ≠ out) (hfut : ∀ f, s.fs out = some f → f.mtime ≤ s.now) (hclock : s0.now ≤ s.now)
    (h : installCookie c out s = (s', true)) : ∃ ins, InstRes c s0 out ins s' ∧ s'.trace = s.trace ++ ins ∧ ∀ e ∈ ins, e.about = out := by
  unfold installCookie at h
  cases hdd : c.dest out with
  | none =>
    simp only [hdd, Prod.mk.injEq, and_true] at h
    subst h
    exact ⟨[], Or.inl ⟨hdd, rfl⟩, by simp, by simp⟩
  | some d =>
    obtain ⟨hsame, hne⟩ := hd d hdd
    rw [hdd] at h
    simp only at h
    cases ho : s.fs out with
    | none => simp [ho] at h
    | some f =>
      rw [ho] at h
      simp only at h
      by_cases hb : c.bad d = true
      · simp [hb] at h
      · simp only [hb, Bool.false_eq_true, if_false] at h
        have hb' : c.bad d = false := by simpa using hb
        rw [frugal_one ho] at h
        have wrote : NeedInst s0.fs d f → s' = (s.write d f.content).emit (.installed out d) →
            ∃ ins, InstRes c s0 out ins s' ∧ s'.trace = s.trace ++ ins ∧ ∀ e ∈ ins, e.about = out := by
          rintro hN rfl
          refine ⟨[.installed out d], Or.inr ⟨d, f, hdd, hb', ?_, Or.inl ⟨hN, rfl, ⟨f.content, s.now⟩, by simp, rfl, hfut f ho, hclock⟩⟩, rfl, by simp [BEvent.about]⟩
          rw [emit_fs, write_other _ _ (Ne.symm hne)]; exact ho
        cases hg : s.fs d with
        | none =>
          simp only [hg, Prod.mk.injEq, and_true] at h
          exact wrote (fun g h' => by rw [← hsame, hg] at h'; cases h') h.symm
        | some g =>
          simp only [hg] at h
          by_cases hlt : g.mtime < f.mtime
          · simp only [hlt, decide_true, Prod.mk.injEq, and_true] at h
            exact wrote (fun g' h' => by rw [← hsame, hg] at h'; injection h' with h'; subst h'; exact hlt) h.symm
          · simp only [hlt, decide_false, Prod.mk.injEq, and_true] at h
            subst h
            refine ⟨[], Or.inr ⟨d, f, hdd, hb', ho, Or.inr ⟨?_, rfl, hsame⟩⟩, by simp, by simp⟩
            intro hN
            exact hlt (hN g (by rw [← hsame]; exact hg))

theorem install_events (c : InstCfg) (out : Bytes) (s : Store) : ∃ es, (installCookie c out s).1.trace = s.trace ++ es ∧ ∀ e ∈ es, e.about = out := by
  unfold installCookie
  split
  · exact ⟨[], by simp⟩
  · split
    · exact ⟨[], by simp⟩
    · split
      · exact ⟨[], by simp⟩
      · split
        · exact ⟨[], by simp⟩
        · exact ⟨[], by simp⟩
        · exact ⟨[.installed out _], rfl, by simp [BEvent.about]⟩

theorem writeLog_trace (out output : Bytes) (s : Store) : (writeLog out output s).trace = s.trace := by
  unfold writeLog; split <;> rfl

theorem act_events {P : Prod} {st st' : PStat} {s s' : Store} (h : Act tc c P st s st' s') :
    (∃ es, s'.trace = s.trace ++ es ∧ ∀ e ∈ es, e.about = P.out) ∧ ∀ o, o ≠ P.out → s'.buf o = s.buf o := by
  have hv : ∀ {j : CJob} {s s' : Store} {v : Validation}, validate j s = (s', v) → s'.trace = s.trace ∧ s'.buf = s.buf := by
    intro j s s' v h
    rcases validate_cases h with ⟨rfl, _⟩ | ⟨rfl, _, _⟩ <;> exact ⟨rfl, rfl⟩
  have hl : ∀ {j : LJob} {s s' : Store} {v : Bool}, linkCheck j s = (s', v) → s'.trace = s.trace ∧ s'.buf = s.buf := by
    intro j s s' v h
    rcases linkCheck_cases h with ⟨rfl, _⟩ | ⟨rfl, _, _⟩ <;> exact ⟨rfl, rfl⟩
  have hsk : ∀ {out : Bytes} {s s1 s2 : Store} {l : Option Bytes} {ok : Bool}, s1.trace = s.trace → s1.buf = s.buf →
      installCookie c out (s1.emit (.already out l)) = (s2, ok) →
      (∃ es, s2.trace = s.trace ++ es ∧ ∀ e ∈ es, e.about = out) ∧ ∀ o, o ≠ out → s2.buf o = s.buf o := by
    intro out s s1 s2 l ok h1 h2 h3
    have he := install_events c out (s1.emit (.already out l))
    have hb := buf_install (c := c) out (s1.emit (.already out l))
    rw [h3] at he hb
    obtain ⟨es, he, ha⟩ := he
    refine ⟨⟨.already out l :: es, ?_, ?_⟩, fun o _ => ?_⟩
    · rw [he]; simp [Store.emit, h1]
    · intro e he'
      rcases List.mem_cons.mp he' with rfl | he'
      · rfl
      · exact ha e he'
    · rw [hb]; simp [Store.emit, h2]
  cases h with
  | compile h => exact ⟨⟨[], by simp [(hv h).1], by simp⟩, fun o _ => by rw [(hv h).2]⟩
  | err h => exact ⟨⟨[], by simp [(hv h).1], by simp⟩, fun o _ => by rw [(hv h).2]⟩
  | skip h hi => exact hsk (hv h).1 (hv h).2 hi
  | task h =>
    rename_i j k f op
    rcases compileTask_cases h with ⟨_, rfl⟩ | ⟨_, rfl⟩ | ⟨_, rfl⟩ | ⟨_, rfl⟩
    · refine ⟨⟨[], ?_, by simp⟩, fun o _ => by rw [buf_depsOp]⟩
      unfold depsOp; split <;> simp [Store.write]
    · refine ⟨⟨[.compiled j.src j.out j.flags], ?_, by simp [BEvent.about, Prod.out]⟩, fun o ho => buf_objOp j f s o ho⟩
      unfold objOp
      simp only
      split
      · rfl
      · split <;> rfl
    · exact ⟨⟨[], by simp [logOp, writeLog_trace], by simp⟩, fun o _ => by simp [logOp, buf_writeLog]⟩
    · refine ⟨?_, fun o _ => by rw [buf_instOp]⟩
      unfold instOp
      split
      · exact ⟨[], by simp⟩
      · exact install_events c j.out s
  | taskOk => exact ⟨⟨[], by simp⟩, fun _ _ => rfl⟩
  | linkYes h => exact ⟨⟨[], by simp [(hl h).1], by simp⟩, fun o _ => by rw [(hl h).2]⟩
  | linkSkip h hi => exact hsk (hl h).1 (hl h).2 hi
  | linkRun h =>
    rename_i j ok
    have e : s' = (linkOp tc j s).1 := by rw [h]
    subst e
    refine ⟨⟨[.linked j.out j.srcs j.flags], ?_, by simp [BEvent.about, Prod.out]⟩, fun o ho => ?_⟩
    · unfold linkOp
      simp only
      split
      · rfl
      · split <;> rfl
    · unfold linkOp
      simp only
      split
      · exact capture_buf_other _ _ ho
      · split <;> exact capture_buf_other _ _ ho
  | linkLog => exact ⟨⟨[], by simp [writeLog_trace], by simp⟩, fun o _ => by rw [buf_writeLog]⟩
  | linkFail => exact ⟨⟨[], by simp [writeLog_trace], by simp⟩, fun o _ => by rw [buf_writeLog]⟩
  | linkInst h =>
    rename_i j ok
    have he := install_events c j.out s
    have hb := buf_install (c := c) j.out s
    rw [h] at he hb
    exact ⟨he, fun o _ => by rw [hb]⟩

/-! ## Decisions -/

theorem stat_congr {fs fs' : FS} {p : Bytes} (h : fs' p = fs p) : fs'.stat p = fs.stat p := by simp [FS.stat, h]

theorem frugal_congr {fs fs' : FS} {deps : List Bytes} {target : Bytes} (ht : fs' target = fs target) (hd : ∀ p ∈ deps, fs' p = fs p)
    (h : frugalMtime fs.stat deps target = some false) : frugalMtime fs'.stat deps target = some false := by
  rw [(C01_mtime_decision_exact _ _ _).2.1] at h ⊢
  obtain ⟨t, h1, h2⟩ := h
  refine ⟨t, by rw [stat_congr ht]; exact h1, fun p hp => ?_⟩
  obtain ⟨m, h3, h4⟩ := h2 p hp
  exact ⟨m, by rw [stat_congr (hd p hp)]; exact h3, h4⟩

theorem recorded_congr {fs fs' : FS} {out : Bytes} {F : List Bytes} (h : fs' (flagsPath out) = fs (flagsPath out)) :
    Recorded fs' out F ↔ Recorded fs out F := by unfold Recorded; rw [h]

theorem validate_skip_iff {j : CJob} {s : Store} : (∃ s', validate j s = (s', .skip)) ↔ CSkip s.fs j := by
  unfold validate CSkip
  rcases hc : checkFlags j.out j.flags s with ⟨s1, b⟩
  cases b with
  | true =>
    have := (checkFlags_true hc).2
    simp [this]
  | false =>
    obtain ⟨rfl, hrec⟩ := checkFlags_false hc
    simp only [hrec, true_and]
    unfold FS.content
    cases hd : s1.fs (depsPath j.out) with
    | none => simp
    | some d =>
      simp only [Option.map_some, Option.some.injEq, exists_eq_left']
      cases frugalMtime s1.fs.stat (j.src :: readDeps d.content) j.out with
      | none => simp
      | some b => cases b <;> simp

theorem linkCheck_false_iff {j : LJob} {s : Store} : (∃ s', linkCheck j s = (s', false)) ↔
    (Recorded s.fs j.out j.flags ∧ frugalMtime s.fs.stat j.srcs j.out = some false) := by
  unfold linkCheck
  rcases hc : checkFlags j.out j.flags s with ⟨s1, b⟩
  cases b with
  | true =>
    have := (checkFlags_true hc).2
    simp [this]
  | false =>
    obtain ⟨rfl, hrec⟩ := checkFlags_false hc
    simp only [hrec, true_and]
    cases frugalMtime s1.fs.stat j.srcs j.out with
    | none => simp
    | some b => cases b <;> simp

theorem cskip_same {fs fs' : FS} {j : CJob} (hj : CJobOk L j) (hm : ∀ p, Managed j.out p → fs' p = fs p) (hu : ∀ p, L.user p → fs' p = fs p)
    (hdep : ∀ d, fs (depsPath j.out) = some d → ∀ p ∈ readDeps d.content, L.user p) (h : CSkip fs j) : CSkip fs' j := by
  obtain ⟨h1, d, h2, h3⟩ := h
  refine ⟨(recorded_congr (hm _ (managed_flags _))).mpr h1, d, by rw [hm _ (managed_deps _)]; exact h2, ?_⟩
  refine frugal_congr (hm _ (managed_out _)) ?_ h3
  intro p hp
  rcases List.mem_cons.mp hp with rfl | hp
  · exact hu _ hj.user
  · exact hu _ (hdep d h2 p hp)

theorem tool_deps (hT : ToolOk tc L) {fs fs' : FS} {src : Bytes} {F : List Bytes} (hsrc : L.user src) (hu : ∀ p, L.user p → fs' p = fs p) :
    tc.deps fs' src F = tc.deps fs src F := by
  cases h : tc.deps fs src F with
  | some items => exact (deps_back hT hsrc (fun p hp => (hu p hp).symm) h).1
  | none =>
    cases h' : tc.deps fs' src F with
    | none => rfl
    | some items =>
      have := (deps_back hT hsrc hu h').1
      rw [h] at this; cases this

theorem tool_obj (hT : ToolOk tc L) {fs fs' : FS} {src : Bytes} {F : List Bytes} (hsrc : L.user src) (hu : ∀ p, L.user p → fs' p = fs p)
    {o : Bytes} (ho : tc.obj fs' src F = some o) : tc.obj fs src F = some o ∧ tc.diag fs' src F = tc.diag fs src F := by
  obtain ⟨items, hi⟩ := hT.objDeps _ _ _ _ ho
  have := deps_back hT hsrc hu hi
  exact ⟨by rw [this.2.1]; exact ho, this.2.2.symm⟩

theorem evs_act {o : Bytes} {s s' : Store} {es : List BEvent} (h : s'.trace = s.trace ++ es) (ha : ∀ e ∈ es, e.about = o) :
    evs o s'.trace = evs o s.trace ++ es := by rw [h, evs_append, evs_own ha]

/-! ## Compile jobs -/

theorem flagsRes_validate {out : Bytes} {F : List Bytes} {s s' : Store} (hf : s.fs (flagsPath out) = s0.fs (flagsPath out))
    (h : (s' = s ∧ Recorded s.fs out F) ∨ (s' = s.write (flagsPath out) (flagText F) ∧ ¬ Recorded s.fs out F)) : FlagsRes s0 out F s' := by
  have hr : Recorded s.fs out F ↔ Recorded s0.fs out F := recorded_congr hf
  rcases h with ⟨rfl, h⟩ | ⟨rfl, h⟩
  · exact Or.inl ⟨hr.mp h, hf⟩
  · exact Or.inr ⟨fun h' => h (hr.mpr h'), _, write_same _ _ _, rfl⟩

theorem flagsRes_congr {out : Bytes} {F : List Bytes} {s s' : Store} (hf : s'.fs (flagsPath out) = s.fs (flagsPath out))
    (h : FlagsRes s0 out F s) : FlagsRes s0 out F s' := by unfold FlagsRes; rw [hf]; exact h

theorem c_start (hS : Settled L s0) {j : CJob} (hj : CJobOk L j) {s s' : Store} (hG : Glob L s0 s) (hU : Untouched c s0 j.out s)
    (hL : LayoutOk L c) (h : validate j s = (s', .compile)) : CTask tc c s0 j 0 false s' := by
  have hne := fun d hd => (dest_ne_managed hL hj.isOut (o' := j.out) (d := d) hd (managed_flags j.out))
  have ht := touch_validate h
  have same : ∀ p, p ≠ flagsPath j.out → s'.fs p = s.fs p := fun p hp => ht.same p hp
  have htr : s'.trace = s.trace := by rcases validate_cases h with ⟨rfl, _⟩ | ⟨rfl, _, _⟩ <;> rfl
  have hrun : ¬ CSkip s0.fs j := by
    intro hs
    have hs' : CSkip s.fs j := cskip_same hj hU.files hG.user (hS.deps _ hj.isOut) hs
    obtain ⟨s'', h'⟩ := validate_skip_iff.mpr hs'
    rw [h] at h'; cases h'
  refine ⟨hrun, ?_, ?_, ?_, ?_, ?_, ?_, ?_, ?_, ?_, ?_, ?_, ?_⟩
  · refine flagsRes_validate (hU.files _ (managed_flags _)) ?_
    rcases validate_cases h with h | ⟨h1, _, h2⟩
    · exact Or.inl h
    · exact Or.inr ⟨h1, h2⟩
  · intro _; rw [same _ (flagsPath_ne_depsPath _).symm]; exact hU.files _ (managed_deps _)
  · intro h; omega
  · intro _; exact ⟨rfl, by rw [same _ (flagsPath_ne _).symm]; exact hU.files _ (managed_out _)⟩
  · intro h; omega
  · intro h; omega
  · intro _; rw [same _ (flagsPath_ne_logPath _).symm]; exact hU.files _ (managed_log _)
  · intro h; omega
  · intro _ d hd; rw [same _ (hne d hd)]; exact hU.dest d hd
  · intro h; omega
  · intro _; rw [htr]; exact hU.evs
  · intro h; omega

theorem c_deps (hT : ToolOk tc L) (hL : LayoutOk L c) {j : CJob} (hj : CJobOk L j) {s : Store} {f : Bool} (hG : Glob L s0 s)
    (h : CTask tc c s0 j 0 f s) : CTask tc c s0 j 1 (depsOp tc j f s).2 (depsOp tc j f s).1 := by
  have hne := fun d hd => (dest_ne_managed hL hj.isOut (o' := j.out) (d := d) hd (managed_deps j.out))
  have hdeps := tool_deps hT (F := j.flags) hj.user hG.user
  have htouch : Touch (fun p => p = depsPath j.out) s (depsOp tc j f s).1 := by
    unfold depsOp; split
    · exact Touch.refl _ _
    · exact touch_write _ _ rfl
  have same : ∀ p, p ≠ depsPath j.out → (depsOp tc j f s).1.fs p = s.fs p := fun p hp => htouch.same p hp
  have h2 : (depsOp tc j f s).2 = f := by unfold depsOp; split <;> rfl
  have htr : (depsOp tc j f s).1.trace = s.trace := by unfold depsOp; split <;> rfl
  rw [h2]
  refine ⟨h.run, flagsRes_congr (same _ (flagsPath_ne_depsPath _)) h.flags, ?_, ?_, ?_, ?_, ?_, ?_, ?_, ?_, ?_, ?_, ?_⟩
  · intro h; omega
  · intro _
    unfold DepsRes depsOp
    rw [hdeps]
    cases tc.deps s0.fs j.src j.flags with
    | none => exact h.deps0 rfl
    | some items => exact ⟨_, write_same _ _ _, rfl⟩
  · intro _; rw [same _ (depsPath_ne _).symm]; exact h.early (by omega)
  · intro h; omega
  · intro h; omega
  · intro _; rw [same _ (depsPath_ne_logPath _).symm]; exact h.log0 (by omega)
  · intro h; omega
  · intro _ d hd; rw [same _ (hne d hd)]; exact h.dest0 (by omega) d hd
  · intro h; omega
  · intro _; rw [htr]; exact h.ev0 (by omega)
  · intro h; omega

theorem c_obj (hT : ToolOk tc L) (hL : LayoutOk L c) {j : CJob} (hj : CJobOk L j) {s : Store} {f : Bool} (hG : Glob L s0 s)
    (h : CTask tc c s0 j 1 f s) : CTask tc c s0 j 2 (objOp tc j f s).2 (objOp tc j f s).1 := by
  have hne := fun d hd => (dest_ne_managed hL hj.isOut (o' := j.out) (d := d) hd (managed_out j.out))
  have htouch : Touch (fun p => p = j.out) s (objOp tc j f s).1 := by
    unfold objOp
    simp only
    split
    · exact ((touch_emit s _).trans (touch_capture _ _ _)).trans (touch_write _ _ rfl)
    · split
      · exact ((touch_emit s _).trans (touch_capture _ _ _)).trans (touch_remove _ rfl)
      · exact (touch_emit s _).trans (touch_capture _ _ _)
  have same : ∀ p, p ≠ j.out → (objOp tc j f s).1.fs p = s.fs p := fun p hp => htouch.same p hp
  have htr : (objOp tc j f s).1.trace = s.trace ++ [.compiled j.src j.out j.flags] := by
    unfold objOp; simp only; split
    · rfl
    · split <;> rfl
  have hobj : (objOp tc j f s).2 = false → ∃ o, tc.obj s.fs j.src j.flags = some o := by
    unfold objOp; simp only; split
    · rename_i o ho; exact fun _ => ⟨o, ho⟩
    · intro h; cases h
  refine ⟨h.run, flagsRes_congr (same _ (flagsPath_ne _)) h.flags, ?_, ?_, ?_, ?_, ?_, ?_, ?_, ?_, ?_, ?_, ?_⟩
  · intro h; omega
  · intro _
    have := h.deps (by omega)
    unfold DepsRes at this ⊢
    rw [same _ (depsPath_ne _)]; exact this
  · intro h; omega
  · intro _ hf
    obtain ⟨o, ho⟩ := hobj hf
    refine ⟨⟨o, s.now⟩, ?_, (tool_obj hT hj.user hG.user ho).1, hG.clock⟩
    unfold objOp
    simp only [ho]
    exact write_same _ _ _
  · intro _ hf
    obtain ⟨o, ho⟩ := hobj hf
    rw [← (tool_obj hT hj.user hG.user ho).2]
    unfold objOp
    simp only [ho]
    simp [Store.write, Store.capture]
  · intro _; rw [same _ (logPath_ne _)]; exact h.log0 (by omega)
  · intro h; omega
  · intro _ d hd; rw [same _ (hne d hd)]; exact h.dest0 (by omega) d hd
  · intro h; omega
  · intro h; omega
  · intro _ _
    rw [evs_act (o := j.out) htr (by simp [BEvent.about])]
    show evs j.out s.trace ++ _ = _
    rw [h.ev0 (by omega)]

theorem c_log (hL : LayoutOk L c) {j : CJob} (hj : CJobOk L j) {s : Store} {f : Bool}
    (h : CTask tc c s0 j 2 f s) : CTask tc c s0 j 3 (logOp j f s).2 (logOp j f s).1 := by
  have hne := fun d hd => (dest_ne_managed hL hj.isOut (o' := j.out) (d := d) hd (managed_log j.out))
  have same : ∀ p, p ≠ logPath j.out → (logOp j f s).1.fs p = s.fs p := fun p hp => writeLog_other _ _ _ hp
  have htr : (logOp j f s).1.trace = s.trace := writeLog_trace _ _ _
  refine ⟨h.run, flagsRes_congr (same _ (flagsPath_ne_logPath _)) h.flags, ?_, ?_, ?_, ?_, ?_, ?_, ?_, ?_, ?_, ?_, ?_⟩
  · intro h; omega
  · intro _
    have := h.deps (by omega)
    unfold DepsRes at this ⊢
    rw [same _ (depsPath_ne_logPath _)]; exact this
  · intro h; omega
  · intro _ hf; unfold MadeC; rw [same _ (logPath_ne _).symm]; exact h.made (by omega) hf
  · intro h; omega
  · intro h; omega
  · intro _ hf
    rw [← h.buf rfl hf]
    exact writeLog_content _ _ _
  · intro _ d hd; rw [same _ (hne d hd)]; exact h.dest0 (by omega) d hd
  · intro h; omega
  · intro h; omega
  · intro _ _; rw [htr]; exact h.ev (by omega) (by omega)

theorem c_inst (hL : LayoutOk L c) {j : CJob} (hj : CJobOk L j) {s : Store} {f : Bool} (hG : Glob L s0 s)
    (h : CTask tc c s0 j 3 f s) : CTask tc c s0 j 4 (instOp c j f s).2 (instOp c j f s).1 := by
  have hne := fun d hd => (dest_ne_managed hL hj.isOut (o' := j.out) (d := d) hd (managed_out j.out))
  have hfalse : (instOp c j f s).2 = false → f = false ∧ installCookie c j.out s = ((instOp c j f s).1, true) := by
    unfold instOp
    cases f with
    | true => simp
    | false =>
      intro h
      simp only [Bool.false_eq_true, if_false, Bool.not_eq_false'] at h ⊢
      rcases he : installCookie c j.out s with ⟨a, b⟩
      rw [he] at h; simp only at h; subst h; exact ⟨trivial, rfl⟩
  have htrue : (instOp c j f s).2 = true → (instOp c j f s).1 = s := by
    unfold instOp
    cases f with
    | true => intro _; rfl
    | false =>
      intro h
      simp only [Bool.false_eq_true, if_false, Bool.not_eq_true'] at h ⊢
      rcases he : installCookie c j.out s with ⟨a, b⟩
      rw [he] at h; simp only at h; subst h
      exact installCookie_false he
  have ht : Touch (fun p => c.dest j.out = some p) s (instOp c j f s).1 := by
    unfold instOp
    split
    · exact Touch.refl _ _
    · exact touch_install_dest c _ _
  have same : ∀ p, Managed j.out p → (instOp c j f s).1.fs p = s.fs p :=
    fun p hp => ht.same p (fun hd => dest_ne_managed hL hj.isOut hd hp rfl)
  refine ⟨h.run, flagsRes_congr (same _ (managed_flags _)) h.flags, ?_, ?_, ?_, ?_, ?_, ?_, ?_, ?_, ?_, ?_, ?_⟩
  · intro h; omega
  · intro _
    have := h.deps (by omega)
    unfold DepsRes at this ⊢
    rw [same _ (managed_deps _)]; exact this
  · intro h; omega
  · intro _ hf; unfold MadeC; rw [same _ (managed_out _)]; exact h.made (by omega) (hfalse hf).1
  · intro h; omega
  · intro h; omega
  · intro _ hf
    rw [content_congr (same _ (managed_log _))]
    exact h.log (by omega) (hfalse hf).1
  · intro h; omega
  · intro _ hf
    obtain ⟨ins, h1, h2, h3⟩ := installCookie_res (s0 := s0) (fun d hd => ⟨h.dest0 (by omega) d hd, hne d hd⟩)
      (fun x hx => hG.future _ (Or.inr hj.isOut) x hx) hG.clock (hfalse hf).2
    refine ⟨ins, h1, ?_⟩
    rw [evs_act (o := j.out) h2 h3]
    show evs j.out s.trace ++ _ = _
    rw [h.ev (by omega) (by omega)]; simp
  · intro h; omega
  · intro _ hk
    rw [htrue (hk rfl)]; exact h.ev (by omega) (by omega)

theorem c_skip (hS : Settled L s0) (hL : LayoutOk L c) {j : CJob} (hj : CJobOk L j) {s s1 s2 : Store} {ok : Bool} (hG : Glob L s0 s)
    (hU : Untouched c s0 j.out s) (h : validate j s = (s1, .skip))
    (hi : installCookie c j.out (s1.emit (.already j.out (s1.fs.content (logPath j.out)))) = (s2, ok)) :
    CAt tc c s0 j (okStat ok) s2 := by
  have hne := fun d hd => (dest_ne_managed hL hj.isOut (o' := j.out) (d := d) hd (managed_out j.out))
  have hsk : CSkip s.fs j := validate_skip_iff.mp ⟨_, h⟩
  have hs1 : s1 = s := by
    rcases validate_cases h with ⟨rfl, _⟩ | ⟨_, h', _⟩
    · rfl
    · cases h'
  subst hs1
  have hsk0 : CSkip s0.fs j := by
    refine cskip_same hj (fun p hp => (hU.files p hp).symm) (fun p hp => (hG.user p hp).symm) ?_ hsk
    intro d hd
    rw [hU.files _ (managed_deps _)] at hd
    exact hS.deps _ hj.isOut d hd
  have hlog : s1.fs.content (logPath j.out) = s0.fs.content (logPath j.out) := content_congr (hU.files _ (managed_log _))
  rw [hlog] at hi
  cases ok with
  | false =>
    have := installCookie_false hi
    subst this
    refine Or.inr ⟨hsk0, ?_⟩
    rw [evs_act (o := j.out) (s := s1) (es := [.already j.out (s0.fs.content (logPath j.out))]) rfl (by simp [BEvent.about])]
    show evs j.out s1.trace ++ _ = _
    rw [hU.evs]
  | true =>
    left
    have ht := touch_install_dest c j.out (s1.emit (.already j.out (s0.fs.content (logPath j.out))))
    rw [hi] at ht
    obtain ⟨ins, h1, h2, h3⟩ := installCookie_res (s := s1.emit (.already j.out (s0.fs.content (logPath j.out)))) (s0 := s0) (fun d hd => ⟨hU.dest d hd, hne d hd⟩)
      (fun x hx => hG.future _ (Or.inr hj.isOut) x hx) hG.clock hi
    refine ⟨hsk0, fun p hp => ?_, ins, h1, ?_⟩
    · rw [ht.same p (fun hd => dest_ne_managed hL hj.isOut hd hp rfl)]; exact hU.files p hp
    · rw [evs_act (o := j.out) h2 h3, evs_act (o := j.out) (s := s1) (es := [.already j.out (s0.fs.content (logPath j.out))]) rfl (by simp [BEvent.about])]
      show evs j.out s1.trace ++ _ ++ _ = _
      rw [hU.evs]; simp

/-! ## Links -/

theorem lskip_iff {j : LJob} {s : Store} (ho : s.fs j.out = s0.fs j.out) (hf : s.fs (flagsPath j.out) = s0.fs (flagsPath j.out)) :
    (Recorded s.fs j.out j.flags ∧ frugalMtime s.fs.stat j.srcs j.out = some false) ↔ LSkip s0 s.fs j := by
  unfold LSkip
  rw [recorded_congr hf, (C01_mtime_decision_exact _ _ _).2.1]
  refine and_congr_right fun _ => ?_
  constructor
  · rintro ⟨t, h1, h2⟩
    obtain ⟨o, h3, rfl⟩ := stat_ok h1
    refine ⟨o, by rw [← ho]; exact h3, fun p hp => ?_⟩
    obtain ⟨m, h4, h5⟩ := h2 p hp
    obtain ⟨f, h6, rfl⟩ := stat_ok h4
    exact ⟨f, h6, h5⟩
  · rintro ⟨o, h1, h2⟩
    refine ⟨o.mtime, by simp [FS.stat, ho, h1], fun p hp => ?_⟩
    obtain ⟨f, h3, h4⟩ := h2 p hp
    exact ⟨f.mtime, by simp [FS.stat, h3], h4⟩

theorem srcs_same (hL : LayoutOk L c) {j : LJob} (hj : LJobOk L j) (hself : j.out ∉ j.srcs) {s s' : Store} (ht : Touch (Own c j.out) s s') :
    ∀ p ∈ j.srcs, s'.fs p = s.fs p :=
  srcs_touch hL hj hself (ht.mono fun _ hp => hp.imp_right fun h => ⟨_, h⟩)

theorem l_start (hL : LayoutOk L c) {j : LJob} (hj : LJobOk L j) (hself : j.out ∉ j.srcs) {s s' : Store}
    (hU : Untouched c s0 j.out s) (h : linkCheck j s = (s', true)) : LRun tc c s0 j 0 s' := by
  have hne := fun d hd => (dest_ne_managed hL hj.isOut (o' := j.out) (d := d) hd (managed_flags j.out))
  have ht := touch_linkCheck h
  have same : ∀ p, p ≠ flagsPath j.out → s'.fs p = s.fs p := fun p hp => ht.same p hp
  have htr : s'.trace = s.trace := by rcases linkCheck_cases h with ⟨rfl, _⟩ | ⟨rfl, _, _⟩ <;> rfl
  have hsrc := srcs_same hL hj hself (ht.mono fun p (e : p = _) => Or.inl (e ▸ managed_flags j.out))
  have hrun : ¬ LSkip s0 s'.fs j := by
    intro hs
    have hs' : LSkip s0 s.fs j := hs.congr (fun p hp => (hsrc p hp).symm)
    obtain ⟨s'', h'⟩ := linkCheck_false_iff.mpr ((lskip_iff (hU.files _ (managed_out _)) (hU.files _ (managed_flags _))).mpr hs')
    rw [h] at h'; cases h'
  refine ⟨hrun, ?_, ?_, ?_, ?_, ?_, ?_, ?_, ?_, ?_, ?_, ?_⟩
  · refine flagsRes_validate (hU.files _ (managed_flags _)) ?_
    rcases linkCheck_cases h with h | ⟨h1, _, h2⟩
    · exact Or.inl h
    · exact Or.inr ⟨h1, h2⟩
  · rw [same _ (flagsPath_ne_depsPath _).symm]; exact hU.files _ (managed_deps _)
  · intro _; rw [same _ (flagsPath_ne _).symm]; exact hU.files _ (managed_out _)
  · intro h; omega
  · intro h; omega
  · intro _; rw [same _ (flagsPath_ne_logPath _).symm]; exact hU.files _ (managed_log _)
  · intro h; omega
  · intro _ d hd; rw [same _ (hne d hd)]; exact hU.dest d hd
  · intro h; omega
  · intro _; rw [htr]; exact hU.evs
  · intro h; omega

theorem linkOp_trace (j : LJob) (s : Store) : (linkOp tc j s).1.trace = s.trace ++ [.linked j.out j.srcs j.flags] := by
  unfold linkOp
  simp only
  split
  · rfl
  · split <;> rfl

theorem l_link (hT : ToolOk tc L) (hL : LayoutOk L c) {j : LJob} (hj : LJobOk L j) (hself : j.out ∉ j.srcs) {s s' : Store} (hG : Glob L s0 s)
    (h : LRun tc c s0 j 0 s) (hop : linkOp tc j s = (s', true)) : LRun tc c s0 j 1 s' := by
  have hne := fun d hd => (dest_ne_managed hL hj.isOut (o' := j.out) (d := d) hd (managed_out j.out))
  have hs' : s' = (linkOp tc j s).1 := by rw [hop]
  have hc : ∃ o, tc.link j.archive s.fs j.srcs j.flags = some o ∧
      s' = ((s.emit (.linked j.out j.srcs j.flags)).capture j.out (tc.linkDiag j.archive s.fs j.srcs j.flags)).write j.out o := by
    unfold linkOp at hop
    simp only at hop
    split at hop
    · rename_i o ho
      simp only [Prod.mk.injEq, and_true] at hop
      exact ⟨o, ho, hop.symm⟩
    · simp at hop
  obtain ⟨o, ho, hs'⟩ := hc
  have same : ∀ p, p ≠ j.out → s'.fs p = s.fs p := by
    intro p hp; rw [hs', write_other _ _ hp]; rfl
  have hsrc : ∀ p ∈ j.srcs, s'.fs p = s.fs p := fun p hp => same p (fun e => hself (e ▸ hp))
  have hlaw := hT.linkLaw j.archive s.fs s'.fs j.srcs j.flags (fun p hp => content_congr (hsrc p hp))
  have htr : s'.trace = s.trace ++ [.linked j.out j.srcs j.flags] := by rw [hs']; rfl
  refine ⟨?_, flagsRes_congr (same _ (flagsPath_ne _)) h.flags, ?_, ?_, ?_, ?_, ?_, ?_, ?_, ?_, ?_, ?_⟩
  · exact fun h' => h.run (h'.congr (fun p hp => (hsrc p hp).symm))
  · rw [same _ (depsPath_ne _)]; exact h.deps
  · intro h; omega
  · intro _
    refine ⟨⟨o, s.now⟩, ?_, by rw [hlaw.1]; exact ho, hG.clock, fun p hp => ?_⟩
    · rw [hs', write_same]; rfl
    · rw [hsrc p hp]
      obtain ⟨g, hg⟩ := Option.isSome_iff_exists.mp (hT.linkExists _ _ _ _ _ ho p hp)
      exact ⟨g, hg, hG.future p (hj.srcs p hp) g hg⟩
  · intro _; rw [hlaw.2, hs']; simp [Store.write, Store.capture]
  · intro _; rw [same _ (logPath_ne _)]; exact h.log0 (by omega)
  · intro h; omega
  · intro _ d hd; rw [same _ (hne d hd)]; exact h.dest0 (by omega) d hd
  · intro h; omega
  · intro h; omega
  · intro _ _
    rw [evs_act (o := j.out) htr (by simp [BEvent.about]), h.ev0 rfl]

theorem l_log (hT : ToolOk tc L) (hL : LayoutOk L c) {j : LJob} (hj : LJobOk L j) (hself : j.out ∉ j.srcs) {s : Store}
    (h : LRun tc c s0 j 1 s) : LRun tc c s0 j 2 (writeLog j.out (s.buf j.out) s) := by
  have hne := fun d hd => (dest_ne_managed hL hj.isOut (o' := j.out) (d := d) hd (managed_log j.out))
  have same : ∀ p, p ≠ logPath j.out → (writeLog j.out (s.buf j.out) s).fs p = s.fs p := fun p hp => writeLog_other _ _ _ hp
  have hsrc := srcs_same hL hj hself (touch_writeLog (M := Own c j.out) j.out (s.buf j.out) s (Or.inl (managed_log _)))
  have hlaw := hT.linkLaw j.archive s.fs (writeLog j.out (s.buf j.out) s).fs j.srcs j.flags (fun p hp => content_congr (hsrc p hp))
  refine ⟨?_, flagsRes_congr (same _ (flagsPath_ne_logPath _)) h.flags, ?_, ?_, ?_, ?_, ?_, ?_, ?_, ?_, ?_, ?_⟩
  · exact fun h' => h.run (h'.congr (fun p hp => (hsrc p hp).symm))
  · rw [same _ (depsPath_ne_logPath _)]; exact h.deps
  · intro h; omega
  · exact fun _ => (h.made (by omega)).congr hT (same _ (logPath_ne _).symm) hsrc
  · intro h; omega
  · intro h; omega
  · intro _; rw [writeLog_content, hlaw.2, h.buf rfl]
  · intro _ d hd; rw [same _ (hne d hd)]; exact h.dest0 (by omega) d hd
  · intro h; omega
  · intro h; omega
  · intro _ _; rw [writeLog_trace]; exact h.ev (by omega) (by omega)

theorem l_inst (hT : ToolOk tc L) (hL : LayoutOk L c) {j : LJob} (hj : LJobOk L j) (hself : j.out ∉ j.srcs) {s s' : Store} (hG : Glob L s0 s)
    (h : LRun tc c s0 j 2 s) (hi : installCookie c j.out s = (s', true)) : LRun tc c s0 j 3 s' := by
  have hne := fun d hd => (dest_ne_managed hL hj.isOut (o' := j.out) (d := d) hd (managed_out j.out))
  have ht := touch_install_dest c j.out s
  rw [hi] at ht
  have same : ∀ p, Managed j.out p → s'.fs p = s.fs p := fun p hp => ht.same p (fun hd => dest_ne_managed hL hj.isOut hd hp rfl)
  have hsrc := srcs_same hL hj hself (ht.mono fun p hp => (Or.inr hp : Own c j.out p))
  have hlaw := hT.linkLaw j.archive s.fs s'.fs j.srcs j.flags (fun p hp => content_congr (hsrc p hp))
  refine ⟨?_, flagsRes_congr (same _ (managed_flags _)) h.flags, ?_, ?_, ?_, ?_, ?_, ?_, ?_, ?_, ?_, ?_⟩
  · exact fun h' => h.run (h'.congr (fun p hp => (hsrc p hp).symm))
  · rw [same _ (managed_deps _)]; exact h.deps
  · intro h; omega
  · exact fun _ => (h.made (by omega)).congr hT (same _ (managed_out _)) hsrc
  · intro h; omega
  · intro h; omega
  · intro _; rw [content_congr (same _ (managed_log _)), hlaw.2]; exact h.log (by omega)
  · intro h; omega
  · intro _
    obtain ⟨ins, h1, h2, h3⟩ := installCookie_res (s0 := s0) (fun d hd => ⟨h.dest0 (by omega) d hd, hne d hd⟩)
      (fun x hx => hG.future _ (Or.inr hj.isOut) x hx) hG.clock hi
    refine ⟨ins, h1, ?_⟩
    rw [evs_act (o := j.out) h2 h3, h.ev (by omega) (by omega)]; simp
  · intro h; omega
  · intro _ h; omega

theorem l_skip (hL : LayoutOk L c) {j : LJob} (hj : LJobOk L j) (hself : j.out ∉ j.srcs) {s s1 s2 : Store} {ok : Bool} (hG : Glob L s0 s)
    (hU : Untouched c s0 j.out s) (h : linkCheck j s = (s1, false))
    (hi : installCookie c j.out (s1.emit (.already j.out (s1.fs.content (logPath j.out)))) = (s2, ok)) :
    LAt tc c s0 j (okStat ok) s2 := by
  have hne := fun d hd => (dest_ne_managed hL hj.isOut (o' := j.out) (d := d) hd (managed_out j.out))
  have hsk := (lskip_iff (hU.files _ (managed_out _)) (hU.files _ (managed_flags _))).mp (linkCheck_false_iff.mp ⟨_, h⟩)
  have hs1 : s1 = s := by
    rcases linkCheck_cases h with ⟨rfl, _⟩ | ⟨_, h', _⟩
    · rfl
    · cases h'
  subst hs1
  have hlog : s1.fs.content (logPath j.out) = s0.fs.content (logPath j.out) := content_congr (hU.files _ (managed_log _))
  rw [hlog] at hi
  cases ok with
  | false =>
    have := installCookie_false hi
    subst this
    refine Or.inr ⟨hsk, ?_⟩
    rw [evs_act (o := j.out) (s := s1) (es := [.already j.out (s0.fs.content (logPath j.out))]) rfl (by simp [BEvent.about]), hU.evs]
  | true =>
    left
    have ht := touch_install_dest c j.out (s1.emit (.already j.out (s0.fs.content (logPath j.out))))
    rw [hi] at ht
    have hsrc := srcs_same hL hj hself (ht.mono fun p hp => (Or.inr hp : Own c j.out p))
    obtain ⟨ins, h1, h2, h3⟩ := installCookie_res (s := s1.emit (.already j.out (s0.fs.content (logPath j.out)))) (s0 := s0) (fun d hd => ⟨hU.dest d hd, hne d hd⟩)
      (fun x hx => hG.future _ (Or.inr hj.isOut) x hx) hG.clock hi
    refine ⟨hsk.congr hsrc, fun p hp => ?_, ins, h1, ?_⟩
    · rw [ht.same p (fun hd => dest_ne_managed hL hj.isOut hd hp rfl)]; exact hU.files p hp
    · rw [evs_act (o := j.out) h2 h3, evs_act (o := j.out) (s := s1) (es := [.already j.out (s0.fs.content (logPath j.out))]) rfl (by simp [BEvent.about])]
      rw [hU.evs]; simp

/-! ## The rule -/

theorem prod_isOut (hR : ReqsOk L reqs0) {P : Prod} (hP : P ∈ prodsOf reqs0) : L.isOut P.out := by
  obtain ⟨r, hr, hP⟩ := List.mem_flatMap.mp hP
  have := hR.jobs r hr
  cases r with
  | compile jobs =>
    simp only [Req.prods, List.mem_map] at hP
    obtain ⟨j, hj, rfl⟩ := hP
    exact (this j hj).isOut
  | link j =>
    simp only [Req.prods, List.mem_singleton] at hP
    subst hP
    exact LJobOk.isOut this

theorem prod_cok (hR : ReqsOk L reqs0) {j : CJob} (hP : .c j ∈ prodsOf reqs0) : CJobOk L j := by
  obtain ⟨r, hr, hP⟩ := List.mem_flatMap.mp hP
  have := hR.jobs r hr
  cases r with
  | compile jobs =>
    simp only [Req.prods, List.mem_map, Prod.c.injEq, exists_eq_right] at hP
    exact this j hP
  | link j => simp [Req.prods] at hP

theorem prod_lok (hR : ReqsOk L reqs0) {j : LJob} (hP : .l j ∈ prodsOf reqs0) : LJobOk L j ∧ j.out ∉ j.srcs := by
  obtain ⟨r, hr, hP⟩ := List.mem_flatMap.mp hP
  have := hR.jobs r hr
  cases r with
  | compile jobs => simp [Req.prods] at hP
  | link j' =>
    simp only [Req.prods, List.mem_singleton, Prod.l.injEq] at hP
    subst hP
    obtain ⟨pre, post, rfl⟩ := List.append_of_mem hr
    exact ⟨this, sep_self hR⟩

theorem res_flow (hL : LayoutOk L c) (hD : DestInj L c) (hT : ToolOk tc L) (hS : Settled L s0) (hR : ReqsOk L reqs0) :
    Flow tc c reqs0 (Glob L s0) (ProdAt tc c s0) := by
  refine ⟨?_, ?_, ?_, ?_⟩
  · rintro a b ⟨t, ht, rfl⟩ h
    exact ⟨Nat.le_trans h.clock ht, h.user, fun p hp f hf => Nat.le_trans (h.future p hp f hf) ht⟩
  · rintro P st a b ⟨t, ht, rfl⟩ _ h
    cases P with
    | c j => exact CAt.congr (s := a) (fun _ _ => rfl) (fun _ _ => rfl) rfl rfl h
    | l j => exact LAt.congr (s := a) hT (fun _ _ => rfl) (fun _ _ => rfl) rfl rfl (fun _ _ _ => rfl) h
  · intro P hP st s st' s' ha hG hQ
    have hPo := prod_isOut hR hP
    have ht := act_touch ha
    have hG' : Glob L s0 s' := by
      refine ⟨by rw [ht.now]; exact hG.clock, fun p hp => ?_, fun p hp f hf => ?_⟩
      · rw [ht.same p]
        · exact hG.user p hp
        · rintro (h | h)
          · exact hL.outNotUser _ p hPo h hp
          · exact hL.destNotUser _ p h hp
      · rw [ht.now]
        rcases ht.new p with e | e | ⟨g, e, hm⟩
        · rw [e] at hf; exact hG.future p hp f hf
        · rw [e] at hf; cases hf
        · rw [e] at hf; injection hf with hf; subst hf; omega
    refine ⟨hG', ?_⟩
    cases ha with
    | compile h => exact c_start hS (prod_cok hR hP) hG hQ hL h
    | err h =>
      refine Or.inl ?_
      have hU : Untouched c s0 _ s := hQ
      rcases validate_cases h with ⟨rfl, _⟩ | ⟨_, h', _⟩
      · exact hU.evs
      · cases h'
    | skip h hi => exact c_skip hS hL (prod_cok hR hP) hG hQ h hi
    | task h =>
      rename_i j k f op
      have hj := prod_cok hR hP
      rcases compileTask_cases h with ⟨rfl, rfl⟩ | ⟨rfl, rfl⟩ | ⟨rfl, rfl⟩ | ⟨rfl, rfl⟩
      · exact c_deps hT hL hj hG hQ
      · exact c_obj hT hL hj hG hQ
      · exact c_log hL hj hQ
      · exact c_inst hL hj hG hQ
    | taskOk => exact Or.inr hQ
    | linkYes h => exact l_start hL (prod_lok hR hP).1 (prod_lok hR hP).2 hQ h
    | linkSkip h hi => exact l_skip hL (prod_lok hR hP).1 (prod_lok hR hP).2 hG hQ h hi
    | linkRun h =>
      rename_i j ok
      cases ok with
      | true => exact l_link hT hL (prod_lok hR hP).1 (prod_lok hR hP).2 hG hQ h
      | false =>
        have e : s' = (linkOp tc j s).1 := by rw [h]
        subst e
        have hQ : LRun tc c s0 j 0 s := hQ
        show evs j.out _ = _
        rw [evs_act (o := j.out) (linkOp_trace j s) (by simp [BEvent.about]), hQ.ev0 rfl]
    | linkLog => exact l_log hT hL (prod_lok hR hP).1 (prod_lok hR hP).2 hQ
    | linkFail =>
      rename_i j
      refine Or.inl ?_
      rw [writeLog_trace]
      exact hQ
    | linkInst h =>
      rename_i j ok
      cases ok with
      | true => exact Or.inr (l_inst hT hL (prod_lok hR hP).1 (prod_lok hR hP).2 hG hQ h)
      | false =>
        have := installCookie_false h
        subst this
        have hQ : LRun tc c s0 j 2 s' := hQ
        exact Or.inl (hQ.ev (by omega) (by omega))
  · intro P hP P' hP' hne st s st' s' ha hG hQ q hsep hq
    have ht := act_touch ha
    obtain ⟨⟨es, he, hae⟩, hbuf⟩ := act_events ha
    have hPo := prod_isOut hR hP
    have hPo' := prod_isOut hR hP'
    have hm : ∀ p, Managed P'.out p → s'.fs p = s.fs p := by
      intro p hp
      refine ht.same p ?_
      rintro (h | h)
      · exact hne (managed_disjoint hL hPo' hPo hp h)
      · exact dest_ne_managed hL hPo' h hp rfl
    have hd : ∀ d, c.dest P'.out = some d → s'.fs d = s.fs d := by
      intro d hdd
      refine ht.same d ?_
      rintro (h | h)
      · exact dest_ne_managed hL hPo hdd h rfl
      · exact hne (hD _ _ _ hPo' hPo hdd h)
    have hev : evs P'.out s'.trace = evs P'.out s.trace := by
      rw [he, evs_append, evs_other hae hne]; simp
    cases P' with
    | c j => exact CAt.congr hm hd hev (hbuf _ hne) hq
    | l j =>
      refine LAt.congr hT hm hd hev (hbuf _ hne) (fun hst p hp => ?_) hq
      have hj := (prod_lok hR hP').1
      have hnp : p ≠ P.out := fun e => hsep j rfl hst (e ▸ hp)
      refine ht.same p ?_
      rcases hj.srcs p hp with hu | ho
      · rintro (h | h)
        · exact hL.outNotUser _ p hPo h hu
        · exact hL.destNotUser _ p h hu
      · rintro (h | h)
        · exact hnp (managed_disjoint hL ho hPo (managed_out _) h)
        · exact dest_ne_managed hL ho h (managed_out _) rfl

theorem Settled.glob (hS : Settled L s0) : Glob L s0 s0 := by
  refine ⟨Nat.le_refl _, fun _ _ => rfl, fun p hp f hf => ?_⟩
  rcases hp with hp | hp
  · exact hS.user p hp f hf
  · exact Nat.le_of_lt (hS.outs p hp f hf)

theorem all_todo : All (ProdAt tc c s0) .todo (prodsOf reqs0) s0 := by
  intro P _
  cases P with
  | c j => exact ⟨fun _ _ => rfl, fun _ _ => rfl, rfl⟩
  | l j => exact ⟨fun _ _ => rfl, fun _ _ => rfl, rfl⟩

/-- What holds for every product after a successful build. -/
theorem build_result (hL : LayoutOk L c) (hD : DestInj L c) (hT : ToolOk tc L) (hS : Settled L s0) (hR : ReqsOk L reqs0) (hn : 0 < n) {s : Store}
    (h : BuildReaches tc c n reqs0 s0 (.finished true s)) : Glob L s0 s ∧ ∀ P ∈ prodsOf reqs0, ProdAt tc c s0 P .done s :=
  flow_success (res_flow hL hD hT hS hR) hR.ord hn hS.glob all_todo h

/-- What holds for every product at any time. -/
theorem build_any (hL : LayoutOk L c) (hD : DestInj L c) (hT : ToolOk tc L) (hS : Settled L s0) (hR : ReqsOk L reqs0) (hn : 0 < n) {cfg : Cfg}
    (h : BuildReaches tc c n reqs0 s0 cfg) : Glob L s0 cfg.store ∧ ∀ P ∈ prodsOf reqs0, ∃ st, ProdAt tc c s0 P st cfg.store :=
  (FlowInv.reach (res_flow hL hD hT hS hR) hR.ord hn hS.glob all_todo h).any

end Bob
