import Verif.Spec.Build
import Verif.Lemmas.PoolRely
/-!
# Invariants of builds
-/

namespace Bob

/-! ## Paths -/

theorem suffix_ne {a b x y : Bytes} (hx : x.length = y.length) (h : x ≠ y) : a ++ x ≠ b ++ y := by
  intro e
  exact h (List.append_inj' e hx).2

theorem ext_ne_suffix {L : Layout} {c : InstCfg} (hL : LayoutOk L c) {o : Bytes} (ho : L.isOut o) (b : Bytes) (s : Bytes)
    (hs : s ∈ [b!".deps", b!".flags", b!".log"]) : o ≠ b ++ s := by
  obtain ⟨base, e, he, rfl⟩ := hL.ext o ho
  intro h
  have hlast : (base ++ [DOT, e]).getLast? = (b ++ s).getLast? := by rw [h]
  have h1 : (base ++ [DOT, e]).getLast? = some e := by simp
  rw [h1] at hlast
  simp only [List.mem_cons, List.not_mem_nil, or_false] at hs he
  rcases hs with rfl | rfl | rfl <;> rcases he with rfl | rfl | rfl <;> simp at hlast

theorem managed_disjoint {L : Layout} {c : InstCfg} (hL : LayoutOk L c) {o o' p : Bytes} (ho : L.isOut o) (ho' : L.isOut o')
    (h : Managed o p) (h' : Managed o' p) : o = o' := by
  have e1 := fun b s hs => ext_ne_suffix hL ho b s hs
  have e2 := fun b s hs => ext_ne_suffix hL ho' b s hs
  unfold Managed depsPath flagsPath logPath at h h'
  rcases h with rfl | rfl | rfl | rfl <;> rcases h' with h' | h' | h' | h'
  · exact h'
  · exact absurd h' (e1 _ _ (by simp))
  · exact absurd h' (e1 _ _ (by simp))
  · exact absurd h' (e1 _ _ (by simp))
  · exact absurd h'.symm (e2 _ _ (by simp))
  · exact List.append_cancel_right h'
  · exfalso
    have : o ++ b!".deps" ≠ (o' ++ b!".") ++ b!"flags" := suffix_ne rfl (by decide)
    exact this (by rw [h']; simp)
  · exfalso
    have : (o ++ b!".") ++ b!"deps" ≠ o' ++ b!".log" := suffix_ne rfl (by decide)
    exact this (by rw [← h']; simp)
  · exact absurd h'.symm (e2 _ _ (by simp))
  · exfalso
    have : (o ++ b!".") ++ b!"flags" ≠ o' ++ b!".deps" := suffix_ne rfl (by decide)
    exact this (by rw [← h']; simp)
  · exact List.append_cancel_right h'
  · exfalso
    have : (o ++ b!".f") ++ b!"lags" ≠ o' ++ b!".log" := suffix_ne rfl (by decide)
    exact this (by rw [← h']; simp)
  · exact absurd h'.symm (e2 _ _ (by simp))
  · exfalso
    have : o ++ b!".log" ≠ (o' ++ b!".") ++ b!"deps" := suffix_ne rfl (by decide)
    exact this (by rw [h']; simp)
  · exfalso
    have : o ++ b!".log" ≠ (o' ++ b!".f") ++ b!"lags" := suffix_ne rfl (by decide)
    exact this (by rw [h']; simp)
  · exact List.append_cancel_right h'

theorem flagsPath_ne (o : Bytes) : flagsPath o ≠ o := by
  intro h; have := congrArg List.length h; simp [flagsPath] at this
theorem depsPath_ne (o : Bytes) : depsPath o ≠ o := by
  intro h; have := congrArg List.length h; simp [depsPath] at this
theorem logPath_ne (o : Bytes) : logPath o ≠ o := by
  intro h; have := congrArg List.length h; simp [logPath] at this
theorem flagsPath_ne_depsPath (o : Bytes) : flagsPath o ≠ depsPath o := by
  intro h; have := congrArg List.length h; simp [flagsPath, depsPath] at this
theorem flagsPath_ne_logPath (o : Bytes) : flagsPath o ≠ logPath o := by
  intro h; have := congrArg List.length h; simp [flagsPath, logPath] at this
theorem depsPath_ne_logPath (o : Bytes) : depsPath o ≠ logPath o := by
  intro h; have := congrArg List.length h; simp [depsPath, logPath] at this

/-! ## Snapshots -/

/-- Files that satisfy `P` and are not newer than `t` are as they were in `fs0`. -/
def Snap (fs : FS) (t : Nat) (fs0 : FS) (P : Bytes → Prop) : Prop :=
  ∀ p, P p → ∀ f, fs p = some f → f.mtime ≤ t → fs0.content p = some f.content

theorem snap_self (fs : FS) (t : Nat) (P : Bytes → Prop) : Snap fs t fs P := by
  intro p _ f hf _; simp [FS.content, hf]

/-- What is known about an object that exists, unless its flags are suspect.  If `wl`, its log may be wrong. -/
structure CSnap (tc : Toolchain) (user : Bytes → Prop) (wl : Prop) (fs : FS) (out src : Bytes) (o : File)
    (F0 : List Bytes) (fs0 : FS) : Prop where
  clean : ∀ f ∈ F0, CleanFlag f
  obj : tc.obj fs0 src F0 = some o.content
  snap : Snap fs o.mtime fs0 user
  deps : ∀ d, fs (depsPath out) = some d → ∃ fsd items, tc.deps fsd src F0 = some items ∧
    d.content = depsText (ruleText items) ∧ Snap fs o.mtime fsd user
  log : ¬ wl → ∃ fsl, fs.content (logPath out) = logOf (tc.diag fsl src F0) ∧ Snap fs o.mtime fsl user
  flags : ∀ r, fs (flagsPath out) = some r → cstr r.content = flagText F0

def CInv (tc : Toolchain) (user : Bytes → Prop) (wl : Prop) (fs : FS) (out src : Bytes) : Prop :=
  ∀ o, fs out = some o → ∃ F0 fs0, CSnap tc user wl fs out src o F0 fs0

structure LSnap (tc : Toolchain) (wl : Prop) (fs : FS) (a : Bool) (out : Bytes) (srcs : List Bytes) (o : File)
    (F0 : List Bytes) (fs0 : FS) : Prop where
  clean : ∀ f ∈ F0, CleanFlag f
  link : tc.link a fs0 srcs F0 = some o.content
  snap : Snap fs o.mtime fs0 (· ∈ srcs)
  log : ¬ wl → ∃ fsl, fs.content (logPath out) = logOf (tc.linkDiag a fsl srcs F0) ∧ Snap fs o.mtime fsl (· ∈ srcs)
  flags : ∀ r, fs (flagsPath out) = some r → cstr r.content = flagText F0

def LInv (tc : Toolchain) (wl : Prop) (fs : FS) (a : Bool) (out : Bytes) (srcs : List Bytes) : Prop :=
  ∀ o, fs out = some o → ∃ F0 fs0, LSnap tc wl fs a out srcs o F0 fs0

/-- What is known about a product. -/
def OutInv (tc : Toolchain) (L : Layout) (wl : Prop) (fs : FS) (out : Bytes) : Prop :=
  match L.kind out with
  | .compile src => CInv tc L.user wl fs out src
  | .link a srcs => LInv tc wl fs a out srcs

theorem content_congr {fs fs' : FS} {p : Bytes} (h : fs' p = fs p) : fs'.content p = fs.content p := by
  simp [FS.content, h]

theorem Snap.mono {fs fs' fs0 : FS} {t : Nat} {P : Bytes → Prop} (h : Snap fs t fs0 P)
    (hp : ∀ p, P p → ∀ f, fs' p = some f → f.mtime ≤ t → fs p = some f) : Snap fs' t fs0 P :=
  fun p hP f hf ht => h p hP f (hp p hP f hf ht) ht

/-- `CInv` speaks about the product's files and the user's files only; some may vanish. -/
theorem CInv.congr {tc : Toolchain} {user : Bytes → Prop} {wl wl' : Prop} {fs fs' : FS} {out src : Bytes}
    (h : CInv tc user wl fs out src)
    (hm : ∀ p, p = out ∨ p = depsPath out ∨ p = flagsPath out → fs' p = fs p ∨ fs' p = none)
    (hl : ¬ wl' → (fs' (logPath out) = fs (logPath out) ∧ ¬ wl) ∨ fs' out = none)
    (hu : ∀ o, fs out = some o → ∀ p, user p → ∀ f, fs' p = some f → f.mtime ≤ o.mtime → fs p = some f) :
    CInv tc user wl' fs' out src := by
  intro o ho'
  have pull : ∀ p, p = out ∨ p = depsPath out ∨ p = flagsPath out → ∀ x, fs' p = some x → fs p = some x := by
    intro p hp x hx
    rcases hm p hp with h | h
    · rw [← h]; exact hx
    · rw [h] at hx; cases hx
  have ho := pull out (Or.inl rfl) o ho'
  obtain ⟨F0, fs0, hs⟩ := h o ho
  have mono : ∀ {g : FS}, Snap fs o.mtime g user → Snap fs' o.mtime g user := fun hg => hg.mono (hu o ho)
  refine ⟨F0, fs0, hs.clean, hs.obj, mono hs.snap, ?_, ?_, ?_⟩
  · intro d hd
    obtain ⟨fsd, items, h1, h2, h3⟩ := hs.deps d (pull _ (Or.inr (Or.inl rfl)) d hd)
    exact ⟨fsd, items, h1, h2, mono h3⟩
  · intro hn
    rcases hl hn with ⟨h1, h2⟩ | h1
    · obtain ⟨fsl, h3, h4⟩ := hs.log h2
      exact ⟨fsl, by rw [content_congr h1]; exact h3, mono h4⟩
    · rw [h1] at ho'; cases ho'
  · intro r hr
    exact hs.flags r (pull _ (Or.inr (Or.inr rfl)) r hr)

theorem LInv.congr {tc : Toolchain} {wl wl' : Prop} {fs fs' : FS} {a : Bool} {out : Bytes} {srcs : List Bytes}
    (h : LInv tc wl fs a out srcs)
    (hm : ∀ p, p = out ∨ p = depsPath out ∨ p = flagsPath out → fs' p = fs p ∨ fs' p = none)
    (hl : ¬ wl' → (fs' (logPath out) = fs (logPath out) ∧ ¬ wl) ∨ fs' out = none)
    (hu : ∀ o, fs out = some o → ∀ p ∈ srcs, ∀ f, fs' p = some f → f.mtime ≤ o.mtime → fs p = some f) :
    LInv tc wl' fs' a out srcs := by
  intro o ho'
  have pull : ∀ p, p = out ∨ p = depsPath out ∨ p = flagsPath out → ∀ x, fs' p = some x → fs p = some x := by
    intro p hp x hx
    rcases hm p hp with h | h
    · rw [← h]; exact hx
    · rw [h] at hx; cases hx
  have ho := pull out (Or.inl rfl) o ho'
  obtain ⟨F0, fs0, hs⟩ := h o ho
  have mono : ∀ {g : FS}, Snap fs o.mtime g (· ∈ srcs) → Snap fs' o.mtime g (· ∈ srcs) := fun hg => hg.mono (hu o ho)
  refine ⟨F0, fs0, hs.clean, hs.link, mono hs.snap, ?_, ?_⟩
  · intro hn
    rcases hl hn with ⟨h1, h2⟩ | h1
    · obtain ⟨fsl, h3, h4⟩ := hs.log h2
      exact ⟨fsl, by rw [content_congr h1]; exact h3, mono h4⟩
    · rw [h1] at ho'; cases ho'
  · intro r hr
    exact hs.flags r (pull _ (Or.inr (Or.inr rfl)) r hr)

theorem OutInv.weaken {tc : Toolchain} {L : Layout} {w w' : Prop} {fs : FS} {out : Bytes} (hw : w → w')
    (h : OutInv tc L w fs out) : OutInv tc L w' fs out := by
  have hn : ¬ w' → ¬ w := fun h1 h2 => h1 (hw h2)
  unfold OutInv at h ⊢
  split at h
  · exact h.congr (fun _ _ => Or.inl rfl) (fun h => Or.inl ⟨rfl, hn h⟩) (fun _ _ _ _ _ hf _ => hf)
  · exact h.congr (fun _ _ => Or.inl rfl) (fun h => Or.inl ⟨rfl, hn h⟩) (fun _ _ _ _ _ hf _ => hf)

theorem CFresh.congr {tc : Toolchain} {L : Layout} (hT : ToolOk tc L) {fs fs' : FS} {j : CJob} (hj : CJobOk L j)
    (h : CFresh tc fs j) (hm : ∀ p, p = j.out ∨ p = depsPath j.out ∨ p = flagsPath j.out → fs' p = fs p)
    (hu : ∀ p, L.user p → fs' p = fs p) :
    CFresh tc fs' j ∧ tc.diag fs' j.src j.flags = tc.diag fs j.src j.flags := by
  obtain ⟨o, ho, hobj, items, hdeps, ⟨d, hd, hdc⟩, hmt⟩ := h.obj
  have hsame : ∀ p ∈ j.src :: items.map (·.2), fs' p = fs p := by
    intro p hp
    rcases List.mem_cons.mp hp with rfl | hp
    · exact hu _ hj.user
    · obtain ⟨it, hit, rfl⟩ := List.mem_map.mp hp
      exact hu _ ((hT.depsOk _ _ _ _ hdeps).2 it hit).2.1
  obtain ⟨e1, e2, e3⟩ := hT.depsLaw fs fs' j.src j.flags items hdeps (fun p hp => content_congr (hsame p hp))
  refine ⟨⟨⟨o, ?_, ?_, items, e1, ⟨d, ?_, hdc⟩, ?_⟩, ?_⟩, e3⟩
  · rw [hm _ (Or.inl rfl)]; exact ho
  · rw [e2]; exact hobj
  · rw [hm _ (Or.inr (Or.inl rfl))]; exact hd
  · intro p hp; rw [hsame p hp]; exact hmt p hp
  · rw [hm _ (Or.inr (Or.inr rfl))]; exact h.flags

theorem LFresh.congr {tc : Toolchain} {L : Layout} (hT : ToolOk tc L) {fs fs' : FS} {j : LJob}
    (h : LFresh tc fs j) (hm : ∀ p, p = j.out ∨ p = flagsPath j.out → fs' p = fs p) (hu : ∀ p ∈ j.srcs, fs' p = fs p) :
    LFresh tc fs' j ∧ tc.linkDiag j.archive fs' j.srcs j.flags = tc.linkDiag j.archive fs j.srcs j.flags := by
  obtain ⟨o, ho, hobj, hmt⟩ := h.out
  obtain ⟨e1, e2⟩ := hT.linkLaw j.archive fs fs' j.srcs j.flags (fun p hp => content_congr (hu p hp))
  refine ⟨⟨⟨o, ?_, ?_, ?_⟩, ?_⟩, e2⟩
  · rw [hm _ (Or.inl rfl)]; exact ho
  · rw [e1]; exact hobj
  · intro p hp; rw [hu p hp]; exact hmt p hp
  · rw [hm _ (Or.inr rfl)]; exact h.flags

/-- A fresh product satisfies the invariant. -/
theorem CFresh.inv {tc : Toolchain} {L : Layout} {wl : Prop} {fs : FS} {j : CJob} (hj : CJobOk L j) (h : CFresh tc fs j)
    (hl : ¬ wl → fs.content (logPath j.out) = logOf (tc.diag fs j.src j.flags)) :
    CInv tc L.user wl fs j.out j.src := by
  intro o ho
  obtain ⟨o', ho', hobj, items, hdeps, ⟨d, hd, hdc⟩, _⟩ := h.obj
  rw [ho] at ho'; injection ho' with e; subst e
  refine ⟨j.flags, fs, hj.clean, hobj, snap_self _ _ _, ?_, ?_, ?_⟩
  · intro d' hd'
    rw [hd] at hd'; injection hd' with e; subst e
    exact ⟨fs, items, hdeps, hdc, snap_self _ _ _⟩
  · intro hn
    exact ⟨fs, hl hn, snap_self _ _ _⟩
  · intro r hr
    obtain ⟨r', hr', hc⟩ := h.flags
    rw [hr] at hr'; injection hr' with e; subst e
    exact hc

theorem LFresh.inv {tc : Toolchain} {L : Layout} {wl : Prop} {fs : FS} {j : LJob} (hj : LJobOk L j) (h : LFresh tc fs j)
    (hl : ¬ wl → fs.content (logPath j.out) = logOf (tc.linkDiag j.archive fs j.srcs j.flags)) :
    LInv tc wl fs j.archive j.out j.srcs := by
  intro o ho
  obtain ⟨o', ho', hobj, _⟩ := h.out
  rw [ho] at ho'; injection ho' with e; subst e
  refine ⟨j.flags, fs, hj.clean, hobj, snap_self _ _ _, ?_, ?_⟩
  · intro hn
    exact ⟨fs, hl hn, snap_self _ _ _⟩
  · intro r hr
    obtain ⟨r', hr', hc⟩ := h.flags
    rw [hr] at hr'; injection hr' with e; subst e
    exact hc

theorem stat_ok {fs : FS} {p : Bytes} {m : Nat} (h : fs.stat p = .ok m) : ∃ f, fs p = some f ∧ f.mtime = m := by
  unfold FS.stat at h
  cases hp : fs p with
  | none => rw [hp] at h; cases h
  | some f => rw [hp] at h; injection h with h; exact ⟨f, rfl, h⟩

/-- The key step: if bob finds an object up to date, it is. -/
theorem skip_fresh {tc : Toolchain} {L : Layout} (hT : ToolOk tc L) {wl : Prop} {fs : FS} {j : CJob} (hj : CJobOk L j)
    (hI : CInv tc L.user wl fs j.out j.src)
    (hflags : ∃ r, fs (flagsPath j.out) = some r ∧ cstr r.content = flagText j.flags)
    {d : File} (hd : fs (depsPath j.out) = some d)
    (hmt : frugalMtime fs.stat (j.src :: readDeps d.content) j.out = some false) :
    CFresh tc fs j ∧ (¬ wl → fs.content (logPath j.out) = logOf (tc.diag fs j.src j.flags)) := by
  rw [(C01_mtime_decision_exact _ _ _).2.1] at hmt
  obtain ⟨t, ht, hall⟩ := hmt
  obtain ⟨o, ho, rfl⟩ := stat_ok ht
  obtain ⟨F0, fs0, hs⟩ := hI o ho
  obtain ⟨r, hr, hrc⟩ := hflags
  have hF : F0 = j.flags := flagText_inj hs.clean hj.clean (by rw [← hs.flags r hr, hrc])
  subst hF
  obtain ⟨fsd, items, hdeps, hdc, hsd⟩ := hs.deps d hd
  have hclean := hT.depsOk _ _ _ _ hdeps
  have hread : readDeps d.content = items.map (·.2) := by
    rw [hdc]; exact C06_include_deps_roundtrip items (fun it hit => (hclean.2 it hit).1)
  rw [hread] at hall
  have huser : ∀ p ∈ j.src :: items.map (·.2), L.user p := by
    intro p hp
    rcases List.mem_cons.mp hp with rfl | hp
    · exact hj.user
    · obtain ⟨it, hit, rfl⟩ := List.mem_map.mp hp
      exact (hclean.2 it hit).2.1
  have hfile : ∀ p ∈ j.src :: items.map (·.2), ∃ f, fs p = some f ∧ f.mtime ≤ o.mtime := by
    intro p hp
    obtain ⟨m, hm, hle⟩ := hall p hp
    obtain ⟨f, hf, rfl⟩ := stat_ok hm
    exact ⟨f, hf, hle⟩
  have agree : ∀ g : FS, Snap fs o.mtime g L.user → ∀ p ∈ j.src :: items.map (·.2), g.content p = fs.content p := by
    intro g hg p hp
    obtain ⟨f, hf, hle⟩ := hfile p hp
    rw [hg p (huser p hp) f hf hle]
    simp [FS.content, hf]
  obtain ⟨a1, a2, a3⟩ := hT.depsLaw fsd fs j.src _ items hdeps (fun p hp => (agree fsd hsd p hp).symm)
  have b := hT.depsLaw fs fs0 j.src _ items a1 (agree fs0 hs.snap)
  refine ⟨⟨⟨o, ho, ?_, items, a1, ⟨d, hd, hdc⟩, hfile⟩, ⟨r, hr, hrc⟩⟩, ?_⟩
  · rw [← b.2.1]; exact hs.obj
  · intro hn
    obtain ⟨fsl, h1, h2⟩ := hs.log hn
    have := hT.depsLaw fs fsl j.src _ items a1 (agree fsl h2)
    rw [h1, this.2.2]

theorem link_skip_fresh {tc : Toolchain} {L : Layout} (hT : ToolOk tc L) {wl : Prop} {fs : FS} {j : LJob} (hj : LJobOk L j)
    (hI : LInv tc wl fs j.archive j.out j.srcs)
    (hflags : ∃ r, fs (flagsPath j.out) = some r ∧ cstr r.content = flagText j.flags)
    (hmt : frugalMtime fs.stat j.srcs j.out = some false) :
    LFresh tc fs j ∧ (¬ wl → fs.content (logPath j.out) = logOf (tc.linkDiag j.archive fs j.srcs j.flags)) := by
  rw [(C01_mtime_decision_exact _ _ _).2.1] at hmt
  obtain ⟨t, ht, hall⟩ := hmt
  obtain ⟨o, ho, rfl⟩ := stat_ok ht
  obtain ⟨F0, fs0, hs⟩ := hI o ho
  obtain ⟨r, hr, hrc⟩ := hflags
  have hF : F0 = j.flags := flagText_inj hs.clean hj.clean (by rw [← hs.flags r hr, hrc])
  subst hF
  have hfile : ∀ p ∈ j.srcs, ∃ f, fs p = some f ∧ f.mtime ≤ o.mtime := by
    intro p hp
    obtain ⟨m, hm, hle⟩ := hall p hp
    obtain ⟨f, hf, rfl⟩ := stat_ok hm
    exact ⟨f, hf, hle⟩
  have agree : ∀ g : FS, Snap fs o.mtime g (· ∈ j.srcs) → ∀ p ∈ j.srcs, g.content p = fs.content p := by
    intro g hg p hp
    obtain ⟨f, hf, hle⟩ := hfile p hp
    rw [hg p hp f hf hle]
    simp [FS.content, hf]
  refine ⟨⟨⟨o, ho, ?_, hfile⟩, ⟨r, hr, hrc⟩⟩, ?_⟩
  · rw [← (hT.linkLaw j.archive fs fs0 j.srcs _ (agree fs0 hs.snap)).1]; exact hs.link
  · intro hn
    obtain ⟨fsl, h1, h2⟩ := hs.log hn
    rw [h1, (hT.linkLaw j.archive fs fsl j.srcs _ (agree fsl h2)).2]

end Bob
