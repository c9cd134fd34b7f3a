import Verif.Model.Fds
/-!
# C87: bob closes each end of each pipe exactly once
-/

namespace Bob

/-! ## The specification -/

/-- Who has opened what is open under this number after the events, given the latest first. -/
def openOwner : List FdEv → Nat → Option (Option Nat)
  | [], _ => none
  | .opened who fd :: t, k => if k = fd then some who else openOwner t k
  | .closed _ fd :: t, k => if k = fd then none else openOwner t k
  | .read .. :: t, k => openOwner t k

/-- Everybody closes and reads only what they have opened and not closed yet. -/
def Proper : List FdEv → Prop
  | [] => True
  | .opened _ fd :: t => openOwner t fd = none ∧ Proper t
  | .closed who fd :: t => openOwner t fd = some who ∧ Proper t
  | .read who fd :: t => openOwner t fd = some who ∧ Proper t

/-! ## The invariant -/

/-- This worker has this number in its command. -/
def FdHand.Has (h : FdHand) (fd : Nat) : Prop := h.pc ≠ .idle ∧ (h.inp = fd ∨ h.out = fd)

structure HandFdOk (dbg : Bool) (h : FdHand) : Prop where
  inp : -1 ≤ h.inp ∨ h.pc = .idle
  out : -1 ≤ h.out ∨ h.pc = .idle
  ne : h.pc ≠ .idle → h.inp = h.out → h.inp = -1
  made : h.pc = .made → h.inp = -1 ∧ h.out = -1
  bare : dbg = true → h.pc ≠ .idle → h.inp = -1 ∧ h.out = -1
  piped : dbg = false → h.pc = .piped → h.inp ≠ -1 ∧ h.out ≠ -1
  ended : h.pc = .ended ∨ h.pc = .freed → h.inp = -1

structure FdOk (dbg : Bool) (s : FdSt) : Prop where
  hand : ∀ w, HandFdOk dbg (s.hand w)
  proper : Proper s.tr
  tab : ∀ k, s.tab k = none ↔ openOwner s.tr k = none
  file : ∀ k, s.tab k = some .file ↔ openOwner s.tr k = some none
  own : ∀ w k, openOwner s.tr k = some (some w) ↔ (s.hand w).Has k
  wr : ∀ w (k : Nat), (s.hand w).pc ≠ .idle → (s.hand w).inp = k → s.tab k = some (.wr (s.hand w).pipe)
  rd : ∀ w (k : Nat), (s.hand w).pc ≠ .idle → (s.hand w).out = k → s.tab k = some (.rd (s.hand w).pipe)
  fresh : ∀ k p, s.tab k = some (.wr p) ∨ s.tab k = some (.rd p) → p < s.next
  one : ∀ k l p, s.tab k = some (.wr p) → s.tab l = some (.wr p) → k = l
  oneR : ∀ k l p, s.tab k = some (.rd p) → s.tab l = some (.rd p) → k = l

theorem fd_init (dbg : Bool) : FdOk dbg .init where
  hand _ := ⟨.inr rfl, .inr rfl, fun h => absurd rfl h, fun h => (nomatch h), fun _ h => absurd rfl h, fun _ h => (nomatch h), fun h => (by rcases h with h | h <;> cases h)⟩
  proper := trivial
  tab _ := ⟨fun _ => rfl, fun _ => rfl⟩
  file _ := ⟨fun h => (nomatch h), fun h => (nomatch h)⟩
  own _ _ := ⟨fun h => (nomatch h), fun h => absurd rfl h.1⟩
  wr _ _ h := absurd rfl h
  rd _ _ h := absurd rfl h
  fresh _ _ h := (by rcases h with h | h <;> cases h)
  one _ _ _ h := (nomatch h)
  oneR _ _ _ h := (nomatch h)

theorem fhand_put (s : FdSt) (w v : Nat) (h : FdHand) : (s.put w h).hand v = if v = w then h else s.hand v := rfl

/-- Moving on without touching the table, with the same numbers. -/
theorem FdOk.move {dbg : Bool} {s : FdSt} (hs : FdOk dbg s) {w : Nat} {h : FdHand} (hh : HandFdOk dbg h) (hp : h.pipe = (s.hand w).pipe)
    (hsame : ∀ k : Nat, h.Has k ↔ (s.hand w).Has k) (hin : ∀ k : Nat, h.pc ≠ .idle → h.inp = k → (s.hand w).inp = k)
    (hout : ∀ k : Nat, h.pc ≠ .idle → h.out = k → (s.hand w).out = k) : FdOk dbg (s.put w h) := by
  have h0 : ∀ k : Nat, h.pc ≠ .idle → (h.inp = k ∨ h.out = k) → (s.hand w).pc ≠ .idle := fun k hi hk => ((hsame k).1 ⟨hi, hk⟩).1
  refine ⟨fun v => ?_, hs.proper, hs.tab, hs.file, fun v k => ?_, fun v k => ?_, fun v k => ?_, hs.fresh, hs.one, hs.oneR⟩
  · rw [fhand_put]
    split
    · exact hh
    · exact hs.hand v
  · rw [fhand_put]
    split
    · rename_i e
      subst e
      exact (hs.own v k).trans (hsame k).symm
    · exact hs.own v k
  · rw [fhand_put]
    split
    · rename_i e
      subst e
      intro hi hk
      rw [hp]
      exact hs.wr v k (h0 k hi (.inl hk)) (hin k hi hk)
    · exact hs.wr v k
  · rw [fhand_put]
    split
    · rename_i e
      subst e
      intro hi hk
      rw [hp]
      exact hs.rd v k (h0 k hi (.inr hk)) (hout k hi hk)
    · exact hs.rd v k

/-- Closing a number one has and forgetting it. -/
theorem FdOk.drop {dbg : Bool} {s : FdSt} (hs : FdOk dbg s) {w : Nat} {h : FdHand} {fd : Int} (hfd : fd < 0 ∨ (s.hand w).Has fd.toNat) (hh : HandFdOk dbg h) (hp : h.pipe = (s.hand w).pipe)
    (hsame : ∀ k : Nat, h.Has k ↔ (s.hand w).Has k ∧ (k : Int) ≠ fd) (hin : ∀ k : Nat, h.pc ≠ .idle → h.inp = k → (s.hand w).inp = k)
    (hout : ∀ k : Nat, h.pc ≠ .idle → h.out = k → (s.hand w).out = k) : FdOk dbg ((s.close (some w) fd).put w h) := by
  unfold FdSt.close
  split
  · refine hs.move hh hp (fun k => (hsame k).trans ⟨fun h => h.1, fun h => ⟨h, ?_⟩⟩) hin hout
    omega
  · rename_i hneg
    have hhas := hfd.resolve_left hneg
    obtain ⟨n, rfl⟩ : ∃ n : Nat, fd = n := ⟨fd.toNat, by omega⟩
    rw [Int.toNat_natCast] at hhas ⊢
    have hown := (hs.own w n).2 hhas
    have hother : ∀ v, v ≠ w → ¬ (s.hand v).Has n := fun v hv hc => hv (by cases hown.symm.trans ((hs.own v n).2 hc); rfl)
    have hsub : ∀ k o, (if k = n then none else s.tab k) = some o → k ≠ n ∧ s.tab k = some o := by
      intro k o h
      split at h
      · cases h
      · exact ⟨by assumption, h⟩
    have hk' : ∀ v k : Nat, ((s.put w h).hand v).Has k → k ≠ n := by
      rintro v k hc rfl
      rw [fhand_put] at hc
      split at hc
      · exact ((hsame k).1 hc).2 rfl
      · exact hother v (by assumption) hc
    refine ⟨fun v => ?_, ⟨hown, hs.proper⟩, fun k => ?_, fun k => ?_, fun v k => ?_, fun v k hi hk => ?_, fun v k hi hk => ?_, fun k p hk => ?_, fun k l p hk hl => ?_, fun k l p hk hl => ?_⟩
    · rw [fhand_put]
      split
      · exact hh
      · exact hs.hand v
    · show (if k = n then none else s.tab k) = none ↔ (if k = n then none else openOwner s.tr k) = none
      split
      · exact ⟨fun _ => rfl, fun _ => rfl⟩
      · exact hs.tab k
    · show (if k = n then none else s.tab k) = _ ↔ (if k = n then none else openOwner s.tr k) = _
      split
      · exact ⟨fun h => (nomatch h), fun h => (nomatch h)⟩
      · exact hs.file k
    · show (if k = n then none else openOwner s.tr k) = _ ↔ _
      split
      · rename_i e
        exact ⟨fun h => (nomatch h), fun h => absurd e (hk' v k h)⟩
      · rename_i e
        rw [hs.own v k, fhand_put]
        split
        · rename_i e'
          subst e'
          rw [hsame]
          exact ⟨fun h => ⟨h, by omega⟩, fun h => h.1⟩
        · exact Iff.rfl
    · have hne := hk' v k ⟨hi, .inl hk⟩
      show (if k = n then none else s.tab k) = _
      rw [if_neg hne]
      dsimp only [FdSt.put] at hi hk ⊢
      split at hi
      · rename_i e
        subst e
        simp only [if_true] at hk ⊢
        rw [hp]
        exact hs.wr v k ((hsame k).1 ⟨hi, .inl hk⟩).1.1 (hin k hi hk)
      · rename_i e
        simp only [if_neg e] at hk ⊢
        exact hs.wr v k hi hk
    · have hne := hk' v k ⟨hi, .inr hk⟩
      show (if k = n then none else s.tab k) = _
      rw [if_neg hne]
      dsimp only [FdSt.put] at hi hk ⊢
      split at hi
      · rename_i e
        subst e
        simp only [if_true] at hk ⊢
        rw [hp]
        exact hs.rd v k ((hsame k).1 ⟨hi, .inr hk⟩).1.1 (hout k hi hk)
      · rename_i e
        simp only [if_neg e] at hk ⊢
        exact hs.rd v k hi hk
    · exact hs.fresh k p (hk.imp (fun h => (hsub _ _ h).2) fun h => (hsub _ _ h).2)
    · exact hs.one k l p (hsub _ _ hk).2 (hsub _ _ hl).2
    · exact hs.oneR k l p (hsub _ _ hk).2 (hsub _ _ hl).2

theorem tab_own {dbg : Bool} {s : FdSt} (hs : FdOk dbg s) {fd : Nat} (h : s.tab fd = none ∨ s.tab fd = some .file) (w : Nat) : ¬ (s.hand w).Has fd := by
  intro hc
  have ho := (hs.own w fd).2 hc
  rcases h with h | h
  · exact nomatch ((hs.tab fd).1 h).symm.trans ho
  · exact nomatch ((hs.file fd).1 h).symm.trans ho

theorem FdOk.otherOpen {dbg : Bool} {s : FdSt} (hs : FdOk dbg s) {fd : Nat} (h : s.tab fd = none) : FdOk dbg (s.open none fd .file) := by
  have hsub : ∀ k o, (if k = fd then some FdObj.file else s.tab k) = some o → o ≠ .file → s.tab k = some o := by
    intro k o h ho
    split at h
    · cases h; exact absurd rfl ho
    · exact h
  have hno : ∀ w k, (s.hand w).Has k → k ≠ fd := fun w k hc e => tab_own hs (.inl h) w (e ▸ hc)
  refine ⟨hs.hand, ⟨(hs.tab fd).1 h, hs.proper⟩, fun k => ?_, fun k => ?_, fun v k => ?_, fun v k hi hk => ?_, fun v k hi hk => ?_,
    fun k p hk => hs.fresh k p (hk.imp (fun h => hsub _ _ h (by simp)) fun h => hsub _ _ h (by simp)),
    fun k l p hk hl => hs.one k l p (hsub _ _ hk (by simp)) (hsub _ _ hl (by simp)), fun k l p hk hl => hs.oneR k l p (hsub _ _ hk (by simp)) (hsub _ _ hl (by simp))⟩
  · show (if k = fd then some FdObj.file else s.tab k) = none ↔ (if k = fd then some none else openOwner s.tr k) = none
    split
    · simp
    · exact hs.tab k
  · show (if k = fd then some FdObj.file else s.tab k) = _ ↔ (if k = fd then some none else openOwner s.tr k) = _
    split
    · simp
    · exact hs.file k
  · show (if k = fd then some none else openOwner s.tr k) = _ ↔ (s.hand v).Has k
    split
    · rename_i e
      exact ⟨fun h => (by cases h), fun h => absurd e (hno v k h)⟩
    · exact hs.own v k
  · show (if k = fd then some FdObj.file else s.tab k) = _
    rw [if_neg (hno v k ⟨hi, .inl hk⟩)]
    exact hs.wr v k hi hk
  · show (if k = fd then some FdObj.file else s.tab k) = _
    rw [if_neg (hno v k ⟨hi, .inr hk⟩)]
    exact hs.rd v k hi hk

theorem FdOk.otherClose {dbg : Bool} {s : FdSt} (hs : FdOk dbg s) {fd : Nat} (h : s.tab fd = some .file) : FdOk dbg (s.close none fd) := by
  have hsub : ∀ k o, (if k = fd then none else s.tab k) = some o → s.tab k = some o := by
    intro k o h
    split at h
    · cases h
    · exact h
  have hno : ∀ w k, (s.hand w).Has k → k ≠ fd := fun w k hc e => tab_own hs (.inr h) w (e ▸ hc)
  unfold FdSt.close
  rw [if_neg (by omega), Int.toNat_natCast]
  refine ⟨hs.hand, ⟨(hs.file fd).1 h, hs.proper⟩, fun k => ?_, fun k => ?_, fun v k => ?_, fun v k hi hk => ?_, fun v k hi hk => ?_,
    fun k p hk => hs.fresh k p (hk.imp (hsub _ _) (hsub _ _)), fun k l p hk hl => hs.one k l p (hsub _ _ hk) (hsub _ _ hl), fun k l p hk hl => hs.oneR k l p (hsub _ _ hk) (hsub _ _ hl)⟩
  · show (if k = fd then none else s.tab k) = none ↔ (if k = fd then none else openOwner s.tr k) = none
    split
    · simp
    · exact hs.tab k
  · show (if k = fd then none else s.tab k) = _ ↔ (if k = fd then none else openOwner s.tr k) = _
    split
    · simp
    · exact hs.file k
  · show (if k = fd then none else openOwner s.tr k) = _ ↔ (s.hand v).Has k
    split
    · rename_i e
      exact ⟨fun h => (by cases h), fun h => absurd e (hno v k h)⟩
    · exact hs.own v k
  · show (if k = fd then none else s.tab k) = _
    rw [if_neg (hno v k ⟨hi, .inl hk⟩)]
    exact hs.wr v k hi hk
  · show (if k = fd then none else s.tab k) = _
    rw [if_neg (hno v k ⟨hi, .inr hk⟩)]
    exact hs.rd v k hi hk

theorem FdOk.pipe {s : FdSt} (hs : FdOk false s) {w r i : Nat} (h : (s.hand w).pc = .made) (hr : s.tab r = none) (hi : s.tab i = none) (hn : r ≠ i) :
    FdOk false ((({ s with next := s.next + 1 }.open (some w) r (.rd s.next)).open (some w) i (.wr s.next)).put w { pc := .piped, inp := i, out := r, pipe := s.next }) := by
  have hmade := (hs.hand w).made h
  have hw : ∀ k, ¬ (s.hand w).Has k := fun k hc => by
    have := hc.2
    omega
  have hnor : ∀ v k, (s.hand v).Has k → k ≠ r := fun v k hc e => tab_own hs (.inl hr) v (e ▸ hc)
  have hnoi : ∀ v k, (s.hand v).Has k → k ≠ i := fun v k hc e => tab_own hs (.inl hi) v (e ▸ hc)
  have hsub : ∀ k o, (if k = i then some (FdObj.wr s.next) else if k = r then some (.rd s.next) else s.tab k) = some o →
      (k = i ∧ o = .wr s.next) ∨ (k = r ∧ o = .rd s.next) ∨ (k ≠ i ∧ k ≠ r ∧ s.tab k = some o) := by
    intro k o h
    split at h
    · cases h; exact .inl ⟨by assumption, rfl⟩
    · split at h
      · cases h; exact .inr (.inl ⟨by assumption, rfl⟩)
      · exact .inr (.inr ⟨by assumption, by assumption, h⟩)
  refine ⟨fun v => ?_, ⟨?_, (hs.tab r).1 hr, hs.proper⟩, fun k => ?_, fun k => ?_, fun v k => ?_, fun v k => ?_, fun v k => ?_, fun k p hk => ?_, fun k l p hk hl => ?_, fun k l p hk hl => ?_⟩
  · rw [fhand_put]
    split
    · exact ⟨.inl (by dsimp only; omega), .inl (by dsimp only; omega), fun _ h => by dsimp only at h ⊢; omega, fun h => (nomatch h), fun h => (nomatch h),
        fun _ _ => ⟨by dsimp only; omega, by dsimp only; omega⟩, fun h => (by rcases h with h | h <;> cases h)⟩
    · exact hs.hand v
  · show (if i = r then some (some w) else openOwner s.tr i) = none
    rw [if_neg hn.symm]
    exact (hs.tab i).1 hi
  · show (if k = i then some (FdObj.wr s.next) else if k = r then some (.rd s.next) else s.tab k) = none ↔ (if k = i then some (some w) else if k = r then some (some w) else openOwner s.tr k) = none
    split
    · simp
    · split
      · simp
      · exact hs.tab k
  · show (if k = i then some (FdObj.wr s.next) else if k = r then some (.rd s.next) else s.tab k) = _ ↔ (if k = i then some (some w) else if k = r then some (some w) else openOwner s.tr k) = _
    split
    · simp
    · split
      · simp
      · exact hs.file k
  · show (if k = i then some (some w) else if k = r then some (some w) else openOwner s.tr k) = _ ↔ _
    rw [fhand_put]
    by_cases hv : v = w
    · subst hv
      rw [if_pos rfl]
      split
      · rename_i e
        subst e
        exact ⟨fun _ => ⟨by simp, .inl rfl⟩, fun _ => rfl⟩
      · split
        · rename_i e
          subst e
          exact ⟨fun _ => ⟨by simp, .inr rfl⟩, fun _ => rfl⟩
        · refine ⟨fun h => absurd ((hs.own v k).1 h) (hw k), fun h => ?_⟩
          have := h.2
          dsimp only at this
          omega
    · rw [if_neg hv]
      split
      · rename_i e
        exact ⟨fun h => by cases h; exact absurd rfl hv, fun h => absurd e (hnoi v k h)⟩
      · split
        · rename_i e
          exact ⟨fun h => by cases h; exact absurd rfl hv, fun h => absurd e (hnor v k h)⟩
        · exact hs.own v k
  · rw [fhand_put]
    intro hp hk
    show (if k = i then some (FdObj.wr s.next) else if k = r then some (.rd s.next) else s.tab k) = _
    split at hk
    · rename_i e
      subst e
      dsimp only at hk
      rw [if_pos rfl, if_pos (by omega)]
    · rename_i e
      rw [if_neg e] at hp ⊢
      rw [if_neg (hnoi v k ⟨hp, .inl hk⟩), if_neg (hnor v k ⟨hp, .inl hk⟩)]
      exact hs.wr v k hp hk
  · rw [fhand_put]
    intro hp hk
    show (if k = i then some (FdObj.wr s.next) else if k = r then some (.rd s.next) else s.tab k) = _
    split at hk
    · rename_i e
      subst e
      dsimp only at hk
      rw [if_pos rfl, if_neg (by omega), if_pos (by omega)]
    · rename_i e
      rw [if_neg e] at hp ⊢
      rw [if_neg (hnoi v k ⟨hp, .inr hk⟩), if_neg (hnor v k ⟨hp, .inr hk⟩)]
      exact hs.rd v k hp hk
  · show p < s.next + 1
    have : ∀ o, o = FdObj.wr p ∨ o = .rd p → (if k = i then some (FdObj.wr s.next) else if k = r then some (.rd s.next) else s.tab k) = some o → p < s.next + 1 := by
      intro o ho h
      rcases hsub k o h with ⟨-, rfl⟩ | ⟨-, rfl⟩ | ⟨-, -, h⟩
      · rcases ho with h | h <;> cases h; exact Nat.lt_succ_self _
      · rcases ho with h | h <;> cases h; exact Nat.lt_succ_self _
      · rcases ho with rfl | rfl
        · exact Nat.lt_succ_of_lt (hs.fresh k p (.inl h))
        · exact Nat.lt_succ_of_lt (hs.fresh k p (.inr h))
    rcases hk with hk | hk
    · exact this _ (.inl rfl) hk
    · exact this _ (.inr rfl) hk
  · rcases hsub k _ hk with ⟨h1, e⟩ | ⟨-, e⟩ | ⟨-, -, h1⟩
    · cases e
      rcases hsub l _ hl with ⟨h2, -⟩ | ⟨-, e⟩ | ⟨-, -, h2⟩
      · rw [h1, h2]
      · cases e
      · exact absurd (hs.fresh l _ (.inl h2)) (Nat.lt_irrefl _)
    · cases e
    · rcases hsub l _ hl with ⟨-, e⟩ | ⟨-, e⟩ | ⟨-, -, h2⟩
      · cases e
        exact absurd (hs.fresh k _ (.inl h1)) (Nat.lt_irrefl _)
      · cases e
      · exact hs.one k l p h1 h2
  · rcases hsub k _ hk with ⟨-, e⟩ | ⟨h1, e⟩ | ⟨-, -, h1⟩
    · cases e
    · cases e
      rcases hsub l _ hl with ⟨-, e⟩ | ⟨h2, -⟩ | ⟨-, -, h2⟩
      · cases e
      · rw [h1, h2]
      · exact absurd (hs.fresh l _ (.inr h2)) (Nat.lt_irrefl _)
    · rcases hsub l _ hl with ⟨-, e⟩ | ⟨-, e⟩ | ⟨-, -, h2⟩
      · cases e
      · cases e
        exact absurd (hs.fresh k _ (.inr h1)) (Nat.lt_irrefl _)
      · exact hs.oneR k l p h1 h2

/-- A number that is not negative is one the worker has. -/
theorem has_inp {s : FdSt} {w : Nat} (h : (s.hand w).pc ≠ .idle) : (s.hand w).inp < 0 ∨ (s.hand w).Has (s.hand w).inp.toNat := by
  by_cases h0 : (s.hand w).inp < 0
  · exact .inl h0
  · exact .inr ⟨h, .inl (by omega)⟩

theorem has_out {s : FdSt} {w : Nat} (h : (s.hand w).pc ≠ .idle) : (s.hand w).out < 0 ∨ (s.hand w).Has (s.hand w).out.toNat := by
  by_cases h0 : (s.hand w).out < 0
  · exact .inl h0
  · exact .inr ⟨h, .inr (by omega)⟩

theorem fd_step {dbg : Bool} {a b : FdSt} (ha : FdOk dbg a) (hs : FdStep dbg a b) : FdOk dbg b := by
  cases hs with
  | otherOpen fd h => exact ha.otherOpen h
  | otherClose fd h => exact ha.otherClose h
  | create w h =>
    refine ha.move ⟨.inl (by simp), .inl (by simp), fun _ _ => rfl, fun _ => ⟨rfl, rfl⟩, fun _ _ => ⟨rfl, rfl⟩, fun _ h => (nomatch h), fun h => (by rcases h with h | h <;> cases h)⟩ rfl
      (fun k => ⟨fun hk => ?_, fun hk => absurd h hk.1⟩) (fun k _ hk => ?_) fun k _ hk => ?_
    · have := hk.2
      dsimp only at this
      omega
    · dsimp only at hk
      omega
    · dsimp only at hk
      omega
  | fail w h =>
    have hm := (ha.hand w).made h
    exact ha.move ⟨.inl (by simp [hm]), .inl (by simp [hm]), fun _ _ => hm.1, fun _ => hm, fun _ _ => hm, fun _ h => (nomatch h), fun _ => hm.1⟩ rfl
      (fun k => by simp [FdHand.Has, h]) (fun _ _ h => h) fun _ _ h => h
  | pipe w r i h hd hr hi hn =>
    subst hd
    exact ha.pipe h hr hi hn
  | noPipe w h hd =>
    have hm := (ha.hand w).made h
    subst hd
    exact ha.move ⟨.inl (by simp [hm]), .inl (by simp [hm]), fun _ _ => hm.1, fun _ => hm, fun _ _ => hm, fun h => (nomatch h), fun _ => hm.1⟩ rfl
      (fun k => by simp [FdHand.Has, h]) (fun _ _ h => h) fun _ _ h => h
  | spawn w h =>
    have hw := ha.hand w
    have hi : (a.hand w).pc ≠ .idle := by rw [h]; decide
    exact ha.move ⟨.inl (hw.inp.resolve_right hi), .inl (hw.out.resolve_right hi), fun _ => hw.ne hi, fun h => (nomatch h), fun hd _ => hw.bare hd hi, fun _ h => (nomatch h),
      fun h => (by rcases h with h | h <;> cases h)⟩ rfl (fun k => by simp [FdHand.Has, h]) (fun _ _ h => h) fun _ _ h => h
  | refuse w h =>
    have hw := ha.hand w
    have hi : (a.hand w).pc ≠ .idle := by rw [h]; decide
    exact ha.move ⟨.inl (hw.inp.resolve_right hi), .inl (hw.out.resolve_right hi), fun _ => hw.ne hi, fun h => (nomatch h), fun hd _ => hw.bare hd hi, fun _ h => (nomatch h),
      fun h => (by rcases h with h | h <;> cases h)⟩ rfl (fun k => by simp [FdHand.Has, h]) (fun _ _ h => h) fun _ _ h => h
  | closeOut w h =>
    have hw := ha.hand w
    have hi : (a.hand w).pc ≠ .idle := by rw [h]; decide
    have hne := hw.ne hi
    refine ha.drop (has_out hi) ⟨.inl (hw.inp.resolve_right hi), .inl (by simp), fun _ h => h, fun h => (nomatch h), fun hd _ => ⟨(hw.bare hd hi).1, rfl⟩, fun _ h => (nomatch h),
      fun h => (by rcases h with h | h <;> cases h)⟩ rfl (fun k => ⟨fun hk => ?_, fun hk => ?_⟩) (fun _ _ h => h) fun k _ hk => ?_
    · have := hk.2
      dsimp only at this
      exact ⟨⟨hi, by omega⟩, by omega⟩
    · refine ⟨by simp, ?_⟩
      have := hk.1.2
      have := hk.2
      dsimp only
      omega
    · dsimp only at hk
      omega
  | closeIn w h =>
    have hw := ha.hand w
    have hi : (a.hand w).pc ≠ .idle := by rw [h]; decide
    have hne := hw.ne hi
    split
    · rename_i hd
      have hb := hw.bare hd hi
      exact ha.move ⟨.inl (hw.inp.resolve_right hi), .inl (hw.out.resolve_right hi), fun _ => hne, fun h => (nomatch h), fun _ _ => hb, fun _ h => (nomatch h),
        fun _ => hb.1⟩ rfl (fun k => by simp [FdHand.Has, h]) (fun _ _ h => h) fun _ _ h => h
    · refine ha.drop (has_inp hi) ⟨.inl (by simp), .inl (hw.out.resolve_right hi), fun _ _ => rfl, fun h => (nomatch h), fun hd _ => ⟨rfl, (hw.bare hd hi).2⟩, fun _ h => (nomatch h),
        fun _ => rfl⟩ rfl (fun k => ⟨fun hk => ?_, fun hk => ?_⟩) (fun k _ hk => ?_) fun _ _ h => h
      · have := hk.2
        dsimp only at this
        exact ⟨⟨hi, by omega⟩, by omega⟩
      · refine ⟨by simp, ?_⟩
        have := hk.1.2
        have := hk.2
        dsimp only
        omega
      · dsimp only at hk
        omega
  | read w h hd =>
    have hi : (a.hand w).pc ≠ .idle := by rw [h]; decide
    unfold FdSt.read
    split
    · exact ha
    · rename_i h0
      have := (ha.own w _).2 ((has_out hi).resolve_left h0)
      exact ⟨ha.hand, ⟨this, ha.proper⟩, ha.tab, ha.file, ha.own, ha.wr, ha.rd, ha.fresh, ha.one, ha.oneR⟩
  | freeIn w h =>
    have hw := ha.hand w
    have hi : (a.hand w).pc ≠ .idle := by rw [h]; decide
    have hm := hw.ended (.inl h)
    refine ha.drop (has_inp hi) ⟨.inl (hw.inp.resolve_right hi), .inl (hw.out.resolve_right hi), fun _ => hw.ne hi, fun h => (nomatch h), fun hd _ => hw.bare hd hi, fun _ h => (nomatch h),
      fun _ => hm⟩ rfl (fun k => ⟨fun hk => ⟨⟨hi, hk.2⟩, by omega⟩, fun hk => ⟨by simp, hk.1.2⟩⟩) (fun _ _ h => h) fun _ _ h => h
  | freeOut w h =>
    have hw := ha.hand w
    have hi : (a.hand w).pc ≠ .idle := by rw [h]; decide
    have hm := hw.ended (.inr h)
    refine ha.drop (has_out hi) ⟨.inr rfl, .inr rfl, fun h => absurd rfl h, fun h => (nomatch h), fun _ h => absurd rfl h, fun _ h => (nomatch h),
      fun h => (by rcases h with h | h <;> cases h)⟩ rfl (fun k => ⟨fun hk => absurd rfl hk.1, fun hk => ?_⟩) (fun _ h => absurd rfl h) fun _ h => absurd rfl h
    have := hk.1.2
    have := hk.2
    omega

theorem fd_ok {dbg : Bool} {s : FdSt} (h : FdReach dbg s) : FdOk dbg s := by
  induction h with
  | init => exact fd_init dbg
  | step _ hs ih => exact fd_step ih hs

/-! ## C87 -/

/-- **C87**: whatever commands any number of workers run, however each of them goes and in whatever order things happen, everybody closes and reads only what they have opened and not
closed before. -/
theorem C87_proper {dbg : Bool} {s : FdSt} (h : FdReach dbg s) : Proper s.tr := (fd_ok h).proper

/-- And whenever a worker is between two commands, nothing that it has opened is open. -/
theorem C87_nothing_left {dbg : Bool} {s : FdSt} (h : FdReach dbg s) {w : Nat} (hw : (s.hand w).pc = .idle) (fd : Nat) : openOwner s.tr fd ≠ some (some w) :=
  fun ho => (((fd_ok h).own w fd).1 ho).1 hw

/-- What a child has open, in terms of what bob has open. -/
theorem child_tab {s : FdSt} (h : FdReach false s) {w : Nat} (hw : (s.hand w).pc = .piped) : ∃ i r : Nat, (s.hand w).inp = i ∧ (s.hand w).out = r ∧ i ≠ r ∧
    childTab false s.tab (s.hand w).inp (s.hand w).out = some fun k => if k = 1 ∨ k = 2 then some (.wr (s.hand w).pipe) else if k = r then none else s.tab k := by
  have hs := fd_ok h
  have hh := hs.hand w
  have hi : (s.hand w).pc ≠ .idle := by rw [hw]; decide
  have hp := hh.piped rfl hw
  have h1 := hh.inp.resolve_right hi
  have h2 := hh.out.resolve_right hi
  have hne := hh.ne hi
  obtain ⟨i, ei⟩ : ∃ n : Nat, (s.hand w).inp = n := ⟨(s.hand w).inp.toNat, by omega⟩
  obtain ⟨r, er⟩ : ∃ n : Nat, (s.hand w).out = n := ⟨(s.hand w).out.toNat, by omega⟩
  have hir : i ≠ r := by omega
  have ht := hs.wr w i hi ei
  refine ⟨i, r, ei, er, hir, ?_⟩
  have hc : childClose s.tab (s.hand w).out = fun k => if k = r then none else s.tab k := by
    funext k
    unfold childClose
    rw [er]
    by_cases hk : k = r
    · rw [if_pos (by omega), if_pos hk]
    · rw [if_neg (by omega), if_neg hk]
  unfold childTab
  rw [hc, ei]
  simp only [childDup2, Int.toNat_natCast, if_neg (show ¬ (i : Int) < 0 by omega), if_neg hir, ht, Option.map_some, Option.bind_eq_bind, Option.bind_some, Bool.false_eq_true, if_false]
  by_cases h1 : i = 1
  · simp only [h1, if_true, Option.map_some, Option.some.injEq]
    funext k
    by_cases k2 : k = 2 <;> by_cases k1 : k = 1 <;> simp [k1, k2]
  · simp only [if_neg h1, Option.map_some, Option.some.injEq]
    funext k
    by_cases k2 : k = 2 <;> by_cases k1 : k = 1 <;> simp [k1, k2]

/-- **C87** for the child: unless bob is debugging, what it is started with as standard output and standard error is the end of the pipe that is written to whose other end bob reads, and
the child does not have that other end open itself. -/
theorem C87_child {s : FdSt} (h : FdReach false s) {w : Nat} (hw : (s.hand w).pc = .piped) : ∃ t r p, childTab false s.tab (s.hand w).inp (s.hand w).out = some t ∧
    t 1 = some (.wr p) ∧ t 2 = some (.wr p) ∧ (s.hand w).out = (r : Nat) ∧ s.tab r = some (.rd p) ∧ ∀ k, t k ≠ some (.rd p) := by
  have hs := fd_ok h
  have hi : (s.hand w).pc ≠ .idle := by rw [hw]; decide
  obtain ⟨i, r, ei, er, hir, ht⟩ := child_tab h hw
  have hr := hs.rd w r hi er
  refine ⟨_, r, _, ht, rfl, rfl, er, hr, fun k hk => ?_⟩
  split at hk
  · cases hk
  · split at hk
    · cases hk
    · rename_i hne
      exact hne (hs.oneR k r _ hk hr)

/-- The pipes a child can write to are its own and those of workers that have made a pipe and not closed their end yet, as in the model of C86. -/
theorem C87_inherits_only {s : FdSt} (h : FdReach false s) {w : Nat} (hw : (s.hand w).pc = .piped) {t : Nat → Option FdObj}
    (ht : childTab false s.tab (s.hand w).inp (s.hand w).out = some t) {k p : Nat} (hk : t k = some (.wr p)) :
    ∃ v, (s.hand v).pipe = p ∧ ((s.hand v).pc = .piped ∨ (s.hand v).pc = .refused ∨ (s.hand v).pc = .spawned) := by
  have hs := fd_ok h
  obtain ⟨i, r, ei, er, hir, ht'⟩ := child_tab h hw
  cases ht'.symm.trans ht
  dsimp only at hk
  split at hk
  · cases hk
    exact ⟨w, rfl, .inl hw⟩
  · split at hk
    · cases hk
    · cases ho : openOwner s.tr k with
      | none => rw [(hs.tab k).2 ho] at hk; cases hk
      | some who =>
        cases who with
        | none => rw [(hs.file k).2 ho] at hk; cases hk
        | some v =>
          obtain ⟨hv, hk'⟩ := (hs.own v k).1 ho
          rcases hk' with hk' | hk'
          · have := hs.wr v k hv hk'
            rw [hk] at this
            refine ⟨v, by cases this; rfl, ?_⟩
            cases hpc : (s.hand v).pc with
            | idle => exact absurd hpc hv
            | made => have := (hs.hand v).made hpc; omega
            | piped => exact .inl rfl
            | refused => exact .inr (.inl rfl)
            | spawned => exact .inr (.inr rfl)
            | ended => have := (hs.hand v).ended (.inl hpc); omega
            | freed => have := (hs.hand v).ended (.inr hpc); omega
          · have := hs.rd v k hv hk'
            rw [hk] at this
            cases this

/-- And it does have the pipes of other workers, if their descriptors are not those of standard output or standard error. -/
theorem C87_inherits {s : FdSt} (h : FdReach false s) {w v : Nat} (hw : (s.hand w).pc = .piped) (hv : (s.hand v).pc ≠ .idle) (hvw : v ≠ w) {k : Nat} (hk : (s.hand v).inp = k)
    (h1 : k ≠ 1) (h2 : k ≠ 2) : ∃ t, childTab false s.tab (s.hand w).inp (s.hand w).out = some t ∧ t k = some (.wr (s.hand v).pipe) := by
  have hs := fd_ok h
  obtain ⟨i, r, ei, er, hir, ht⟩ := child_tab h hw
  have hi : (s.hand w).pc ≠ .idle := by rw [hw]; decide
  refine ⟨_, ht, ?_⟩
  rw [if_neg (by omega), if_neg ?_]
  · exact hs.wr v k hv hk
  · rintro rfl
    have ha := (hs.own v k).2 ⟨hv, .inl hk⟩
    have hb := (hs.own w k).2 ⟨hi, .inr er⟩
    cases ha.symm.trans hb
    exact hvw rfl

/-! ## A case -/

/-- Two workers at once, one that has run a command and one that has a pipe with the same numbers, with the usual files open. -/
example : ∃ s, FdReach false s ∧ (s.hand 0).pc = .idle ∧ (s.hand 1).pc = .piped ∧ (s.hand 1).inp = 4 ∧
    s.tr = [.opened (some 1) 4, .opened (some 1) 3, .closed (some 0) 3, .read (some 0) 3, .closed (some 0) 4, .opened (some 0) 4, .opened (some 0) 3, .opened none 2, .opened none 1, .opened none 0] := by
  have h1 := FdReach.init (dbg := false).step (.otherOpen 0 rfl)
  have h2 := h1.step (.otherOpen 1 rfl)
  have h3 := h2.step (.otherOpen 2 rfl)
  have h4 := h3.step (.create 0 rfl)
  have h5 := h4.step (.pipe 0 3 4 rfl rfl rfl rfl (by decide))
  have h6 := h5.step (.create 1 rfl)
  have h7 := h6.step (.spawn 0 rfl)
  have h8 := h7.step (.closeIn 0 rfl)
  have h9 := h8.step (.read 0 rfl rfl)
  have h10 := h9.step (.freeIn 0 rfl)
  have h11 := h10.step (.freeOut 0 rfl)
  have h12 := h11.step (.pipe 1 3 4 rfl rfl rfl rfl (by decide))
  exact ⟨_, h12, rfl, rfl, rfl, rfl⟩

end Bob
