import Verif.Props.LinksBeside
/-!
# C127: installing again, with symbolic links
-/

namespace Bob

open LTree

namespace LTree

theorem Grown.some {t t' : LTree} (h : Grown t t') {p : Path} (e : t p ≠ none) : t' p ≠ none := by
  cases hp : t p with
  | none => exact (e hp).elim
  | some n =>
    cases n with
    | dir m => obtain ⟨m', hm⟩ := h.dirs _ _ hp; simp [hm]
    | link l m => obtain ⟨m', hm⟩ := h.links _ _ _ hp; simp [hm]
    | file c m => simp [h.files _ _ _ hp]

/-- What was made is there. -/
theorem mkdir_there {t t' : LTree} {d : LDeny} {cwd : Path} {now : Nat} {s : Bytes} (h : t.mkdir d cwd now s = some t') : ∃ p, t'.resolve false cwd s = .ok p ∧ t' p ≠ none := by
  have hg := mkdir_grown h
  unfold mkdir at h
  split at h
  · cases h
  · rename_i p hp
    refine ⟨p, resolve_alike hg.toAlike hp, ?_⟩
    split at h
    · rename_i hn
      cases h
      simp [hn]
    · split at h
      · cases h
      · cases h
        exact (touch_grown _ _ _).some (by rw [set_self]; simp)

/-- Directories that were made are not made again. -/
theorem mkdirs_again {d : LDeny} {cwd : Path} {now now' : Nat} {t1 t' : LTree} (hr : ∀ s q, t1.resolve false cwd s = .ok q → t'.resolve false cwd s = .ok q) (hn : ∀ q, t1 q ≠ none → t' q ≠ none) :
    ∀ (bits : List Bytes) (accum : Bytes) (t : LTree), lmkdirs d cwd now bits accum t = (t1, true) → lmkdirs d cwd now' bits accum t' = (t', true)
  | [], _, t, _ => rfl
  | bit :: bits, accum, t, h => by
    rw [lmkdirs] at h ⊢
    split at h
    · cases h
    · rename_i t2 h2
      obtain ⟨p, hp, hp'⟩ := mkdir_there h2
      have hg : Grown t2 t1 := by have := lmkdirs_grown (d := d) (cwd := cwd) (now := now) bits (accum ++ b!"/" ++ bit) t2; rw [h] at this; exact this
      have h3 : t'.mkdir d cwd now' (accum ++ b!"/" ++ bit) = some t' := by
        have hx := hn p (hg.some hp')
        unfold mkdir
        rw [hr _ _ (resolve_alike hg.toAlike hp)]
        cases hy : t' p with
        | none => exact (hx hy).elim
        | some _ => simp only [hy]
      rw [h3]
      exact mkdirs_again hr hn bits _ t2 h

end LTree

/-- What was asked before an entry was copied. -/
theorem linstallSingle_copied' {e : LInstEnv} {key val : Bytes} {b : Bool} {now : Nat} {t t' : LTree} (h : linstallSingle e key val b now t = .copied t') :
    ∃ src n t1, t.stat true e.cwd (cstr key) = .ok (src, n) ∧ isCookie e.absOut (pathStr src) = b ∧ lmkdirs e.deny e.cwd now (destBits (cstr val)) e.pre t = (t1, true) ∧
      lcopy e.deny t1 e.cwd (cstr key) (e.pre ++ b!"/" ++ cstr val) now = (t', true) := by
  unfold linstallSingle at h
  dsimp only at h
  split at h
  · cases h
  · rename_i src n hst
    split at h
    · cases h
    · split at h
      · cases h
      · rename_i hb
        split at h
        · cases h
        · rename_i t1 h1
          refine ⟨src, n, t1, hst, by simpa using hb, h1, ?_⟩
          split at h
          · cases h
          · cases h
          · split at h
            · rename_i h2
              cases h
              exact h2
            · cases h

/-- The second time, when nothing has to be done. -/
theorem already_of {e : LInstEnv} {key val : Bytes} {b : Bool} {now' m m' : Nat} {t' : LTree} {src q : Path} {n n' : LNode} (hst : t'.stat true e.cwd (cstr key) = .ok (src, n))
    (hb : isCookie e.absOut (pathStr src) = b) (hm : lmkdirs e.deny e.cwd now' (destBits (cstr val)) e.pre t' = (t', true))
    (hd : t'.stat true e.cwd (e.pre ++ b!"/" ++ cstr val) = .ok (q, n')) (h1 : n.mtime = m) (h2 : n'.mtime = m') (hle : m ≤ m') : linstallSingle e key val b now' t' = .already t' := by
  unfold linstallSingle
  dsimp only
  rw [hst]
  dsimp only
  rw [hb, if_neg (by cases b <;> simp), if_neg (by simp), hm]
  dsimp only
  have : frugalMtime (t'.statRes e.cwd) [cstr key] (e.pre ++ b!"/" ++ cstr val) = some false := by
    unfold frugalMtime LTree.statRes
    rw [hd]
    simp [mtimeLoop, hst, h1, h2, hle]
  rw [this]

/-- `cp` of a file removes nothing. -/
theorem lcpFile_keeps {t t' : LTree} {c : Bytes} {own p : Path} {th : Except LErr Path} {now : Nat} (h : lcpFile t c own p th now = some t') (q : Path) (hq : t q ≠ none) : t' q ≠ none := by
  have hset : ∀ r, (t.set r (.file c now)) q ≠ none := by
    intro r
    unfold LTree.set
    split
    · simp
    · exact hq
  unfold lcpFile at h
  split at h
  · cases h; exact (touch_grown _ _ _).some (hset _)
  · cases h
  · split at h
    · cases h
    · cases h; exact hset _
  · split at h
    · cases h
    · split at h
      · split at h
        · cases h
        · cases h; exact hset _
      · cases h

/-- A file that is not newer than the time of the copy is not copied again. -/
theorem C127_file_partial {e : LInstEnv} {key val c : Bytes} {b : Bool} {now now' m0 : Nat} {own : Path} {t t' : LTree} (h : linstallSingle e key val b now t = .copied t')
    (hk : t.stat false e.cwd (cstr key) = .ok (own, .file c m0)) (hm : m0 ≤ now) (hd : ¬ t'.LeadsToDir e.cwd (e.pre ++ b!"/" ++ cstr val)) :
    linstallSingle e key val b now' t' = .already t' := by
  obtain ⟨src, n, t1, hst, hb, hmk, hc⟩ := linstallSingle_copied' h
  have hg : Grown t t1 := by have := lmkdirs_grown (d := e.deny) (cwd := e.cwd) (now := now) (destBits (cstr val)) e.pre t; rw [hmk] at this; exact this
  obtain ⟨hka, hkb⟩ := stat_ok.1 hk
  have hk2 : t.stat true e.cwd (cstr key) = .ok (own, .file c m0) := stat_ok.2 ⟨resolve_end hka (by simp [hkb]), hkb⟩
  rw [hk2] at hst
  cases hst
  obtain ⟨real, n, own', l, p, h1, h2, h3, h4⟩ := lcopy_true hc
  rw [hg.stat_file hk2] at h1
  cases h1
  rw [hg.stat_file hk] at h2
  cases h2
  have h5 := (stat_ok.1 (hg.stat_file hk)).2
  obtain ⟨ha, w, hw, hwc, hwp, hrest⟩ := lcpFile_some h4 (by simp [h5])
  have hnd : ∀ q m, t1.stat true e.cwd (e.pre ++ b!"/" ++ cstr val) ≠ .ok (q, .dir m) := by
    intro q m hq
    obtain ⟨hqa, hqb⟩ := stat_ok.1 hq
    obtain ⟨m', hm'⟩ := ha.dirs _ _ hqb
    exact hd ⟨q, m', stat_ok.2 ⟨resolve_alike ha hqa, hm'⟩⟩
  rw [cpPlace_not_dir hnd] at hwp
  have hdst : t'.stat true e.cwd (e.pre ++ b!"/" ++ cstr val) = .ok (w, .file c now) := by
    refine stat_ok.2 ⟨?_, hwc⟩
    rcases hwp with ⟨hwp, hnl⟩ | hwp
    · subst hwp
      exact resolve_alike ha (resolve_end h3 hnl)
    · exact resolve_alike ha hwp
  have hkey : t'.stat true e.cwd (cstr key) = .ok (own, .file c m0) :=
    stat_ok.2 ⟨resolve_alike ha (stat_ok.1 (hg.stat_file hk2)).1, hrest _ _ _ hw.symm h5⟩
  exact already_of hkey hb (mkdirs_again (fun s q hq => resolve_alike ha hq) (lcpFile_keeps h4) _ _ _ hmk) hdst rfl rfl hm

/-- A link is not copied again exactly if the installed link leads to something, and that is not older than what the key leads to. -/
theorem C127_link {e : LInstEnv} {key val target c : Bytes} {b : Bool} {now now' : Nat} {src : Path} {n : LNode} {t t' t1 : LTree} (h : linstallSingle e key val b now t = .copied t')
    (hr : t.Reads e.cwd (cstr key) c) (hk : ∃ d, t.IsLink e.cwd (cstr key) target d) (ht1 : t1 = (lmkdirs e.deny e.cwd now (destBits (cstr val)) e.pre t).1)
    (hd : ¬ t1.LeadsToDir e.cwd (e.pre ++ b!"/" ++ cstr val)) (ho : ∀ l d, t1.IsLink e.cwd (e.pre ++ b!"/" ++ cstr val) l d → l = target)
    (hsame : t'.stat true e.cwd (cstr key) = .ok (src, n)) (hp : e.absOut <+: pathStr src ↔ b = true) :
    linstallSingle e key val b now' t' = .already t' ↔ ∃ q n', t'.stat true e.cwd (e.pre ++ b!"/" ++ cstr val) = .ok (q, n') ∧ n.mtime ≤ n'.mtime := by
  constructor
  · intro h2
    obtain ⟨q, n', hq⟩ := C125_already h2
    refine ⟨q, n', hq, ?_⟩
    unfold linstallSingle at h2
    dsimp only at h2
    rw [hsame] at h2
    dsimp only at h2
    split at h2
    · cases h2
    · split at h2
      · cases h2
      · split at h2
        · cases h2
        · split at h2
          · cases h2
          · rename_i hf
            cases h2
            unfold frugalMtime LTree.statRes at hf
            rw [hq] at hf
            dsimp only [mtimeLoop] at hf
            rw [hsame] at hf
            dsimp only at hf
            split at hf
            · cases hf
            · omega
          · split at h2 <;> cases h2
  · rintro ⟨q, n', hq, hle⟩
    refine already_of hsame ?_ ?_ hq rfl rfl hle
    · unfold isCookie
      cases b with
      | true => exact List.isPrefixOf_iff_prefix.2 (hp.2 rfl)
      | false =>
        rw [Bool.eq_false_iff]
        intro hx
        exact absurd (hp.1 (List.isPrefixOf_iff_prefix.1 hx)) (by simp)
    · obtain ⟨src0, n0, t2, hst, hb, hmk, hc⟩ := linstallSingle_copied' h
      have : t1 = t2 := by rw [ht1, hmk]
      subst this
      obtain ⟨-, -, -, -, hres, hkeep⟩ := link_copied h hr hk ht1 hd ho
      exact mkdirs_again hres hkeep _ _ _ hmk

/-- Where a link leads nowhere, a file is never installed: nothing is written through it, and it is not replaced. -/
theorem C125_nowhere {e : LInstEnv} {key val c target : Bytes} {b : Bool} {now : Nat} {d : Path} {t t1 : LTree} (hk : t.IsFile e.cwd (cstr key) c)
    (ht1 : t1 = (lmkdirs e.deny e.cwd now (destBits (cstr val)) e.pre t).1) (hl : t1.IsLink e.cwd (e.pre ++ b!"/" ++ cstr val) target d)
    (hn : ∀ q n, t1.stat true e.cwd (e.pre ++ b!"/" ++ cstr val) ≠ .ok (q, n)) : ∀ t', linstallSingle e key val b now t ≠ .copied t' ∧ linstallSingle e key val b now t ≠ .already t' := by
  refine fun t' => ⟨fun h => ?_, fun h => ?_⟩
  · obtain ⟨t2, ht2, hc⟩ := linstallSingle_copied h
    rw [← ht1] at ht2
    subst ht2
    have hg : Grown t t2 := ht1 ▸ lmkdirs_grown _ _ _
    obtain ⟨real, n, own, l, p, h1, h2, h3, h4⟩ := lcopy_true hc
    obtain ⟨p0, m0, hk0⟩ := hk
    have hk1 := hg.stat_file hk0
    rw [hk1] at h2
    obtain ⟨rfl, rfl⟩ := Prod.mk.inj (Except.ok.inj h2)
    obtain ⟨hka, hkb⟩ := stat_ok.1 hk1
    have hk2 : t2.stat true e.cwd (cstr key) = .ok (p0, .file c m0) := stat_ok.2 ⟨resolve_end hka (by simp [hkb]), hkb⟩
    rw [hk2] at h1
    obtain ⟨rfl, rfl⟩ := Prod.mk.inj (Except.ok.inj h1)
    have h5 : lcpFile t2 c p0 (cpPlace t2 e.cwd p0 (e.pre ++ b!"/" ++ cstr val) p).1 (cpPlace t2 e.cwd p0 (e.pre ++ b!"/" ++ cstr val) p).2 now = some t' := h4
    rw [cpPlace_not_dir fun q m => hn q _] at h5
    obtain ⟨q, m, hq, -⟩ := hl
    obtain ⟨hqa, hqb⟩ := stat_ok.1 hq
    rw [h3] at hqa
    cases hqa
    unfold lcpFile at h5
    dsimp only at h5
    rw [hqb] at h5
    dsimp only at h5
    split at h5
    · cases h5
    · rename_i w hw
      split at h5
      · rename_i hf
        exact hn _ _ (stat_ok.2 ⟨hw, hf⟩)
      · cases h5
  · have ht : t' = t1 := by
      unfold linstallSingle at h
      dsimp only at h
      split at h
      · cases h
      · split at h
        · cases h
        · split at h
          · cases h
          · split at h
            · cases h
            · rename_i t2 h2
              split at h
              · cases h
              · cases h
                rw [ht1, h2]
              · split at h <;> cases h
    obtain ⟨q, n, hq⟩ := C125_already h
    exact hn q n (ht ▸ hq)

end Bob
