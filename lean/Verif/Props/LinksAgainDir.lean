import Verif.Props.LinksAgain
/-!
# C127: directories
-/

namespace Bob

open LTree

namespace LTree

/-- Directories and links are the same in both trees, but for their times; there may be new links, in new directories. -/
structure Below (t t' : LTree) : Prop where
  dirs : ∀ p m, t p = some (.dir m) → ∃ m', t' p = some (.dir m')
  links : ∀ p l m, t p = some (.link l m) → ∃ m', t' p = some (.link l m')
  links' : ∀ d c l m m', t d = some (.dir m) → t' (d ++ [c]) = some (.link l m') → ∃ m', t (d ++ [c]) = some (.link l m')

/-- What is found is found in trees with more in them, below what was not there. -/
theorem walkTo_below {t t' : LTree} (h : Below t t') {f : Bool} {k k' : Path → List Bytes → Except LErr Path} (hk : ∀ c cs p, k c cs = .ok p → k' c cs = .ok p) :
    ∀ (cs : List Bytes) (cur p : Path), walkTo t f k cur cs = .ok p → walkTo t' f k' cur cs = .ok p
  | [], cur, p, e => e
  | c :: cs, cur, p, e => by
    rw [walkTo] at e ⊢
    cases ht : t cur with
    | none => rw [ht] at e; cases e
    | some n =>
      cases n with
      | file _ _ => rw [ht] at e; cases e
      | link _ _ => rw [ht] at e; cases e
      | dir m =>
        obtain ⟨m', ht'⟩ := h.dirs _ _ ht
        rw [ht] at e
        rw [ht']
        simp only at e ⊢
        by_cases h1 : c = [] ∨ c = b!"."
        · rw [if_pos h1] at e ⊢; exact walkTo_below h hk cs cur p e
        rw [if_neg h1] at e ⊢
        by_cases h2 : c = b!".."
        · rw [if_pos h2] at e ⊢; exact walkTo_below h hk cs _ p e
        rw [if_neg h2] at e ⊢
        have hnl : (∀ l m, t (cur ++ [c]) ≠ some (.link l m)) → walkTo t f k (cur ++ [c]) cs = .ok p →
            (match t' (cur ++ [c]) with
              | some (.link target _) => if cs = [] ∧ f = false then Except.ok (cur ++ [c]) else k' (start cur target) (strsepAll SLASH target ++ cs)
              | _ => walkTo t' f k' (cur ++ [c]) cs : Except LErr Path) = .ok p := by
          intro hn e
          cases ht2 : t' (cur ++ [c]) with
          | none => exact walkTo_below h hk cs _ p e
          | some n' =>
            cases n' with
            | link l m => obtain ⟨m', hm⟩ := h.links' _ _ _ _ _ ht ht2; exact (hn _ _ hm).elim
            | file _ _ => exact walkTo_below h hk cs _ p e
            | dir _ => exact walkTo_below h hk cs _ p e
        cases ht1 : t (cur ++ [c]) with
        | none => rw [ht1] at e; exact hnl (by simp [ht1]) e
        | some n1 =>
          cases n1 with
          | file _ _ => rw [ht1] at e; exact hnl (by simp [ht1]) e
          | dir _ => rw [ht1] at e; exact hnl (by simp [ht1]) e
          | link l m =>
            obtain ⟨m', hm⟩ := h.links _ _ _ ht1
            rw [ht1] at e
            rw [hm]
            simp only at e ⊢
            by_cases h3 : cs = [] ∧ f = false
            · rw [if_pos h3] at e ⊢; exact e
            · rw [if_neg h3] at e ⊢; exact hk _ _ _ e

theorem walk_below {t t' : LTree} (h : Below t t') {f : Bool} : ∀ (n : Nat) (cur : Path) (cs : List Bytes) (p : Path), walk t f n cur cs = .ok p → walk t' f n cur cs = .ok p
  | 0, cur, cs, p, e => walkTo_below h (fun _ _ _ e => e) cs cur p e
  | n + 1, cur, cs, p, e => walkTo_below h (walk_below h n) cs cur p e

theorem resolve_below {t t' : LTree} (h : Below t t') {f : Bool} {cwd p : Path} {s : Bytes} (e : t.resolve f cwd s = .ok p) : t'.resolve f cwd s = .ok p := by
  cases s with
  | nil => cases e
  | cons c s => exact walk_below h _ _ _ _ e

/-- Where nothing is, there is nothing below. -/
theorem Sound.below {t : LTree} (hs : Sound t) {p : Path} (h : t p = none) (r : Path) : t (p ++ r) = none := by
  induction r generalizing p with
  | nil => rw [List.append_nil, h]
  | cons x r ih =>
    rw [List.append_cons]
    refine ih ?_
    cases hx : t (p ++ [x]) with
    | none => rfl
    | some n =>
      obtain ⟨m, hm⟩ := hs.parent _ _ hx
      rw [List.dropLast_concat, h] at hm
      cases hm

theorem touch_time {t : LTree} {p q : Path} {now m : Nat} (h : t p = some (.dir m)) : ∃ m', (t.touch q now) p = some (.dir m') ∧ (m' = m ∨ m' = now) := by
  unfold touch
  split
  · exact ⟨now, by simp [h], .inr rfl⟩
  · exact ⟨m, h, .inl rfl⟩

/-- Making directories gives others no time but that. -/
theorem mkdirs_time {d : LDeny} {cwd : Path} {now : Nat} {q : Path} : ∀ (bits : List Bytes) (accum : Bytes) (t : LTree) (m : Nat), t q = some (.dir m) →
    ∃ m', (lmkdirs d cwd now bits accum t).1 q = some (.dir m') ∧ (m' = m ∨ m' = now)
  | [], _, t, m, h => ⟨m, h, .inl rfl⟩
  | bit :: bits, accum, t, m, h => by
    unfold lmkdirs
    split
    · exact ⟨m, h, .inl rfl⟩
    · rename_i t' h1
      have : ∃ m1, t' q = some (.dir m1) ∧ (m1 = m ∨ m1 = now) := by
        unfold mkdir at h1
        split at h1
        · cases h1
        · rename_i p hp
          split at h1
          · cases h1; exact ⟨m, h, .inl rfl⟩
          · rename_i hn
            split at h1
            · cases h1
            · cases h1
              refine touch_time ?_
              rw [set_ne (by rintro rfl; rw [hn] at h; cases h), h]
      obtain ⟨m1, hm1, hm2⟩ := this
      obtain ⟨m2, hm3, hm4⟩ := mkdirs_time bits (accum ++ b!"/" ++ bit) t' m1 hm1
      exact ⟨m2, hm3, by omega⟩

end LTree

/-- A directory, or what leads to one, is not copied again, if there was nothing at the destination and the directory is not newer than the copy. -/
theorem C127_directory_partial {e : LInstEnv} {key val : Bytes} {b : Bool} {now now' m0 : Nat} {real : Path} {t t' t1 : LTree} (h : linstallSingle e key val b now t = .copied t')
    (hk : t.stat true e.cwd (cstr key) = .ok (real, .dir m0)) (hm : m0 ≤ now) (ht1 : t1 = (lmkdirs e.deny e.cwd now (destBits (cstr val)) e.pre t).1)
    (hd : ∀ q n, t1.stat false e.cwd (e.pre ++ b!"/" ++ cstr val) ≠ .ok (q, n)) (hs : Sound t) (hc : ∃ m, t e.cwd = some (.dir m)) :
    linstallSingle e key val b now' t' = .already t' := by
  obtain ⟨src, n, t2, hst, hb, hmk, hcp⟩ := linstallSingle_copied' h
  have : t1 = t2 := by rw [ht1, hmk]
  subst this
  rw [hk] at hst
  cases hst
  have hg : Grown t t1 := ht1 ▸ lmkdirs_grown _ _ _
  have hs1 : Sound t1 := ht1 ▸ sound_mkdirs _ _ _ hs hc
  obtain ⟨hka, hkb⟩ := stat_ok.1 hk
  obtain ⟨m1, hm1, hm1'⟩ := mkdirs_time (d := e.deny) (cwd := e.cwd) (now := now) (destBits (cstr val)) e.pre t m0 hkb
  rw [← ht1] at hm1
  obtain ⟨real', n', own, l, p, h1, h2, h3, h4⟩ := lcopy_true hcp
  rw [stat_ok.2 ⟨resolve_alike hg.toAlike hka, hm1⟩] at h1
  obtain ⟨rfl, rfl⟩ := Prod.mk.inj (Except.ok.inj h1)
  have h5 : lcpDir t1 real p now = some t' := h4
  have hpn : t1 p = none := by
    cases hp : t1 p with
    | none => rfl
    | some x => exact (hd _ _ (stat_ok.2 ⟨h3, hp⟩)).elim
  unfold lcpDir at h5
  split at h5
  · cases h5
  · rename_i hn
    simp only [not_or] at hn
    have hno : ∀ q, p <+: q → t1 q = none := by rintro _ ⟨r, rfl⟩; exact hs1.below hpn r
    have hp : p ≠ [] := by rintro rfl; exact hn.2 (List.nil_prefix)
    have hpd : p ≠ p.dropLast := by
      intro hx
      have := congrArg List.length hx
      have hpos : 0 < p.length := List.length_pos_iff.2 hp
      rw [List.length_dropLast] at this
      omega
    have hrd : real ≠ p.dropLast := by rintro rfl; exact hn.1 (List.dropLast_prefix p)
    have hout : ∀ q, q ≠ p.dropLast → ¬ p <+: q → t' q = t1 q := by
      intro q h6 h7
      cases h5
      unfold touch
      rw [if_neg h6]
      dsimp only
      rw [if_neg h7]
    have hpar : ∀ q, q = p.dropLast → t' q = (t1 q).map fun n => match n with | .dir _ => .dir now | n => n := by
      intro q h6
      have h7 : ¬ p <+: q := by
        intro hx
        have := hx.length_le
        have hpos : 0 < p.length := List.length_pos_iff.2 hp
        rw [h6, List.length_dropLast] at this
        omega
      cases h5
      unfold touch
      rw [if_pos h6]
      dsimp only
      rw [if_neg h7]
      rfl
    have hpt : t' p = some (.dir now) := by
      cases h5
      unfold touch
      rw [if_neg hpd]
      dsimp only
      rw [if_pos (List.prefix_refl p), List.drop_length, List.append_nil, hm1]
      rfl
    have hbl : Below t1 t' := by
      refine ⟨fun q m hq => ?_, fun q l m hq => ?_, fun d c l m m' hdm hl => ?_⟩
      · by_cases h6 : q = p.dropLast
        · exact ⟨now, by rw [hpar q h6, hq]; rfl⟩
        · exact ⟨m, by rw [hout q h6 (fun hx => by rw [hno q hx] at hq; cases hq), hq]⟩
      · by_cases h6 : q = p.dropLast
        · exact ⟨m, by rw [hpar q h6, hq]; rfl⟩
        · exact ⟨m, by rw [hout q h6 (fun hx => by rw [hno q hx] at hq; cases hq), hq]⟩
      · by_cases h6 : d ++ [c] = p.dropLast
        · rw [hpar _ h6] at hl
          cases hx : t1 (d ++ [c]) with
          | none => rw [hx] at hl; cases hl
          | some y =>
            rw [hx] at hl
            cases y with
            | dir _ => cases hl
            | file _ _ => cases hl
            | link l2 m2 => cases hl; exact ⟨_, rfl⟩
        · by_cases h7 : p <+: d ++ [c]
          · rcases List.prefix_concat_iff.1 h7 with h8 | h8
            · rw [← h8, hpt] at hl
              cases hl
            · rw [hno d h8] at hdm
              cases hdm
          · rw [hout _ h6 h7] at hl
            exact ⟨_, hl⟩
    have hkeep : ∀ q, t1 q ≠ none → t' q ≠ none := by
      intro q hq
      by_cases h6 : q = p.dropLast
      · rw [hpar q h6]
        simpa using hq
      · rw [hout q h6 fun hx => hq (hno q hx)]
        exact hq
    have hkey : t'.stat true e.cwd (cstr key) = .ok (real, .dir m1) :=
      stat_ok.2 ⟨resolve_below hbl (resolve_alike hg.toAlike hka), by rw [hout _ hrd hn.2, hm1]⟩
    have hdst : t'.stat true e.cwd (e.pre ++ b!"/" ++ cstr val) = .ok (p, .dir now) := stat_ok.2 ⟨resolve_end (resolve_below hbl h3) (by simp [hpt]), hpt⟩
    exact already_of hkey hb (mkdirs_again (fun s q hq => resolve_below hbl hq) hkeep _ _ _ hmk) hdst rfl rfl (show m1 ≤ now by omega)

end Bob
