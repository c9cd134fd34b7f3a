import Verif.Model.LinksAll
import Verif.Spec.LinksAll
import Verif.Props.LinksAgain
import Verif.Lemmas.Install
/-!
# C128: where installing writes, with symbolic links
-/

namespace Bob

open LTree

theorem strsepAll_sep (sep : UInt8) (z : Bytes) : ∀ x : Bytes, strsepAll sep (x ++ sep :: z) = strsepAll sep x ++ strsepAll sep z
  | [] => by
    show (if sep = sep then [] :: strsepAll sep z else _) = _
    rw [if_pos rfl]
    rfl
  | c :: cs => by
    rw [List.cons_append, strsepAll, strsepAll, strsepAll_sep sep z cs]
    split
    · rfl
    · cases h : strsepAll sep cs with
      | nil => exact (strsepAll_ne_nil sep cs h).elim
      | cons f fs => rfl

namespace LTree

/-- Without links and `..` one does not leave a directory. -/
theorem walkTo_stays {t : LTree} {P : Path} (hn : NoLinks t P) {f : Bool} {k : Path → List Bytes → Except LErr Path} :
    ∀ (cs : List Bytes) (cur q : Path), (∀ c ∈ cs, c ≠ b!"..") → P <+: cur → walkTo t f k cur cs = .ok q → P <+: q
  | [], cur, q, _, hp, e => by
    rw [walkTo] at e
    cases e
    exact hp
  | c :: cs, cur, q, hd, hp, e => by
    rw [walkTo] at e
    split at e
    · cases e
    · have hd' : ∀ x ∈ cs, x ≠ b!".." := fun x hx => hd x (List.mem_cons_of_mem _ hx)
      split at e
      · exact walkTo_stays hn cs cur q hd' hp e
      · rw [if_neg (hd c List.mem_cons_self)] at e
        have hp' : P <+: cur ++ [c] := hp.trans (List.prefix_append _ _)
        split at e
        · rename_i l m hl
          exact (hn _ _ _ hp' hl).elim
        · exact walkTo_stays hn cs _ q hd' hp' e
    · cases e

/-- What is found through a directory in which there are no links is in that directory. -/
theorem walkTo_through {t : LTree} {P : Path} (hn : NoLinks t P) {f : Bool} {ds : List Bytes} (hd : ∀ c ∈ ds, c ≠ b!"..") (hne : ds ≠ []) {k k' : Path → List Bytes → Except LErr Path}
    (hk : ∀ c cs q, k c (cs ++ ds) = .ok q → k' c cs = .ok P → P <+: q) :
    ∀ (cs : List Bytes) (cur q : Path), walkTo t f k cur (cs ++ ds) = .ok q → walkTo t true k' cur cs = .ok P → P <+: q
  | [], cur, q, e, e' => by
    rw [walkTo] at e'
    cases e'
    exact walkTo_stays hn ds _ q hd (List.prefix_refl _) e
  | c :: cs, cur, q, e, e' => by
    rw [List.cons_append, walkTo] at e
    rw [walkTo] at e'
    split at e
    · cases e
    · rename_i m hm
      rw [hm] at e'
      simp only at e'
      by_cases h1 : c = [] ∨ c = b!"."
      · rw [if_pos h1] at e e'
        exact walkTo_through hn hd hne hk cs cur q e e'
      rw [if_neg h1] at e e'
      by_cases h2 : c = b!".."
      · rw [if_pos h2] at e e'
        exact walkTo_through hn hd hne hk cs _ q e e'
      rw [if_neg h2] at e e'
      cases hx : t (cur ++ [c]) with
      | none =>
        rw [hx] at e e'
        exact walkTo_through hn hd hne hk cs _ q e e'
      | some x =>
        rw [hx] at e e'
        cases x with
        | file _ _ => exact walkTo_through hn hd hne hk cs _ q e e'
        | dir _ => exact walkTo_through hn hd hne hk cs _ q e e'
        | link l m =>
          simp only at e e'
          rw [if_neg (by simp [hne])] at e
          rw [if_neg (by simp)] at e'
          exact hk _ (strsepAll SLASH l ++ cs) q (by rw [List.append_assoc]; exact e) e'
    · cases e

theorem walk_through {t : LTree} {P : Path} (hn : NoLinks t P) {f : Bool} {ds : List Bytes} (hd : ∀ c ∈ ds, c ≠ b!"..") (hne : ds ≠ []) :
    ∀ (n : Nat) (cur : Path) (cs : List Bytes) (q : Path), walk t f n cur (cs ++ ds) = .ok q → walk t true n cur cs = .ok P → P <+: q
  | 0, cur, cs, q, e, e' => walkTo_through hn hd hne (fun _ _ _ e => by cases e) cs cur q e e'
  | n + 1, cur, cs, q, e, e' => walkTo_through hn hd hne (fun c cs q e e' => walk_through hn hd hne n c cs q e e') cs cur q e e'

theorem resolve_through {t : LTree} {P : Path} (hn : NoLinks t P) {f : Bool} {cwd q : Path} {s r : Bytes} (hd : ∀ c ∈ strsepAll SLASH r, c ≠ b!"..") (hP : t.resolve true cwd s = .ok P)
    (e : t.resolve f cwd (s ++ b!"/" ++ r) = .ok q) : P <+: q := by
  cases s with
  | nil => cases hP
  | cons c s =>
    refine walk_through hn (f := f) hd (strsepAll_ne_nil _ _) 40 _ (strsepAll SLASH (c :: s)) q ?_ hP
    rw [← strsepAll_sep]
    rw [List.append_assoc] at e
    exact e

theorem SameOutside.rfl' (t : LTree) (P : Path) : SameOutside t t P := fun _ _ => .inl rfl

theorem SameOutside.trans {t t' t'' : LTree} {P : Path} (h : SameOutside t t' P) (h' : SameOutside t' t'' P) : SameOutside t t'' P := by
  intro q hq
  rcases h q hq with h1 | ⟨m, m', h1, h2⟩
  · rcases h' q hq with h3 | ⟨m, m', h3, h4⟩
    · exact .inl (h3.trans h1)
    · exact .inr ⟨m, m', h1 ▸ h3, h4⟩
  · rcases h' q hq with h3 | ⟨m1, m2, h3, h4⟩
    · exact .inr ⟨m, m', h1, h3.trans h2⟩
    · exact .inr ⟨m, m2, h1, h4⟩

theorem outside_touch (t : LTree) (P p : Path) (now : Nat) : SameOutside t (t.touch p now) P := by
  intro q _
  unfold touch
  split
  · cases h : t q with
    | none => exact .inl rfl
    | some n =>
      cases n with
      | dir m => exact .inr ⟨m, now, rfl, rfl⟩
      | file _ _ => exact .inl rfl
      | link _ _ => exact .inl rfl
  · exact .inl rfl

theorem outside_set (t : LTree) {P p : Path} (h : P <+: p) (n : LNode) : SameOutside t (t.set p n) P := by
  intro q hq
  left
  rw [set_ne]
  rintro rfl
  exact hq h

theorem NoLinks.alike {t t' : LTree} {P : Path} (h : NoLinks t P) (ha : Alike t t') : NoLinks t' P := by
  intro q l m hq hl
  obtain ⟨m', hm⟩ := ha.links' _ _ _ hl
  exact h _ _ _ hq hm

/-- Directories are made below the prefix. -/
theorem mkdirs_outside {d : LDeny} {cwd P : Path} {now : Nat} {pre : Bytes} : ∀ (bits : List Bytes) (accum : Bytes) (t : LTree), (∀ b ∈ bits, SLASH ∉ b ∧ b ≠ b!"..") →
    (∀ b, SLASH ∉ b → b ≠ b!".." → ∃ r, accum ++ b!"/" ++ b = pre ++ b!"/" ++ r ∧ ∀ c ∈ strsepAll SLASH r, c ≠ b!"..") → NoLinks t P → t.resolve true cwd pre = .ok P →
    SameOutside t (lmkdirs d cwd now bits accum t).1 P
  | [], _, t, _, _, _, _ => SameOutside.rfl' t P
  | bit :: bits, accum, t, hb, ha, hn, hP => by
    unfold lmkdirs
    split
    · exact SameOutside.rfl' t P
    · rename_i t' h
      have hg := mkdir_grown h
      obtain ⟨hb1, hb2⟩ := hb bit List.mem_cons_self
      obtain ⟨r, hr, hr2⟩ := ha bit hb1 hb2
      refine SameOutside.trans ?_ (mkdirs_outside bits _ t' (fun b h => hb b (List.mem_cons_of_mem _ h)) (fun b h1 h2 => ?_) (hn.alike hg.toAlike) (resolve_alike hg.toAlike hP))
      · rw [hr] at h
        unfold mkdir at h
        split at h
        · cases h
        · rename_i p hp
          split at h
          · cases h; exact SameOutside.rfl' t P
          · split at h
            · cases h
            · cases h
              exact (outside_set t (resolve_through hn hr2 hP hp) _).trans (outside_touch _ _ _ _)
      · refine ⟨r ++ b!"/" ++ b, by rw [hr]; simp only [List.append_assoc], fun c hc => ?_⟩
        rw [List.append_assoc, show b!"/" ++ b = SLASH :: b from rfl, strsepAll_sep, strsepAll_field _ _ h1] at hc
        rcases List.mem_append.1 hc with hc | hc
        · exact hr2 c hc
        · rw [List.mem_singleton.1 hc]; exact h2

end LTree

theorem linstallSingle_already {e : LInstEnv} {key val : Bytes} {b : Bool} {now : Nat} {t t' : LTree} (h : linstallSingle e key val b now t = .already t') :
    t' = (lmkdirs e.deny e.cwd now (destBits (cstr val)) e.pre t).1 := by
  unfold linstallSingle at h
  dsimp only at h
  split at h
  · cases h
  · split at h
    · cases h
    · split at h
      · cases h
      · split at h
        · cases h
        · rename_i t2 h2
          split at h
          · cases h
          · cases h
            rw [h2]
          · split at h <;> cases h

/-- An entry is installed below the prefix, if there are no links there. -/
theorem C128_below_entry {e : LInstEnv} {key val last : Bytes} {vs : List Bytes} {b : Bool} {now m : Nat} {P : Path} {t t' : LTree} (hv : cstr val = joinP (vs ++ [last]))
    (hp : ∀ c ∈ vs ++ [last], Plain c) (hP : t.stat true e.cwd e.pre = .ok (P, .dir m)) (hn : NoLinks t P)
    (h : linstallSingle e key val b now t = .copied t' ∨ linstallSingle e key val b now t = .already t') : SameOutside t t' P := by
  have hPr := (stat_ok.1 hP).1
  have hbits : ∀ b ∈ destBits (cstr val), SLASH ∉ b ∧ b ≠ b!".." := by
    rw [hv]
    have hl : Plain last := hp _ (by simp)
    by_cases hvs : vs = []
    · subst hvs
      rw [destBits_single hl]
      decide
    · rw [destBits_join hvs (fun c hc => hp c (by simp [hc])) hl]
      exact fun b hb => ⟨(hp b (by simp [hb])).2.2.2.1, (hp b (by simp [hb])).2.2.1⟩
  have hdd : ∀ c ∈ strsepAll SLASH (cstr val), c ≠ b!".." := by
    rw [hv, strsepAll_joinP (by simp) hp]
    exact fun c hc => (hp c hc).2.2.1
  have hmk := mkdirs_outside (d := e.deny) (cwd := e.cwd) (now := now) (pre := e.pre) (destBits (cstr val)) e.pre t hbits
    (fun b h1 h2 => ⟨b, rfl, fun c hc => by rw [strsepAll_field _ _ h1] at hc; rw [List.mem_singleton.1 hc]; exact h2⟩) hn hPr
  rcases h with h | h
  · obtain ⟨t1, ht1, hc⟩ := linstallSingle_copied h
    rw [← ht1] at hmk
    have hg : Grown t t1 := ht1 ▸ lmkdirs_grown _ _ _
    have hn1 := hn.alike hg.toAlike
    have hP1 := resolve_alike hg.toAlike hPr
    refine hmk.trans ?_
    obtain ⟨real, n, own, l, p, h1, h2, h3, h4⟩ := lcopy_true hc
    have hpp := resolve_through hn1 hdd hP1 h3
    have hplace : P <+: (cpPlace t1 e.cwd own (e.pre ++ b!"/" ++ cstr val) p).1 := by
      unfold cpPlace
      split
      · rename_i q m hq
        exact (resolve_through hn1 hdd hP1 (stat_ok.1 hq).1).trans (List.prefix_append _ _)
      · exact hpp
    have hfile : ∀ c th, lcpFile t1 c own (cpPlace t1 e.cwd own (e.pre ++ b!"/" ++ cstr val) p).1 th now = some t' → SameOutside t1 t' P := by
      intro c th h5
      unfold lcpFile at h5
      split at h5
      · cases h5
        exact (outside_set t1 hplace _).trans (outside_touch _ _ _ _)
      · cases h5
      · split at h5
        · cases h5
        · cases h5
          exact outside_set t1 hplace _
      · rename_i hl
        exact (hn1 _ _ _ hplace hl).elim
    have hlink : ∀ target, lcpLink t1 target own (cpPlace t1 e.cwd own (e.pre ++ b!"/" ++ cstr val) p).1 now = some t' → SameOutside t1 t' P := by
      intro target h5
      unfold lcpLink at h5
      split at h5
      · cases h5
      · split at h5
        · cases h5
        · cases h5
          exact (outside_set t1 hplace _).trans (outside_touch _ _ _ _)
    have hdir : lcpDir t1 real p now = some t' → SameOutside t1 t' P := by
      intro h5
      unfold lcpDir at h5
      split at h5
      · cases h5
      · cases h5
        refine SameOutside.trans (fun q hq => .inl ?_) (outside_touch _ _ _ _)
        exact if_neg fun hx => hq (hpp.trans hx)
    cases n with
    | dir m => exact hdir h4
    | link l2 m2 =>
      cases l with
      | link target m3 => exact hlink _ h4
      | dir _ => cases h4
      | file _ _ => cases h4
    | file c m2 =>
      cases l with
      | link target m3 => exact hlink _ h4
      | dir _ => exact hfile _ _ h4
      | file _ _ => exact hfile _ _ h4
  · rw [linstallSingle_already h]
    exact hmk

/-- Copying a file makes no links, and leaves files what they are, if perhaps with other contents. -/
theorem file_copied {e : LInstEnv} {key val c : Bytes} {b : Bool} {now : Nat} {t t' : LTree} (h : linstallSingle e key val b now t = .copied t') (hk : t.IsFile e.cwd (cstr key) c) :
    Alike t t' ∧ (∀ q c m, t q = some (.file c m) → ∃ c' m', t' q = some (.file c' m')) ∧ Alike (lmkdirs e.deny e.cwd now (destBits (cstr val)) e.pre t).1 t' := by
  obtain ⟨t1, ht1, hc⟩ := linstallSingle_copied h
  have hg : Grown t t1 := ht1 ▸ lmkdirs_grown _ _ _
  obtain ⟨real, n, own, l, p, h1, h2, h3, h4⟩ := lcopy_true hc
  obtain ⟨p0, m0, hk0⟩ := hk
  have hk1 := hg.stat_file hk0
  rw [hk1] at h2
  cases h2
  obtain ⟨hka, hkb⟩ := stat_ok.1 hk1
  rw [stat_ok.2 ⟨resolve_end hka (by simp [hkb]), hkb⟩] at h1
  cases h1
  obtain ⟨ha, w, hw, hwc, hwp, hrest⟩ := lcpFile_some h4 (by simp [hkb])
  refine ⟨hg.toAlike.trans ha, fun q c' m hq => ?_, ht1 ▸ ha⟩
  by_cases hqw : q = w
  · exact ⟨c, now, hqw ▸ hwc⟩
  · exact ⟨c', m, hrest _ _ _ hqw (hg.files _ _ _ hq)⟩

/-- **C128**, partial: if all keys are files and there are no links below the prefix, then nothing is made or changed outside of it. -/
theorem C128_below_partial {e : LInstEnv} {P : Path} : ∀ (l : List ((Bytes × Bytes) × Nat)) (t t' : LTree),
    (∀ x ∈ l, ∃ vs last, cstr x.1.2 = joinP (vs ++ [last]) ∧ ∀ c ∈ vs ++ [last], Plain c) → (∀ x ∈ l, ∃ c, t.IsFile e.cwd (cstr x.1.1) c) → (∃ m, t.stat true e.cwd e.pre = .ok (P, .dir m)) →
    NoLinks t P → linstallAll e l t = .ok t' → SameOutside t t' P
  | [], t, t', _, _, _, _, h => by
    cases h
    exact SameOutside.rfl' t P
  | ((key, val), now) :: l, t, t', hv, hk, hP, hn, h => by
    obtain ⟨vs, last, hv1, hv2⟩ := hv _ List.mem_cons_self
    obtain ⟨c, hk1⟩ := hk _ List.mem_cons_self
    obtain ⟨m, hP1⟩ := hP
    have hv' : ∀ x ∈ l, ∃ vs last, cstr x.1.2 = joinP (vs ++ [last]) ∧ ∀ c ∈ vs ++ [last], Plain c := fun x hx => hv x (List.mem_cons_of_mem _ hx)
    have hk' : ∀ x ∈ l, ∃ c, t.IsFile e.cwd (cstr x.1.1) c := fun x hx => hk x (List.mem_cons_of_mem _ hx)
    have go : ∀ t2, Alike t t2 → (∀ q c m, t q = some (.file c m) → ∃ c' m', t2 q = some (.file c' m')) → SameOutside t t2 P → linstallAll e l t2 = .ok t' → SameOutside t t' P := by
      intro t2 ha hf ho h2
      refine ho.trans (C128_below_partial l t2 t' hv' (fun x hx => ?_) ?_ (hn.alike ha) h2)
      · obtain ⟨c, p, m, hp⟩ := hk' x hx
        obtain ⟨hpa, hpb⟩ := stat_ok.1 hp
        obtain ⟨c', m', hc⟩ := hf _ _ _ hpb
        exact ⟨c', p, m', stat_ok.2 ⟨resolve_alike ha hpa, hc⟩⟩
      · obtain ⟨hpa, hpb⟩ := stat_ok.1 hP1
        obtain ⟨m', hm⟩ := ha.dirs _ _ hpb
        exact ⟨m', stat_ok.2 ⟨resolve_alike ha hpa, hm⟩⟩
    unfold linstallAll at h
    split at h
    · cases h
    · cases h
    · exact C128_below_partial l t t' hv' hk' ⟨m, hP1⟩ hn h
    · rename_i t2 h2
      have hg : Grown t t2 := by rw [linstallSingle_already h2]; exact lmkdirs_grown _ _ _
      exact go t2 hg.toAlike (fun q c m hq => ⟨c, m, hg.files _ _ _ hq⟩) (C128_below_entry hv1 hv2 hP1 hn (.inr h2)) h
    · rename_i t2 h2
      obtain ⟨ha, hf, -⟩ := file_copied h2 hk1
      exact go t2 ha hf (C128_below_entry hv1 hv2 hP1 hn (.inl h2)) h

/-- An entry is written only where its destination leads to: files elsewhere stay as they are. -/
theorem C128_entry {e : LInstEnv} {key val c : Bytes} {b : Bool} {now m : Nat} {q : Path} {t t' : LTree} (h : linstallSingle e key val b now t = .copied t' ∨ linstallSingle e key val b now t = .already t')
    (hq : t q = some (.file c m)) (hw : ¬ Written (lmkdirs e.deny e.cwd now (destBits (cstr val)) e.pre t).1 e.cwd (cstr key) (e.pre ++ b!"/" ++ cstr val) q) : t' q = some (.file c m) := by
  rcases h with h | h
  · obtain ⟨t1, ht1, hc⟩ := linstallSingle_copied h
    rw [← ht1] at hw
    have hg : Grown t t1 := ht1 ▸ lmkdirs_grown _ _ _
    have hq1 := hg.files _ _ _ hq
    obtain ⟨real, n, own, l, p, h1, h2, h3, h4⟩ := lcopy_true hc
    have hp1 : q ≠ (cpPlace t1 e.cwd own (e.pre ++ b!"/" ++ cstr val) p).1 := by
      intro hx
      unfold cpPlace at hx
      split at hx
      · rename_i d m hd
        exact hw (.inside d own m l hd h2 (.inl hx))
      · subst hx
        exact hw (.itself h3)
    have hp2 : (cpPlace t1 e.cwd own (e.pre ++ b!"/" ++ cstr val) p).2 ≠ .ok q := by
      intro hx
      unfold cpPlace at hx
      split at hx
      · rename_i d m hd
        exact hw (.inside d own m l hd h2 (.inr hx))
      · exact hw (.through hx)
    have hfile : ∀ c, lcpFile t1 c own (cpPlace t1 e.cwd own (e.pre ++ b!"/" ++ cstr val) p).1 (cpPlace t1 e.cwd own (e.pre ++ b!"/" ++ cstr val) p).2 now = some t' → t' q = t1 q := by
      intro c0 h5
      rw [hq1]
      obtain ⟨-, w, -, -, hwp, hrest⟩ := lcpFile_some h5 (by rw [(stat_ok.1 h2).2]; simp)
      refine hrest _ _ _ ?_ hq1
      rintro rfl
      rcases hwp with ⟨hx, -⟩ | hx
      · exact hp1 hx
      · exact hp2 hx
    have hlink : ∀ target, lcpLink t1 target own (cpPlace t1 e.cwd own (e.pre ++ b!"/" ++ cstr val) p).1 now = some t' → t' q = t1 q := by
      intro target h5
      unfold lcpLink at h5
      split at h5
      · cases h5
      · split at h5
        · cases h5
        · cases h5
          rw [hq1]
          exact touch_file.2 (by rw [set_ne hp1, hq1])
    rw [← hq1]
    cases n with
    | dir m =>
      have h5 : lcpDir t1 real p now = some t' := h4
      unfold lcpDir at h5
      split at h5
      · cases h5
      · cases h5
        rw [hq1]
        refine touch_file.2 ?_
        rw [if_neg fun hx => hw (.below p ⟨real, m, h1⟩ h3 hx), hq1]
    | link l2 m2 =>
      cases l with
      | link target m3 => exact hlink _ h4
      | dir _ => cases h4
      | file _ _ => cases h4
    | file c m2 =>
      cases l with
      | link target m3 => exact hlink _ h4
      | dir _ => exact hfile _ h4
      | file _ _ => exact hfile _ h4
  · rw [linstallSingle_already h]
    exact (lmkdirs_grown _ _ _).files _ _ _ hq

/-- **C128**: if a file is not what it was after all entries were installed, then one of them was copied and its destination led to that file when it was its turn, its directories made. -/
theorem C128_written {e : LInstEnv} {q : Path} {c : Bytes} {m : Nat} : ∀ (l : List ((Bytes × Bytes) × Nat)) (t t' : LTree), linstallAll e l t = .ok t' → t q = some (.file c m) →
    t' q = some (.file c m) ∨ ∃ before key val now after t0 t1, l = before ++ ((key, val), now) :: after ∧ linstallAll e before t = .ok t0 ∧
      linstallSingle e key val false now t0 = .copied t1 ∧ linstallAll e after t1 = .ok t' ∧
      Written (lmkdirs e.deny e.cwd now (destBits (cstr val)) e.pre t0).1 e.cwd (cstr key) (e.pre ++ b!"/" ++ cstr val) q
  | [], t, t', h, hq => by
    cases h
    exact .inl hq
  | ((key, val), now) :: l, t, t', h, hq => by
    have go : ∀ t2, (∀ x, linstallAll e (((key, val), now) :: x) t = linstallAll e x t2) → t2 q = some (.file c m) → t' q = some (.file c m) ∨
        ∃ before key1 val1 now1 after t0 t1, ((key, val), now) :: l = before ++ ((key1, val1), now1) :: after ∧ linstallAll e before t = .ok t0 ∧
        linstallSingle e key1 val1 false now1 t0 = .copied t1 ∧ linstallAll e after t1 = .ok t' ∧
        Written (lmkdirs e.deny e.cwd now1 (destBits (cstr val1)) e.pre t0).1 e.cwd (cstr key1) (e.pre ++ b!"/" ++ cstr val1) q := by
      intro t2 hx hq2
      rcases C128_written l t2 t' (hx l ▸ h) hq2 with h3 | ⟨before, key', val', now', after, t0, t1, rfl, h4, h5⟩
      · exact .inl h3
      · exact .inr ⟨((key, val), now) :: before, key', val', now', after, t0, t1, rfl, by rw [hx, h4], h5⟩
    cases hs : linstallSingle e key val false now t with
    | failed t2 => rw [linstallAll, hs] at h; cases h
    | abort => rw [linstallAll, hs] at h; cases h
    | product => exact go t (fun x => by rw [linstallAll, hs]) hq
    | already t2 => exact go t2 (fun x => by rw [linstallAll, hs]) (by rw [linstallSingle_already hs]; exact (lmkdirs_grown _ _ _).files _ _ _ hq)
    | copied t2 =>
      by_cases hw : Written (lmkdirs e.deny e.cwd now (destBits (cstr val)) e.pre t).1 e.cwd (cstr key) (e.pre ++ b!"/" ++ cstr val) q
      · rw [linstallAll, hs] at h
        exact .inr ⟨[], key, val, now, l, t, t2, rfl, rfl, hs, h, hw⟩
      · exact go t2 (fun x => by rw [linstallAll, hs]) (C128_entry (.inl hs) hq hw)

end Bob
