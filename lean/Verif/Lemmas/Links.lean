import Verif.Model.Links
/-!
# Following paths through links
-/

namespace Bob.LTree

/-- Directories and links are the same in both trees, but for their times. -/
structure Alike (t t' : LTree) : Prop where
  dirs : ∀ p m, t p = some (.dir m) → ∃ m', t' p = some (.dir m')
  links : ∀ p l m, t p = some (.link l m) → ∃ m', t' p = some (.link l m')
  /-- there are no new links -/
  links' : ∀ p l m, t' p = some (.link l m) → ∃ m', t p = some (.link l m')

theorem Alike.rfl' (t : LTree) : Alike t t := ⟨fun _ m h => ⟨m, h⟩, fun _ _ m h => ⟨m, h⟩, fun _ _ m h => ⟨m, h⟩⟩

theorem Alike.trans {t t' t'' : LTree} (h : Alike t t') (h' : Alike t' t'') : Alike t t'' where
  dirs p m e := by obtain ⟨m1, e1⟩ := h.dirs p m e; exact h'.dirs p m1 e1
  links p l m e := by obtain ⟨m1, e1⟩ := h.links p l m e; exact h'.links p l m1 e1
  links' p l m e := by obtain ⟨m1, e1⟩ := h'.links' p l m e; exact h.links' p l m1 e1

/-- What is found is found in trees with more in them. -/
theorem walkTo_alike {t t' : LTree} (h : Alike t t') {f : Bool} {k k' : Path → List Bytes → Except LErr Path} (hk : ∀ c cs p, k c cs = .ok p → k' c cs = .ok p) :
    ∀ (cs : List Bytes) (cur p : Path), walkTo t f k cur cs = .ok p → walkTo t' f k' cur cs = .ok p
  | [], cur, p, e => e
  | c :: cs, cur, p, e => by
    rw [walkTo] at e ⊢
    cases ht : t cur with
    | none => rw [ht] at e; cases e
    | some n =>
      cases n with
      | file _ _ => rw [ht] at e; cases e
      | link _ _ => rw [ht] at e; cases e
      | dir m =>
        obtain ⟨m', ht'⟩ := h.dirs _ _ ht
        rw [ht] at e
        rw [ht']
        simp only at e ⊢
        by_cases h1 : c = [] ∨ c = b!"."
        · rw [if_pos h1] at e ⊢; exact walkTo_alike h hk cs cur p e
        rw [if_neg h1] at e ⊢
        by_cases h2 : c = b!".."
        · rw [if_pos h2] at e ⊢; exact walkTo_alike h hk cs _ p e
        rw [if_neg h2] at e ⊢
        have hnl : (∀ l m, t (cur ++ [c]) ≠ some (.link l m)) → walkTo t f k (cur ++ [c]) cs = .ok p →
            (match t' (cur ++ [c]) with
              | some (.link target _) => if cs = [] ∧ f = false then Except.ok (cur ++ [c]) else k' (start cur target) (strsepAll SLASH target ++ cs)
              | _ => walkTo t' f k' (cur ++ [c]) cs : Except LErr Path) = .ok p := by
          intro hn e
          cases ht2 : t' (cur ++ [c]) with
          | none => exact walkTo_alike h hk cs _ p e
          | some n' =>
            cases n' with
            | link l m => obtain ⟨m', hm⟩ := h.links' _ _ _ ht2; exact (hn _ _ hm).elim
            | file _ _ => exact walkTo_alike h hk cs _ p e
            | dir _ => exact walkTo_alike h hk cs _ p e
        cases ht1 : t (cur ++ [c]) with
        | none => rw [ht1] at e; exact hnl (by simp [ht1]) e
        | some n1 =>
          cases n1 with
          | file _ _ => rw [ht1] at e; exact hnl (by simp [ht1]) e
          | dir _ => rw [ht1] at e; exact hnl (by simp [ht1]) e
          | link l m =>
            obtain ⟨m', hm⟩ := h.links _ _ _ ht1
            rw [ht1] at e
            rw [hm]
            simp only at e ⊢
            by_cases h3 : cs = [] ∧ f = false
            · rw [if_pos h3] at e ⊢; exact e
            · rw [if_neg h3] at e ⊢; exact hk _ _ _ e

theorem walk_alike {t t' : LTree} (h : Alike t t') {f : Bool} : ∀ (n : Nat) (cur : Path) (cs : List Bytes) (p : Path), walk t f n cur cs = .ok p → walk t' f n cur cs = .ok p
  | 0, cur, cs, p, e => walkTo_alike h (fun _ _ _ e => e) cs cur p e
  | n + 1, cur, cs, p, e => walkTo_alike h (walk_alike h n) cs cur p e

theorem resolve_alike {t t' : LTree} (h : Alike t t') {f : Bool} {cwd p : Path} {s : Bytes} (e : t.resolve f cwd s = .ok p) : t'.resolve f cwd s = .ok p := by
  cases s with
  | nil => cases e
  | cons c s => exact walk_alike h _ _ _ _ e

/-- More links may be followed. -/
theorem walk_more {t : LTree} {f : Bool} : ∀ {n m : Nat}, n ≤ m → ∀ (cur : Path) (cs : List Bytes) (p : Path), walk t f n cur cs = .ok p → walk t f m cur cs = .ok p
  | 0, 0, _, _, _, _, e => e
  | 0, m + 1, _, cur, cs, p, e => walkTo_alike (Alike.rfl' t) (fun _ _ _ e => by cases e) cs cur p e
  | n + 1, m + 1, h, cur, cs, p, e => walkTo_alike (Alike.rfl' t) (walk_more (Nat.le_of_succ_le_succ h)) cs cur p e

/-- If there is no link at the end, then following it is no different. -/
theorem walkTo_end {t : LTree} {k k' : Path → List Bytes → Except LErr Path}
    (hk : ∀ c cs p, k c cs = .ok p → (∀ l m, t p ≠ some (.link l m)) → k' c cs = .ok p) :
    ∀ (cs : List Bytes) (cur p : Path), walkTo t false k cur cs = .ok p → (∀ l m, t p ≠ some (.link l m)) → walkTo t true k' cur cs = .ok p
  | [], cur, p, e, _ => e
  | c :: cs, cur, p, e, hl => by
    rw [walkTo] at e ⊢
    cases ht : t cur with
    | none => rw [ht] at e; cases e
    | some n =>
      cases n with
      | file _ _ => rw [ht] at e; cases e
      | link _ _ => rw [ht] at e; cases e
      | dir m =>
        rw [ht] at e
        simp only at e ⊢
        by_cases h1 : c = [] ∨ c = b!"."
        · rw [if_pos h1] at e ⊢; exact walkTo_end hk cs cur p e hl
        rw [if_neg h1] at e ⊢
        by_cases h2 : c = b!".."
        · rw [if_pos h2] at e ⊢; exact walkTo_end hk cs _ p e hl
        rw [if_neg h2] at e ⊢
        cases ht1 : t (cur ++ [c]) with
        | none => rw [ht1] at e; exact walkTo_end hk cs _ p e hl
        | some n1 =>
          cases n1 with
          | file _ _ => rw [ht1] at e; exact walkTo_end hk cs _ p e hl
          | dir _ => rw [ht1] at e; exact walkTo_end hk cs _ p e hl
          | link l m =>
            rw [ht1] at e
            simp only [and_true, Bool.true_eq_false, and_false, if_false] at e ⊢
            by_cases h3 : cs = []
            · rw [if_pos h3] at e
              cases e
              exact (hl _ _ ht1).elim
            · rw [if_neg h3] at e
              exact hk _ _ _ e hl

theorem walk_end {t : LTree} : ∀ (n : Nat) (cur : Path) (cs : List Bytes) (p : Path), walk t false n cur cs = .ok p → (∀ l m, t p ≠ some (.link l m)) → walk t true n cur cs = .ok p
  | 0, cur, cs, p, e, h => walkTo_end (fun _ _ _ e => by cases e) cs cur p e h
  | n + 1, cur, cs, p, e, h => walkTo_end (walk_end n) cs cur p e h

theorem resolve_end {t : LTree} {cwd p : Path} {s : Bytes} (e : t.resolve false cwd s = .ok p) (h : ∀ l m, t p ≠ some (.link l m)) : t.resolve true cwd s = .ok p := by
  cases s with
  | nil => cases e
  | cons c s => exact walk_end _ _ _ _ e h

/-- Everything is in a directory, and the root is one. -/
structure Sound (t : LTree) : Prop where
  root : ∃ m, t [] = some (.dir m)
  parent : ∀ p n, t p = some n → ∃ m, t p.dropLast = some (.dir m)

/-- If there is one, then following it is going on with its target, from the directory it is in. -/
theorem walkTo_link {t : LTree} (hs : Sound t) {l : Bytes} {mt : Nat} {p : Path} (hp : t p = some (.link l mt)) {k k' : Path → List Bytes → Except LErr Path} {R : Except LErr Path → Prop}
    (hR : R (k' (start p.dropLast l) (strsepAll SLASH l))) (hk : ∀ c cs, (∀ l m, t c ≠ some (.link l m)) → k c cs = .ok p → R (k' c cs)) :
    ∀ (cs : List Bytes) (cur : Path), (∀ l m, t cur ≠ some (.link l m)) → walkTo t false k cur cs = .ok p → R (walkTo t true k' cur cs)
  | [], cur, hc, e => by cases e; exact (hc _ _ hp).elim
  | c :: cs, cur, hc, e => by
    rw [walkTo] at e ⊢
    cases ht : t cur with
    | none => rw [ht] at e; cases e
    | some n =>
      cases n with
      | file _ _ => rw [ht] at e; cases e
      | link _ _ => rw [ht] at e; cases e
      | dir m =>
        rw [ht] at e
        simp only at e ⊢
        by_cases h1 : c = [] ∨ c = b!"."
        · rw [if_pos h1] at e ⊢; exact walkTo_link hs hp hR hk cs cur hc e
        rw [if_neg h1] at e ⊢
        by_cases h2 : c = b!".."
        · rw [if_pos h2] at e ⊢
          obtain ⟨m', hm⟩ := hs.parent _ _ ht
          exact walkTo_link hs hp hR hk cs _ (by simp [hm]) e
        rw [if_neg h2] at e ⊢
        cases ht1 : t (cur ++ [c]) with
        | none => rw [ht1] at e; exact walkTo_link hs hp hR hk cs _ (by simp [ht1]) e
        | some n1 =>
          cases n1 with
          | file _ _ => rw [ht1] at e; exact walkTo_link hs hp hR hk cs _ (by simp [ht1]) e
          | dir _ => rw [ht1] at e; exact walkTo_link hs hp hR hk cs _ (by simp [ht1]) e
          | link l' m' =>
            rw [ht1] at e
            simp only [and_true, Bool.true_eq_false, and_false, if_false] at e ⊢
            by_cases h3 : cs = []
            · rw [if_pos h3] at e
              cases e
              rw [ht1] at hp
              cases hp
              subst h3
              rw [List.dropLast_concat] at hR
              rw [List.append_nil]
              exact hR
            · rw [if_neg h3] at e
              refine hk _ _ ?_ e
              unfold start
              split
              · obtain ⟨m, hm⟩ := hs.root; simp [hm]
              · simp [ht]

theorem walk_link {t : LTree} (hs : Sound t) {l : Bytes} {mt : Nat} {p : Path} (hp : t p = some (.link l mt)) {N : Nat} {q : Path} :
    ∀ (n : Nat), n ≤ N → ∀ (cur : Path) (cs : List Bytes), (∀ l m, t cur ≠ some (.link l m)) → walk t false n cur cs = .ok p → walk t true n cur cs = .ok q →
      walk t true N (start p.dropLast l) (strsepAll SLASH l) = .ok q
  | 0, _, cur, cs, hc, e => by
    refine walkTo_link hs hp (R := fun x => x = .ok q → walk t true N (start p.dropLast l) (strsepAll SLASH l) = .ok q) ?_ ?_ cs cur hc e
    · exact fun h => nomatch h
    · exact fun _ _ _ h => nomatch h
  | n + 1, hn, cur, cs, hc, e => by
    refine walkTo_link hs hp (k' := walk t true n) (R := fun x => x = .ok q → walk t true N (start p.dropLast l) (strsepAll SLASH l) = .ok q) ?_ ?_ cs cur hc e
    · exact fun h => walk_more (by omega) _ _ _ h
    · exact fun c cs hc h => walk_link hs hp n (by omega) c cs hc h

/-- What is read through a link is its target, looked for from where the link is. -/
theorem resolve_link {t : LTree} (hs : Sound t) {l : Bytes} {mt : Nat} {cwd p q : Path} {s : Bytes} (hc : ∃ m, t cwd = some (.dir m)) (hp : t p = some (.link l mt))
    (h : t.resolve false cwd s = .ok p) (h' : t.resolve true cwd s = .ok q) : t.walk true 40 (start p.dropLast l) (strsepAll SLASH l) = .ok q := by
  cases s with
  | nil => cases h
  | cons c s =>
    refine walk_link hs hp 40 (Nat.le_refl _) _ _ ?_ h h'
    split
    · obtain ⟨m, hm⟩ := hs.root; simp [hm]
    · obtain ⟨m, hm⟩ := hc; simp [hm]

/-! ## Changes -/

/-- Only directories were made. -/
structure Grown (t t' : LTree) : Prop extends Alike t t' where
  files : ∀ p c m, t p = some (.file c m) → t' p = some (.file c m)

theorem Grown.rfl' (t : LTree) : Grown t t := ⟨Alike.rfl' t, fun _ _ _ h => h⟩

theorem Grown.trans {t t' t'' : LTree} (h : Grown t t') (h' : Grown t' t'') : Grown t t'' := ⟨h.toAlike.trans h'.toAlike, fun p c m e => h'.files p c m (h.files p c m e)⟩

theorem touch_file {t : LTree} {p q : Path} {now : Nat} {c : Bytes} {m : Nat} : (t.touch q now) p = some (.file c m) ↔ t p = some (.file c m) := by
  unfold touch
  split
  · cases ht : t p with
    | none => simp
    | some n => cases n <;> simp
  · rfl

theorem touch_link {t : LTree} {p q : Path} {now : Nat} {l : Bytes} {m : Nat} : (t.touch q now) p = some (.link l m) ↔ t p = some (.link l m) := by
  unfold touch
  split
  · cases ht : t p with
    | none => simp
    | some n => cases n <;> simp
  · rfl

theorem touch_dir {t : LTree} {p q : Path} {now m : Nat} (h : t p = some (.dir m)) : ∃ m', (t.touch q now) p = some (.dir m') := by
  unfold touch
  split
  · exact ⟨now, by simp [h]⟩
  · exact ⟨m, h⟩

theorem touch_grown (t : LTree) (q : Path) (now : Nat) : Grown t (t.touch q now) where
  dirs _ _ h := touch_dir h
  links _ _ m h := ⟨m, touch_link.2 h⟩
  links' _ _ m h := ⟨m, touch_link.1 h⟩
  files _ _ _ h := touch_file.2 h

theorem set_self (t : LTree) (p : Path) (n : LNode) : (t.set p n) p = some n := if_pos rfl

theorem set_ne {t : LTree} {p q : Path} {n : LNode} (h : q ≠ p) : (t.set p n) q = t q := if_neg h

/-- A file in place of nothing or of a file. -/
theorem set_alike {t : LTree} {p : Path} {n : LNode} (hn : ∀ l m, n ≠ .link l m) (hd : ∀ m, t p ≠ some (.dir m)) (hl : ∀ l m, t p ≠ some (.link l m)) : Alike t (t.set p n) where
  dirs q m h := ⟨m, by
    have hq : q ≠ p := by rintro rfl; exact hd m h
    rw [set_ne hq, h]⟩
  links q l m h := ⟨m, by
    have hq : q ≠ p := by rintro rfl; exact hl l m h
    rw [set_ne hq, h]⟩
  links' q l m h := by
    by_cases e : q = p
    · subst e
      rw [set_self] at h
      exact (hn _ _ (Option.some.inj h)).elim
    · exact ⟨m, by rw [set_ne e] at h; exact h⟩

theorem mkdir_grown {t t' : LTree} {d : LDeny} {cwd : Path} {now : Nat} {s : Bytes} (h : t.mkdir d cwd now s = some t') : Grown t t' := by
  unfold mkdir at h
  split at h
  · cases h
  · rename_i p hp
    split at h
    · cases h; exact Grown.rfl' t
    · rename_i hn
      split at h
      · cases h
      · cases h
        refine Grown.trans ⟨set_alike (by simp) (by simp [hn]) (by simp [hn]), fun q c m e => ?_⟩ (touch_grown _ _ _)
        rw [set_ne (fun e' => by rw [e', hn] at e; cases e), e]

theorem lmkdirs_grown {d : LDeny} {cwd : Path} {now : Nat} : ∀ (bits : List Bytes) (accum : Bytes) (t : LTree), Grown t (lmkdirs d cwd now bits accum t).1
  | [], _, t => Grown.rfl' t
  | bit :: bits, accum, t => by
    unfold lmkdirs
    split
    · exact Grown.rfl' t
    · rename_i t' h
      exact (mkdir_grown h).trans (lmkdirs_grown bits _ t')

theorem stat_ok {t : LTree} {f : Bool} {cwd p : Path} {s : Bytes} {n : LNode} : t.stat f cwd s = .ok (p, n) ↔ t.resolve f cwd s = .ok p ∧ t p = some n := by
  unfold stat
  constructor
  · intro h
    split at h
    · cases h
    · rename_i q hq
      split at h
      · cases h
      · rename_i m hm
        cases h
        exact ⟨hq, hm⟩
  · rintro ⟨h, h'⟩
    simp only [h, h']

/-- A file is found again after directories were made. -/
theorem Grown.stat_file {t t' : LTree} (h : Grown t t') {f : Bool} {cwd p : Path} {s c : Bytes} {m : Nat} (e : t.stat f cwd s = .ok (p, .file c m)) : t'.stat f cwd s = .ok (p, .file c m) := by
  rw [stat_ok] at e ⊢
  exact ⟨resolve_alike h.toAlike e.1, h.files _ _ _ e.2⟩

/-- A link made where there was none, nor a directory, is found there if it is not followed. -/
theorem walkTo_fresh {t : LTree} {p : Path} {l : Bytes} {now : Nat} (hd : ∀ m, t p ≠ some (.dir m)) (hl : ∀ l m, t p ≠ some (.link l m)) {k k' : Path → List Bytes → Except LErr Path}
    (hk : ∀ c cs q, k c cs = .ok q → k' c cs = .ok q) :
    ∀ (cs : List Bytes) (cur q : Path), walkTo t false k cur cs = .ok q → walkTo (t.set p (.link l now)) false k' cur cs = .ok q
  | [], cur, q, e => e
  | c :: cs, cur, q, e => by
    rw [walkTo] at e ⊢
    cases ht : t cur with
    | none => rw [ht] at e; cases e
    | some n =>
      cases n with
      | file _ _ => rw [ht] at e; cases e
      | link _ _ => rw [ht] at e; cases e
      | dir m =>
        have hcur : cur ≠ p := by rintro rfl; exact hd m ht
        rw [ht] at e
        rw [set_ne hcur, ht]
        simp only at e ⊢
        by_cases h1 : c = [] ∨ c = b!"."
        · rw [if_pos h1] at e ⊢; exact walkTo_fresh hd hl hk cs cur q e
        rw [if_neg h1] at e ⊢
        by_cases h2 : c = b!".."
        · rw [if_pos h2] at e ⊢; exact walkTo_fresh hd hl hk cs _ q e
        rw [if_neg h2] at e ⊢
        by_cases hp : cur ++ [c] = p
        · have e' : walkTo t false k (cur ++ [c]) cs = .ok q := by
            cases ht1 : t (cur ++ [c]) with
            | none => rw [ht1] at e; exact e
            | some n1 =>
              cases n1 with
              | link l m => exact (hl l m (hp ▸ ht1)).elim
              | file _ _ => rw [ht1] at e; exact e
              | dir _ => rw [ht1] at e; exact e
          cases cs with
          | nil =>
            rw [hp, set_self]
            rw [hp, walkTo] at e'
            simp only [and_self, if_true]
            exact e'
          | cons c' cs =>
            rw [walkTo, hp] at e'
            cases htp : t p with
            | none => rw [htp] at e'; cases e'
            | some np =>
              cases np with
              | dir m => exact (hd _ htp).elim
              | file _ _ => rw [htp] at e'; cases e'
              | link _ _ => rw [htp] at e'; cases e'
        · rw [set_ne hp]
          cases ht1 : t (cur ++ [c]) with
          | none => rw [ht1] at e; exact walkTo_fresh hd hl hk cs _ q e
          | some n1 =>
            cases n1 with
            | file _ _ => rw [ht1] at e; exact walkTo_fresh hd hl hk cs _ q e
            | dir _ => rw [ht1] at e; exact walkTo_fresh hd hl hk cs _ q e
            | link l' m' =>
              rw [ht1] at e
              simp only at e ⊢
              by_cases h3 : cs = [] ∧ True
              · rw [if_pos h3] at e ⊢; exact e
              · rw [if_neg h3] at e ⊢; exact hk _ _ _ e

theorem walk_fresh {t : LTree} {p : Path} {l : Bytes} {now : Nat} (hd : ∀ m, t p ≠ some (.dir m)) (hl : ∀ l m, t p ≠ some (.link l m)) :
    ∀ (n : Nat) (cur : Path) (cs : List Bytes) (q : Path), walk t false n cur cs = .ok q → walk (t.set p (.link l now)) false n cur cs = .ok q
  | 0, cur, cs, q, e => walkTo_fresh hd hl (fun _ _ _ e => by cases e) cs cur q e
  | n + 1, cur, cs, q, e => walkTo_fresh hd hl (walk_fresh hd hl n) cs cur q e

theorem resolve_fresh {t : LTree} {cwd p q : Path} {l s : Bytes} {now : Nat} (hd : ∀ m, t p ≠ some (.dir m)) (hl : ∀ l m, t p ≠ some (.link l m)) (e : t.resolve false cwd s = .ok q) :
    (t.set p (.link l now)).resolve false cwd s = .ok q := by
  cases s with
  | nil => cases e
  | cons c s => exact walk_fresh hd hl _ _ _ _ e

/-- What `cp` of a file does. -/
theorem lcpFile_some {t t' : LTree} {c : Bytes} {own p : Path} {th : Except LErr Path} {now : Nat} (h : lcpFile t c own p th now = some t') (ho : t own ≠ none) :
    Alike t t' ∧ ∃ w, w ≠ own ∧ t' w = some (.file c now) ∧ (w = p ∧ (∀ l m, t p ≠ some (.link l m)) ∨ th = .ok w) ∧ ∀ q c m, q ≠ w → t q = some (.file c m) → t' q = some (.file c m) := by
  unfold lcpFile at h
  split at h
  · rename_i hn
    cases h
    refine ⟨(set_alike (by simp) (by simp [hn]) (by simp [hn])).trans (touch_grown _ _ _).toAlike, p, ?_, touch_file.2 (set_self ..), .inl ⟨rfl, by simp [hn]⟩, fun q c m hq e => touch_file.2 (by rw [set_ne hq, e])⟩
    rintro rfl
    exact ho hn
  · cases h
  · rename_i hn
    split at h
    · cases h
    · rename_i hne
      cases h
      exact ⟨set_alike (by simp) (by simp [hn]) (by simp [hn]), p, hne, set_self .., .inl ⟨rfl, by simp [hn]⟩, fun q c m hq e => by rw [set_ne hq, e]⟩
  · split at h
    · cases h
    · rename_i q
      split at h
      · rename_i hn
        split at h
        · cases h
        · rename_i hne
          cases h
          exact ⟨set_alike (by simp) (by simp [hn]) (by simp [hn]), q, hne, set_self .., .inr rfl, fun q c m hq e => by rw [set_ne hq, e]⟩
      · cases h

end Bob.LTree

namespace Bob

/-- What was done when an entry was copied. -/
theorem linstallSingle_copied {e : LInstEnv} {key val : Bytes} {b : Bool} {now : Nat} {t t' : LTree} (h : linstallSingle e key val b now t = .copied t') :
    ∃ t1, t1 = (lmkdirs e.deny e.cwd now (destBits (cstr val)) e.pre t).1 ∧ lcopy e.deny t1 e.cwd (cstr key) (e.pre ++ b!"/" ++ cstr val) now = (t', true) := by
  unfold linstallSingle at h
  dsimp only at h
  split at h
  · cases h
  · split at h
    · cases h
    · split at h
      · cases h
      · split at h
        · cases h
        · rename_i t1 h1
          refine ⟨t1, by rw [h1], ?_⟩
          split at h
          · cases h
          · cases h
          · split at h
            · rename_i h2
              cases h
              exact h2
            · cases h

/-- What `copy` has done when it has succeeded. -/
theorem lcopy_true {d : LDeny} {t t' : LTree} {cwd : Path} {src dst : Bytes} {now : Nat} (h : lcopy d t cwd src dst now = (t', true)) :
    ∃ real n own l p, t.stat true cwd src = .ok (real, n) ∧ t.stat false cwd src = .ok (own, l) ∧ t.resolve false cwd dst = .ok p ∧ lcp t cwd real n own l dst p now = some t' := by
  unfold lcopy at h
  split at h
  · rename_i real n own l p h1 h2 h3
    refine ⟨real, n, own, l, p, h1, h2, h3, ?_⟩
    split at h
    · cases h
    · split at h
      · rename_i h4
        cases h
        exact h4
      · cases h
  · cases h

theorem cpPlace_not_dir {t : LTree} {cwd own p : Path} {dst : Bytes} (h : ∀ q m, t.stat true cwd dst ≠ .ok (q, .dir m)) : cpPlace t cwd own dst p = (p, t.resolve true cwd dst) := by
  unfold cpPlace
  split
  · rename_i q m hq
    exact (h _ _ hq).elim
  · rfl

end Bob
