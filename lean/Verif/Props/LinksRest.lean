import Verif.Props.LinksCopies
/-!
# C127, for all entries: installing again comes to rest, with symbolic links
-/

namespace Bob

open LTree

/-- Installing this entry does nothing. -/
def Rests (e : LInstEnv) (x : Bytes × Bytes) (t : LTree) : Prop := ∀ now, linstallSingle e x.1 x.2 false now t = .product ∨ linstallSingle e x.1 x.2 false now t = .already t

/-- The key is a file, and not newer than the times of these entries. -/
def OldKey (e : LInstEnv) (all : List ((Bytes × Bytes) × Nat)) (x : (Bytes × Bytes) × Nat) (t : LTree) : Prop :=
  ∃ p c m, t.stat false e.cwd (cstr x.1.1) = .ok (p, .file c m) ∧ ∀ y ∈ all, m ≤ y.2

theorem OldKey.isFile {e : LInstEnv} {all : List ((Bytes × Bytes) × Nat)} {x : (Bytes × Bytes) × Nat} {t : LTree} (h : OldKey e all x t) : ∃ c, t.IsFile e.cwd (cstr x.1.1) c := by
  obtain ⟨p, c, m, hp, -⟩ := h
  exact ⟨c, p, m, hp⟩

theorem product_iff {e : LInstEnv} {key val : Bytes} {now : Nat} {src : Path} {n : LNode} {t : LTree} (h : t.stat true e.cwd (cstr key) = .ok (src, n)) :
    linstallSingle e key val false now t = .product ↔ isCookie e.absOut (pathStr src) = true := by
  constructor
  · intro h1
    cases hb : isCookie e.absOut (pathStr src) with
    | true => rfl
    | false =>
      unfold linstallSingle at h1
      dsimp only at h1
      rw [h] at h1
      dsimp only at h1
      rw [hb, if_neg (by simp), if_neg (by simp)] at h1
      split at h1
      · cases h1
      · split at h1
        · cases h1
        · cases h1
        · split at h1 <;> cases h1
  · intro hb
    unfold linstallSingle
    dsimp only
    rw [h]
    dsimp only
    rw [hb]
    rfl

/-- What is known of an entry that is already installed. -/
theorem already_inv {e : LInstEnv} {key val : Bytes} {now : Nat} {src : Path} {n : LNode} {t t' : LTree} (h : t.stat true e.cwd (cstr key) = .ok (src, n))
    (h1 : linstallSingle e key val false now t = .already t') (h' : t'.stat true e.cwd (cstr key) = .ok (src, n)) :
    isCookie e.absOut (pathStr src) = false ∧ lmkdirs e.deny e.cwd now (destBits (cstr val)) e.pre t = (t', true) ∧
      ∃ q n', t'.stat true e.cwd (e.pre ++ b!"/" ++ cstr val) = .ok (q, n') ∧ n.mtime ≤ n'.mtime := by
  obtain ⟨q, n', hq⟩ := C125_already h1
  have hb : isCookie e.absOut (pathStr src) = false := by
    cases hb : isCookie e.absOut (pathStr src) with
    | false => rfl
    | true =>
      have := (product_iff (val := val) (now := now) h).2 hb
      rw [this] at h1
      cases h1
  unfold linstallSingle at h1
  dsimp only at h1
  rw [h] at h1
  dsimp only at h1
  rw [hb, if_neg (by simp), if_neg (by simp)] at h1
  split at h1
  · cases h1
  · rename_i t2 h2
    split at h1
    · cases h1
    · rename_i hf
      cases h1
      refine ⟨hb, h2, q, n', hq, ?_⟩
      unfold frugalMtime LTree.statRes at hf
      rw [hq] at hf
      dsimp only [mtimeLoop] at hf
      rw [h'] at hf
      dsimp only at hf
      split at hf
      · cases hf
      · omega
    · split at h1 <;> cases h1

/-- What an entry whose key is a file does to the files there are. -/
theorem file_step {e : LInstEnv} {key val c : Bytes} {now : Nat} {t t' : LTree} (hk : t.IsFile e.cwd (cstr key) c)
    (h : linstallSingle e key val false now t = .copied t' ∨ linstallSingle e key val false now t = .already t') :
    Alike t t' ∧ (∀ q c m, t q = some (.file c m) → t' q = some (.file c m) ∨ ∃ c', t' q = some (.file c' now)) := by
  rcases h with h | h
  · refine ⟨(file_copied h hk).1, ?_⟩
    obtain ⟨t1, ht1, hc⟩ := linstallSingle_copied h
    have hg : Grown t t1 := ht1 ▸ lmkdirs_grown _ _ _
    obtain ⟨real, n, own, l, p, h1, h2, h3, h4⟩ := lcopy_true hc
    obtain ⟨p0, m0, hk0⟩ := hk
    have hk1 := hg.stat_file hk0
    rw [hk1] at h2
    cases h2
    obtain ⟨hka, hkb⟩ := stat_ok.1 hk1
    rw [stat_ok.2 ⟨resolve_end hka (by simp [hkb]), hkb⟩] at h1
    cases h1
    obtain ⟨ha, w, hw, hwc, hwp, hrest⟩ := lcpFile_some h4 (by simp [hkb])
    intro q c' m hq
    by_cases hqw : q = w
    · exact .inr ⟨c, hqw ▸ hwc⟩
    · exact .inl (hrest _ _ _ hqw (hg.files _ _ _ hq))
  · have hg : Grown t t' := by rw [linstallSingle_already h]; exact lmkdirs_grown _ _ _
    exact ⟨hg.toAlike, fun q c m hq => .inl (hg.files _ _ _ hq)⟩

theorem key_keep {e : LInstEnv} {all : List ((Bytes × Bytes) × Nat)} {x y : (Bytes × Bytes) × Nat} {t t2 t' : LTree} (hy : OldKey e all y t)
    (h : linstallSingle e y.1.1 y.1.2 false y.2 t = .copied t2 ∨ linstallSingle e y.1.1 y.1.2 false y.2 t = .already t2) (ha : Alike t2 t')
    (hd : ¬ t'.LeadsToDir e.cwd (e.pre ++ b!"/" ++ cstr y.1.2))
    (hkey : ∀ q, t'.resolve true e.cwd (cstr x.1.1) = .ok q → t'.resolve true e.cwd (e.pre ++ b!"/" ++ cstr y.1.2) ≠ .ok q) {p : Path} {c : Bytes} {m : Nat}
    (hp : t.stat false e.cwd (cstr x.1.1) = .ok (p, .file c m)) : t2.stat false e.cwd (cstr x.1.1) = .ok (p, .file c m) := by
  obtain ⟨hpa, hpb⟩ := stat_ok.1 hp
  obtain ⟨c1, hy1⟩ := hy.isFile
  have ha1 := (file_step hy1 h).1
  have h1 : linstallAll e [y] t = .ok t2 := by
    obtain ⟨⟨k, v⟩, now⟩ := y
    rw [linstallAll]
    rcases h with h | h <;> rw [h] <;> rfl
  refine stat_ok.2 ⟨resolve_alike ha1 hpa, ?_⟩
  rcases changed_is_destination (l := [y]) (fun z hz => by rw [List.mem_singleton.1 hz]; exact ⟨c1, hy1⟩) h1 ha hpb (fun z hz => by rw [List.mem_singleton.1 hz]; exact hd) with h2 | ⟨z, hz, h2⟩
  · exact h2
  · rw [List.mem_singleton.1 hz] at h2
    exact (hkey p (resolve_alike (ha1.trans ha) (resolve_end hpa (by simp [hpb]))) h2).elim

theorem stat_end {t : LTree} {cwd p : Path} {s c : Bytes} {m : Nat} (h : t.stat false cwd s = .ok (p, .file c m)) : t.stat true cwd s = .ok (p, .file c m) := by
  obtain ⟨hpa, hpb⟩ := stat_ok.1 h
  exact stat_ok.2 ⟨resolve_end hpa (by simp [hpb]), hpb⟩

theorem rests_keep {e : LInstEnv} {all : List ((Bytes × Bytes) × Nat)} {x y : (Bytes × Bytes) × Nat} {t t2 t' : LTree} (hx : OldKey e all x t) (hy : OldKey e all y t) (hya : y ∈ all)
    (h : linstallSingle e y.1.1 y.1.2 false y.2 t = .copied t2 ∨ linstallSingle e y.1.1 y.1.2 false y.2 t = .already t2) (ha : Alike t2 t')
    (hd : ∀ z ∈ [x, y], ∀ q n, t'.stat true e.cwd (e.pre ++ b!"/" ++ cstr z.1.2) = .ok (q, n) → ∃ c m, n = .file c m)
    (hkey : ∀ q, t'.resolve true e.cwd (cstr x.1.1) = .ok q → t'.resolve true e.cwd (e.pre ++ b!"/" ++ cstr y.1.2) ≠ .ok q) (hr : Rests e x.1 t) : Rests e x.1 t2 := by
  obtain ⟨p, c, m, hp, hm⟩ := hx
  have hp2 := key_keep hy h ha (by rintro ⟨d, m, hdm⟩; obtain ⟨_, _, h5⟩ := hd y (by simp) _ _ hdm; cases h5) hkey hp
  obtain ⟨c1, hy1⟩ := hy.isFile
  obtain ⟨ha1, hf1⟩ := file_step hy1 h
  intro now
  rcases hr now with h1 | h1
  · exact .inl ((product_iff (stat_end hp2)).2 ((product_iff (stat_end hp)).1 h1))
  · obtain ⟨hb, hmk, q, n', hq, hle⟩ := already_inv (stat_end hp) h1 (stat_end hp)
    obtain ⟨hqa, hqb⟩ := stat_ok.1 hq
    have hall := ha1.trans ha
    refine .inr ?_
    have hmk2 : lmkdirs e.deny e.cwd now (destBits (cstr x.1.2)) e.pre t2 = (t2, true) := by
      refine mkdirs_again (fun s q h => resolve_alike ha1 h) (fun q hq => ?_) _ _ _ hmk
      cases hn : t q with
      | none => exact (hq hn).elim
      | some n =>
        cases n with
        | dir m => obtain ⟨m', h5⟩ := ha1.dirs _ _ hn; simp [h5]
        | link l m => obtain ⟨m', h5⟩ := ha1.links _ _ _ hn; simp [h5]
        | file c m => rcases hf1 _ _ _ hn with h5 | ⟨_, h5⟩ <;> simp [h5]
    cases n' with
    | dir m' =>
      obtain ⟨m2, h5⟩ := hall.dirs _ _ hqb
      obtain ⟨_, _, h6⟩ := hd x (by simp) _ _ (stat_ok.2 ⟨resolve_alike hall hqa, h5⟩)
      cases h6
    | link l m' =>
      obtain ⟨m2, h5⟩ := hall.links _ _ _ hqb
      obtain ⟨_, _, h6⟩ := hd x (by simp) _ _ (stat_ok.2 ⟨resolve_alike hall hqa, h5⟩)
      cases h6
    | file c' m' =>
      rcases hf1 _ _ _ hqb with h5 | ⟨c2, h5⟩
      · exact already_of (stat_end hp2) hb hmk2 (stat_ok.2 ⟨resolve_alike ha1 hqa, h5⟩) rfl rfl hle
      · exact already_of (stat_end hp2) hb hmk2 (stat_ok.2 ⟨resolve_alike ha1 hqa, h5⟩) rfl rfl (hm y hya)

theorem rests_all {e : LInstEnv} {all : List ((Bytes × Bytes) × Nat)} {t' : LTree}
    (hd : ∀ x ∈ all, ∀ q n, t'.stat true e.cwd (e.pre ++ b!"/" ++ cstr x.1.2) = .ok (q, n) → ∃ c m, n = .file c m)
    (hkey : ∀ x ∈ all, ∀ y ∈ all, ∀ q, t'.resolve true e.cwd (cstr x.1.1) = .ok q → t'.resolve true e.cwd (e.pre ++ b!"/" ++ cstr y.1.2) ≠ .ok q) :
    ∀ (l : List ((Bytes × Bytes) × Nat)) (t : LTree), (∀ x ∈ l, x ∈ all) → (∀ x ∈ all, OldKey e all x t) → linstallAll e l t = .ok t' →
    (∀ x ∈ all, Rests e x.1 t → Rests e x.1 t') ∧ ∀ x ∈ l, Rests e x.1 t'
  | [], t, _, _, h => by
    cases h
    exact ⟨fun _ _ h => h, fun x hx => by cases hx⟩
  | y :: l, t, hl, hk, h => by
    have hy := hl y List.mem_cons_self
    have hl' : ∀ x ∈ l, x ∈ all := fun x hx => hl x (List.mem_cons_of_mem _ hx)
    obtain ⟨p, c, m, hp, hm⟩ := hk y hy
    have hnd : ¬ t'.LeadsToDir e.cwd (e.pre ++ b!"/" ++ cstr y.1.2) := by rintro ⟨d, m, hdm⟩; obtain ⟨_, _, h5⟩ := hd y hy _ _ hdm; cases h5
    have go : ∀ t2, (linstallSingle e y.1.1 y.1.2 false y.2 t = .copied t2 ∨ linstallSingle e y.1.1 y.1.2 false y.2 t = .already t2) → linstallAll e l t2 = .ok t' →
        (∀ x ∈ all, Rests e x.1 t → Rests e x.1 t') ∧ ∀ x ∈ y :: l, Rests e x.1 t' := by
      intro t2 hs h2
      obtain ⟨ha1, hf1⟩ := file_step ⟨p, m, hp⟩ hs
      obtain ⟨ha, -⟩ := files_all l t2 t' (fun x hx => isFile_after ha1 (fun q c m hq => by
        rcases hf1 q c m hq with h5 | ⟨c', h5⟩
        · exact ⟨_, _, h5⟩
        · exact ⟨_, _, h5⟩) (hk x (hl' x hx)).isFile) h2
      have hk2 : ∀ x ∈ all, OldKey e all x t2 := by
        intro x hx
        obtain ⟨p1, c1, m1, hp1, hm1⟩ := hk x hx
        exact ⟨p1, c1, m1, key_keep (x := x) (hk y hy) hs ha hnd (hkey x hx y hy) hp1, hm1⟩
      obtain ⟨i1, i2⟩ := rests_all hd hkey l t2 hl' hk2 h2
      have hpy := key_keep (x := y) (hk y hy) hs ha hnd (hkey y hy y hy) hp
      have hry : Rests e y.1 t2 := by
        intro now
        rcases hs with hs | hs
        · exact .inr (C127_file_partial hs hp (hm y hy) fun ⟨d, md, hdm⟩ => by
            obtain ⟨hda, hdb⟩ := stat_ok.1 hdm
            obtain ⟨m', hm'⟩ := ha.dirs _ _ hdb
            exact hnd ⟨d, m', stat_ok.2 ⟨resolve_alike ha hda, hm'⟩⟩)
        · obtain ⟨hb, hmk, q, n', hq, hle⟩ := already_inv (stat_end hp) hs (stat_end hpy)
          exact .inr (already_of (stat_end hpy) hb (mkdirs_again (fun _ _ h => h) (fun _ h => h) _ _ _ hmk) hq rfl rfl hle)
      refine ⟨fun x hx hr => i1 x hx (rests_keep (hk x hx) (hk y hy) hy hs ha (fun z hz => ?_) (hkey x hx y hy) hr), fun x hx => ?_⟩
      · rcases List.mem_cons.1 hz with rfl | hz
        · exact hd _ hx
        · rw [List.mem_singleton.1 hz]
          exact hd y hy
      · rcases List.mem_cons.1 hx with rfl | hx
        · exact i1 _ hy hry
        · exact i2 x hx
    obtain ⟨⟨key, val⟩, now⟩ := y
    unfold linstallAll at h
    split at h
    · cases h
    · cases h
    · rename_i h2
      obtain ⟨i1, i2⟩ := rests_all hd hkey l t hl' hk h
      refine ⟨i1, fun x hx => ?_⟩
      rcases List.mem_cons.1 hx with rfl | hx
      · exact i1 _ hy fun now' => .inl ((product_iff (stat_end hp)).2 ((product_iff (stat_end hp)).1 h2))
      · exact i2 x hx
    · rename_i t2 h2
      exact go t2 (.inr h2) h
    · rename_i t2 h2
      exact go t2 (.inl h2) h

/-- **C127**, for all entries, partial: all keys are files that are not newer than the time of installing, destinations are files in the end (or are not there), and none leads to a key.  Then
installing any of the entries again, in any order and at any times, copies nothing and changes nothing. -/
theorem C127_all_partial {e : LInstEnv} {l : List ((Bytes × Bytes) × Nat)} {t t' : LTree}
    (hk : ∀ x ∈ l, ∃ p c m, t.stat false e.cwd (cstr x.1.1) = .ok (p, .file c m) ∧ ∀ y ∈ l, m ≤ y.2) (h : linstallAll e l t = .ok t')
    (hd : ∀ x ∈ l, ∀ q n, t'.stat true e.cwd (e.pre ++ b!"/" ++ cstr x.1.2) = .ok (q, n) → ∃ c m, n = .file c m)
    (hkey : ∀ x ∈ l, ∀ y ∈ l, ∀ q, t'.resolve true e.cwd (cstr x.1.1) = .ok q → t'.resolve true e.cwd (e.pre ++ b!"/" ++ cstr y.1.2) ≠ .ok q) :
    ∀ l', (∀ x ∈ l', x.1 ∈ l.map (·.1)) → linstallAll e l' t' = .ok t' ∧ ∀ x ∈ l', ∀ t'', linstallSingle e x.1.1 x.1.2 false x.2 t' ≠ .copied t'' := by
  have hr : ∀ z ∈ l.map (·.1), Rests e z t' := by
    intro z hz
    obtain ⟨x, hx, rfl⟩ := List.mem_map.1 hz
    exact (rests_all hd hkey l t (fun _ h => h) hk h).2 x hx
  intro l' hl'
  refine ⟨?_, fun x hx t'' h2 => ?_⟩
  · induction l' with
    | nil => rfl
    | cons x l' ih =>
      obtain ⟨⟨key, val⟩, now⟩ := x
      rw [linstallAll]
      rcases hr _ (hl' _ List.mem_cons_self) now with h1 | h1
      · dsimp only at h1
        rw [h1]
        exact ih fun x hx => hl' x (List.mem_cons_of_mem _ hx)
      · dsimp only at h1
        rw [h1]
        exact ih fun x hx => hl' x (List.mem_cons_of_mem _ hx)
  · rcases hr _ (hl' x hx) x.2 with h1 | h1 <;> rw [h1] at h2 <;> cases h2

end Bob
