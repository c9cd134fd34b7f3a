import Verif.Props.Links
import Verif.Lemmas.Install
/-!
# C126: a library and the links to it
-/

namespace Bob

open LTree

theorem strsepAll_snoc (sep : UInt8) (name : Bytes) (hn : sep ∉ name) : ∀ x : Bytes, strsepAll sep (x ++ sep :: name) = strsepAll sep x ++ [name]
  | [] => by
    show (if sep = sep then [] :: strsepAll sep name else _) = _
    rw [if_pos rfl, strsepAll_field sep name hn]
    rfl
  | c :: cs => by
    rw [List.cons_append, strsepAll, strsepAll, strsepAll_snoc sep name hn cs]
    split
    · rfl
    · cases h : strsepAll sep cs with
      | nil => exact (strsepAll_ne_nil sep cs h).elim
      | cons f fs => rfl

namespace LTree

/-- In a directory, a last name is not followed. -/
theorem walkTo_one {t : LTree} {a : Bytes} (ha : Plain a) {k : Path → List Bytes → Except LErr Path} {cur : Path} {m : Nat} (hc : t cur = some (.dir m)) : walkTo t false k cur [a] = .ok (cur ++ [a]) := by
  rw [walkTo, hc]
  simp only
  rw [if_neg (by simp only [not_or]; exact ⟨ha.1, ha.2.1⟩), if_neg ha.2.2.1]
  split
  · simp
  · rfl

/-- The directory in which the last name of a path is looked for does not depend on that name. -/
theorem walkTo_last {t : LTree} {a b : Bytes} (ha : Plain a) (hb : Plain b) {k : Path → List Bytes → Except LErr Path}
    (hk : ∀ c cs p, k c (cs ++ [a]) = .ok p → ∃ d m, p = d ++ [a] ∧ t d = some (.dir m) ∧ k c (cs ++ [b]) = .ok (d ++ [b])) :
    ∀ (cs : List Bytes) (cur p : Path), walkTo t false k cur (cs ++ [a]) = .ok p → ∃ d m, p = d ++ [a] ∧ t d = some (.dir m) ∧ walkTo t false k cur (cs ++ [b]) = .ok (d ++ [b])
  | [], cur, p, e => by
    rw [List.nil_append] at e ⊢
    cases ht : t cur with
    | none => rw [walkTo, ht] at e; cases e
    | some n =>
      cases n with
      | file _ _ => rw [walkTo, ht] at e; cases e
      | link _ _ => rw [walkTo, ht] at e; cases e
      | dir m =>
        rw [walkTo_one ha ht] at e
        cases e
        exact ⟨cur, m, rfl, ht, walkTo_one hb ht⟩
  | c :: cs, cur, p, e => by
    rw [List.cons_append, walkTo] at e
    rw [List.cons_append]
    simp only [walkTo]
    cases ht : t cur with
    | none => rw [ht] at e; cases e
    | some n =>
      cases n with
      | file _ _ => rw [ht] at e; cases e
      | link _ _ => rw [ht] at e; cases e
      | dir m =>
        rw [ht] at e
        simp only at e ⊢
        by_cases h1 : c = [] ∨ c = b!"."
        · rw [if_pos h1] at e ⊢; exact walkTo_last ha hb hk cs cur p e
        rw [if_neg h1] at e ⊢
        by_cases h2 : c = b!".."
        · rw [if_pos h2] at e ⊢; exact walkTo_last ha hb hk cs _ p e
        rw [if_neg h2] at e ⊢
        cases ht1 : t (cur ++ [c]) with
        | none => rw [ht1] at e; exact walkTo_last ha hb hk cs _ p e
        | some n1 =>
          cases n1 with
          | file _ _ => rw [ht1] at e; exact walkTo_last ha hb hk cs _ p e
          | dir _ => rw [ht1] at e; exact walkTo_last ha hb hk cs _ p e
          | link l m =>
            rw [ht1] at e
            simp only at e ⊢
            rw [if_neg (by simp), ← List.append_assoc] at e
            rw [if_neg (by simp), ← List.append_assoc]
            exact hk _ _ _ e

theorem walk_last {t : LTree} {a b : Bytes} (ha : Plain a) (hb : Plain b) : ∀ (n : Nat) (cur : Path) (cs : List Bytes) (p : Path), walk t false n cur (cs ++ [a]) = .ok p →
    ∃ d m, p = d ++ [a] ∧ t d = some (.dir m) ∧ walk t false n cur (cs ++ [b]) = .ok (d ++ [b])
  | 0, cur, cs, p, e => walkTo_last ha hb (fun _ _ _ e => by cases e) cs cur p e
  | n + 1, cur, cs, p, e => walkTo_last ha hb (fun c cs p e => walk_last ha hb n c cs p e) cs cur p e

/-- The same for names of files. -/
theorem resolve_last {t : LTree} {a b : Bytes} (ha : Plain a) (hb : Plain b) {cwd p : Path} {s : Bytes} (h : t.resolve false cwd (s ++ b!"/" ++ a) = .ok p) :
    ∃ d m, p = d ++ [a] ∧ t d = some (.dir m) ∧ t.resolve false cwd (s ++ b!"/" ++ b) = .ok (d ++ [b]) := by
  have hs : ∀ x, SLASH ∉ x → strsepAll SLASH (s ++ b!"/" ++ x) = strsepAll SLASH s ++ [x] := fun x hx => by
    rw [List.append_assoc]
    exact strsepAll_snoc SLASH x hx s
  have hr : ∀ x, SLASH ∉ x → t.resolve false cwd (s ++ b!"/" ++ x) = t.walk false 40 (if (s ++ b!"/").head? = some SLASH then [] else cwd) (strsepAll SLASH s ++ [x]) := fun x hx => by
    rw [← hs x hx]
    cases s with
    | nil => rfl
    | cons c s =>
      show t.walk false 40 (if c = SLASH then [] else cwd) _ = t.walk false 40 (if some c = some SLASH then [] else cwd) _
      simp only [Option.some.injEq]
  rw [hr a ha.2.2.2.1] at h
  rw [hr b hb.2.2.2.1]
  exact walk_last ha hb _ _ _ _ h

/-- A link to a file beside it is read as that file, or there are too many links on the way. -/
theorem walk_beside {t : LTree} (hs : Sound t) {name a c : Bytes} (hn : Plain name) {d : Path} {md mt mf : Nat} (hd : t d = some (.dir md)) (hl : t (d ++ [a]) = some (.link name mt))
    (hf : t (d ++ [name]) = some (.file c mf)) : ∀ (n : Nat) (cur : Path) (cs : List Bytes), (∀ l m, t cur ≠ some (.link l m)) → walk t false n cur cs = .ok (d ++ [a]) →
      walk t true n cur cs = .ok (d ++ [name]) ∨ walk t true n cur cs = .error .loop
  | 0, cur, cs, hc, e =>
    walkTo_link hs hl (k' := fun _ _ => .error .loop) (R := fun x => x = .ok (d ++ [name]) ∨ x = .error .loop) (.inr rfl) (fun _ _ _ _ => .inr rfl) cs cur hc e
  | n + 1, cur, cs, hc, e => by
    refine walkTo_link hs hl (k' := walk t true n) (R := fun x => x = .ok (d ++ [name]) ∨ x = .error .loop) ?_ (fun c cs hc e => walk_beside hs hn hd hl hf n c cs hc e) cs cur hc e
    left
    have hst : start (d ++ [a]).dropLast name = d := by
      unfold start
      rw [List.dropLast_concat, if_neg]
      intro hh
      cases name with
      | nil => cases hh
      | cons x xs => cases hh; exact hn.2.2.2.1 (List.mem_cons_self)
    rw [hst, strsepAll_field SLASH name hn.2.2.2.1]
    have key : ∀ k, walkTo t true k d [name] = .ok (d ++ [name]) := by
      intro k
      rw [walkTo, hd]
      simp only
      rw [if_neg (by simp only [not_or]; exact ⟨hn.1, hn.2.1⟩), if_neg hn.2.2.1, hf]
      rfl
    cases n with
    | zero => exact key _
    | succ n => exact key _

theorem resolve_beside {t : LTree} (hs : Sound t) {name a c : Bytes} (hn : Plain name) {d cwd : Path} {md mt mf : Nat} (hc : ∃ m, t cwd = some (.dir m)) (hd : t d = some (.dir md))
    (hl : t (d ++ [a]) = some (.link name mt)) (hf : t (d ++ [name]) = some (.file c mf)) {s : Bytes} (e : t.resolve false cwd s = .ok (d ++ [a])) :
    t.resolve true cwd s = .ok (d ++ [name]) ∨ t.resolve true cwd s = .error .loop := by
  cases s with
  | nil => cases e
  | cons x s =>
    refine walk_beside hs hn hd hl hf 40 _ _ ?_ e
    split
    · obtain ⟨m, hm⟩ := hs.root; simp [hm]
    · obtain ⟨m, hm⟩ := hc; simp [hm]

/-! ## Everything stays in a directory -/

theorem walkTo_parent {t : LTree} (hs : Sound t) {f : Bool} {k : Path → List Bytes → Except LErr Path}
    (hk : ∀ c cs p, (∃ m, t c = some (.dir m)) → k c cs = .ok p → t p ≠ none ∨ ∃ m, t p.dropLast = some (.dir m)) :
    ∀ (cs : List Bytes) (cur p : Path), (t cur ≠ none ∨ ∃ m, t cur.dropLast = some (.dir m)) → walkTo t f k cur cs = .ok p → t p ≠ none ∨ ∃ m, t p.dropLast = some (.dir m)
  | [], cur, p, hc, e => by cases e; exact hc
  | c :: cs, cur, p, hc, e => by
    rw [walkTo] at e
    cases ht : t cur with
    | none => rw [ht] at e; cases e
    | some n =>
      cases n with
      | file _ _ => rw [ht] at e; cases e
      | link _ _ => rw [ht] at e; cases e
      | dir m =>
        rw [ht] at e
        simp only at e
        by_cases h1 : c = [] ∨ c = b!"."
        · rw [if_pos h1] at e; exact walkTo_parent hs hk cs cur p hc e
        rw [if_neg h1] at e
        by_cases h2 : c = b!".."
        · rw [if_pos h2] at e
          obtain ⟨m', hm'⟩ := hs.parent _ _ ht
          exact walkTo_parent hs hk cs _ p (.inl (by simp [hm'])) e
        rw [if_neg h2] at e
        have hn : t (cur ++ [c]) ≠ none ∨ ∃ m, t (cur ++ [c]).dropLast = some (.dir m) := .inr ⟨m, by rw [List.dropLast_concat, ht]⟩
        split at e
        · split at e
          · cases e; exact hn
          · refine hk _ _ _ ?_ e
            unfold start
            split
            · exact hs.root
            · exact ⟨m, ht⟩
        · exact walkTo_parent hs hk cs _ p hn e

theorem walk_parent {t : LTree} (hs : Sound t) {f : Bool} : ∀ (n : Nat) (cur : Path) (cs : List Bytes) (p : Path), (∃ m, t cur = some (.dir m)) → walk t f n cur cs = .ok p →
    t p ≠ none ∨ ∃ m, t p.dropLast = some (.dir m)
  | 0, cur, cs, p, hc, e => walkTo_parent hs (fun _ _ _ _ e => by cases e) cs cur p (.inl (by obtain ⟨m, h⟩ := hc; simp [h])) e
  | n + 1, cur, cs, p, hc, e => walkTo_parent hs (fun c cs p hc e => walk_parent hs n c cs p hc e) cs cur p (.inl (by obtain ⟨m, h⟩ := hc; simp [h])) e

/-- What a name stands for is in a directory, also if it is not there. -/
theorem resolve_parent {t : LTree} (hs : Sound t) {f : Bool} {cwd p : Path} {s : Bytes} (hc : ∃ m, t cwd = some (.dir m)) (e : t.resolve f cwd s = .ok p) : ∃ m, t p.dropLast = some (.dir m) := by
  have : t p ≠ none ∨ ∃ m, t p.dropLast = some (.dir m) := by
    cases s with
    | nil => cases e
    | cons c s =>
      refine walk_parent hs 40 _ _ _ ?_ e
      split
      · exact hs.root
      · exact hc
  rcases this with h | h
  · cases hp : t p with
    | none => exact (h hp).elim
    | some n => exact hs.parent _ _ hp
  · exact h

theorem sound_set {t : LTree} (hs : Sound t) {p : Path} {n : LNode} (hd : ∀ m, t p ≠ some (.dir m)) (hp : ∃ m, t p.dropLast = some (.dir m)) : Sound (t.set p n) := by
  have hkeep : ∀ q, (∃ m, t q = some (.dir m)) → ∃ m, (t.set p n) q = some (.dir m) := by
    rintro q ⟨m, hq⟩
    have : q ≠ p := by rintro rfl; exact hd _ hq
    exact ⟨m, by rw [set_ne this, hq]⟩
  refine ⟨hkeep _ hs.root, fun q x hq => ?_⟩
  by_cases e : q = p
  · subst e; exact hkeep _ hp
  · rw [set_ne e] at hq
    exact hkeep _ (hs.parent _ _ hq)

theorem sound_touch {t : LTree} (hs : Sound t) (p : Path) (now : Nat) : Sound (t.touch p now) := by
  refine ⟨(let ⟨_, h⟩ := hs.root; touch_dir h), fun q x hq => ?_⟩
  have : ∃ y, t q = some y := by
    unfold touch at hq
    split at hq
    · obtain ⟨y, hy, -⟩ := Option.map_eq_some_iff.1 hq
      exact ⟨y, hy⟩
    · exact ⟨x, hq⟩
  obtain ⟨y, hy⟩ := this
  obtain ⟨m, hm⟩ := hs.parent _ _ hy
  exact touch_dir hm

theorem sound_mkdirs {d : LDeny} {cwd : Path} {now : Nat} : ∀ (bits : List Bytes) (accum : Bytes) (t : LTree), Sound t → (∃ m, t cwd = some (.dir m)) → Sound (lmkdirs d cwd now bits accum t).1
  | [], _, t, hs, _ => hs
  | bit :: bits, accum, t, hs, hc => by
    unfold lmkdirs
    split
    · exact hs
    · rename_i t' h
      refine sound_mkdirs bits _ t' ?_ (let ⟨_, hm⟩ := hc; (mkdir_grown h).dirs _ _ hm)
      unfold mkdir at h
      split at h
      · cases h
      · rename_i p hp
        split at h
        · cases h; exact hs
        · rename_i hn
          split at h
          · cases h
          · cases h
            exact sound_touch (sound_set hs (by simp [hn]) (resolve_parent hs hc hp)) _ _

end LTree

/-- Copying what leads to a file keeps everything in a directory. -/
theorem copied_sound {e : LInstEnv} {key val c : Bytes} {b : Bool} {now : Nat} {t t' : LTree} (h : linstallSingle e key val b now t = .copied t') (hr : t.Reads e.cwd (cstr key) c)
    (hs : Sound t) (hc : ∃ m, t e.cwd = some (.dir m)) : Sound t' ∧ ∃ m, t' e.cwd = some (.dir m) := by
  obtain ⟨t1, ht1, hcp⟩ := linstallSingle_copied h
  have hg : Grown t t1 := ht1 ▸ lmkdirs_grown _ _ _
  have hs1 : Sound t1 := ht1 ▸ sound_mkdirs _ _ _ hs hc
  have hc1 : ∃ m, t1 e.cwd = some (.dir m) := let ⟨_, hm⟩ := hc; hg.dirs _ _ hm
  obtain ⟨real, n, own, l, p, h1, h2, h3, h4⟩ := lcopy_true hcp
  obtain ⟨p0, m0, hr0⟩ := hr
  rw [hg.stat_file hr0] at h1
  cases h1
  have hplace : ∃ m, t1 (cpPlace t1 e.cwd own (e.pre ++ b!"/" ++ cstr val) p).1.dropLast = some (.dir m) := by
    unfold cpPlace
    split
    · rename_i q m hq
      exact ⟨m, by rw [List.dropLast_concat]; exact (stat_ok.1 hq).2⟩
    · exact resolve_parent hs1 hc1 h3
  have hset : ∀ q x, (∀ m, t1 q ≠ some (.dir m)) → (∃ m, t1 q.dropLast = some (.dir m)) → ∀ r, (Sound (t1.set q x) ∧ ∃ m, (t1.set q x) e.cwd = some (.dir m)) ∧
      Sound ((t1.set q x).touch r now) ∧ ∃ m, ((t1.set q x).touch r now) e.cwd = some (.dir m) := by
    intro q x hq hqp r
    have hcw : ∃ m, (t1.set q x) e.cwd = some (.dir m) := by
      obtain ⟨m, hm⟩ := hc1
      have : e.cwd ≠ q := by rintro rfl; exact hq _ hm
      exact ⟨m, by rw [set_ne this, hm]⟩
    exact ⟨⟨sound_set hs1 hq hqp, hcw⟩, sound_touch (sound_set hs1 hq hqp) _ _, let ⟨_, hm⟩ := hcw; touch_dir hm⟩
  have hfile : lcpFile t1 c own (cpPlace t1 e.cwd own (e.pre ++ b!"/" ++ cstr val) p).1 (cpPlace t1 e.cwd own (e.pre ++ b!"/" ++ cstr val) p).2 now = some t' →
      Sound t' ∧ ∃ m, t' e.cwd = some (.dir m) := by
    intro h5
    unfold lcpFile at h5
    split at h5
    · rename_i hn
      cases h5
      exact (hset _ _ (fun m => by rw [hn]; simp) hplace _).2
    · cases h5
    · rename_i hn
      split at h5
      · cases h5
      · cases h5
        exact (hset _ _ (fun m => by rw [hn]; simp) hplace []).1
    · split at h5
      · cases h5
      · split at h5
        · rename_i hn
          split at h5
          · cases h5
          · cases h5
            exact (hset _ _ (by simp [hn]) (hs1.parent _ _ hn) []).1
        · cases h5
  cases l with
  | link target ml =>
    have h5 : lcpLink t1 target own (cpPlace t1 e.cwd own (e.pre ++ b!"/" ++ cstr val) p).1 now = some t' := h4
    unfold lcpLink at h5
    split at h5
    · cases h5
    · rename_i hnd
      split at h5
      · cases h5
      · cases h5
        exact (hset _ _ (fun m hm => hnd m hm) hplace _).2
  | file _ _ => exact hfile h4
  | dir _ => exact hfile h4

/-- A library is installed in a directory as `name`; then a link to `name` is installed beside it.  Reading the link gives the library. -/
theorem C126_link_after {e : LInstEnv} {key val dir name a c c' : Bytes} {b : Bool} {now : Nat} {t t' t1 : LTree} (hn : Plain name) (ha : Plain a) (hne : a ≠ name)
    (hlib : t.IsFile e.cwd (e.pre ++ b!"/" ++ (dir ++ b!"/" ++ name)) c) (hv : cstr val = dir ++ b!"/" ++ a) (h : linstallSingle e key val b now t = .copied t')
    (hr : t.Reads e.cwd (cstr key) c') (hk : ∃ d, t.IsLink e.cwd (cstr key) name d) (ht1 : t1 = (lmkdirs e.deny e.cwd now (destBits (cstr val)) e.pre t).1)
    (hd : ¬ t1.LeadsToDir e.cwd (e.pre ++ b!"/" ++ cstr val)) (ho : ∀ l d, t1.IsLink e.cwd (e.pre ++ b!"/" ++ cstr val) l d → l = name)
    (hs : Sound t) (hc : ∃ m, t e.cwd = some (.dir m)) (hloop : t'.stat true e.cwd (e.pre ++ b!"/" ++ cstr val) ≠ .error .loop) :
    t'.Reads e.cwd (e.pre ++ b!"/" ++ cstr val) c := by
  obtain ⟨p, hp, hst, hrest, -⟩ := link_copied h hr hk ht1 hd ho
  obtain ⟨hs, hc⟩ := copied_sound h hr hs hc
  have hg : Grown t t1 := ht1 ▸ lmkdirs_grown _ _ _
  obtain ⟨q, mq, hq⟩ := hlib
  obtain ⟨hqa, hqb⟩ := stat_ok.1 (hg.stat_file hq)
  have hp' : t1.resolve false e.cwd ((e.pre ++ b!"/" ++ dir) ++ b!"/" ++ a) = .ok p := by rw [← hp, hv]; simp only [List.append_assoc]
  have hqa' : t1.resolve false e.cwd ((e.pre ++ b!"/" ++ dir) ++ b!"/" ++ name) = .ok q := by rw [← hqa]; simp only [List.append_assoc]
  obtain ⟨d, m, rfl, hdm, hd2⟩ := resolve_last ha hn hp'
  rw [hqa'] at hd2
  cases hd2
  obtain ⟨hsa, hsb⟩ := stat_ok.1 hst
  have hf := hrest (d ++ [name]) c mq (by simpa using fun h => hne h.symm) hqb
  obtain ⟨m', hm'⟩ := hs.parent _ _ hsb
  rw [List.dropLast_concat] at hm'
  rcases resolve_beside hs hn hc hm' hsb hf hsa with h1 | h1
  · exact ⟨_, _, stat_ok.2 ⟨h1, hf⟩⟩
  · exact (hloop (by unfold LTree.stat; rw [h1])).elim

/-- The other way round: the link is there, leading nowhere, and then the library is installed. -/
theorem C126_link_before {e : LInstEnv} {key val dir name a c : Bytes} {b : Bool} {now : Nat} {t t' : LTree} (hn : Plain name) (ha : Plain a)
    (hl : ∃ d, t.IsLink e.cwd (e.pre ++ b!"/" ++ (dir ++ b!"/" ++ a)) name d) (hv : cstr val = dir ++ b!"/" ++ name) (h : linstallSingle e key val b now t = .copied t')
    (hk : t.IsFile e.cwd (cstr key) c) (hd : ¬ t'.LeadsToDir e.cwd (e.pre ++ b!"/" ++ cstr val)) (hnl : ∀ l d, ¬ t'.IsLink e.cwd (e.pre ++ b!"/" ++ cstr val) l d)
    (hs : Sound t) (hc : ∃ m, t e.cwd = some (.dir m)) (hloop : t'.stat true e.cwd (e.pre ++ b!"/" ++ (dir ++ b!"/" ++ a)) ≠ .error .loop) :
    t'.Reads e.cwd (e.pre ++ b!"/" ++ (dir ++ b!"/" ++ a)) c := by
  have hkr : t.Reads e.cwd (cstr key) c := by
    obtain ⟨q, m, hq⟩ := hk
    obtain ⟨hqa, hqb⟩ := stat_ok.1 hq
    exact ⟨q, m, stat_ok.2 ⟨resolve_end hqa (by simp [hqb]), hqb⟩⟩
  obtain ⟨hs, hc⟩ := copied_sound h hkr hs hc
  obtain ⟨w, mw, hw⟩ := (C125_file_partial h hk hd).1
  obtain ⟨hwa, hwb⟩ := stat_ok.1 hw
  obtain ⟨d0, p, mp, hp, -⟩ := hl
  obtain ⟨hpa, hpb⟩ := stat_ok.1 hp
  obtain ⟨t1, ht1, hcp⟩ := linstallSingle_copied h
  have hg : Grown t t1 := ht1 ▸ lmkdirs_grown _ _ _
  obtain ⟨real, n, own, l, p1, h1, h2, h3, h4⟩ := lcopy_true hcp
  obtain ⟨pk, mk, hk0⟩ := hk
  have hk1 := hg.stat_file hk0
  rw [hk1] at h2
  cases h2
  obtain ⟨hka, hkb⟩ := stat_ok.1 hk1
  rw [stat_ok.2 ⟨resolve_end hka (by simp [hkb]), hkb⟩] at h1
  cases h1
  obtain ⟨hal, -⟩ := lcpFile_some h4 (by simp [hkb])
  have hal' := hg.toAlike.trans hal
  have hpa' : t'.resolve false e.cwd ((e.pre ++ b!"/" ++ dir) ++ b!"/" ++ a) = .ok p := by
    rw [← resolve_alike hal' hpa]; simp only [List.append_assoc]
  obtain ⟨m', hpb'⟩ := hal'.links _ _ _ hpb
  obtain ⟨d, m, rfl, hdm, hd2⟩ := resolve_last ha hn hpa'
  have hd3 : t'.resolve false e.cwd (e.pre ++ b!"/" ++ cstr val) = .ok (d ++ [name]) := by rw [← hd2, hv]; simp only [List.append_assoc]
  have hd4 := resolve_end hd3 (fun l m hlm => hnl l _ ⟨_, m, stat_ok.2 ⟨hd3, hlm⟩, rfl⟩)
  rw [hwa] at hd4
  cases hd4
  rcases resolve_beside hs hn hc hdm hpb' hwb (resolve_alike hal' hpa) with h1 | h1
  · exact ⟨_, _, stat_ok.2 ⟨h1, hwb⟩⟩
  · exact (hloop (by unfold LTree.stat; rw [h1])).elim

end Bob
