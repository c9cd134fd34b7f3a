import Verif.Props.LinksAll
import Verif.Props.LinksAllNone
/-!
# C129: what was copied is there in the end, with symbolic links
-/

namespace Bob

open LTree

theorem isFile_after {t t' : LTree} {cwd : Path} {s : Bytes} (ha : Alike t t') (hf : ∀ q c m, t q = some (.file c m) → ∃ c' m', t' q = some (.file c' m')) (h : ∃ c, t.IsFile cwd s c) : ∃ c, t'.IsFile cwd s c := by
  obtain ⟨c, p, m, hp⟩ := h
  obtain ⟨hpa, hpb⟩ := stat_ok.1 hp
  obtain ⟨c', m', hc⟩ := hf _ _ _ hpb
  exact ⟨c', p, m', stat_ok.2 ⟨resolve_alike ha hpa, hc⟩⟩

/-- Installing files makes no links, and leaves files what they are, if perhaps with other contents. -/
theorem files_all {e : LInstEnv} : ∀ (l : List ((Bytes × Bytes) × Nat)) (t t' : LTree), (∀ x ∈ l, ∃ c, t.IsFile e.cwd (cstr x.1.1) c) → linstallAll e l t = .ok t' →
    Alike t t' ∧ ∀ q c m, t q = some (.file c m) → ∃ c' m', t' q = some (.file c' m')
  | [], t, t', _, h => by
    cases h
    exact ⟨Alike.rfl' t, fun q c m h => ⟨c, m, h⟩⟩
  | ((key, val), now) :: l, t, t', hk, h => by
    obtain ⟨c, hk1⟩ := hk _ List.mem_cons_self
    have hk' : ∀ x ∈ l, ∃ c, t.IsFile e.cwd (cstr x.1.1) c := fun x hx => hk x (List.mem_cons_of_mem _ hx)
    have go : ∀ t2, Alike t t2 → (∀ q c m, t q = some (.file c m) → ∃ c' m', t2 q = some (.file c' m')) → linstallAll e l t2 = .ok t' →
        Alike t t' ∧ ∀ q c m, t q = some (.file c m) → ∃ c' m', t' q = some (.file c' m') := by
      intro t2 ha hf h2
      obtain ⟨ha2, hf2⟩ := files_all l t2 t' (fun x hx => isFile_after ha hf (hk' x hx)) h2
      refine ⟨ha.trans ha2, fun q c m hq => ?_⟩
      obtain ⟨c', m', h'⟩ := hf _ _ _ hq
      exact hf2 _ _ _ h'
    unfold linstallAll at h
    split at h
    · cases h
    · cases h
    · exact files_all l t t' hk' h
    · rename_i t2 h2
      have hg : Grown t t2 := by rw [linstallSingle_already h2]; exact lmkdirs_grown _ _ _
      exact go t2 hg.toAlike (fun q c m hq => ⟨c, m, hg.files _ _ _ hq⟩) h
    · rename_i t2 h2
      obtain ⟨ha, hf, -⟩ := file_copied h2 hk1
      exact go t2 ha hf h

/-- A file that is changed by installing files is, in the end, what a destination leads to. -/
theorem changed_is_destination {e : LInstEnv} {q : Path} {c : Bytes} {m : Nat} {l : List ((Bytes × Bytes) × Nat)} {t t' t'' : LTree} (hk : ∀ x ∈ l, ∃ c, t.IsFile e.cwd (cstr x.1.1) c)
    (h : linstallAll e l t = .ok t') (ha : Alike t' t'') (hq : t q = some (.file c m)) (hd : ∀ x ∈ l, ¬ t''.LeadsToDir e.cwd (e.pre ++ b!"/" ++ cstr x.1.2)) :
    t' q = some (.file c m) ∨ ∃ x ∈ l, t''.resolve true e.cwd (e.pre ++ b!"/" ++ cstr x.1.2) = .ok q := by
  rcases C128_written l t t' h hq with h1 | ⟨before, key, val, now, after, t0, t1, rfl, h2, h3, h4, hw⟩
  · exact .inl h1
  · obtain ⟨ha0, hf0⟩ := files_all before t t0 (fun x hx => hk x (by simp [hx])) h2
    obtain ⟨c1, hkey⟩ := isFile_after ha0 hf0 (hk ((key, val), now) (by simp))
    obtain ⟨ha1, hf1, ham⟩ := file_copied h3 hkey
    have hal := ha0.trans ha1
    obtain ⟨ha2, -⟩ := files_all after t1 t' (fun x hx => isFile_after hal (fun q c m hq => by obtain ⟨c', m', h'⟩ := hf0 _ _ _ hq; exact hf1 _ _ _ h') (hk x (by simp [hx]))) h4
    have hfin := (ham.trans ha2).trans ha
    have hg : Grown t0 (lmkdirs e.deny e.cwd now (destBits (cstr val)) e.pre t0).1 := lmkdirs_grown _ _ _
    refine .inr ⟨((key, val), now), by simp, ?_⟩
    have hdir : ∀ d m, (lmkdirs e.deny e.cwd now (destBits (cstr val)) e.pre t0).1.stat true e.cwd (e.pre ++ b!"/" ++ cstr val) ≠ .ok (d, .dir m) := by
      intro d m hdm
      obtain ⟨hda, hdb⟩ := stat_ok.1 hdm
      obtain ⟨m', hm'⟩ := hfin.dirs _ _ hdb
      exact hd ((key, val), now) (by simp) ⟨d, m', stat_ok.2 ⟨resolve_alike hfin hda, hm'⟩⟩
    cases hw with
    | itself hx =>
      obtain ⟨c', m', hq0⟩ := hf0 _ _ _ hq
      refine resolve_alike hfin (resolve_end hx fun l m => ?_)
      rw [hg.files _ _ _ hq0]
      simp
    | through hx => exact resolve_alike hfin hx
    | below p hx _ _ =>
      obtain ⟨p0, m0, hp0⟩ := hkey
      obtain ⟨hpa, hpb⟩ := stat_ok.1 (hg.stat_file hp0)
      have hst := stat_ok.2 ⟨resolve_end hpa (by simp [hpb]), hpb⟩
      obtain ⟨p1, m1, hp1⟩ := hx
      rw [hst] at hp1
      cases hp1
    | inside d own m l hx _ _ => exact (hdir _ _ hx).elim

/-- **C129**, partial: all keys are files, no destination is a directory, and in the end no two destinations lead to the same file, nor one to a key.  Then whatever was copied reads as its key in
the end, and the key as it did in the beginning. -/
theorem C129_copies_partial {e : LInstEnv} {before after : List ((Bytes × Bytes) × Nat)} {key val c : Bytes} {now : Nat} {t t0 t1 t' : LTree}
    (hk : ∀ x ∈ before ++ ((key, val), now) :: after, ∃ c, t.IsFile e.cwd (cstr x.1.1) c) (h0 : linstallAll e before t = .ok t0) (h1 : linstallSingle e key val false now t0 = .copied t1)
    (h2 : linstallAll e after t1 = .ok t') (hc : t.IsFile e.cwd (cstr key) c)
    (hd : ∀ x ∈ before ++ ((key, val), now) :: after, ¬ t'.LeadsToDir e.cwd (e.pre ++ b!"/" ++ cstr x.1.2))
    (hne : ∀ x ∈ after, ∀ q, t'.resolve true e.cwd (e.pre ++ b!"/" ++ cstr val) = .ok q → t'.resolve true e.cwd (e.pre ++ b!"/" ++ cstr x.1.2) ≠ .ok q)
    (hkey : ∀ x ∈ before ++ ((key, val), now) :: after, ∀ q, t'.resolve true e.cwd (cstr key) = .ok q → t'.resolve true e.cwd (e.pre ++ b!"/" ++ cstr x.1.2) ≠ .ok q) :
    t'.Reads e.cwd (e.pre ++ b!"/" ++ cstr val) c ∧ t'.Reads e.cwd (cstr key) c := by
  obtain ⟨ha0, hf0⟩ := files_all before t t0 (fun x hx => hk x (by simp [hx])) h0
  obtain ⟨c1, hk0⟩ := isFile_after ha0 hf0 (hk ((key, val), now) (by simp))
  obtain ⟨ha1, hf1, -⟩ := file_copied h1 hk0
  have hkA : ∀ x ∈ after, ∃ c, t1.IsFile e.cwd (cstr x.1.1) c := fun x hx =>
    isFile_after (ha0.trans ha1) (fun q c m hq => by obtain ⟨c', m', h'⟩ := hf0 _ _ _ hq; exact hf1 _ _ _ h') (hk x (by simp [hx]))
  obtain ⟨ha2, hf2⟩ := files_all after t1 t' hkA h2
  obtain ⟨p, m, hp⟩ := hc
  obtain ⟨hpa, hpb⟩ := stat_ok.1 hp
  have hpf : t.resolve true e.cwd (cstr key) = .ok p := resolve_end hpa (by simp [hpb])
  have hpf' : t'.resolve true e.cwd (cstr key) = .ok p := resolve_alike ((ha0.trans ha1).trans ha2) hpf
  have hp0 : t0 p = some (.file c m) := by
    rcases changed_is_destination (fun x hx => hk x (by simp [hx])) h0 (ha1.trans ha2) hpb (fun x hx => hd x (by simp [hx])) with h3 | ⟨x, hx, h3⟩
    · exact h3
    · exact (hkey x (by simp [hx]) p hpf' h3).elim
  have hck : t0.IsFile e.cwd (cstr key) c := ⟨p, m, stat_ok.2 ⟨resolve_alike ha0 hpa, hp0⟩⟩
  have hnd : ¬ t1.LeadsToDir e.cwd (e.pre ++ b!"/" ++ cstr val) := by
    rintro ⟨d, m, hdm⟩
    obtain ⟨hda, hdb⟩ := stat_ok.1 hdm
    obtain ⟨m', hm'⟩ := ha2.dirs _ _ hdb
    exact hd ((key, val), now) (by simp) ⟨d, m', stat_ok.2 ⟨resolve_alike ha2 hda, hm'⟩⟩
  obtain ⟨⟨w, mw, hw⟩, ⟨p1, m1, hp1⟩⟩ := C125_file_partial h1 hck hnd
  have keep : ∀ q m, t1 q = some (.file c m) → (∀ x ∈ after, t'.resolve true e.cwd (e.pre ++ b!"/" ++ cstr x.1.2) ≠ .ok q) → t' q = some (.file c m) := by
    intro q m hq hx
    rcases changed_is_destination hkA h2 (Alike.rfl' t') hq (fun x hx => hd x (by simp [hx])) with h3 | ⟨x, hxa, h3⟩
    · exact h3
    · exact (hx x hxa h3).elim
  obtain ⟨hwa, hwb⟩ := stat_ok.1 hw
  obtain ⟨hp1a, hp1b⟩ := stat_ok.1 hp1
  have hwa' := resolve_alike ha2 hwa
  have hp1a' := resolve_alike ha2 hp1a
  exact ⟨⟨w, mw, stat_ok.2 ⟨hwa', keep w mw hwb fun x hx => hne x hx w hwa'⟩⟩, ⟨p1, m1, stat_ok.2 ⟨hp1a', keep p1 m1 hp1b fun x hx => hkey x (by simp [hx]) p1 hp1a'⟩⟩⟩

end Bob
