import Verif.Lemmas.Links
import Verif.Spec.Links
/-!
# C125: installing and symbolic links
-/

namespace Bob

open LTree

/-- The key is a file and not itself a link (there may be links in its path, and the destination may be one): when it was copied, both read as the key did. -/
theorem C125_file_partial {e : LInstEnv} {key val c : Bytes} {b : Bool} {now : Nat} {t t' : LTree} (h : linstallSingle e key val b now t = .copied t') (hk : t.IsFile e.cwd (cstr key) c)
    (hd : ¬ t'.LeadsToDir e.cwd (e.pre ++ b!"/" ++ cstr val)) : t'.Reads e.cwd (e.pre ++ b!"/" ++ cstr val) c ∧ t'.Reads e.cwd (cstr key) c := by
  obtain ⟨t1, ht1, hc⟩ := linstallSingle_copied h
  have hg : Grown t t1 := ht1 ▸ lmkdirs_grown _ _ _
  obtain ⟨real, n, own, l, p, h1, h2, h3, h4⟩ := lcopy_true hc
  obtain ⟨p0, m0, hk0⟩ := hk
  have hk1 := hg.stat_file hk0
  rw [hk1] at h2
  cases h2
  obtain ⟨hka, hkb⟩ := stat_ok.1 hk1
  have hk2 : t1.stat true e.cwd (cstr key) = .ok (own, .file c m0) := stat_ok.2 ⟨resolve_end hka (by simp [hkb]), hkb⟩
  rw [hk2] at h1
  cases h1
  obtain ⟨ha, w, hw, hwc, hwp, hrest⟩ := lcpFile_some h4 (by simp [hkb])
  have hnd : ∀ q m, t1.stat true e.cwd (e.pre ++ b!"/" ++ cstr val) ≠ .ok (q, .dir m) := by
    intro q m hq
    obtain ⟨hqa, hqb⟩ := stat_ok.1 hq
    obtain ⟨m', hm'⟩ := ha.dirs _ _ hqb
    exact hd ⟨q, m', stat_ok.2 ⟨resolve_alike ha hqa, hm'⟩⟩
  rw [cpPlace_not_dir hnd] at hwp
  refine ⟨⟨w, now, stat_ok.2 ⟨?_, hwc⟩⟩, _, m0, stat_ok.2 ⟨resolve_alike ha (stat_ok.1 hk2).1, hrest _ _ _ hw.symm hkb⟩⟩
  rcases hwp with ⟨hwp, hnl⟩ | hwp
  · subst hwp
    exact resolve_alike ha (resolve_end h3 hnl)
  · exact resolve_alike ha hwp

/-- If the destination is a directory, or a link to one, then the file is in the directory it leads to, under its own name. -/
theorem C125_into_directory {e : LInstEnv} {key val c : Bytes} {b : Bool} {now m m0 : Nat} {t t' : LTree} {own q : Path} (h : linstallSingle e key val b now t = .copied t')
    (hk : t.stat false e.cwd (cstr key) = .ok (own, .file c m0)) (hd : t'.stat true e.cwd (e.pre ++ b!"/" ++ cstr val) = .ok (q, .dir m))
    (hn : own.getLastD [] ∉ [[], b!".", b!".."]) : ∃ w m', t'.walk true 40 q [own.getLastD []] = .ok w ∧ t' w = some (.file c m') := by
  obtain ⟨t1, ht1, hc⟩ := linstallSingle_copied h
  have hg : Grown t t1 := ht1 ▸ lmkdirs_grown _ _ _
  obtain ⟨real, n, own', l, p, h1, h2, h3, h4⟩ := lcopy_true hc
  have hk1 := hg.stat_file hk
  rw [hk1] at h2
  cases h2
  obtain ⟨hka, hkb⟩ := stat_ok.1 hk1
  have hk2 : t1.stat true e.cwd (cstr key) = .ok (own, .file c m0) := stat_ok.2 ⟨resolve_end hka (by simp [hkb]), hkb⟩
  rw [hk2] at h1
  cases h1
  obtain ⟨ha, w, hw, hwc, hwp, hrest⟩ := lcpFile_some h4 (by simp [hkb])
  refine ⟨w, now, ?_, hwc⟩
  by_cases hdir : ∀ q m, t1.stat true e.cwd (e.pre ++ b!"/" ++ cstr val) ≠ .ok (q, .dir m)
  · rw [cpPlace_not_dir hdir] at hwp
    have hres : t'.resolve true e.cwd (e.pre ++ b!"/" ++ cstr val) = .ok w := by
      rcases hwp with ⟨hwp, hnl⟩ | hwp
      · subst hwp
        exact resolve_alike ha (resolve_end h3 hnl)
      · exact resolve_alike ha hwp
    rw [stat_ok.2 ⟨hres, hwc⟩] at hd
    cases hd
  · obtain ⟨q', m', hq'⟩ : ∃ q m, t1.stat true e.cwd (e.pre ++ b!"/" ++ cstr val) = .ok (q, .dir m) := Classical.byContradiction fun hx => hdir fun q m hq => hx ⟨q, m, hq⟩
    obtain ⟨hqa, hqb⟩ := stat_ok.1 hq'
    obtain ⟨hda, hdb⟩ := stat_ok.1 hd
    rw [resolve_alike ha hqa] at hda
    cases hda
    have hpl : cpPlace t1 e.cwd own (e.pre ++ b!"/" ++ cstr val) p = (q ++ [own.getLastD []], t1.walk true 40 q [own.getLastD []]) := by
      unfold cpPlace
      rw [hq']
    rw [hpl] at hwp
    rcases hwp with ⟨hwp, -⟩ | hwp
    · subst hwp
      simp only [List.mem_cons, List.not_mem_nil, or_false, not_or] at hn
      rw [walk, walkTo, hdb]
      simp only
      rw [if_neg (by simp only [not_or]; exact ⟨hn.1, hn.2.1⟩), if_neg hn.2.2, hwc]
      rfl
    · exact walk_alike ha _ _ _ _ hwp

/-- What is at the name of a directory that is to be made is left as it is, also a link that leads nowhere: nothing is made where it leads to. -/
theorem C125_mkdir {t : LTree} {d : LDeny} {cwd p : Path} {now : Nat} {s : Bytes} {n : LNode} (h : t.stat false cwd s = .ok (p, n)) : t.mkdir d cwd now s = some t := by
  obtain ⟨ha, hb⟩ := stat_ok.1 h
  unfold LTree.mkdir
  simp only [ha, hb]

/-- What copying a link does. -/
theorem link_copied {e : LInstEnv} {key val target c : Bytes} {b : Bool} {now : Nat} {t t' t1 : LTree} (h : linstallSingle e key val b now t = .copied t') (hr : t.Reads e.cwd (cstr key) c)
    (hk : ∃ d, t.IsLink e.cwd (cstr key) target d) (ht1 : t1 = (lmkdirs e.deny e.cwd now (destBits (cstr val)) e.pre t).1)
    (hd : ¬ t1.LeadsToDir e.cwd (e.pre ++ b!"/" ++ cstr val)) (ho : ∀ l d, t1.IsLink e.cwd (e.pre ++ b!"/" ++ cstr val) l d → l = target) :
    ∃ p, t1.resolve false e.cwd (e.pre ++ b!"/" ++ cstr val) = .ok p ∧ t'.stat false e.cwd (e.pre ++ b!"/" ++ cstr val) = .ok (p, .link target now) ∧
      (∀ q c m, q ≠ p → t1 q = some (.file c m) → t' q = some (.file c m)) ∧ (∀ s q, t1.resolve false e.cwd s = .ok q → t'.resolve false e.cwd s = .ok q) ∧
      ∀ q, t1 q ≠ none → t' q ≠ none := by
  obtain ⟨t2, ht2, hc⟩ := linstallSingle_copied h
  rw [← ht1] at ht2
  subst ht2
  have hg : Grown t t2 := ht1 ▸ lmkdirs_grown _ _ _
  obtain ⟨real, n, own, l, p, h1, h2, h3, h4⟩ := lcopy_true hc
  obtain ⟨p0, m0, hr0⟩ := hr
  rw [hg.stat_file hr0] at h1
  cases h1
  obtain ⟨d, q0, mq, hk0, _⟩ := hk
  obtain ⟨hka, hkb⟩ := stat_ok.1 hk0
  obtain ⟨mq', hkb'⟩ := hg.links _ _ _ hkb
  rw [stat_ok.2 ⟨resolve_alike hg.toAlike hka, hkb'⟩] at h2
  cases h2
  have h5 : lcpLink t2 target own (cpPlace t2 e.cwd own (e.pre ++ b!"/" ++ cstr val) p).1 now = some t' := h4
  rw [cpPlace_not_dir fun q m hq => hd ⟨q, m, hq⟩] at h5
  unfold lcpLink at h5
  refine ⟨p, h3, ?_⟩
  split at h5
  · cases h5
  · rename_i hnd
    split at h5
    · cases h5
    · cases h5
      suffices hres : ∀ s q, t2.resolve false e.cwd s = .ok q → (t2.set p (.link target now)).resolve false e.cwd s = .ok q by
        refine ⟨stat_ok.2 ⟨resolve_alike (touch_grown _ _ _).toAlike (hres _ _ h3), touch_link.2 (set_self ..)⟩, fun q c m hq e => touch_file.2 (by rw [set_ne hq, e]),
          fun s q hq => resolve_alike (touch_grown _ _ _).toAlike (hres _ _ hq), fun q hq => ?_⟩
        unfold LTree.touch LTree.set
        split <;> split <;> simp [hq]
      intro s q3 h3'
      by_cases hl : ∀ l m, t2 p ≠ some (.link l m)
      · exact resolve_fresh (fun m hm => hnd m hm) hl h3'
      · obtain ⟨l, m, hlm⟩ : ∃ l m, t2 p = some (.link l m) := Classical.byContradiction fun hx => hl fun l m hlm => hx ⟨l, m, hlm⟩
        have := ho l p.dropLast ⟨p, m, stat_ok.2 ⟨h3, hlm⟩, rfl⟩
        subst this
        refine resolve_alike ⟨fun q m' hq => ⟨m', ?_⟩, fun q l' m' hq => ?_, fun q l' m' hq => ?_⟩ h3'
        · have : q ≠ p := by rintro rfl; rw [hlm] at hq; cases hq
          rw [set_ne this, hq]
        · by_cases hqp : q = p
          · subst hqp
            rw [hlm] at hq
            cases hq
            exact ⟨now, set_self ..⟩
          · exact ⟨m', by rw [set_ne hqp, hq]⟩
        · by_cases hqp : q = p
          · subst hqp
            rw [set_self] at hq
            cases hq
            exact ⟨m, hlm⟩
          · exact ⟨m', by rw [set_ne hqp] at hq; exact hq⟩

/-- The key leads to a file and is itself a link; with its directories made, the destination is not a directory, nor a link to somewhere else.  Then the destination becomes a link
with the same target: that is not looked for where it was. -/
theorem C125_link {e : LInstEnv} {key val target c : Bytes} {b : Bool} {now : Nat} {t t' t1 : LTree} (h : linstallSingle e key val b now t = .copied t') (hr : t.Reads e.cwd (cstr key) c)
    (hk : ∃ d, t.IsLink e.cwd (cstr key) target d) (ht1 : t1 = (lmkdirs e.deny e.cwd now (destBits (cstr val)) e.pre t).1)
    (hd : ¬ t1.LeadsToDir e.cwd (e.pre ++ b!"/" ++ cstr val)) (ho : ∀ l d, t1.IsLink e.cwd (e.pre ++ b!"/" ++ cstr val) l d → l = target) :
    ∃ d, t'.IsLink e.cwd (e.pre ++ b!"/" ++ cstr val) target d := by
  obtain ⟨p, -, h2, -⟩ := link_copied h hr hk ht1 hd ho
  exact ⟨p.dropLast, p, now, h2, rfl⟩

/-- Two links with the same target read the same, if both can be read, and if the target is absolute or they are in the same directory. -/
theorem C125_same_target {t : LTree} (hs : Sound t) {cwd : Path} (hc : ∃ m, t cwd = some (.dir m)) {s s' target c c' : Bytes} {d d' : Path} (hl : t.IsLink cwd s target d)
    (hl' : t.IsLink cwd s' target d') (hd : target.head? = some SLASH ∨ d = d') (hr : t.Reads cwd s c) (hr' : t.Reads cwd s' c') : c = c' := by
  obtain ⟨p, m, hp, rfl⟩ := hl
  obtain ⟨p', m', hp', rfl⟩ := hl'
  obtain ⟨q, n, hq⟩ := hr
  obtain ⟨q', n', hq'⟩ := hr'
  have e := resolve_link hs hc (stat_ok.1 hp).2 (stat_ok.1 hp).1 (stat_ok.1 hq).1
  have e' := resolve_link hs hc (stat_ok.1 hp').2 (stat_ok.1 hp').1 (stat_ok.1 hq').1
  have hst : start p.dropLast target = start p'.dropLast target := by
    unfold start
    split
    · rfl
    · rename_i hn
      exact hd.resolve_left hn
  rw [hst, e'] at e
  cases e
  have := (stat_ok.1 hq).2
  rw [(stat_ok.1 hq').2] at this
  cases this
  rfl

/-- So a link with an absolute target that was installed reads as the key, if both are links that can be read afterwards. -/
theorem C125_absolute_partial {e : LInstEnv} {key val target c c' c'' : Bytes} {b : Bool} {now : Nat} {t t' t1 : LTree} (h : linstallSingle e key val b now t = .copied t')
    (hr : t.Reads e.cwd (cstr key) c) (hk : ∃ d, t.IsLink e.cwd (cstr key) target d) (ht1 : t1 = (lmkdirs e.deny e.cwd now (destBits (cstr val)) e.pre t).1)
    (hd : ¬ t1.LeadsToDir e.cwd (e.pre ++ b!"/" ++ cstr val)) (ho : ∀ l d, t1.IsLink e.cwd (e.pre ++ b!"/" ++ cstr val) l d → l = target) (ha : target.head? = some SLASH)
    (hs : Sound t') (hc : ∃ m, t' e.cwd = some (.dir m)) (hk' : ∃ d, t'.IsLink e.cwd (cstr key) target d) (hr' : t'.Reads e.cwd (cstr key) c')
    (hr'' : t'.Reads e.cwd (e.pre ++ b!"/" ++ cstr val) c'') : c' = c'' := by
  obtain ⟨d, hl⟩ := C125_link h hr hk ht1 hd ho
  obtain ⟨d', hl'⟩ := hk'
  exact C125_same_target hs hc hl' hl (.inl ha) hr' hr''

/-- A directory, or a link to one, is copied node by node, with its links as they are, and the destination is a directory, not a link. -/
theorem C125_directory {e : LInstEnv} {key val : Bytes} {b : Bool} {now : Nat} {t t' : LTree} (h : linstallSingle e key val b now t = .copied t') (hk : t.LeadsToDir e.cwd (cstr key)) :
    ∃ real p, (∃ m, t.stat true e.cwd (cstr key) = .ok (real, .dir m)) ∧ t' p = some (.dir now) ∧ (∀ r, t' (p ++ r) = (t' (real ++ r)).map (LNode.stamp now)) ∧
      ∀ r l m, t (real ++ r) = some (.link l m) → ∃ m', t' (p ++ r) = some (.link l m') := by
  obtain ⟨t1, ht1, hc⟩ := linstallSingle_copied h
  have hg : Grown t t1 := ht1 ▸ lmkdirs_grown _ _ _
  obtain ⟨real, n, own, l, p, h1, h2, h3, h4⟩ := lcopy_true hc
  obtain ⟨p0, m0, hk0⟩ := hk
  obtain ⟨hka, hkb⟩ := stat_ok.1 hk0
  obtain ⟨m1, hm1⟩ := hg.dirs _ _ hkb
  rw [stat_ok.2 ⟨resolve_alike hg.toAlike hka, hm1⟩] at h1
  cases h1
  have h5 : lcpDir t1 real p now = some t' := h4
  unfold lcpDir at h5
  split at h5
  · cases h5
  · rename_i hn
    simp only [not_or] at hn
    cases h5
    have hp : p ≠ [] := by rintro rfl; exact hn.2 (List.nil_prefix)
    have hA : ∀ r, p ++ r ≠ p.dropLast := by
      intro r hr
      have := congrArg List.length hr
      have hpos : 0 < p.length := List.length_pos_iff.2 hp
      simp only [List.length_append, List.length_dropLast] at this
      omega
    have hB : ∀ r, real ++ r ≠ p.dropLast := by
      intro r hr
      exact hn.1 ((hr ▸ List.prefix_append real r : real <+: p.dropLast).trans (List.dropLast_prefix p))
    have hC : ∀ r, ¬ (p <+: real ++ r) := by
      intro r hr
      rcases List.prefix_or_prefix_of_prefix hr (List.prefix_append real r) with h | h
      · exact hn.2 h
      · exact hn.1 h
    have hD : ∀ r, LTree.touch (fun q => if p <+: q then (t1 (real ++ q.drop p.length)).map (LNode.stamp now) else t1 q) p.dropLast now (p ++ r) = (t1 (real ++ r)).map (LNode.stamp now) := by
      intro r
      unfold touch
      rw [if_neg (hA r)]
      dsimp only
      rw [if_pos (List.prefix_append p r), List.drop_left]
    refine ⟨real, p, ⟨m0, hk0⟩, ?_, fun r => ?_, fun r l m hr => ?_⟩
    · have := hD []
      rw [List.append_nil, List.append_nil, hm1] at this
      exact this
    · rw [hD]
      unfold touch
      rw [if_neg (hB r)]
      dsimp only
      rw [if_neg (hC r)]
    · obtain ⟨m', hm'⟩ := hg.links _ _ _ hr
      exact ⟨now, by rw [hD, hm']; rfl⟩

/-- "Already installed" is said only if the destination can be reached: a link that leads nowhere is installed again every time. -/
theorem C125_already {e : LInstEnv} {key val : Bytes} {b : Bool} {now : Nat} {t t' : LTree} (h : linstallSingle e key val b now t = .already t') :
    ∃ q n, t'.stat true e.cwd (e.pre ++ b!"/" ++ cstr val) = .ok (q, n) := by
  unfold linstallSingle at h
  dsimp only at h
  split at h
  · cases h
  · split at h
    · cases h
    · split at h
      · cases h
      · split at h
        · cases h
        · split at h
          · cases h
          · rename_i hf
            cases h
            unfold frugalMtime LTree.statRes at hf
            cases hst : t'.stat true e.cwd (e.pre ++ b!"/" ++ cstr val) with
            | ok x => exact ⟨x.1, x.2, rfl⟩
            | error er => rw [hst] at hf; cases er <;> cases hf
          · split at h <;> cases h

/-- Whether something is a product depends on where it leads: a link into the output directory is not installed by `bob install`, and that is no failure. -/
theorem C125_product {e : LInstEnv} {key val : Bytes} {now : Nat} {t : LTree} {p : Path} {n : LNode} (h : t.stat true e.cwd (cstr key) = .ok (p, n)) (hp : e.absOut <+: pathStr p) :
    linstallSingle e key val false now t = .product := by
  unfold linstallSingle
  simp only [h, isCookie, List.isPrefixOf_iff_prefix.2 hp, Bool.not_false, Bool.and_self, if_true]

end Bob
