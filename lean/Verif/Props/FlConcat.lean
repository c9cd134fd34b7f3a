import Verif.Props.FlVec
import Verif.Props.FlAssign
/-!
# Concatenation (C56)
-/

namespace Bob.Fl

mutual

/-- Trees stay when what values hold and the memory of strings stay. -/
theorem shows_of {s s' : St} (hc : ∀ c d, s.Holds c d → s'.Holds c d) (hb : ∀ (b : Nat) (x : Bytes), s.bufs[b]? = some (some x) → s'.bufs[b]? = some (some x)) :
    ∀ {v : Val} {c : Nat}, s.Shows v c → s'.Shows v c
  | .none, c, h => by simp only [St.Shows] at h ⊢; exact hc _ _ h
  | .bool b, c, h => by simp only [St.Shows] at h ⊢; exact hc _ _ h
  | .int i, c, h => by simp only [St.Shows] at h ⊢; exact hc _ _ h
  | .str b, c, h => by
    simp only [St.Shows] at h ⊢
    obtain ⟨buf, full, h1, h2, h3⟩ := h
    exact ⟨buf, full, hc _ _ h1, hb _ _ h2, h3⟩
  | .vec vs, c, h => by
    simp only [St.Shows] at h ⊢
    obtain ⟨es, h1, h2⟩ := h
    exact ⟨es, hc _ _ h1, showsAll_of hc hb h2⟩
  | .map items, c, h => by
    simp only [St.Shows] at h ⊢
    obtain ⟨es, h1, h2⟩ := h
    exact ⟨es, hc _ _ h1, showsItems_of hc hb h2⟩

theorem showsAll_of {s s' : St} (hc : ∀ c d, s.Holds c d → s'.Holds c d) (hb : ∀ (b : Nat) (x : Bytes), s.bufs[b]? = some (some x) → s'.bufs[b]? = some (some x)) :
    ∀ {vs : List Val} {es : List Nat}, s.ShowsAll vs es → s'.ShowsAll vs es
  | [], [], _ => by simp only [St.ShowsAll]
  | v :: vs, e :: es, h => by
    simp only [St.ShowsAll] at h ⊢
    exact ⟨shows_of hc hb h.1, showsAll_of hc hb h.2⟩
  | [], _ :: _, h => by simp only [St.ShowsAll] at h
  | _ :: _, [], h => by simp only [St.ShowsAll] at h

theorem showsItems_of {s s' : St} (hc : ∀ c d, s.Holds c d → s'.Holds c d) (hb : ∀ (b : Nat) (x : Bytes), s.bufs[b]? = some (some x) → s'.bufs[b]? = some (some x)) :
    ∀ {vs : List (Val × Val)} {es : List (Nat × Nat)}, s.ShowsItems vs es → s'.ShowsItems vs es
  | [], [], _ => by simp only [St.ShowsItems]
  | (k, v) :: vs, e :: es, h => by
    simp only [St.ShowsItems] at h ⊢
    exact ⟨shows_of hc hb h.1, shows_of hc hb h.2.1, showsItems_of hc hb h.2.2⟩
  | [], _ :: _, h => by simp only [St.ShowsItems] at h
  | _ :: _, [], h => by simp only [St.ShowsItems] at h

end

/-- Only the values with addresses below `N`. -/
def St.below (s : St) (N : Nat) : St := { s with cells := s.cells.take N }

/-- New values and new memory for strings, and nothing else. -/
structure Grew (s s' : St) : Prop where
  cells : ∃ cs, s'.cells = s.cells ++ cs
  bufs : ∃ bs, s'.bufs = s.bufs ++ bs

theorem grew_refl (s : St) : Grew s s := ⟨⟨[], by simp⟩, ⟨[], by simp⟩⟩

theorem Grew.trans {s s' s'' : St} (h : Grew s s') (h' : Grew s' s'') : Grew s s'' := by
  obtain ⟨⟨a, ha⟩, b, hb⟩ := h
  obtain ⟨⟨a', ha'⟩, b', hb'⟩ := h'
  exact ⟨⟨a ++ a', by rw [ha', ha, List.append_assoc]⟩, ⟨b ++ b', by rw [hb', hb, List.append_assoc]⟩⟩

theorem getElem?_prefix {l l' : List α} (h : ∃ r, l' = l ++ r) {i : Nat} {a : α} (hi : l[i]? = some a) : l'[i]? = some a := by
  obtain ⟨r, rfl⟩ := h
  rw [List.getElem?_append_left (List.getElem?_eq_some_iff.1 hi).1]
  exact hi

theorem Grew.holds {s s' : St} (h : Grew s s') {c : Nat} {d : Data} (hc : s.Holds c d) : s'.Holds c d := by
  obtain ⟨x, hx, hd⟩ := hc
  exact ⟨x, getElem?_prefix h.cells hx, hd⟩

theorem Grew.shows {s s' : St} (h : Grew s s') {v : Val} {c : Nat} (hv : s.Shows v c) : s'.Shows v c :=
  shows_of (fun _ _ => h.holds) (fun _ _ => getElem?_prefix h.bufs) hv

theorem Grew.showsAll {s s' : St} (h : Grew s s') {v : List Val} {c : List Nat} (hv : s.ShowsAll v c) : s'.ShowsAll v c :=
  showsAll_of (fun _ _ => h.holds) (fun _ _ => getElem?_prefix h.bufs) hv

theorem Grew.showsItems {s s' : St} (h : Grew s s') {v : List (Val × Val)} {c : List (Nat × Nat)} (hv : s.ShowsItems v c) : s'.ShowsItems v c :=
  showsItems_of (fun _ _ => h.holds) (fun _ _ => getElem?_prefix h.bufs) hv

theorem Grew.count {s s' : St} (h : Grew s s') : s.cells.length ≤ s'.cells.length := by
  obtain ⟨cs, h⟩ := h.cells
  rw [h, List.length_append]
  omega

/-- No string with a NUL; only the value itself matters, not what is inside. -/
def Val.Plain : Val → Prop
  | .str b => NUL ∉ b
  | _ => True

theorem cstr_plain : ∀ {b : Bytes}, NUL ∉ b → cstr b = b
  | [], _ => rfl
  | c :: cs, h => by
    have h1 : c ≠ NUL := fun hc => h (by simp [hc])
    have h2 : NUL ∉ cs := fun hc => h (by simp [hc])
    unfold cstr
    rw [if_neg h1, cstr_plain h2]

theorem namesKept_copy {s s' : St} {x : Cell} (h : s.NamesKept) (hc : s'.cells = s.cells ++ [x]) (hk : x.keyIn = none) (hs : s'.scopes = s.scopes) : s'.NamesKept := by
  intro c y hy i sc hi hsc
  rw [hs] at hsc
  rw [hc] at hy
  by_cases hlt : c < s.cells.length
  · rw [List.getElem?_append_left hlt] at hy
    exact h c y hy i sc hi hsc
  · have := List.getElem?_eq_some_iff.1 hy
    have hcl : c = s.cells.length := by
      have := this.1
      simp at this
      omega
    subst hcl
    rw [List.getElem?_concat_length] at hy
    cases hy
    rw [hk] at hi
    cases hi

/-- Copying a value gives a new one with the same tree. -/
theorem copy_shows {s : St} {v : Val} {e : Nat} (h : s.Shows v e) (hp : v.Plain) (hn : s.NamesKept) :
    ∃ s', valCopy e s = .ok s.cells.length s' ∧ s'.Shows v s.cells.length ∧ Grew s s' ∧ s'.cells.length = s.cells.length + 1 ∧ s'.NamesKept := by
  obtain ⟨d, ⟨x, hx, hxd⟩, hk⟩ := shows_kind h
  by_cases hs : v.kind = .str
  · cases v with
    | str b =>
      simp only [St.Shows] at h
      obtain ⟨buf, full, ⟨x', hx', hd⟩, h2, h3⟩ := h
      cases hx.symm.trans hx'
      have hlen := h3.length_le
      refine ⟨_, copied_ok.2 ⟨rfl, x, _, _, hx, hn e x hx, rfl, .inr ⟨buf, b.length, full, hd, h2, .inl hlen, rfl, rfl⟩⟩, ?_, ⟨⟨_, rfl⟩, ⟨_, rfl⟩⟩, by simp,
        namesKept_copy hn rfl rfl rfl⟩
      simp only [St.Shows]
      refine ⟨s.bufs.length, _, ⟨_, List.getElem?_concat_length, rfl⟩, List.getElem?_concat_length, ?_⟩
      obtain ⟨r, rfl⟩ := h3
      rw [List.take_left, cstr_plain hp]
      exact List.prefix_append _ _
    | _ => cases hs
  · have hk' : x.data.kind ≠ .str := by rw [hxd, hk]; exact hs
    refine ⟨_, copied_ok.2 ⟨rfl, x, _, _, hx, hn e x hx, rfl, .inl ⟨hk', rfl, rfl⟩⟩, ?_, ⟨⟨_, rfl⟩, ⟨_, rfl⟩⟩, by simp, namesKept_copy hn rfl rfl rfl⟩
    have hg : Grew s { s with cells := s.cells ++ [{ x with data := x.data, refs := 1, keyIn := none }], bufs := s.bufs ++ [] } := ⟨⟨_, rfl⟩, ⟨_, rfl⟩⟩
    have hnew : ({ s with cells := s.cells ++ [{ x with data := x.data, refs := 1, keyIn := none }], bufs := s.bufs ++ [] } : St).Holds s.cells.length d :=
      ⟨_, List.getElem?_concat_length, hxd⟩
    cases v with
    | str => exact absurd rfl hs
    | vec vs =>
      simp only [St.Shows] at h ⊢
      obtain ⟨es, h1, h2⟩ := h
      cases holds_unique h1 ⟨x, hx, hxd⟩
      exact ⟨es, hnew, hg.showsAll h2⟩
    | map vs =>
      simp only [St.Shows] at h ⊢
      obtain ⟨es, h1, h2⟩ := h
      cases holds_unique h1 ⟨x, hx, hxd⟩
      exact ⟨es, hnew, hg.showsItems h2⟩
    | none =>
      simp only [St.Shows] at h ⊢
      cases holds_unique h ⟨x, hx, hxd⟩
      exact hnew
    | bool =>
      simp only [St.Shows] at h ⊢
      cases holds_unique h ⟨x, hx, hxd⟩
      exact hnew
    | int =>
      simp only [St.Shows] at h ⊢
      cases holds_unique h ⟨x, hx, hxd⟩
      exact hnew

/-- Copying all elements of a vector. -/
theorem copies_show : ∀ {vs : List Val} {es : List Nat} {s : St}, s.ShowsAll vs es → (∀ v ∈ vs, v.Plain) → s.NamesKept →
    ∃ cs s', each valCopy es s = .ok cs s' ∧ s'.ShowsAll vs cs ∧ Grew s s' ∧ (∀ c ∈ cs, s.cells.length ≤ c ∧ c < s'.cells.length) ∧ cs.Nodup ∧ s'.NamesKept
  | [], [], s, _, _, hn => ⟨[], s, rfl, by simp only [St.ShowsAll], grew_refl s, by simp, .nil, hn⟩
  | v :: vs, e :: es, s, h, hp, hn => by
    simp only [St.ShowsAll] at h
    obtain ⟨s1, h1, h2, h3, h4, h5⟩ := copy_shows h.1 (hp v (by simp)) hn
    obtain ⟨cs, s2, g1, g2, g3, g4, g5, g6⟩ := copies_show (h3.showsAll h.2) (fun v hv => hp v (by simp [hv])) h5
    refine ⟨s.cells.length :: cs, s2, ?_, ?_, h3.trans g3, ?_, ?_, g6⟩
    · unfold each
      rw [bind_of_ok h1, bind_of_ok g1]
      rfl
    · simp only [St.ShowsAll]
      exact ⟨g3.shows h2, g2⟩
    · intro c hc
      have := g3.count
      rcases List.mem_cons.1 hc with rfl | hc
      · omega
      · have := g4 c hc
        omega
    · refine List.nodup_cons.2 ⟨fun hm => ?_, g5⟩
      have := (g4 _ hm).1
      omega
  | [], _ :: _, _, h, _, _ => by simp only [St.ShowsAll] at h
  | _ :: _, [], _, h, _, _ => by simp only [St.ShowsAll] at h

/-- Copying all entries of a map. -/
theorem entries_show : ∀ {vs : List (Val × Val)} {es : List (Nat × Nat)} {s : St}, s.ShowsItems vs es → (∀ v ∈ vs, v.1.Plain ∧ v.2.Plain) → s.NamesKept →
    ∃ cs s', each copyEntry es s = .ok cs s' ∧ s'.ShowsItems vs cs ∧ Grew s s' ∧
      (∀ c ∈ cs, (s.cells.length ≤ c.1 ∧ c.1 < s'.cells.length) ∧ s.cells.length ≤ c.2 ∧ c.2 < s'.cells.length) ∧ s'.NamesKept
  | [], [], s, _, _, hn => ⟨[], s, rfl, by simp only [St.ShowsItems], grew_refl s, by simp, hn⟩
  | (k, v) :: vs, e :: es, s, h, hp, hn => by
    simp only [St.ShowsItems] at h
    obtain ⟨hk, hv, h⟩ := h
    have hpp := hp (k, v) (by simp)
    obtain ⟨s0, f1, f2, f3, f4, f5⟩ := copy_shows hk hpp.1 hn
    obtain ⟨s1, h1, h2, h3, h4, h5⟩ := copy_shows (f3.shows hv) hpp.2 f5
    obtain ⟨cs, s2, g1, g2, g3, g4, g5⟩ := entries_show (h3.showsItems (f3.showsItems h)) (fun v hv => hp v (by simp [hv])) h5
    refine ⟨(s.cells.length, s0.cells.length) :: cs, s2, ?_, ?_, f3.trans (h3.trans g3), ?_, g5⟩
    · have hc : copyEntry e s = .ok (s.cells.length, s0.cells.length) s1 := by
        unfold copyEntry
        rw [bind_of_ok f1, bind_of_ok h1]
        rfl
      unfold each
      rw [bind_of_ok hc, bind_of_ok g1]
      rfl
    · simp only [St.ShowsItems]
      exact ⟨g3.shows (h3.shows f2), g3.shows h2, g2⟩
    · intro c hc
      have := g3.count
      rcases List.mem_cons.1 hc with rfl | hc
      · simp only
        omega
      · have := g4 c hc
        omega
  | [], _ :: _, _, h, _, _ => by simp only [St.ShowsItems] at h
  | _ :: _, [], _, h, _, _ => by simp only [St.ShowsItems] at h

/-- References counted, and nothing else different. -/
structure Recounted (s s' : St) : Prop where
  holds : ∀ c d, s'.Holds c d ↔ s.Holds c d
  count : s'.cells.length = s.cells.length
  bufs : s'.bufs = s.bufs

theorem Recounted.trans {s s' s'' : St} (h : Recounted s s') (h' : Recounted s' s'') : Recounted s s'' :=
  ⟨fun c d => (h'.holds c d).trans (h.holds c d), h'.count.trans h.count, h'.bufs.trans h.bufs⟩

theorem dec_recounts (w : World) (n : Nat) {s : St} {c : Nat} {d : Data} (h : s.Holds c d) (hk : d.kind ≠ .str ∧ d.kind ≠ .fn ∧ d.kind ≠ .inst) :
    ∃ s', (interp w (n + 1)).dec c s = .ok () s' ∧ Recounted s s' := by
  obtain ⟨x, hx, rfl⟩ := h
  have hlt := (List.getElem?_eq_some_iff.1 hx).1
  have hrec : ∀ r, Recounted s { s with cells := s.cells.set c { x with refs := r } } := by
    intro r
    refine ⟨fun k d => ?_, by simp, rfl⟩
    unfold St.Holds
    by_cases hck : c = k
    · subst hck
      simp only [List.getElem?_set_self hlt, hx]
      constructor
      · rintro ⟨y, hy, rfl⟩
        cases hy
        exact ⟨x, rfl, rfl⟩
      · rintro ⟨y, hy, rfl⟩
        cases hy
        exact ⟨_, rfl, rfl⟩
    · simp only [List.getElem?_set_ne hck]
  obtain ⟨x', r, hx', -, hd⟩ := dec_plain_eq w n ⟨x, hx, rfl⟩ (by cases hxd : x.data <;> rw [hxd] at hk <;> first | rfl | (simp [Data.kind] at hk))
  cases hx.symm.trans hx'
  exact ⟨_, hd, hrec r⟩

/-- What an operator on two vectors or maps comes to. -/
theorem bin_concat (w : World) (n : Nat) {le re : Expr} {s s1 s2 s3 : St} {l r : Nat} {dl dr d : Data} (hl : (interp w (n + 1)).value le s = .ok l s1)
    (hr : (interp w (n + 1)).value re s1 = .ok r s2) (hdl : s2.Holds l dl) (hdr : s2.Holds r dr) (hk : dl.kind = dr.kind) (hk' : dl.kind = .vec ∨ dl.kind = .map)
    (happ : applyBin w (interp w (n + 1)) .add l r dl dr s2 = .ok s3.cells.length { s3 with cells := s3.cells ++ [{ data := d }] }) (hg : Grew s2 s3) :
    ∃ s', (interp w (n + 2)).eval .keep (.bin .add le re) s = .ok { val := some s3.cells.length } s' ∧
      Recounted { s3 with cells := s3.cells ++ [{ data := d }] } s' := by
  obtain ⟨xl, hxl, rfl⟩ := getCell_holds hdl
  obtain ⟨xr, hxr, rfl⟩ := getCell_holds hdr
  have hne : ∀ {d : Data}, d.kind = .vec ∨ d.kind = .map → d.kind ≠ .str ∧ d.kind ≠ .fn ∧ d.kind ≠ .inst := by
    intro d h
    rcases h with h | h <;> rw [h] <;> simp
  obtain ⟨s4, h4, r4⟩ := dec_recounts w n (holds_append (x := [{ data := d }]) (hg.holds hdl)) (hne hk')
  obtain ⟨s5, h5, r5⟩ := dec_recounts w n ((r4.holds _ _).2 (holds_append (x := [{ data := d }]) (hg.holds hdr))) (hne (hk ▸ hk'))
  refine ⟨s5, ?_, r4.trans r5⟩
  show evalBin w (interp w (n + 1)) .keep .add le re s = _
  unfold evalBin
  rw [bind_of_ok hl, bind_of_ok hr, bind_of_ok hxl, bind_of_ok hxr, if_neg (by simp [hk]), if_neg (by simp), bind_of_ok (show checkDest .keep s2 = .ok () s2 from rfl),
    bind_of_ok happ, bind_of_ok h4, bind_of_ok h5]
  rfl

/-- What the result of a concatenation is: `c` has the tree `v`; all values there were before (addresses below `N`) have the trees they had, in
terms of those values alone. -/
structure Concat (s2 s' : St) (v : Val) (c : Nat) : Prop where
  result : s'.Shows v c
  fresh : s2.cells.length ≤ c
  old : ∀ u a, s2.Shows u a → (s'.below s2.cells.length).Shows u a

theorem concat_of {s2 s3 s' : St} {d : Data} (hg : Grew s2 s3) (hr : Recounted { s3 with cells := s3.cells ++ [{ data := d }] } s') {v : Val}
    (hv : ({ s3 with cells := s3.cells ++ [{ data := d }] } : St).Shows v s3.cells.length) : Concat s2 s' v s3.cells.length := by
  refine ⟨shows_of (fun c d => (hr.holds c d).2) (fun b x h => by rw [hr.bufs]; exact h) hv, hg.count, fun u a hu => ?_⟩
  refine shows_of (fun c d hc => ?_) (fun b x h => ?_) hu
  · obtain ⟨x, hx, hd⟩ := (hr.holds c d).2 (holds_append (hg.holds hc))
    obtain ⟨y, hy, -⟩ := hc
    exact ⟨x, by
      unfold St.below
      simp only
      rw [List.getElem?_take_of_lt (List.getElem?_eq_some_iff.1 hy).1]
      exact hx, hd⟩
  · show s'.bufs[b]? = _
    rw [hr.bufs]
    exact getElem?_prefix hg.bufs h

/-- **C56.** `le + re` on vectors: a new vector with the elements of the first followed by those of the second; its elements are new values, all different; all
there was before stays.  (Not for strings with a NUL, see `C56_nul_false`, nor for values named after a variable that is no more, see `C56_name_false`.) -/
theorem C56_vectors_partial (w : World) (n : Nat) {le re : Expr} {s s1 s2 : St} {l r : Nat} {vs us : List Val} (hl : (interp w (n + 1)).value le s = .ok l s1)
    (hr : (interp w (n + 1)).value re s1 = .ok r s2) (hvs : s2.Shows (.vec vs) l) (hus : s2.Shows (.vec us) r) (hp : ∀ v ∈ vs ++ us, v.Plain)
    (hn : s2.NamesKept) :
    ∃ c s' es, (interp w (n + 2)).eval .keep (.bin .add le re) s = .ok { val := some c } s' ∧ Concat s2 s' (.vec (vs ++ us)) c ∧
      s'.Holds c (.vec es) ∧ es.Nodup ∧ ∀ e ∈ es, s2.cells.length ≤ e := by
  simp only [St.Shows] at hvs hus
  obtain ⟨xs, hxs, hvs⟩ := hvs
  obtain ⟨ys, hys, hus⟩ := hus
  obtain ⟨as, t1, a1, a2, a3, a4, a5, a6⟩ := copies_show hvs (fun v hv => hp v (by simp [hv])) hn
  obtain ⟨bs, t2, b1, b2, b3, b4, b5, -⟩ := copies_show (a3.showsAll hus) (fun v hv => hp v (by simp [hv])) a6
  have hg := a3.trans b3
  obtain ⟨s', h1, h2⟩ := bin_concat w n hl hr hxs hys rfl (.inl rfl) (s3 := t2) (d := .vec (as ++ bs)) (by
    unfold applyBin
    rw [if_neg (by simp [Data.kind])]
    simp only
    rw [if_pos trivial, bind_of_ok a1, bind_of_ok b1]
    rfl) hg
  have happ : ∀ {vs us : List Val} {as bs : List Nat} {s : St}, s.ShowsAll vs as → s.ShowsAll us bs → s.ShowsAll (vs ++ us) (as ++ bs) := by
    intro vs
    induction vs with
    | nil =>
      intro us as bs s h h'
      cases as with
      | nil => exact h'
      | cons => simp only [St.ShowsAll] at h
    | cons v vs ih =>
      intro us as bs s h h'
      cases as with
      | nil => simp only [St.ShowsAll] at h
      | cons a as =>
        simp only [St.ShowsAll, List.cons_append] at h ⊢
        exact ⟨h.1, ih h.2 h'⟩
  have hg2 : Grew t2 { t2 with cells := t2.cells ++ [{ data := .vec (as ++ bs) }] } := ⟨⟨_, rfl⟩, ⟨[], by simp⟩⟩
  refine ⟨_, s', as ++ bs, h1, concat_of hg h2 ?_, (h2.holds _ _).2 (holds_alloc ..), ?_, ?_⟩
  · simp only [St.Shows]
    exact ⟨as ++ bs, holds_alloc .., hg2.showsAll (happ (b3.showsAll a2) b2)⟩
  · refine List.nodup_append.2 ⟨a5, b5, fun a ha b hb hab => ?_⟩
    have h3 := a4 a ha
    have h4 := b4 b hb
    omega
  · intro e he
    have := a3.count
    rcases List.mem_append.1 he with he | he
    · exact (a4 e he).1
    · have := (b4 e he).1
      omega

/-- **C56.** The same for maps.  (The keys are not checked to be different, see C48.) -/
theorem C56_maps_partial (w : World) (n : Nat) {le re : Expr} {s s1 s2 : St} {l r : Nat} {vs us : List (Val × Val)} (hl : (interp w (n + 1)).value le s = .ok l s1)
    (hr : (interp w (n + 1)).value re s1 = .ok r s2) (hvs : s2.Shows (.map vs) l) (hus : s2.Shows (.map us) r) (hp : ∀ v ∈ vs ++ us, v.1.Plain ∧ v.2.Plain)
    (hn : s2.NamesKept) :
    ∃ c s' es, (interp w (n + 2)).eval .keep (.bin .add le re) s = .ok { val := some c } s' ∧ Concat s2 s' (.map (vs ++ us)) c ∧
      s'.Holds c (.map es) ∧ ∀ e ∈ es, s2.cells.length ≤ e.1 ∧ s2.cells.length ≤ e.2 := by
  simp only [St.Shows] at hvs hus
  obtain ⟨xs, hxs, hvs⟩ := hvs
  obtain ⟨ys, hys, hus⟩ := hus
  obtain ⟨as, t1, a1, a2, a3, a4, a6⟩ := entries_show hvs (fun v hv => hp v (by simp [hv])) hn
  obtain ⟨bs, t2, b1, b2, b3, b4, -⟩ := entries_show (a3.showsItems hus) (fun v hv => hp v (by simp [hv])) a6
  have hg := a3.trans b3
  obtain ⟨s', h1, h2⟩ := bin_concat w n hl hr hxs hys rfl (.inr rfl) (s3 := t2) (d := .map (as ++ bs)) (by
    unfold applyBin
    rw [if_neg (by simp [Data.kind])]
    simp only
    rw [if_pos trivial, bind_of_ok a1, bind_of_ok b1]
    rfl) hg
  have happ : ∀ {vs us : List (Val × Val)} {as bs : List (Nat × Nat)} {s : St}, s.ShowsItems vs as → s.ShowsItems us bs → s.ShowsItems (vs ++ us) (as ++ bs) := by
    intro vs
    induction vs with
    | nil =>
      intro us as bs s h h'
      cases as with
      | nil => exact h'
      | cons => simp only [St.ShowsItems] at h
    | cons v vs ih =>
      intro us as bs s h h'
      cases as with
      | nil => simp only [St.ShowsItems] at h
      | cons a as =>
        simp only [St.ShowsItems, List.cons_append] at h ⊢
        exact ⟨h.1, h.2.1, ih h.2.2 h'⟩
  have hg2 : Grew t2 { t2 with cells := t2.cells ++ [{ data := .map (as ++ bs) }] } := ⟨⟨_, rfl⟩, ⟨[], by simp⟩⟩
  refine ⟨_, s', as ++ bs, h1, concat_of hg h2 ?_, (h2.holds _ _).2 (holds_alloc ..), ?_⟩
  · simp only [St.Shows]
    exact ⟨as ++ bs, holds_alloc .., hg2.showsItems (happ (b3.showsItems a2) b2)⟩
  · intro e he
    have := a3.count
    rcases List.mem_append.1 he with he | he
    · have := a4 e he
      omega
    · have := b4 e he
      omega

/-- Giving up a reference to a string. -/
theorem dec_str (w : World) (n : Nat) {s : St} {c buf size : Nat} {x : Cell} {full : Bytes} (hx : s.cells[c]? = some x) (hd : x.data = .str buf size) (hb : s.bufs[buf]? = some (some full)) :
    ∃ r, (x.refs ≠ 0 → r = x.refs - 1) ∧ (interp w (n + 1)).dec c s = .ok () { s with
      cells := s.cells.set c { x with refs := r }
      bufs := if x.refs = 1 then s.bufs.set buf none else s.bufs } := by
  refine ⟨if x.refs = 0 then 18446744073709551615 else x.refs - 1, fun h => by rw [if_neg h], ?_⟩
  have hlt := (List.getElem?_eq_some_iff.1 hx).1
  show stepDec (interp w n).dec c s = _
  unfold stepDec
  rw [bind_of_ok ((getCell_ok_iff ..).2 ⟨hx, rfl⟩)]
  rw [bind_of_ok (setCell_apply ..)]
  by_cases h1 : x.refs = 1
  · rw [if_pos h1, h1]
    show freeVal (interp w n).dec c { s with cells := s.cells.set c { x with refs := 0 } } = _
    unfold freeVal
    rw [bind_of_ok ((getCell_ok_iff ..).2 ⟨List.getElem?_set_self hlt, rfl⟩)]
    simp only
    rw [hd]
    show freeBuf buf _ = _
    unfold freeBuf
    rw [bind_of_ok (get_apply _), hb]
    rfl
  · rw [if_neg h1, if_neg (by split <;> omega)]
    rfl

/-- **C56.** `le + re` on strings: a new string of the bytes of the first followed by those of the second, in memory of its own.  Of the operands, those stay to which there
is another reference.  (Strings do not share their memory, and if both are the same value it has a reference for each.) -/
theorem C56_strings (w : World) (n : Nat) {le re : Expr} {s s1 s2 : St} {l r bl br : Nat} {x y : Cell} {a b fa fb : Bytes} (hl : (interp w (n + 1)).value le s = .ok l s1)
    (hr : (interp w (n + 1)).value re s1 = .ok r s2) (hx : s2.cells[l]? = some x) (hxd : x.data = .str bl a.length) (hfa : s2.bufs[bl]? = some (some fa)) (ha : a <+: fa)
    (hy : s2.cells[r]? = some y) (hyd : y.data = .str br b.length) (hfb : s2.bufs[br]? = some (some fb)) (hb : b <+: fb) (hown : bl = br → l = r) (htwo : l = r → 2 ≤ x.refs) :
    ∃ c s', (interp w (n + 2)).eval .keep (.bin .add le re) s = .ok { val := some c } s' ∧ s'.Shows (.str (a ++ b)) c ∧ s2.cells.length ≤ c ∧
      (∀ k d, s2.Holds k d → s'.Holds k d) ∧ (∀ (k : Nat) (t : Bytes), k ≠ bl → k ≠ br → s2.bufs[k]? = some (some t) → s'.bufs[k]? = some (some t)) ∧
      (l ≠ r → x.refs ≠ 1 → s'.Shows (.str a) l) ∧ (l ≠ r → y.refs ≠ 1 → s'.Shows (.str b) r) ∧ (l = r → x.refs ≠ 2 → s'.Shows (.str a) l) := by
  have hll := (List.getElem?_eq_some_iff.1 hx).1
  have hrl := (List.getElem?_eq_some_iff.1 hy).1
  have hbl := (List.getElem?_eq_some_iff.1 hfa).1
  have hbr := (List.getElem?_eq_some_iff.1 hfb).1
  obtain ⟨t, ht⟩ : ∃ t : St, t = { s2 with cells := s2.cells ++ [{ data := .str s2.bufs.length (a ++ b).length }], bufs := s2.bufs ++ [some (a ++ b)] } := ⟨_, rfl⟩
  have happ : applyBin w (interp w (n + 1)) .add l r (.str bl a.length) (.str br b.length) s2 = .ok s2.cells.length t := by
    unfold applyBin
    rw [if_neg (by simp [Data.kind])]
    simp only
    rw [if_pos trivial, bind_of_ok (readBuf_some hfa ha), bind_of_ok (readBuf_some hfb hb), ht]
    rfl
  have hgrew : Grew s2 t := by rw [ht]; exact ⟨⟨_, rfl⟩, ⟨_, rfl⟩⟩
  obtain ⟨r1, hr1, hdec1⟩ := dec_str w n (getElem?_prefix hgrew.cells hx) hxd (getElem?_prefix hgrew.bufs hfa)
  obtain ⟨t1, ht1⟩ : ∃ t1 : St, t1 = { t with
      cells := t.cells.set l { x with refs := r1 }
      bufs := if x.refs = 1 then t.bufs.set bl none else t.bufs } := ⟨_, rfl⟩
  rw [← ht1] at hdec1
  -- the second operand now
  obtain ⟨y', hy', hyd', hyr⟩ : ∃ y', t1.cells[r]? = some y' ∧ y'.data = .str br b.length ∧ y'.refs = if l = r then r1 else y.refs := by
    by_cases hlr : l = r
    · subst hlr
      cases hx.symm.trans hy
      exact ⟨{ x with refs := r1 }, by rw [ht1]; exact List.getElem?_set_self (Nat.lt_of_lt_of_le hll hgrew.count), hyd, by rw [if_pos rfl]⟩
    · exact ⟨y, by rw [ht1]; exact (List.getElem?_set_ne hlr).trans (getElem?_prefix hgrew.cells hy), hyd, by rw [if_neg hlr]⟩
  have hfb1 : t1.bufs[br]? = some (some fb) := by
    rw [ht1]
    simp only
    split
    · rename_i h1
      rw [List.getElem?_set_ne (fun h => by have := htwo (hown h); omega)]
      exact getElem?_prefix hgrew.bufs hfb
    · exact getElem?_prefix hgrew.bufs hfb
  obtain ⟨r2, hr2, hdec2⟩ := dec_str w n hy' hyd' hfb1
  obtain ⟨t2, ht2⟩ : ∃ t2 : St, t2 = { t1 with
      cells := t1.cells.set r { y' with refs := r2 }
      bufs := if y'.refs = 1 then t1.bufs.set br none else t1.bufs } := ⟨_, rfl⟩
  rw [← ht2] at hdec2
  have hholds : ∀ k d, t.Holds k d → t2.Holds k d := by
    intro k d hk
    have h1 : t1.Holds k d := by
      rw [ht1]
      exact holds_set (s := { t with bufs := if x.refs = 1 then t.bufs.set bl none else t.bufs }) (y := { x with refs := r1 }) (getElem?_prefix hgrew.cells hx) rfl hk
    rw [ht2]
    exact holds_set (s := { t1 with bufs := if y'.refs = 1 then t1.bufs.set br none else t1.bufs }) (y := { y' with refs := r2 }) hy' rfl h1
  have hbufs : ∀ k : Nat, (k = bl → x.refs ≠ 1) → (k = br → y'.refs ≠ 1) → t2.bufs[k]? = t.bufs[k]? := by
    intro k h1 h2
    have h3 : t1.bufs[k]? = t.bufs[k]? := by
      rw [ht1]
      simp only
      split
      · rename_i hx1
        exact List.getElem?_set_ne fun h => h1 h.symm hx1
      · rfl
    rw [← h3, ht2]
    simp only
    split
    · rename_i hy1
      exact List.getElem?_set_ne fun h => h2 h.symm hy1
    · rfl
  refine ⟨s2.cells.length, t2, ?_, ?_, Nat.le_refl _, fun k d hk => hholds k d (hgrew.holds hk), fun k t' h1 h2 h3 => ?_, fun h1 h2 => ?_, fun h1 h2 => ?_, fun h1 h2 => ?_⟩
  · show evalBin w (interp w (n + 1)) .keep .add le re s = _
    unfold evalBin
    rw [bind_of_ok hl, bind_of_ok hr, bind_of_ok ((getCell_ok_iff ..).2 ⟨hx, rfl⟩), bind_of_ok ((getCell_ok_iff ..).2 ⟨hy, rfl⟩), hxd, hyd, if_neg (by simp [Data.kind]),
      if_neg (by simp), bind_of_ok (show checkDest .keep s2 = .ok () s2 from rfl), bind_of_ok happ, bind_of_ok hdec1, bind_of_ok hdec2]
    rfl
  · simp only [St.Shows]
    refine ⟨s2.bufs.length, a ++ b, hholds _ _ ?_, ?_, List.prefix_refl _⟩
    · rw [ht]
      exact ⟨_, List.getElem?_concat_length, rfl⟩
    · rw [hbufs _ (by omega) (by omega), ht]
      exact List.getElem?_concat_length
  · rw [hbufs k (fun h => absurd h h1) (fun h => absurd h h2)]
    exact getElem?_prefix hgrew.bufs h3
  · simp only [St.Shows]
    exact ⟨bl, fa, hholds _ _ (hgrew.holds ⟨x, hx, hxd⟩), by rw [hbufs bl (fun _ => h2) (fun h => absurd (hown h) h1)]; exact getElem?_prefix hgrew.bufs hfa, ha⟩
  · simp only [St.Shows]
    rw [if_neg h1] at hyr
    exact ⟨br, fb, hholds _ _ (hgrew.holds ⟨y, hy, hyd⟩), by rw [hbufs br (fun h => absurd (hown h.symm) h1) (fun _ => by rw [hyr]; exact h2)]; exact getElem?_prefix hgrew.bufs hfb, hb⟩
  · simp only [St.Shows]
    rw [if_pos h1] at hyr
    have h3 := htwo h1
    have h4 := hr1 (by omega)
    exact ⟨bl, fa, hholds _ _ (hgrew.holds ⟨x, hx, hxd⟩), by rw [hbufs bl (fun _ => by omega) (fun _ => by omega)]; exact getElem?_prefix hgrew.bufs hfa, ha⟩

/-- **C56.** Later assignment to an element of the result (a value with an address from `N` on, which is then overwritten, see `C44_element_partial`) changes no
tree that lies below `N`, and so neither operand. -/
theorem C56_assignment {t : St} {N e a : Nat} {u : Val} (y : Cell) (he : N ≤ e) (h : (t.below N).Shows u a) : (t.put e y).Shows u a ∧ ((t.put e y).below N).Shows u a := by
  have hlow : ((t.put e y).below N) = t.below N := by
    unfold St.put St.below
    simp only
    rw [List.take_set_of_le he]
  have hup : ((t.put e y).below N).Shows u a := by rw [hlow]; exact h
  refine ⟨shows_of (s := (t.put e y).below N) (s' := t.put e y) (fun c d hc => ?_) (fun b x hb => hb) hup, hup⟩
  obtain ⟨x, hx, hd⟩ := hc
  refine ⟨x, ?_, hd⟩
  unfold St.below at hx
  simp only at hx
  rw [List.getElem?_take] at hx
  split at hx
  · exact hx
  · cases hx

/-- **C56.** The instance of both together: right after concatenation the element gets another value. -/
theorem C56_assignment_after {s2 s' : St} {v u : Val} {c e a : Nat} (h : Concat s2 s' v c) (he : s2.cells.length ≤ e) (y : Cell) (hu : s2.Shows u a) : (s'.put e y).Shows u a :=
  (C56_assignment y he (h.old u a hu)).1

example : (runScript emptyWorld 20 [] [sLet b!"a" (.vec [eNum b!"1", eStr b!"x"]), sLet b!"b" (.bin .add (eVar b!"a") (.vec [eNum b!"2"])),
    .line (.assign (.index (eVar b!"b") (eNum b!"0") b!"b[0]") (eNum b!"9")), sPrint (eVar b!"a"), sPrint (eVar b!"b")]).printed =
    some [b!"[1, \"x\"]", b!"[9, \"x\", 2]"] := by decide +kernel

/-- **C56 fails** for strings with a NUL in them: the copy says it is longer than its memory is, which comparison then reads beyond. -/
theorem C56_nul_false : (runScript emptyWorld 20 [] [sPrint (.bin .eq (.bin .add (.vec [eStr [97, 0, 98]]) (.vec [])) (.vec [eStr [97, 0, 98]]))]).isUb = true := by
  decide +kernel

/-- **C56 fails** one level down: elements of elements are shared.  `let a = [[1]]; let b = a + []; b[0][0] = 5` changes `a`. -/
theorem C56_nested_false : (runScript emptyWorld 20 [] [sLet b!"a" (.vec [.vec [eNum b!"1"]]), sLet b!"b" (.bin .add (eVar b!"a") (.vec [])),
    .line (.assign (.index (.index (eVar b!"b") (eNum b!"0")) (eNum b!"0") b!"b[0][0]") (eNum b!"5")), sPrint (eVar b!"a")]).printed = some [b!"[[5]]"] := by
  decide +kernel

/-- A value named after a variable of an instance, and the instance replaced. -/
def nameLost : List Stmt := [sLet b!"k" (.lit .none), .cls false b!"C" [] [sLet b!"x" (eStr b!"a"), sSet b!"x" (eStr b!"b"), sSet b!"k" (.vec [eVar b!"x"])],
  sLet b!"c" (eCall (eVar b!"C") []), sSet b!"c" (.lit .none)]

/-- **C56 fails** for elements named after a variable that was released: the copy reads the name.  The vector itself can still be printed, and before the release it
can be concatenated. -/
theorem C56_name_false : (runScript emptyWorld 20 [] (nameLost ++ [sPrint (.bin .add (eVar b!"k") (eVar b!"k"))])).isUb = true ∧
    (runScript emptyWorld 20 [] (nameLost ++ [sPrint (eVar b!"k")])).printed = some [b!"[\"b\"]"] ∧
    (runScript emptyWorld 20 [] (nameLost.take 3 ++ [sPrint (.bin .add (eVar b!"k") (eVar b!"k"))])).printed = some [b!"[\"b\", \"b\"]"] := by
  decide +kernel

end Bob.Fl
