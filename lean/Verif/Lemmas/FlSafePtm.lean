import Verif.Lemmas.FlSafeHost
/-!
# Members of strings and vectors do not go wrong
-/

namespace Bob.Fl

section
variable {L : Discipline} {C P T : List Nat} {s s' : St} {w : World} {n : Nat}

theorem safe_strTest (h : Wf L C P T s) (what arg : Bytes) (test : Bytes → Bytes → Bool) {self c buf size : Nat} {x : Cell} (hx : s.cells[self]? = some x) (hd : x.data = .str buf size) (hl : x.refs ≠ 0)
    (hc : Live s c) : Safe (strTest what arg test buf size c) s (NewVal L C P T s) := by
  obtain ⟨y, hy, hyl⟩ := hc
  unfold strTest
  refine Safe.getCell hy ?_
  split
  · rename_i b k hyd
    obtain ⟨t, ht, _⟩ := h.read hx hd hl
    obtain ⟨u, hu, _⟩ := h.read hy hyd hyl
    have : ∃ r, strCompare test buf size b k s = .ok r s := by
      unfold strCompare
      split
      · rw [bind_of_ok ht, bind_of_ok hu]
        exact ⟨_, rfl⟩
      · exact ⟨_, rfl⟩
    obtain ⟨r, hr⟩ := this
    exact Safe.bind_ok hr (made_alloc h trivial rfl)
  · exact Safe.raise

theorem safe_fnArg {what : Bytes} {args : List Nat} (ha : ∀ c ∈ args, Plain s.cells c) :
    Safe (fnArg what args) s fun c s' => s' = s ∧ c ∈ args ∧ ∃ f, s.Holds c (.fn f) := by
  unfold fnArg
  split
  · rename_i c
    obtain ⟨y, hy, _⟩ := ha c List.mem_cons_self
    refine Safe.getCell hy ?_
    split
    · rename_i f hf
      exact Safe.pure ⟨rfl, List.mem_cons_self, f, y, hy, hf⟩
    · exact Safe.raise
  · exact Safe.raise

/-- What is needed for calling a function given as an argument, on an element. -/
theorem callOk_elem {f e : Nat} {fd : FnData} (hf : f ∈ P) (hp : Plain s.cells f) (hh : s.Holds f (.fn fd)) (he : Plain s.cells e) : CallOk (e :: P) f fd none [e] s := by
  obtain ⟨x, hx, hd⟩ := hh
  obtain ⟨y, hy, hpy⟩ := hp
  cases hx.symm.trans hy
  refine ⟨⟨x, hx, hd⟩, List.mem_cons_of_mem _ hf, fun a ha => (nomatch ha), fun c hc => ?_, fun p hk => ?_⟩
  · cases List.mem_singleton.1 hc
    exact ⟨List.mem_cons_self, he⟩
  · rw [hd] at hpy
    rcases hpy with h | h <;> rw [hk] at h <;> cases h

theorem safe_freeVal (dec : Nat → M Unit) (h : Wf L C P T s) {c : Nat} {x : Cell} (hx : s.cells[c]? = some x) (hl : x.refs ≠ 0) (hi : x.data.kind ≠ .inst) :
    Safe (freeVal dec c) s fun _ s' => s'.cells = s.cells := by
  unfold freeVal
  refine Safe.getCell hx ?_
  cases hd : x.data <;> try exact Safe.pure rfl
  · rename_i b k
    obtain ⟨t, ht, _⟩ := h.str hx hd hl
    dsimp only
    unfold freeBuf
    refine Safe.get ?_
    rw [ht]
    exact Safe.of_ok (a := ()) (s1 := { s with bufs := s.bufs.set b none }) rfl rfl
  · rename_i f
    dsimp only
    unfold freeBody
    split
    · exact Safe.pure rfl
    · rename_i b hb
      obtain ⟨_, hb2⟩ := h.mem.body c x f b hx hd hb
      obtain ⟨y, hy, _⟩ := hb2 hl
      refine Safe.get ?_
      rw [hy]
      exact Safe.of_ok (a := ()) (s1 := { s with bodies := s.bodies.set b none }) rfl rfl
  · rw [hd] at hi
    exact absurd rfl hi

variable (hE : SafeE L (interp w n))
include hE

theorem safe_mapLoop {self f : Nat} {fd : FnData} {es : List Nat} : ∀ {k i : Nat} {P : List Nat} {s : St}, i + k ≤ es.length → s.Holds self (.vec es) → f ∈ P → Plain s.cells f → s.Holds f (.fn fd) →
    Wf L C P T s → s.eng.rv = .none →
    Safe (mapLoop (interp w n) self f k i) s fun cs s' => Wf L C (cs ++ P) T s' ∧ (∀ c ∈ cs, Plain s'.cells c) ∧ Grow L.inside s s' ∧ Quit s s'
  | 0, i, P, s, _, _, _, _, _, h, hr => ⟨h, fun c hc => (nomatch hc), Grow.refl _ s, Quit.refl hr⟩
  | k + 1, i, P, s, hk, hv, hf, hpf, hfd, h, hr => by
    obtain ⟨x, hx, hd⟩ := hv
    unfold mapLoop
    refine Safe.bind_ok (a := es) (s1 := s) ?_ ?_
    · unfold getVec
      rw [bind_of_ok ((getCell_ok_iff ..).2 ⟨hx, rfl⟩), hd]
      rfl
    · have hi : i < es.length := by omega
      refine Safe.deref (fun hn => absurd hn (by rw [List.getElem?_eq_getElem hi]; simp)) fun e he => ?_
      have hel : Elem s.cells e := ⟨self, x, hx, by rw [hd]; exact List.mem_of_getElem? he⟩
      have hw1 : Wf L C (e :: P) T s := h.pinned (.inl (.inr (.inl hel)))
      refine Safe.bind ((hE.call .keep (callOk_elem hf hpf hfd (h.shape.elem hel)) hw1 hr).mono fun r s1 ⟨hc, hq⟩ => ?_)
      obtain ⟨c, rfl⟩ := hc.keep rfl
      refine Safe.bind_ok (a := c) (s1 := s1) rfl ?_
      have hkc : fd.kind ≠ .cls := by
        obtain ⟨y, hy, hp⟩ := hpf
        obtain ⟨y', hy', hyd⟩ := hfd
        cases hy.symm.trans hy'
        rw [hyd] at hp
        intro h
        rcases hp with hp | hp <;> rw [h] at hp <;> cases hp
      have hwf := hc.wf
      rw [if_neg hkc] at hwf
      have hw2 : Wf L C (c :: P) T s1 := (Wf.keep (T := T) hwf).subP fun c' hc' => (List.mem_cons.1 hc').elim (fun h => h ▸ List.mem_cons_self) fun h => List.mem_cons_of_mem _ (List.mem_cons_of_mem _ h)
      have hg : Grow L.inside s s1 := hc.grow.mono (L.touched_le _)
      refine Safe.bind ((safe_mapLoop (k := k) (i := i + 1) (by omega) (hg.toSup.holds ⟨x, hx, hd⟩) (List.mem_cons_of_mem _ hf) (hg.toSup.plain hpf) (hg.toSup.holds hfd) hw2 hq.2).mono
        fun cs s2 ⟨hw3, hp3, hg3, hq3⟩ => Safe.pure ⟨hw3.subP fun c' hc' => ?_, fun c' hc' => ?_, hg.trans hg3, hq.trans hq3⟩)
      · simp only [List.mem_append, List.mem_cons] at hc' ⊢
        exact hc'.elim (fun h => h.elim (fun h => .inr (.inl h)) .inl) fun h => .inr (.inr h)
      · rcases List.mem_cons.1 hc' with rfl | hc'
        · exact hg3.toSup.plain (hc.val _ rfl)
        · exact hp3 c' hc'

theorem safe_stepFilter {self f i : Nat} {fd : FnData} {es : List Nat} (hv : s.Holds self (.vec es)) (hf : f ∈ P) (hpf : Plain s.cells f) (hfd : s.Holds f (.fn fd)) (h : Wf L C P T s) (hr : s.eng.rv = .none) :
    Safe (stepFilter (interp w n) self f i) s fun cs s' => Wf L (cs ++ C) P T s' ∧ (∀ c ∈ cs, Plain s'.cells c) ∧ Grow L.inside s s' := by
  obtain ⟨x, hx, hd⟩ := hv
  unfold stepFilter
  refine Safe.bind_ok (a := es) (s1 := s) ?_ ?_
  · unfold getVec
    rw [bind_of_ok ((getCell_ok_iff ..).2 ⟨hx, rfl⟩), hd]
    rfl
  · split
    · exact Safe.pure ⟨h, fun c hc => (nomatch hc), Grow.refl _ s⟩
    · rename_i e he
      have hel : Elem s.cells e := ⟨self, x, hx, by rw [hd]; exact List.mem_of_getElem? he⟩
      have hw1 : Wf L C (e :: P) T s := h.pinned (.inl (.inr (.inl hel)))
      refine Safe.bind ((hE.call .keep (callOk_elem hf hpf hfd (h.shape.elem hel)) hw1 hr).mono fun r s1 ⟨hc, hq⟩ => ?_)
      obtain ⟨c, rfl⟩ := hc.keep rfl
      refine Safe.bind_ok (a := c) (s1 := s1) rfl ?_
      have hkc : fd.kind ≠ .cls := by
        obtain ⟨y, hy, hp⟩ := hpf
        obtain ⟨y', hy', hyd⟩ := hfd
        cases hy.symm.trans hy'
        rw [hyd] at hp
        intro h
        rcases hp with hp | hp <;> rw [h] at hp <;> cases hp
      have hwf := hc.wf
      rw [if_neg hkc] at hwf
      have hg : Grow L.inside s s1 := hc.grow.mono (L.touched_le _)
      obtain ⟨y, hy, hyl⟩ := hwf.live_T (c := c) List.mem_cons_self
      have hw2 : Wf L C P T s1 := (Wf.drop1 (c := c) hwf).subP fun c' hc' => List.mem_cons_of_mem _ hc'
      refine Safe.getCell hy ?_
      split
      · split
        · have hel1 := hel.sup hg.toSup
          obtain ⟨s2, h2, hw3, hp3, hg3⟩ := hw2.valCopy (.inr (.inl hel1)) (hw2.shape.elem hel1)
          have hr2 : s2.eng.rv = .none := (q_valCopy e).out h2 |>.eng ▸ hq.2
          have hg13 := hg.trans (hg3 _)
          refine Safe.bind_ok h2 (Safe.bind ((hE.filter (hg13.toSup.holds ⟨x, hx, hd⟩) hf (hg13.toSup.plain hpf) (hg13.toSup.holds hfd) hw3 hr2).mono fun cs s3 ⟨⟨hw4, hp4, hg4⟩, _⟩ => Safe.pure ?_))
          refine ⟨hw4.permC fun c' => ?_, fun c' hc' => ?_, hg13.trans hg4⟩
          · simp only [List.mem_append, List.mem_cons]
            exact or_left_comm.trans or_assoc.symm
          · rcases List.mem_cons.1 hc' with rfl | hc'
            · exact hg4.toSup.plain hp3
            · exact hp4 c' hc'
        · exact (hE.filter (hg.toSup.holds ⟨x, hx, hd⟩) hf (hg.toSup.plain hpf) (hg.toSup.holds hfd) hw2 hq.2).mono fun cs s3 ⟨⟨hw4, hp4, hg4⟩, _⟩ => ⟨hw4, hp4, hg.trans hg4⟩
      · unfold freeResult
        by_cases hi : y.data.kind = .inst
        · rw [if_pos hi]
          have : Safe (M.blame .whereInst (freeVal (interp w n).dec c)) s1 fun _ s' => ∃ z, s'.cells[c]? = some z := by
            unfold Safe M.blame
            cases hm : freeVal (interp w n).dec c s1 with
            | ok a s2 =>
              show ∃ z, s2.cells[c]? = some z
              obtain ⟨z, hz, _⟩ := ((q_freeVal (q_dec w n) c).out hm).holds c _ ⟨y, hy, rfl⟩
              exact ⟨z, hz⟩
            | abort s2 => exact fun h => nomatch h
            | ub s2 => exact fun h => nomatch h
            | err m s2 => trivial
            | timeout => trivial
          exact Safe.bind (this.mono fun _ s2 ⟨z, hz⟩ => Safe.getCell hz Safe.raise)
        · rw [if_neg hi]
          exact Safe.bind ((safe_freeVal _ hwf hy hyl hi).mono fun _ s2 he2 => Safe.getCell (by rw [he2]; exact hy) Safe.raise)

/-- A member of a string or vector ended well. -/
theorem safe_runPtm {p : Ptm} {a : Nat} {z : Cell} {name : Bytes} {args : List Nat} (hz : s.cells[a]? = some z) (hm : IsMember p z.data name) (ha : a ∈ P) (hargs : ∀ c ∈ args, c ∈ P ∧ Plain s.cells c)
    (h : Wf L C P T s) (hr : s.eng.rv = .none) :
    Safe (runPtm (interp w n) p (some a) args) s fun v s' => (Wf L C P (v :: T) s' ∧ Plain s'.cells v ∧ Grow (L.touched p.calm) s s') ∧ s'.eng.rv = .none := by
  obtain ⟨z', hz', hzl⟩ := h.live_P ha
  cases hz.symm.trans hz'
  have hrv : Keeps RvN (runPtm (interp w n) p (some a) args) := p_runPtm lyRvN.toLv (recRvN w n).toRecT p (some a) args
  refine (Safe.keeps hrv (Q := fun v s' => Wf L C P (v :: T) s' ∧ Plain s'.cells v ∧ Grow (L.touched p.calm) s s') ?_).mono fun v s' ⟨h1, h2⟩ => ⟨h1, h2 hr⟩
  unfold runPtm
  refine Safe.bind_ok (a := a) (s1 := s) rfl (Safe.getCell hz ?_)
  have hmade : ∀ {m : M Nat} {F : List Bytes}, Safe m s (NewVal L C P T s) → Safe m s fun v s' => Wf L C P (v :: T) s' ∧ Plain s'.cells v ∧ Grow F s s' :=
    fun hs => hs.mono fun v s' ⟨h1, h2, h3⟩ => ⟨h1, h2, h3 _⟩
  split
  · split
    · exact hmade (made_alloc h trivial rfl)
    · exact Safe.raise
  · rename_i hd
    split
    · exact hmade (safe_strTest h _ _ _ hz hd hzl (h.live_P (hargs _ List.mem_cons_self).1))
    · exact Safe.raise
  · rename_i hd
    split
    · exact hmade (safe_strTest h _ _ _ hz hd hzl (h.live_P (hargs _ List.mem_cons_self).1))
    · exact Safe.raise
  · split
    · exact hmade (made_alloc h trivial rfl)
    · exact Safe.raise
  · rename_i es hd
    refine Safe.bind ((safe_fnArg fun c hc => (hargs c hc).2).mono fun f s1 ⟨h1, h2, fd, h3⟩ => ?_)
    subst h1
    refine Safe.bind ((safe_mapLoop hE (k := es.length) (i := 0) (by omega) ⟨z, hz, hd⟩ (hargs f h2).1 (hargs f h2).2 h3 h hr).mono fun cs s2 ⟨hw2, hp2, hg2, hq2⟩ => ?_)
    exact (made_parts hw2 (d := .vec cs) trivial fun c hc => ⟨hc, hp2 c hc⟩).mono fun v s3 ⟨h1, h2, h3⟩ => ⟨h1, h2, hg2.trans (h3 _)⟩
  · rename_i es hd
    refine Safe.bind ((safe_fnArg fun c hc => (hargs c hc).2).mono fun f s1 ⟨h1, h2, fd, h3⟩ => ?_)
    subst h1
    refine Safe.bind ((hE.filter ⟨z, hz, hd⟩ (hargs f h2).1 (hargs f h2).2 h3 h hr).mono fun cs s2 ⟨⟨hw2, hp2, hg2⟩, hq2⟩ => ?_)
    exact (made_copies hw2 (d := .vec cs) trivial (fun c hc => ⟨hc, hp2 c hc⟩) fun c hc => hc).mono fun v s3 ⟨h1, h2, h3⟩ => ⟨h1, h2, hg2.trans (h3 _)⟩
  · rename_i hn1 hn2 hn3 hn4 hn5 hn6
    exfalso
    obtain ⟨k, hk, hmk⟩ := hm
    unfold ptmIdx at hk
    split at hk
    · rename_i hkd
      cases hzd : z.data <;> rw [hzd] at hkd <;> try (cases hkd)
      split at hk
      · cases hk; cases hmk; exact hn1 _ _ rfl hzd
      · split at hk
        · cases hk; cases hmk; exact hn3 _ _ rfl hzd
        · split at hk
          · cases hk; cases hmk; exact hn2 _ _ rfl hzd
          · cases hk
    · rename_i hkd
      cases hzd : z.data <;> rw [hzd] at hkd <;> try (cases hkd)
      split at hk
      · cases hk; cases hmk; exact hn4 _ rfl hzd
      · split at hk
        · cases hk; cases hmk; exact hn5 _ rfl hzd
        · split at hk
          · cases hk; cases hmk; exact hn6 _ rfl hzd
          · cases hk
    · cases hk

end

end Bob.Fl
