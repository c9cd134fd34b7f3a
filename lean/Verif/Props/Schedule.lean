import Verif.Props.Rebuild
/-!
# The outcome of a build does not depend on the schedule: C09
-/

namespace Bob

variable {tc : Toolchain} {L : Layout} {c : InstCfg} {n n' : Nat} {reqs : List Req} {s0 : Store}

/-- What is known about a product after two successful builds from the same start. -/
structure SameProd (c : InstCfg) (s0 a b : Store) (out : Bytes) : Prop where
  files : ∀ p, Managed out p → a.fs.content p = b.fs.content p
  made : (a.fs out = s0.fs out ∧ b.fs out = s0.fs out) ∨
    ∃ f g, a.fs out = some f ∧ b.fs out = some g ∧ s0.now ≤ f.mtime ∧ s0.now ≤ g.mtime
  dest : ∀ d, c.dest out = some d → a.fs.content d = b.fs.content d
  events : evs out a.trace = evs out b.trace

theorem content_some {fs : FS} {p : Bytes} {f : File} (h : fs p = some f) : fs.content p = some f.content := by simp [FS.content, h]

/-- Installing is decided in the same way. -/
theorem instRes_same (hdest : ∀ o d, L.isOut o → c.dest o = some d → ∀ g, s0.fs d = some g → g.mtime < s0.now)
    {a b : Store} {out : Bytes} (hout : L.isOut out) {ia ib : List BEvent} (ha : InstRes c s0 out ia a) (hb : InstRes c s0 out ib b)
    (hc : a.fs.content out = b.fs.content out)
    (ho : (a.fs out = s0.fs out ∧ b.fs out = s0.fs out) ∨ ∃ f g, a.fs out = some f ∧ b.fs out = some g ∧ s0.now ≤ f.mtime ∧ s0.now ≤ g.mtime) :
    ia = ib ∧ ∀ d, c.dest out = some d → a.fs.content d = b.fs.content d := by
  rcases ha with ⟨h1, h2⟩ | ⟨d, f, h1, h2, h3, h4⟩
  · rcases hb with ⟨h5, h6⟩ | ⟨d, f, h5, _⟩
    · exact ⟨h2.trans h6.symm, fun d hd => by rw [h1] at hd; cases hd⟩
    · rw [h1] at h5; cases h5
  · rcases hb with ⟨h5, h6⟩ | ⟨d', g, h5, h6, h7, h8⟩
    · rw [h1] at h5; cases h5
    · rw [h1] at h5; injection h5 with h5; subst h5
      have hfg : f.content = g.content := by
        rw [content_some h3, content_some h7] at hc; exact Option.some.inj hc
      have hneed : NeedInst s0.fs d f ↔ NeedInst s0.fs d g := by
        rcases ho with ⟨e1, e2⟩ | ⟨f', g', e1, e2, e3, e4⟩
        · rw [e1] at h3; rw [e2, h3] at h7; injection h7 with h7; rw [h7]
        · rw [h3] at e1; injection e1 with e1; subst e1
          rw [h7] at e2; injection e2 with e2; subst e2
          constructor
          · intro _ k hk; have := hdest out d hout h1 k hk; omega
          · intro _ k hk; have := hdest out d hout h1 k hk; omega
      rcases h4 with ⟨n1, n2, k, n3, n4, _⟩ | ⟨n1, n2, n3⟩ <;> rcases h8 with ⟨m1, m2, l, m3, m4, _⟩ | ⟨m1, m2, m3⟩
      · refine ⟨n2.trans m2.symm, fun d' hd' => ?_⟩
        rw [h1] at hd'; injection hd' with hd'; subst hd'
        rw [content_some n3, content_some m3, n4, m4, hfg]
      · exact (m1 (hneed.mp n1)).elim
      · exact (n1 (hneed.mpr m1)).elim
      · refine ⟨n2.trans m2.symm, fun d' hd' => ?_⟩
        rw [h1] at hd'; injection hd' with hd'; subst hd'
        unfold FS.content; rw [n3, m3]

theorem flagsRes_same {a b : Store} {out : Bytes} {F : List Bytes} (ha : FlagsRes s0 out F a) (hb : FlagsRes s0 out F b) :
    a.fs.content (flagsPath out) = b.fs.content (flagsPath out) := by
  rcases ha with ⟨h1, h2⟩ | ⟨h1, r, h2, h3⟩ <;> rcases hb with ⟨h4, h5⟩ | ⟨h4, q, h5, h6⟩
  · unfold FS.content; rw [h2, h5]
  · exact (h4 h1).elim
  · exact (h1 h4).elim
  · rw [content_some h2, content_some h5, h3, h6]

theorem c_same (hdest : ∀ o d, L.isOut o → c.dest o = some d → ∀ g, s0.fs d = some g → g.mtime < s0.now) {a b : Store}
    {j : CJob} (hj : CJobOk L j) (ha : CAt tc c s0 j .done a) (hb : CAt tc c s0 j .done b) : SameProd c s0 a b j.out := by
  rcases ha with ha | ha <;> rcases hb with hb | hb
  · have hf : ∀ p, Managed j.out p → a.fs p = b.fs p := fun p hp => (ha.files p hp).trans (hb.files p hp).symm
    have ho : (a.fs j.out = s0.fs j.out ∧ b.fs j.out = s0.fs j.out) ∨
        ∃ f g, a.fs j.out = some f ∧ b.fs j.out = some g ∧ s0.now ≤ f.mtime ∧ s0.now ≤ g.mtime := Or.inl ⟨ha.files _ (managed_out _), hb.files _ (managed_out _)⟩
    obtain ⟨ia, i1, i2⟩ := ha.inst
    obtain ⟨ib, i3, i4⟩ := hb.inst
    obtain ⟨e, hd⟩ := instRes_same hdest hj.isOut i1 i3 (content_congr (hf _ (managed_out _))) ho
    exact ⟨fun p hp => content_congr (hf p hp), ho, hd, by rw [i2, i4, e]⟩
  · exact (hb.run ha.skip).elim
  · exact (ha.run hb.skip).elim
  · obtain ⟨f, f1, f2, f3⟩ := ha.made (by omega) rfl
    obtain ⟨g, g1, g2, g3⟩ := hb.made (by omega) rfl
    have hfg : a.fs.content j.out = b.fs.content j.out := by
      rw [content_some f1, content_some g1, ← f2, ← g2]
    have ho : (a.fs j.out = s0.fs j.out ∧ b.fs j.out = s0.fs j.out) ∨
        ∃ f g, a.fs j.out = some f ∧ b.fs j.out = some g ∧ s0.now ≤ f.mtime ∧ s0.now ≤ g.mtime := Or.inr ⟨f, g, f1, g1, f3, g3⟩
    obtain ⟨ia, i1, i2⟩ := ha.inst rfl rfl
    obtain ⟨ib, i3, i4⟩ := hb.inst rfl rfl
    obtain ⟨e, hd⟩ := instRes_same hdest hj.isOut i1 i3 hfg ho
    refine ⟨?_, ho, hd, by rw [i2, i4, e]⟩
    rintro p (rfl | rfl | rfl | rfl)
    · exact hfg
    · have d1 := ha.deps (by omega)
      have d2 := hb.deps (by omega)
      unfold DepsRes at d1 d2
      cases hd : tc.deps s0.fs j.src j.flags with
      | none => rw [hd] at d1 d2; unfold FS.content; rw [d1, d2]
      | some items =>
        rw [hd] at d1 d2
        obtain ⟨x, x1, x2⟩ := d1
        obtain ⟨y, y1, y2⟩ := d2
        rw [content_some x1, content_some y1, x2, y2]
    · exact flagsRes_same ha.flags hb.flags
    · rw [ha.log (by omega) rfl, hb.log (by omega) rfl]

theorem l_same (hT : ToolOk tc L) (hS : Settled L s0) (hdest : ∀ o d, L.isOut o → c.dest o = some d → ∀ g, s0.fs d = some g → g.mtime < s0.now)
    {a b : Store} {j : LJob} (hj : LJobOk L j)
    (hsrc : ∀ p ∈ j.srcs, a.fs.content p = b.fs.content p ∧ (a.fs p = b.fs p ∨
      ∃ f g, a.fs p = some f ∧ b.fs p = some g ∧ s0.now ≤ f.mtime ∧ s0.now ≤ g.mtime))
    (ha : LAt tc c s0 j .done a) (hb : LAt tc c s0 j .done b) : SameProd c s0 a b j.out := by
  have hskip : ∀ {x y : Store}, (∀ p ∈ j.srcs, x.fs p = y.fs p ∨ ∃ f g, x.fs p = some f ∧ y.fs p = some g ∧ s0.now ≤ f.mtime ∧ s0.now ≤ g.mtime) →
      LSkip s0 x.fs j → LSkip s0 y.fs j := by
    rintro x y hxy ⟨h1, o, h2, h3⟩
    refine ⟨h1, o, h2, fun p hp => ?_⟩
    obtain ⟨f, h4, h5⟩ := h3 p hp
    rcases hxy p hp with e | ⟨f', g, e1, _, e2, _⟩
    · exact ⟨f, e ▸ h4, h5⟩
    · rw [h4] at e1; injection e1 with e1; subst e1
      have := hS.outs _ hj.isOut o h2
      omega
  have hab := hskip (x := a) (y := b) (fun p hp => (hsrc p hp).2)
  have hba := hskip (x := b) (y := a) (fun p hp => (hsrc p hp).2.imp (·.symm) (fun ⟨f, g, h1, h2, h3, h4⟩ => ⟨g, f, h2, h1, h4, h3⟩))
  have hlaw := hT.linkLaw j.archive b.fs a.fs j.srcs j.flags (fun p hp => (hsrc p hp).1)
  rcases ha with ha | ha <;> rcases hb with hb | hb
  · have hf : ∀ p, Managed j.out p → a.fs p = b.fs p := fun p hp => (ha.files p hp).trans (hb.files p hp).symm
    have ho : (a.fs j.out = s0.fs j.out ∧ b.fs j.out = s0.fs j.out) ∨
        ∃ f g, a.fs j.out = some f ∧ b.fs j.out = some g ∧ s0.now ≤ f.mtime ∧ s0.now ≤ g.mtime := Or.inl ⟨ha.files _ (managed_out _), hb.files _ (managed_out _)⟩
    obtain ⟨ia, i1, i2⟩ := ha.inst
    obtain ⟨ib, i3, i4⟩ := hb.inst
    obtain ⟨e, hd⟩ := instRes_same hdest hj.isOut i1 i3 (content_congr (hf _ (managed_out _))) ho
    exact ⟨fun p hp => content_congr (hf p hp), ho, hd, by rw [i2, i4, e]⟩
  · exact (hb.run (hab ha.skip)).elim
  · exact (ha.run (hba hb.skip)).elim
  · obtain ⟨f, f1, f2, f3, _⟩ := ha.made (by omega)
    obtain ⟨g, g1, g2, g3, _⟩ := hb.made (by omega)
    have hfg : a.fs.content j.out = b.fs.content j.out := by
      rw [content_some f1, content_some g1, ← f2, ← g2, hlaw.1]
    have ho : (a.fs j.out = s0.fs j.out ∧ b.fs j.out = s0.fs j.out) ∨
        ∃ f g, a.fs j.out = some f ∧ b.fs j.out = some g ∧ s0.now ≤ f.mtime ∧ s0.now ≤ g.mtime := Or.inr ⟨f, g, f1, g1, f3, g3⟩
    obtain ⟨ia, i1, i2⟩ := ha.inst rfl
    obtain ⟨ib, i3, i4⟩ := hb.inst rfl
    obtain ⟨e, hd⟩ := instRes_same hdest hj.isOut i1 i3 hfg ho
    refine ⟨?_, ho, hd, by rw [i2, i4, e]⟩
    rintro p (rfl | rfl | rfl | rfl)
    · exact hfg
    · unfold FS.content; rw [ha.deps, hb.deps]
    · exact flagsRes_same ha.flags hb.flags
    · rw [ha.log (by omega), hb.log (by omega), hlaw.2]

/-- **C09.** Two successful builds of the same project from the same directory, with any numbers of workers and in any schedules,
leave every file with the same content, and run, replay and install the same things for each product.  The assumptions about the start
hold for every directory after an edit (`Past.settled`), as far as installed copies carry no time stamp of the future. -/
theorem C09_outcome_independent_of_schedule (hT : ToolOk tc L) (hL : LayoutOk L c) (hD : DestInj L c) (hR : ReqsOk L reqs) (hn : 0 < n) (hn' : 0 < n')
    (hS : Settled L s0) (hdest : ∀ o d, L.isOut o → c.dest o = some d → ∀ g, s0.fs d = some g → g.mtime < s0.now) {a b : Store}
    (ha : BuildReaches tc c n reqs s0 (.finished true a)) (hb : BuildReaches tc c n' reqs s0 (.finished true b)) :
    (∀ p, a.fs.content p = b.fs.content p) ∧
    ∀ o ∈ outsOf reqs, a.trace.filter (fun e => e.about == o) = b.trace.filter (fun e => e.about == o) := by
  obtain ⟨hGa, hpa⟩ := build_result hL hD hT hS hR hn ha
  obtain ⟨hGb, hpb⟩ := build_result hL hD hT hS hR hn' hb
  have outside : ∀ p, (∀ o ∈ outsOf reqs, ¬ Own c o p) → a.fs p = b.fs p := fun p hp =>
    (build_outside hR.ord hn ha p hp).trans (build_outside hR.ord hn' hb p hp).symm
  have isOut : ∀ o ∈ outsOf reqs, L.isOut o := by
    intro o ho
    rw [← prodsOf_out] at ho
    obtain ⟨P, hP, rfl⟩ := List.mem_map.mp ho
    exact prod_isOut hR hP
  have key : ∀ k, ∀ pre post, pre.length = k → reqs = pre ++ post → ∀ P ∈ prodsOf pre, SameProd c s0 a b P.out := by
    intro k
    induction k with
    | zero =>
      intro pre post hk _ o ho
      rw [List.eq_nil_of_length_eq_zero hk] at ho; cases ho
    | succ k ih =>
      intro pre post hk he P hPp
      rcases List.eq_nil_or_concat pre with rfl | ⟨pre', r, rfl⟩
      · simp at hk
      · have ih' := ih pre' (r :: post) (by simpa using hk) (by simp [he])
        rw [List.concat_eq_append, prodsOf_append] at hPp
        rcases List.mem_append.mp hPp with ho | ho
        · exact ih' P ho
        · have hP : P ∈ prodsOf reqs := by rw [he, List.concat_eq_append, prodsOf_append, prodsOf_append]; exact List.mem_append_left _ (List.mem_append_right _ ho)
          have h1 := hpa P hP
          have h2 := hpb P hP
          cases P with
          | c j => exact c_same hdest (prod_cok hR hP) h1 h2
          | l j =>
            have hj := (prod_lok hR hP).1
            refine l_same hT hS hdest hj ?_ h1 h2
            intro p hp
            rcases hj.srcs p hp with hu | hu
            · have e : a.fs p = b.fs p := (hGa.user p hu).trans (hGb.user p hu).symm
              exact ⟨content_congr e, Or.inl e⟩
            · by_cases hin : p ∈ outsOf pre'
              · rw [← prodsOf_out] at hin
                obtain ⟨P', hP', rfl⟩ := List.mem_map.mp hin
                have := ih' P' hP'
                refine ⟨this.files _ (managed_out _), ?_⟩
                rcases this.made with ⟨e1, e2⟩ | h
                · exact Or.inl (e1.trans e2.symm)
                · exact Or.inr h
              · have hr : r = .link j := by
                  cases r with
                  | compile jobs => simp [Req.prods] at ho
                  | link j' => simp [Req.prods] at ho; rw [ho]
                subst hr
                have hnot := hR.ordered pre' j post (by simp [he]) p hp
                have hpn : p ∉ outsOf reqs := by
                  rw [he]
                  simp only [List.concat_eq_append, List.append_assoc, List.cons_append, List.nil_append, outsOf_append,
                    List.mem_append, not_or]
                  exact ⟨hin, hnot⟩
                have e : a.fs p = b.fs p := outside p (by
                  rintro o ho (h | h)
                  · have := managed_disjoint hL hu (isOut o ho) (managed_out p) h
                    subst this; exact hpn ho
                  · exact dest_ne_managed hL hu h (managed_out p) rfl)
                exact ⟨content_congr e, Or.inl e⟩
  have all : ∀ o ∈ outsOf reqs, SameProd c s0 a b o := by
    intro o ho
    rw [← prodsOf_out] at ho
    obtain ⟨P, hP, rfl⟩ := List.mem_map.mp ho
    exact key reqs.length reqs [] rfl (by simp) P hP
  refine ⟨fun p => ?_, fun o ho => (all o ho).events⟩
  by_cases hp : ∃ o ∈ outsOf reqs, Own c o p
  · obtain ⟨o, ho, h | h⟩ := hp
    · exact (all o ho).files p h
    · exact (all o ho).dest p h
  · exact content_congr (outside p (fun o ho h => hp ⟨o, ho, h⟩))

/-- Instance: an incremental build for a prefix after an edit. -/
example {b : Store} (h : BuildReaches demoTc demoInst 8 (demoReqs flagW) (case2.later 1) (.finished true b)) :
    b.fs.content b!".bob/prefix/bin/prog" = some b!"AK-WB-W" := by
  have := (C09_outcome_independent_of_schedule demoToolOk demoLayoutOk' demoDestInj (demoReqsOk _ cleanW) (by omega : 0 < 1) (by omega : 0 < 8)
    (case1_past.settled demoToolOk case2_edit') (by
      intro o d ho hd g hg
      have hd' : d = b!".bob/prefix/bin/prog" := by
        simp only [InstCfg.dest, demoInst, Option.bind_some, List.find?] at hd
        split at hd
        · simpa using hd.symm
        · cases hd
      subst hd'
      have hnone : (case2.later 1).fs b!".bob/prefix/bin/prog" = none := by decide +kernel
      rw [hnone] at hg; cases hg)
    (a := case4) (autoBuild_reaches (by rfl)) h).1 b!".bob/prefix/bin/prog"
  rw [← this]
  decide +kernel

/-- A copy with a time stamp of the future, as a restored backup might have, is not overwritten (nor is C09's assumption met). -/
example : (autoBuild demoTc demoInst (demoReqs flagW)
    { case2.later 1 with fs := (case2.later 1).fs.set b!".bob/prefix/bin/prog" (some ⟨b!"old", 1000⟩) }).store.fs.content b!".bob/prefix/bin/prog"
    = some b!"old" := by decide +kernel

end Bob
