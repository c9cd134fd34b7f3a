import Verif.Spec.Frugality
import Verif.Props.Rebuild
import Verif.Lemmas.OneProg
/-!
# C102: a build makes again exactly what has to be made again
-/

namespace Bob

variable {tc : Toolchain} {L : Layout} {c : InstCfg} {n n' : Nat} {old new : List Req}

theorem Builds.past {s : Store} (hp : Builds tc L s) : Past tc L s := by
  induction hp with
  | start h => exact .start h
  | built _ he hL hR hn hb ih => exact .built ih he hL hR hn hb

theorem recorded_unique {fs : FS} {o : Bytes} {F F' : List Bytes} (h : Recorded fs o F) (h' : Recorded fs o F') (hF : ∀ f ∈ F, CleanFlag f) (hF' : ∀ f ∈ F', CleanFlag f) : F = F' := by
  obtain ⟨r, h1, h2⟩ := h
  obtain ⟨r', h3, h4⟩ := h'
  rw [h1] at h3
  cases h3
  exact flagText_inj hF hF' (h2.symm.trans h4)

theorem req_of_out {reqs : List Req} {o : Bytes} (h : o ∈ outsOf reqs) : ∃ P ∈ prodsOf reqs, P.out = o := by
  rw [← prodsOf_out] at h
  obtain ⟨P, hP, e⟩ := List.mem_map.1 h
  exact ⟨P, hP, e⟩

theorem prod_flagsOf {reqs : List Req} {P : Prod} (h : P ∈ prodsOf reqs) :
    ∃ r ∈ reqs, match P with
      | .c j => r.flagsOf j.out j.flags ∧ ∃ jobs, r = .compile jobs ∧ j ∈ jobs
      | .l j => r.flagsOf j.out j.flags ∧ r = .link j := by
  obtain ⟨r, hr, hP⟩ := List.mem_flatMap.1 h
  refine ⟨r, hr, ?_⟩
  cases r with
  | compile jobs =>
    obtain ⟨j, hj, rfl⟩ := List.mem_map.1 hP
    exact ⟨⟨j, hj, rfl, rfl⟩, jobs, rfl, hj⟩
  | link j =>
    cases List.mem_singleton.1 hP
    exact ⟨⟨rfl, rfl⟩, rfl⟩

theorem flagsOf_prod {reqs : List Req} {r : Req} (h : r ∈ reqs) {o : Bytes} {F : List Bytes} (hF : r.flagsOf o F) :
    ∃ P ∈ prodsOf reqs, P.out = o ∧ match P with
      | .c j => j.flags = F
      | .l j => j.flags = F := by
  cases r with
  | compile jobs =>
    obtain ⟨j, hj, rfl, rfl⟩ := hF
    exact ⟨.c j, List.mem_flatMap.2 ⟨_, h, List.mem_map.2 ⟨j, hj, rfl⟩⟩, rfl, rfl⟩
  | link j =>
    obtain ⟨rfl, rfl⟩ := hF
    exact ⟨.l j, List.mem_flatMap.2 ⟨_, h, List.mem_singleton.2 rfl⟩, rfl, rfl⟩

/-- What is known of two successful builds with edits in between. -/
structure Twice (tc : Toolchain) (L : Layout) (c : InstCfg) (E : Bytes → Prop) (old new : List Req) (s2 s3 s4 : Store) : Prop where
  hL : LayoutOk L c
  hT : ToolOk tc L
  hR : ReqsOk L old
  hR' : ReqsOk L new
  sub : ∀ o, o ∈ outsOf new → o ∈ outsOf old
  edited : Edited L E s2 s3
  past : Past tc L s2
  before : AllDone c old s2
  fresh : ∀ r ∈ old, ReqFreshT tc (fun _ => False) (fun _ => True) s2.fs r
  glob : Glob L s3 s4
  after : ∀ P ∈ prodsOf new, ProdAt tc c s3 P .done s4
  untouched : ∀ o, L.isOut o → o ∉ outsOf new → s4.fs o = s3.fs o
  dests : ∀ o ∈ outsOf new, ∀ d, c.dest o = some d → ∀ g, s2.fs d = some g → g.mtime ≤ s2.now

variable {E : Bytes → Prop} {s2 s3 s4 : Store}

theorem Twice.managed (h : Twice tc L c E old new s2 s3 s4) {o : Bytes} (ho : L.isOut o) {p : Bytes} (hp : Managed o p) : s3.fs p = s2.fs p :=
  h.edited.rest p (fun hE => h.hL.outNotUser o p ho hp (h.edited.files p hE).1)

theorem Twice.dest (h : Twice tc L c E old new s2 s3 s4) {o d : Bytes} (hd : c.dest o = some d) : s3.fs d = s2.fs d :=
  h.edited.rest d (fun hE => h.hL.destNotUser o d hd (h.edited.files d hE).1)

theorem Twice.isOut (h : Twice tc L c E old new s2 s3 s4) {P : Prod} (hP : P ∈ prodsOf new) : L.isOut P.out := by
  cases P with
  | c j => exact (prod_cok h.hR' hP).isOut
  | l j => exact (prod_lok h.hR' hP).1.isOut

/-- The stamp of an old product is not after the first build. -/
theorem Twice.stamp (h : Twice tc L c E old new s2 s3 s4) {o : Bytes} (ho : L.isOut o) {f : File} (hf : s2.fs o = some f) : f.mtime ≤ s2.now :=
  (h.past.inv h.hT).1 _ (.inr ho) f hf

/-- The installed copy follows the product. -/
theorem Twice.remade (h : Twice tc L c E old new s2 s3 s4) {P : Prod} (hP : P ∈ prodsOf new) {f : File} (hf : s4.fs P.out = some f) (ht : s3.now ≤ f.mtime)
    {ins : List BEvent} (hi : InstRes c s3 P.out ins s4) : Remade c s2.now s4.fs P.out := by
  have hlt := h.edited.later
  refine ⟨f, hf, by omega, fun d hd => ?_⟩
  rcases hi with ⟨hn, _⟩ | ⟨d', f', h1, _, h3, h4⟩
  · rw [hd] at hn; cases hn
  · rw [hd] at h1; cases h1
    rw [hf] at h3; cases h3
    rcases h4 with ⟨_, _, g, hg, hgc, hgt, _⟩ | ⟨hN, _⟩
    · exact ⟨g, hg, hgc, hgt⟩
    · refine absurd (fun g hg => ?_) hN
      rw [h.dest hd] at hg
      have := h.dests P.out (by rw [← prodsOf_out]; exact List.mem_map_of_mem hP) d hd g hg
      omega

theorem Twice.left (h : Twice tc L c E old new s2 s3 s4) {P : Prod} (hP : P ∈ prodsOf new) (hf : s4.fs P.out = s2.fs P.out)
    {ins : List BEvent} (hi : InstRes c s3 P.out ins s4) : Left c s2.fs s4.fs P.out := by
  refine ⟨hf, fun d hd => ?_⟩
  rcases hi with ⟨hn, _⟩ | ⟨d', f', h1, _, h3, h4⟩
  · rw [hd] at hn; cases hn
  · rw [hd] at h1; cases h1
    obtain ⟨P', hP', e⟩ := req_of_out (h.sub P.out (by rw [← prodsOf_out]; exact List.mem_map_of_mem hP))
    obtain ⟨_, f, g, h5, h6, h7⟩ := (h.before P' hP').1 d (by rw [e]; exact hd)
    rw [e] at h5
    rw [hf, h5] at h3; cases h3
    rcases h4 with ⟨hN, _⟩ | ⟨_, _, h8⟩
    · have := hN g (by rw [h.dest hd]; exact h6)
      omega
    · rw [h8, h.dest hd]

/-- An object with the flags it was made with before. -/
theorem Twice.oldC (h : Twice tc L c E old new s2 s3 s4) {j : CJob} (hP : Prod.c j ∈ prodsOf new) :
    ∃ F, Prod.c { j with flags := F } ∈ prodsOf old := by
  obtain ⟨P', hP', e⟩ := req_of_out (h.sub j.out (by rw [← prodsOf_out]; exact List.mem_map_of_mem (f := Prod.out) hP))
  have hj := prod_cok h.hR' hP
  cases P' with
  | c j' =>
    have hj' := prod_cok h.hR hP'
    have e : j'.out = j.out := e
    have hk := hj'.kind
    rw [e, hj.kind] at hk
    injection hk with hk
    refine ⟨j'.flags, ?_⟩
    have : { j with flags := j'.flags } = j' := by cases j; cases j'; simp_all
    rw [this]; exact hP'
  | l j' =>
    have hj' := (prod_lok h.hR hP').1
    have e : j'.out = j.out := e
    have hk := hj'.kind
    rw [e, hj.kind] at hk
    cases hk

theorem Twice.oldL (h : Twice tc L c E old new s2 s3 s4) {j : LJob} (hP : Prod.l j ∈ prodsOf new) :
    ∃ F, Prod.l { j with flags := F } ∈ prodsOf old := by
  obtain ⟨P', hP', e⟩ := req_of_out (h.sub j.out (by rw [← prodsOf_out]; exact List.mem_map_of_mem (f := Prod.out) hP))
  have hj := (prod_lok h.hR' hP).1
  cases P' with
  | l j' =>
    have hj' := (prod_lok h.hR hP').1
    have e : j'.out = j.out := e
    have hk := hj'.kind
    rw [e, hj.kind] at hk
    injection hk with hk hk'
    refine ⟨j'.flags, ?_⟩
    have : { j with flags := j'.flags } = j' := by cases j; cases j'; simp_all
    rw [this]; exact hP'
  | c j' =>
    have hj' := prod_cok h.hR hP'
    have e : j'.out = j.out := e
    have hk := hj'.kind
    rw [e, hj.kind] at hk
    cases hk

/-- The flags something is made with. -/
def Prod.flags : Prod → List Bytes
  | .c j => j.flags
  | .l j => j.flags

theorem same_flags (hN : (outsOf new).Nodup) (hO : (outsOf old).Nodup) {o : Bytes} {P P' : Prod} (hP : P ∈ prodsOf new) (ho : P.out = o) (hP' : P' ∈ prodsOf old) (ho' : P'.out = o)
    {r r' : Req} {F F' : List Bytes} (hr : r ∈ new) (hF : r.flagsOf o F) (hr' : r' ∈ old) (hF' : r'.flagsOf o F') :
    P.flags = F ∧ P'.flags = F' := by
  obtain ⟨Q, hQ, e, hQF⟩ := flagsOf_prod hr hF
  obtain ⟨Q', hQ', e', hQF'⟩ := flagsOf_prod hr' hF'
  cases mem_prods_out hN hP hQ (e.trans ho.symm)
  cases mem_prods_out hO hP' hQ' (e'.trans ho'.symm)
  refine ⟨?_, ?_⟩
  · cases P <;> exact hQF
  · cases P' <;> exact hQF'

/-- When an object has to be made again. -/
theorem stale_object {fs : FS} (hN : (outsOf new).Nodup) (hO : (outsOf old).Nodup) {j : CJob} (hP : Prod.c j ∈ prodsOf new) {F : List Bytes} (hP' : Prod.c { j with flags := F } ∈ prodsOf old)
    {items : List (Bool × Bytes)} (hd : tc.deps fs j.src j.flags = some items) :
    Stale tc fs E old new j.out ↔ j.flags ≠ F ∨ ∃ p ∈ j.src :: items.map (·.2), E p := by
  obtain ⟨r, hr, hF, jobs, rfl, hj⟩ := prod_flagsOf hP
  obtain ⟨r', hr', hF', _⟩ := prod_flagsOf hP'
  constructor
  · intro hs
    generalize ho : j.out = o at hs
    cases hs with
    | source hr2 hj2 hd2 hp2 hE2 =>
      rename_i jobs2 j2 items2 p
      have : Prod.c j2 ∈ prodsOf new := List.mem_flatMap.2 ⟨_, hr2, List.mem_map.2 ⟨j2, hj2, rfl⟩⟩
      cases mem_prods_out hN this hP ho
      rw [hd] at hd2
      cases hd2
      exact .inr ⟨p, hp2, hE2⟩
    | linked hr2 hp hE | relinked hr2 hp hE =>
      rename_i j2 p
      have : Prod.l j2 ∈ prodsOf new := List.mem_flatMap.2 ⟨_, hr2, List.mem_singleton.2 rfl⟩
      cases mem_prods_out hN this hP ho
    | flags hr2 hF2 hr2' hF2' hne =>
      obtain ⟨h1, h2⟩ := same_flags hN hO hP ho hP' ho hr2 hF2 hr2' hF2'
      dsimp only [Prod.flags] at h1 h2
      rw [← h1, ← h2] at hne
      exact .inl hne
  · rintro (hne | ⟨p, hp, hE⟩)
    · exact .flags hr hF hr' hF' hne
    · exact .source hr hj hd hp hE

/-- When something has to be linked again. -/
theorem stale_linked {fs : FS} (hN : (outsOf new).Nodup) (hO : (outsOf old).Nodup) {j : LJob} (hP : Prod.l j ∈ prodsOf new) {F : List Bytes} (hP' : Prod.l { j with flags := F } ∈ prodsOf old) :
    Stale tc fs E old new j.out ↔ j.flags ≠ F ∨ ∃ p ∈ j.srcs, E p ∨ Stale tc fs E old new p := by
  obtain ⟨r, hr, hF, rfl⟩ := prod_flagsOf hP
  obtain ⟨r', hr', hF', _⟩ := prod_flagsOf hP'
  constructor
  · intro hs
    generalize ho : j.out = o at hs
    cases hs with
    | source hr2 hj2 hd2 hp2 hE2 =>
      rename_i jobs2 j2 items2 p
      have : Prod.c j2 ∈ prodsOf new := List.mem_flatMap.2 ⟨_, hr2, List.mem_map.2 ⟨j2, hj2, rfl⟩⟩
      cases mem_prods_out hN this hP ho
    | linked hr2 hp hE =>
      rename_i j2 p
      have : Prod.l j2 ∈ prodsOf new := List.mem_flatMap.2 ⟨_, hr2, List.mem_singleton.2 rfl⟩
      cases mem_prods_out hN this hP ho
      exact .inr ⟨p, hp, .inl hE⟩
    | relinked hr2 hp hE =>
      rename_i j2 p
      have : Prod.l j2 ∈ prodsOf new := List.mem_flatMap.2 ⟨_, hr2, List.mem_singleton.2 rfl⟩
      cases mem_prods_out hN this hP ho
      exact .inr ⟨p, hp, .inr hE⟩
    | flags hr2 hF2 hr2' hF2' hne =>
      obtain ⟨h1, h2⟩ := same_flags hN hO hP ho hP' ho hr2 hF2 hr2' hF2'
      dsimp only [Prod.flags] at h1 h2
      rw [← h1, ← h2] at hne
      exact .inl hne
  · rintro (hne | ⟨p, hp, hE | hE⟩)
    · exact .flags hr hF hr' hF' hne
    · exact .linked hr hp hE
    · exact .relinked hr hp hE

/-- What happens to a product. -/
def Right (tc : Toolchain) (c : InstCfg) (E : Bytes → Prop) (old new : List Req) (s2 s4 : Store) (o : Bytes) : Prop :=
  (Stale tc s2.fs E old new o ∧ Remade c s2.now s4.fs o) ∨ (¬ Stale tc s2.fs E old new o ∧ Left c s2.fs s4.fs o)

theorem Twice.compiled (h : Twice tc L c E old new s2 s3 s4) {j : CJob} (hP : Prod.c j ∈ prodsOf new) : Right tc c E old new s2 s4 j.out := by
  obtain ⟨F, hP'⟩ := h.oldC hP
  have hj := prod_cok h.hR' hP
  have hj' := prod_cok h.hR hP'
  obtain ⟨hinst, hskip⟩ := h.before _ hP'
  have hskip : CSkip s2.fs { j with flags := F } := hskip
  have hrec : ∀ G, Recorded s3.fs j.out G ↔ Recorded s2.fs j.out G := fun G => recorded_congr (h.managed hj.isOut (managed_flags _))
  -- the state of things before
  have same : j.flags = F → ∃ items, tc.deps s2.fs j.src j.flags = some items ∧ (CSkip s3.fs j ↔ ∀ p ∈ j.src :: items.map (·.2), ¬ E p) := by
    rintro rfl
    obtain ⟨r, hr, _, jobs, rfl, hjj⟩ := prod_flagsOf hP'
    obtain ⟨o, h1, h2, items, h3, ⟨d, h4, h5⟩, h6⟩ := (h.fresh _ hr j hjj id).1.obj
    have hok := (h.hT.depsOk _ _ _ _ h3).2
    have hread : readDeps d.content = items.map (·.2) := by
      rw [h5]; exact C06_include_deps_roundtrip items (fun it hit => (hok it hit).1)
    have := cskip_edited h.hL hj h.edited (fun f hf => h.stamp hj.isOut hf) hskip h4
    rw [hread] at this
    exact ⟨items, h3, this⟩
  rcases h.after _ hP with hs | hs
  · have hs : CSkipped c s3 j s4 := hs
    have hF : j.flags = F := recorded_unique ((hrec _).1 hs.skip.1) hskip.1 hj.clean hj'.clean
    obtain ⟨items, h1, h2⟩ := same hF
    obtain ⟨ins, hi, _⟩ := hs.inst
    refine .inr ⟨?_, h.left hP ((hs.files _ (managed_out _)).trans (h.managed hj.isOut (managed_out _))) hi⟩
    rw [stale_object h.hR'.nodup h.hR.nodup hP hP' h1]
    rintro (hne | ⟨p, hp, hE⟩)
    · exact hne hF
    · exact h2.1 hs.skip p hp hE
  · have hs : CTask tc c s3 j 4 false s4 := hs
    obtain ⟨f, hf, _, ht⟩ := hs.made (by omega) rfl
    obtain ⟨ins, hi, _⟩ := hs.inst rfl rfl
    refine .inl ⟨?_, h.remade hP hf ht hi⟩
    by_cases hF : j.flags = F
    · obtain ⟨items, h1, h2⟩ := same hF
      rw [stale_object h.hR'.nodup h.hR.nodup hP hP' h1]
      refine .inr (Classical.byContradiction fun hno => hs.run (h2.2 fun p hp hE => hno ⟨p, hp, hE⟩))
    · obtain ⟨r, hr, h1, _⟩ := prod_flagsOf hP
      obtain ⟨r', hr', h2, _⟩ := prod_flagsOf hP'
      exact .flags hr h1 hr' h2 hF

theorem Twice.linkedAgain (h : Twice tc L c E old new s2 s3 s4) {j : LJob} (hP : Prod.l j ∈ prodsOf new)
    (ih : ∀ p ∈ j.srcs, p ∈ outsOf new → Right tc c E old new s2 s4 p) : Right tc c E old new s2 s4 j.out := by
  obtain ⟨F, hP'⟩ := h.oldL hP
  have hj := (prod_lok h.hR' hP).1
  have hj' := (prod_lok h.hR hP').1
  obtain ⟨hinst, hskip⟩ := h.before _ hP'
  have hskip : LSkip s2 s2.fs { j with flags := F } := hskip
  have hrec : ∀ G, Recorded s3.fs j.out G ↔ Recorded s2.fs j.out G := fun G => recorded_congr (h.managed hj.isOut (managed_flags _))
  obtain ⟨hr2, o, ho, hold⟩ := hskip
  have ho' : s3.fs j.out = some o := (h.managed hj.isOut (managed_out _)).trans ho
  -- the inputs
  have input : ∀ p ∈ j.srcs, ((E p ∨ Stale tc s2.fs E old new p) ∧ ∃ f, s4.fs p = some f ∧ s2.now < f.mtime) ∨ (¬ E p ∧ ¬ Stale tc s2.fs E old new p ∧ s4.fs p = s2.fs p) := by
    intro p hp
    by_cases hE : E p
    · obtain ⟨hu, f, hf, hlt, _⟩ := h.edited.files p hE
      exact .inl ⟨.inl hE, f, (h.glob.user p hu).trans hf, hlt⟩
    · have h3 := h.edited.rest p hE
      by_cases hout : p ∈ outsOf new
      · rcases ih p hp hout with ⟨hs, f, hf, hlt, _⟩ | ⟨hs, hl, _⟩
        · exact .inl ⟨.inr hs, f, hf, hlt⟩
        · exact .inr ⟨hE, hs, hl⟩
      · have hns : ¬ Stale tc s2.fs E old new p := by
          intro hs
          refine hout ?_
          cases hs with
          | source hr hj _ _ _ => exact mem_outsOf.2 ⟨_, hr, List.mem_map.2 ⟨_, hj, rfl⟩⟩
          | linked hr _ _ | relinked hr _ _ => exact mem_outsOf.2 ⟨_, hr, List.mem_singleton.2 rfl⟩
          | flags hr hF _ _ _ =>
            obtain ⟨P, hP, e, _⟩ := flagsOf_prod hr hF
            rw [← e, ← prodsOf_out]
            exact List.mem_map_of_mem hP
        refine .inr ⟨hE, hns, ?_⟩
        rcases hj.srcs p hp with hu | hu
        · exact (h.glob.user p hu).trans h3
        · exact (h.untouched p hu hout).trans h3
  rcases h.after _ hP with hs | hs
  · have hs : LSkipped c s3 j s4 := hs
    obtain ⟨hrec3, o', ho2, hnew⟩ := hs.skip
    rw [ho'] at ho2
    cases ho2
    have hF : j.flags = F := recorded_unique ((hrec _).1 hrec3) hr2 hj.clean hj'.clean
    obtain ⟨ins, hi, _⟩ := hs.inst
    refine .inr ⟨?_, h.left hP ((hs.files _ (managed_out _)).trans (h.managed hj.isOut (managed_out _))) hi⟩
    rw [stale_linked h.hR'.nodup h.hR.nodup hP hP']
    rintro (hne | ⟨p, hp, hE⟩)
    · exact hne hF
    · rcases input p hp with ⟨_, f, hf, hlt⟩ | ⟨h1, h2, _⟩
      · obtain ⟨f', hf', hle⟩ := hnew p hp
        rw [hf] at hf'
        cases hf'
        have := h.stamp hj.isOut ho
        omega
      · exact hE.elim h1 h2
  · have hs : LRun tc c s3 j 3 s4 := hs
    obtain ⟨f, hf, _, ht, _⟩ := hs.made (by omega)
    obtain ⟨ins, hi, _⟩ := hs.inst rfl
    refine .inl ⟨?_, h.remade hP hf ht hi⟩
    rw [stale_linked h.hR'.nodup h.hR.nodup hP hP']
    by_cases hF : j.flags = F
    · refine .inr (Classical.byContradiction fun hno => hs.run ⟨(hrec _).2 (hF ▸ hr2), o, ho', fun p hp => ?_⟩)
      rcases input p hp with ⟨h1, _⟩ | ⟨_, _, h3⟩
      · exact absurd ⟨p, hp, h1⟩ hno
      · rw [h3]; exact hold p hp
    · exact .inl hF

theorem Twice.right (h : Twice tc L c E old new s2 s3 s4) : ∀ o ∈ outsOf new, Right tc c E old new s2 s4 o := by
  have key : ∀ k, ∀ pre r post, new = pre ++ r :: post → pre.length = k → ∀ o ∈ r.outs, Right tc c E old new s2 s4 o := by
    intro k
    induction k using Nat.strongRecOn with
    | ind k ih =>
      intro pre r post e hk o ho
      cases r with
      | compile jobs =>
        obtain ⟨j, hj, rfl⟩ := List.mem_map.1 ho
        exact h.compiled (List.mem_flatMap.2 ⟨.compile jobs, by rw [e]; simp, List.mem_map.2 ⟨j, hj, rfl⟩⟩)
      | link j =>
        cases List.mem_singleton.1 ho
        refine h.linkedAgain (List.mem_flatMap.2 ⟨.link j, by rw [e]; simp, List.mem_singleton.2 rfl⟩) fun p hp hout => ?_
        have hno := h.hR'.ordered pre j post e p hp
        have hpre : p ∈ outsOf pre := by
          rw [e, outsOf_append] at hout
          exact (List.mem_append.1 hout).resolve_right hno
        obtain ⟨r2, hr2, hp2⟩ := mem_outsOf.1 hpre
        obtain ⟨a, b, e2⟩ := List.append_of_mem hr2
        refine ih a.length ?_ a r2 (b ++ .link j :: post) (by rw [e, e2]; simp) rfl p hp2
        rw [← hk, e2]
        simp
  intro o ho
  obtain ⟨r, hr, ho⟩ := mem_outsOf.1 ho
  obtain ⟨a, b, e⟩ := List.append_of_mem hr
  exact key a.length a r b e rfl o ho

theorem twice (hT : ToolOk tc L) (hL : LayoutOk L c) (hD : DestInj L c) (hR : ReqsOk L old) (hR' : ReqsOk L new) (hsub : ∀ o, o ∈ outsOf new → o ∈ outsOf old)
    (hn : 0 < n) (hn' : 0 < n') {s s1 s2 s3 s4 : Store} (hp : Builds tc L s) (he : Edit L s s1) (hb : BuildReaches tc c n old s1 (.finished true s2)) (hE : Edited L E s2 s3)
    (hb' : BuildReaches tc c n' new s3 (.finished true s4)) (hd : ∀ o ∈ outsOf new, ∀ d, c.dest o = some d → ∀ g, s1.fs d = some g → g.mtime ≤ s1.now) :
    Twice tc L c E old new s2 s3 s4 := by
  obtain ⟨TL, hh⟩ := builds_history hp
  have hpast2 : Past tc L s2 := .built hp.past he hL hR hn hb
  obtain ⟨TL2, hh2⟩ := builds_history (.built hp he hL hR hn hb)
  obtain ⟨hrun, _⟩ := success hT hL hR' hn' hh2 (hE.edit hL) hb'
  obtain ⟨hG, hall⟩ := build_result hL hD hT (hpast2.settled hT (hE.edit hL)) hR' hn' hb'
  refine ⟨hL, hT, hR, hR', hsub, hE, hpast2, allDone_of_success hL hD hT (hp.past.settled hT he) hR hn hb, fun r hr => ?_, hG, hall, fun o ho hno => ?_, fun o ho d hod g hg => ?_⟩
  · have := (success hT hL hR hn hh he hb).2 r hr
    cases r with
    | compile jobs => exact fun j hj hx => ⟨(this j hj hx).1, fun hx => absurd trivial hx⟩
    | link j => exact fun hx => ⟨(this hx).1, fun hx => absurd trivial hx⟩
  · exact hrun.untouched o ho hno _ (managed_out _)
  · have hnew := build_new hR.ord hn hb
    have hnow : s1.now ≤ s2.now := hnew.1
    rcases hnew.2 d with e | e | ⟨f, e, _, h4⟩
    · have := hd o ho d hod g (e ▸ hg)
      omega
    · exact nomatch (e.symm.trans hg)
    · cases e.symm.trans hg
      exact h4

/-- **C102.** Let the project be built, let some of the user's files be edited and possibly the flags be changed, and let it be built again.  Then what has to be made again was made again and, if it is to be
installed, installed anew; and of the rest neither the products nor what is installed were touched. -/
theorem C102_exactly_what_is_stale (hT : ToolOk tc L) (hL : LayoutOk L c) (hD : DestInj L c) (hR : ReqsOk L old) (hR' : ReqsOk L new) (hsub : ∀ o, o ∈ outsOf new → o ∈ outsOf old)
    (hn : 0 < n) (hn' : 0 < n') {s s1 s2 s3 s4 : Store} (hp : Builds tc L s) (he : Edit L s s1) (hb : BuildReaches tc c n old s1 (.finished true s2)) (hE : Edited L E s2 s3)
    (hb' : BuildReaches tc c n' new s3 (.finished true s4)) (hd : ∀ o ∈ outsOf new, ∀ d, c.dest o = some d → ∀ g, s1.fs d = some g → g.mtime ≤ s1.now) :
    ∀ o ∈ outsOf new, (Stale tc s2.fs E old new o → Remade c s2.now s4.fs o) ∧ (¬ Stale tc s2.fs E old new o → Left c s2.fs s4.fs o) := by
  intro o ho
  rcases (twice hT hL hD hR hR' hsub hn hn' hp he hb hE hb' hd).right o ho with ⟨h1, h2⟩ | ⟨h1, h2⟩
  · exact ⟨fun _ => h2, fun h => absurd h1 h⟩
  · exact ⟨fun h => absurd h h1, fun _ => h2⟩

/-! ## The demo project -/

/-- Instance: after the header was edited, the object of `b.c` is left alone, that of `a.c` and the program are made again, and the program is installed anew. -/
example {s : Store} (h : BuildReaches demoTc demoInst 2 (demoReqs flagW) case5 (.finished true s)) :
    s.fs outB = case4.fs outB ∧ (∃ f, s.fs outA = some f ∧ case4.now < f.mtime) ∧
      ∃ f g, s.fs outL = some f ∧ s.fs b!".bob/prefix/bin/prog" = some g ∧ case4.now < f.mtime ∧ g.content = f.content ∧ f.mtime ≤ g.mtime := by
  have key := C102_exactly_what_is_stale demoToolOk demoLayoutOk' demoDestInj (demoReqsOk _ cleanW) (demoReqsOk _ cleanW) (fun _ h => h)
    (by omega : 0 < 1) (by omega : 0 < 2) case1_builds case2_edit' (s2 := case4) (autoBuild_reaches (by rfl)) case5_edited h (by
      intro o ho d hd g hg
      have : d = b!".bob/prefix/bin/prog" := by
        obtain ⟨pre, h1, e, h2, h3⟩ := dest_mem hd
        cases h1
        cases List.mem_singleton.1 h2
        exact h3
      subst this
      revert hg
      revert g
      have : ∀ x, (case2.later 1).fs b!".bob/prefix/bin/prog" = x → ∀ g, x = some g → g.mtime ≤ (case2.later 1).now := by
        rintro _ rfl
        have : ((case2.later 1).fs b!".bob/prefix/bin/prog").all (fun g => decide (g.mtime ≤ (case2.later 1).now)) = true := by decide +kernel
        intro g hg
        rw [hg] at this
        exact of_decide_eq_true this
      exact this _ rfl)
  have hA : Stale demoTc case4.fs (· = b!"h.h") (demoReqs flagW) (demoReqs flagW) outA :=
    .source (jobs := [⟨b!"a.c", outA, flagW⟩, ⟨b!"b.c", outB, flagW⟩]) (j := ⟨b!"a.c", outA, flagW⟩) (items := [(false, b!"a.c"), (true, b!"h.h")]) (p := b!"h.h")
      (by simp [demoReqs]) (by simp) (by decide +kernel) (by simp) rfl
  have hLk : Stale demoTc case4.fs (· = b!"h.h") (demoReqs flagW) (demoReqs flagW) outL :=
    .relinked (j := ⟨false, [outA, outB], outL, []⟩) (p := outA) (by simp [demoReqs]) (by simp) hA
  have hB : ¬ Stale demoTc case4.fs (· = b!"h.h") (demoReqs flagW) (demoReqs flagW) outB := by
    intro hs
    have hd : demoTc.deps case4.fs b!"b.c" flagW = some [(false, b!"b.c")] := by decide +kernel
    have hm : Prod.c ⟨b!"b.c", outB, flagW⟩ ∈ prodsOf (demoReqs flagW) := by simp [demoReqs, prodsOf, Req.prods]
    rcases (stale_object (j := ⟨b!"b.c", outB, flagW⟩) (F := flagW) (demoReqsOk _ cleanW).nodup (demoReqsOk _ cleanW).nodup hm hm hd).1 hs with hne | ⟨p, hp, hE⟩
    · exact hne rfl
    · simp only [List.map_cons, List.map_nil, List.mem_cons, List.not_mem_nil, or_false] at hp
      rcases hp with rfl | rfl <;> revert hE <;> decide
  refine ⟨((key outB (by decide +kernel)).2 hB).1, ?_, ?_⟩
  · obtain ⟨f, h1, h2, _⟩ := (key outA (by decide +kernel)).1 hA
    exact ⟨f, h1, h2⟩
  · obtain ⟨f, h1, h2, h3⟩ := (key outL (by decide +kernel)).1 hLk
    obtain ⟨g, h4, h5, h6⟩ := h3 b!".bob/prefix/bin/prog" (by decide +kernel)
    exact ⟨f, g, h1, h4, h2, h5, h6⟩

/-- The project before its second build, with an installed program stamped with a time to come. -/
def ahead1 : Store := { case2.later 1 with fs := fun p => if p = b!".bob/prefix/bin/prog" then some ⟨b!"old", 1000⟩ else (case2.later 1).fs p }
def ahead2 : Store := (autoBuild demoTc demoInst (demoReqs flagW) ahead1).store
def ahead3 : Store := { (ahead2.later 1).write b!"h.h" b!"X" with trace := [] }
def ahead4 : Store := (autoBuild demoTc demoInst (demoReqs flagW) ahead3).store

theorem ahead1_edit : Edit demoL case1 ahead1 where
  later := case2_edit'.later
  user p hp := by
    have hne : p ≠ b!".bob/prefix/bin/prog" := by rintro rfl; revert hp; simp [demoL]
    have e : ahead1.fs p = (case2.later 1).fs p := if_neg hne
    rw [e]
    exact case2_edit'.user p hp
  managed o ho p hp := by
    have hne : p ≠ b!".bob/prefix/bin/prog" := by
      rintro rfl
      exact demoLayoutOk'.destNotManaged outL _ (by decide +kernel) o ho hp
    have e : ahead1.fs p = (case2.later 1).fs p := if_neg hne
    rw [e]
    exact case2_edit'.managed o ho p hp

theorem ahead3_edited : Edited demoL (· = b!"h.h") ahead2 ahead3 where
  later := Nat.lt_succ_self _
  files := by
    rintro p rfl
    exact ⟨by simp [demoL], ⟨b!"X", ahead2.now + 1⟩, write_same (ahead2.later 1) b!"h.h" b!"X", Nat.lt_succ_self _, Nat.le_refl _⟩
  rest p hp := write_other _ _ hp
  fresh := rfl

/-- **C102.** What is said about installed copies fails for copies that are stamped with a time to come: the program is made again, but the old copy stays. -/
theorem C102_copies_from_the_future_false : ¬ ∀ (s1 s2 s3 s4 : Store), Edit demoL case1 s1 → BuildReaches demoTc demoInst 1 (demoReqs flagW) s1 (.finished true s2) →
    Edited demoL (· = b!"h.h") s2 s3 → BuildReaches demoTc demoInst 1 (demoReqs flagW) s3 (.finished true s4) →
    Stale demoTc s2.fs (· = b!"h.h") (demoReqs flagW) (demoReqs flagW) outL → Remade demoInst s2.now s4.fs outL := by
  intro h
  have hA : Stale demoTc ahead2.fs (· = b!"h.h") (demoReqs flagW) (demoReqs flagW) outA :=
    .source (jobs := [⟨b!"a.c", outA, flagW⟩, ⟨b!"b.c", outB, flagW⟩]) (j := ⟨b!"a.c", outA, flagW⟩) (items := [(false, b!"a.c"), (true, b!"h.h")]) (p := b!"h.h")
      (by simp [demoReqs]) (by simp) (by decide +kernel) (by simp) rfl
  have hLk : Stale demoTc ahead2.fs (· = b!"h.h") (demoReqs flagW) (demoReqs flagW) outL :=
    .relinked (j := ⟨false, [outA, outB], outL, []⟩) (p := outA) (by simp [demoReqs]) (by simp) hA
  obtain ⟨f, hf, -, hd⟩ := h ahead1 ahead2 ahead3 ahead4 ahead1_edit (autoBuild_reaches (by rfl)) ahead3_edited (autoBuild_reaches (by rfl)) hLk
  obtain ⟨g, hg, hc, -⟩ := hd b!".bob/prefix/bin/prog" (by decide +kernel)
  have h1 : ahead4.fs.content outL = some b!"AX-WB-W" := by decide +kernel
  have h2 : ahead4.fs.content b!".bob/prefix/bin/prog" = some b!"old" := by decide +kernel
  unfold FS.content at h1 h2
  rw [hf] at h1
  rw [hg] at h2
  injection h1 with h1
  injection h2 with h2
  exact absurd ((h2.symm.trans hc).trans h1) (by decide)

end Bob
