import Verif.Lemmas.CrowdFlow
import Verif.Props.Build
/-!
# Several bobs in one directory (C111)
-/

namespace Bob

variable {tc : Toolchain} {L : Layout} {flags : Bytes → List Bytes}

/-- A bob that reported success has made every product right. -/
theorem settled_right (hT : ToolOk tc L) {s s1 : Store} (h : CrowdS tc L flags s) (he : Change L s s1) {ps : List Proc}
    (hps : ∀ p ∈ ps, ProcOk L flags p) {m : Crowd} (hr : CrowdReaches tc ps s1 m) {i : Nat} {p : Proc} (hp : ps[i]? = some p)
    (hi : m.succeeded i) : (∀ P ∈ prodsOf p.reqs, RightNow tc L flags m.fs P.out) ∧ ∀ q, L.user q → m.fs q = s1.fs q := by
  have hpk := hps p (List.mem_of_getElem? hp)
  have hinv := CrowdInv.reach hT hps (h.change hpk.layout.linkSrcs he) hr
  refine ⟨?_, hinv.glob.user⟩
  obtain ⟨s2, hi⟩ := hi
  have hfin := hinv.procs i p _ hp hi
  cases hfin with
  | finished _ _ hok _ => exact fun P hP => hok rfl P hP hP

theorem crowd_right (hT : ToolOk tc L) {s s1 : Store} (h : Crowded tc L flags s) (he : Edit L s s1) {ps : List Proc}
    (hps : ∀ p ∈ ps, ProcOk L flags p) {m : Crowd} (hr : CrowdReaches tc ps s1 m) {i : Nat} {p : Proc} (hp : ps[i]? = some p)
    (hi : m.succeeded i) : (∀ P ∈ prodsOf p.reqs, RightNow tc L flags m.fs P.out) ∧ ∀ q, L.user q → m.fs q = s1.fs q :=
  have hS := crowded_settled hT (hps p (List.mem_of_getElem? hp)).layout.linkSrcs h
  settled_right hT hS (hS.edits he) hps hr hp hi

theorem fresh_of_right {p : Proc} (hpk : ProcOk L flags p) {fs : FS} (hright : ∀ P ∈ prodsOf p.reqs, RightNow tc L flags fs P.out) :
    ProjFresh tc fs p.reqs := by
  intro r hreq
  cases r with
  | compile jobs =>
    intro j hj
    have hP : Prod.c j ∈ prodsOf p.reqs := List.mem_flatMap.mpr ⟨_, hreq, by simp [Req.prods, hj]⟩
    obtain ⟨hjo, hF⟩ := (hpk.prod hP).c j rfl
    obtain ⟨x, h1, h2⟩ := (hright _ hP).cval hjo.kind
    exact ⟨x, by rw [hF]; exact h1, h2⟩
  | link j =>
    have hP : Prod.l j ∈ prodsOf p.reqs := List.mem_flatMap.mpr ⟨_, hreq, by simp [Req.prods]⟩
    obtain ⟨hjo, hF, _⟩ := (hpk.prod hP).l j rfl
    obtain ⟨x, h1, h2⟩ := (hright _ hP).lval hjo.kind
    exact ⟨x, by rw [hF]; exact h1, h2⟩

/-- What a product is when it is right depends on the user's files only. -/
theorem right_unique (hT : ToolOk tc L) {fs fs' : FS} (hu : ∀ q, L.user q → fs'.content q = fs.content q) {o : Bytes}
    (h : RightNow tc L flags fs o) (h' : RightNow tc L flags fs' o) : fs'.content o = fs.content o := by
  induction h with
  | @c o src x hout hk hs hx ho =>
    obtain ⟨y, h1, h2⟩ := h'.cval hk
    obtain ⟨items, hi⟩ := hT.objDeps _ _ _ _ hx
    have := (hT.depsLaw fs fs' src (flags o) items hi (by
      intro q hq
      refine hu q ?_
      rcases List.mem_cons.mp hq with rfl | hq
      · exact hs
      · obtain ⟨it, hit, rfl⟩ := List.mem_map.mp hq
        exact ((hT.depsOk _ _ _ _ hi).2 it hit).2.1)).2.1
    rw [this, hx] at h1
    rw [h2, ho, h1]
  | @l o a srcs x hout hk hs hx ho ih =>
    cases h' with
    | c _ hk' _ _ _ => rw [hk] at hk'; cases hk'
    | @l _ a' srcs' y _ hk' hs' hy ho' =>
      rw [hk] at hk'; cases hk'
      have := (hT.linkLaw a fs fs' srcs (flags o) (by
        intro q hq
        by_cases hqu : L.user q
        · exact hu q hqu
        · exact ih q hq hqu (hs' q hq hqu))).1
      rw [this, hx] at hy
      rw [ho, ho', hy]

/-- **C111**, partial: the general claim is false, see `C111_all_succeed_false`.  As long as every product is always asked for with
the same flags, any number of bobs may be at work in a directory at once, in any order of their actions, any of them failing or
being killed anywhere, any number of times: once a bob has reported success every product of its project is what the compiler or
linker yields for the present files, and stays so whatever the others still do.  None of them changes a file of the user. -/
theorem C111_crowd_fresh_partial (hT : ToolOk tc L) {s s1 : Store} (h : Crowded tc L flags s) (he : Edit L s s1) {ps : List Proc}
    (hps : ∀ p ∈ ps, ProcOk L flags p) {m : Crowd} (hr : CrowdReaches tc ps s1 m) {i : Nat} {p : Proc} (hp : ps[i]? = some p)
    (hi : m.succeeded i) : ProjFresh tc m.fs p.reqs ∧ ∀ q, L.user q → m.fs q = s1.fs q := by
  obtain ⟨hright, hu⟩ := crowd_right hT h he hps hr hp hi
  exact ⟨fresh_of_right (hps p (List.mem_of_getElem? hp)) hright, hu⟩

/-- **C111**, partial: what a bob that succeeded leaves does not depend on what other bobs did at the same time or before.  In
particular it is what a single bob leaves in a fresh checkout with the same files. -/
theorem C111_same_as_alone_partial (hT : ToolOk tc L) {s s1 k k1 : Store} (h : Crowded tc L flags s) (he : Edit L s s1)
    (hk : Crowded tc L flags k) (hke : Edit L k k1) {ps qs : List Proc} (hps : ∀ p ∈ ps, ProcOk L flags p) (hqs : ∀ q ∈ qs, ProcOk L flags q)
    {m m' : Crowd} (hr : CrowdReaches tc ps s1 m) (hr' : CrowdReaches tc qs k1 m') {i i' : Nat} {p q : Proc} (hp : ps[i]? = some p)
    (hq : qs[i']? = some q) (hi : m.succeeded i) (hi' : m'.succeeded i') (hu : ∀ x, L.user x → k1.fs.content x = s1.fs.content x) :
    ∀ o ∈ outsOf p.reqs, o ∈ outsOf q.reqs → m'.fs.content o = m.fs.content o := by
  obtain ⟨h1, h2⟩ := crowd_right hT h he hps hr hp hi
  obtain ⟨h3, h4⟩ := crowd_right hT hk hke hqs hr' hq hi'
  intro o ho ho'
  rw [← prodsOf_out] at ho ho'
  obtain ⟨P, hP, rfl⟩ := List.mem_map.mp ho
  obtain ⟨P', hP', e⟩ := List.mem_map.mp ho'
  refine right_unique hT (fun x hx => ?_) (h1 P hP) (e ▸ h3 P' hP')
  rw [content_congr (h2 x hx), content_congr (h4 x hx)]
  exact hu x hx

end Bob
