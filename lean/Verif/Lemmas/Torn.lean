import Verif.Lemmas.MidEdit
import Verif.Spec.Torn
/-!
# What is known after everything was killed while files were being written
-/

namespace Bob

variable {tc : Toolchain} {L : Layout} {flags : Bytes → List Bytes} {c : InstCfg} {n : Nat} {reqs0 : List Req}

/-- What is being written belongs to a product that is asked for, or is the place of an installed product. -/
theorem writing_own {G : Store → Prop} {Q : Prod → PStat → Store → Prop} {a : Cfg} (h : FlowInv tc c n reqs0 G Q a) {q : Bytes} (hw : Writing c a q) :
    (∃ P ∈ prodsOf reqs0, Managed P.out q) ∨ IsDest c q := by
  have hl : ∀ {dn : List Req} {j : LJob} {rest : List Req}, reqs0 = dn ++ .link j :: rest → Prod.l j ∈ prodsOf reqs0 := by
    intro dn j rest e
    rw [e]
    exact List.mem_flatMap.mpr ⟨.link j, by simp, by simp [Req.prods]⟩
  have hc : ∀ {dn : List Req} {jobs : List CJob} {rest : List Req} {j : CJob}, reqs0 = dn ++ .compile jobs :: rest → j ∈ jobs → Prod.c j ∈ prodsOf reqs0 := by
    intro dn jobs rest j e hj
    rw [e]
    exact List.mem_flatMap.mpr ⟨.compile jobs, by simp, by simp [Req.prods, hj]⟩
  cases hw with
  | flags => cases h with
    | validating dn procd hreq => exact Or.inl ⟨_, hc hreq (by simp), Or.inr (Or.inr (Or.inl rfl))⟩
  | already h => exact Or.inr ⟨_, h⟩
  | deps hw hj => cases h with
    | pooling dn jobs hreq hsub => exact Or.inl ⟨_, hc hreq (hsub _ (List.mem_of_getElem? hj)), Or.inr (Or.inl rfl)⟩
  | obj hw hj => cases h with
    | pooling dn jobs hreq hsub => exact Or.inl ⟨_, hc hreq (hsub _ (List.mem_of_getElem? hj)), Or.inl rfl⟩
  | log hw hj => cases h with
    | pooling dn jobs hreq hsub => exact Or.inl ⟨_, hc hreq (hsub _ (List.mem_of_getElem? hj)), Or.inr (Or.inr (Or.inr rfl))⟩
  | inst hw hj h => exact Or.inr ⟨_, h⟩
  | linkFlags => cases h with
    | idle dn hreq => exact Or.inl ⟨_, hl hreq, Or.inr (Or.inr (Or.inl rfl))⟩
  | linkAlready h => exact Or.inr ⟨_, h⟩
  | link => cases h with
    | linking dn hreq => exact Or.inl ⟨_, hl hreq, Or.inl rfl⟩
  | linkLog => cases h with
    | linkRan dn hreq => exact Or.inl ⟨_, hl hreq, Or.inr (Or.inr (Or.inr rfl))⟩
  | linkInst h => exact Or.inr ⟨_, h⟩

theorem writing_not_user {p : Proc} (hp : ProcOk L flags p) {G : Store → Prop} {Q : Prod → PStat → Store → Prop} {a : Cfg}
    (h : FlowInv tc p.c p.n p.reqs G Q a) {q : Bytes} (hw : Writing p.c a q) : ¬ L.user q := by
  rcases writing_own h hw with ⟨P, hP, hm⟩ | ⟨o, ho⟩
  · exact hp.layout.outNotUser _ _ (hp.prod hP).isOut hm
  · exact hp.layout.destNotUser _ _ ho

/-- Only the files of the products that were removed are of concern. -/
theorem CrowdS.torn (hS : SrcsKnown L) {s s2 s3 : Store} {W : Bytes → Prop} (hW : ∀ q, W q → ¬ L.user q) (h : CrowdS tc L flags s) (ht : Torn W s.fs s.now s2)
    (hm : Mended L s.fs s2 s3) (hU : ∀ o, L.isOut o → ¬ L.user o) : CrowdS tc L flags s3 := by
  have hu : ∀ q, L.user q → s3.fs q = s.fs q := by
    intro q hq
    rcases hm.files q with h1 | ⟨h1, _⟩
    · rw [h1]; exact ht.same q fun hw => hW q hw hq
    · exact absurd hq (hU q h1)
  have ho : ∀ o, L.isOut o → ∀ x, s3.fs o = some x → s.fs o = some x ∧ s2.fs o = s.fs o ∧ s2.fs (depsPath o) = s.fs (depsPath o) := by
    intro o ho x hx
    rcases hm.outs o ho with h1 | ⟨h1, h2⟩
    · rw [h1] at hx; cases hx
    · rcases hm.files o with h3 | ⟨_, h3⟩
      · exact ⟨by rw [← h1, ← h3]; exact hx, h1, h2⟩
      · rw [h3] at hx; cases hx
  have hnow : s3.now = s.now := hm.now.trans ht.now
  refine ⟨fun p hp f hf => ?_, fun o hout => ?_⟩
  · rw [hnow]
    exact h.future p hp f (ho p hp f hf).1
  · have hold := h.outs o hout
    unfold CrowdMade at hold ⊢
    cases hk : L.kind o with
    | compile src =>
      rw [hk] at hold
      intro x hx
      obtain ⟨hx', _, hd⟩ := ho o hout x hx
      obtain ⟨⟨g, h1, h2⟩, h3⟩ := hold x hx'
      refine ⟨⟨g, h1, snap_congr hu h2⟩, fun d hd' => ?_⟩
      rcases hm.files (depsPath o) with h4 | ⟨_, h4⟩
      · rw [h4, hd] at hd'
        obtain ⟨g', items, h5, h6, h7⟩ := h3 d hd'
        exact ⟨g', items, h5, h6, snap_congr hu h7⟩
      · rw [h4] at hd'; cases hd'
    | link a srcs =>
      rw [hk] at hold
      intro x hx
      obtain ⟨g, h1, h2⟩ := hold x (ho o hout x hx).1
      refine ⟨g, h1, h2.mono fun q hq f hf _ => ?_⟩
      rcases hS o a srcs hout hk q hq with hqu | hqo
      · rw [← hu q hqu]; exact hf
      · exact (ho q hqo f hf).1

theorem crowd_writing_not_user {ps : List Proc} (hps : ∀ p ∈ ps, ProcOk L flags p) {s0 : Store} {m : Crowd} (hinv : CrowdInv tc L flags s0 ps m) {q : Bytes} (hq : m.writing ps q) : ¬ L.user q := by
  obtain ⟨i, p, a, hp, ha, hw⟩ := hq
  refine writing_not_user (hps p (List.mem_of_getElem? hp)) (hinv.procs i p a hp ha) (q := q) ?_
  cases hw with
  | flags => exact .flags
  | already h => exact .already h
  | deps hw hj => exact .deps hw hj
  | obj hw hj => exact .obj hw hj
  | log hw hj => exact .log hw hj
  | inst hw hj h => exact .inst hw hj h
  | linkFlags => exact .linkFlags
  | linkAlready h => exact .linkAlready h
  | link => exact .link
  | linkLog => exact .linkLog
  | linkInst h => exact .linkInst h

theorem survived_settled (hT : ToolOk tc L) (hS : SrcsKnown L) (hU : ∀ o, L.isOut o → ¬ L.user o) {s : Store} (h : Survived tc L flags s) : CrowdS tc L flags s := by
  induction h with
  | start h => exact crowded_settled hT hS (.start h)
  | built _ he hp hr ht hm ih =>
    have hinv := edit_reach hT hS ih (ih.edits he) hp hr
    exact (edit_settled hinv).torn hS (fun q hw => writing_not_user hp hinv hw) ht hm hU
  | @crowd s s1 ps m s2 s3 _ he hps hr ht hm ih =>
    have hinv := CrowdInv.reach hT hps (ih.edit hS he) hr
    exact hinv.glob.settle.torn hS (fun q hw => crowd_writing_not_user hps hinv hw) ht hm hU

end Bob
