import Verif.Spec.Whole
import Verif.Props.Replay
import Verif.Props.Cookie
/-!
# Projects with one program satisfy what builds need
-/

namespace Bob

variable {P : Plan} {sg : Bool} {out : Bytes} {tc : Toolchain} {flags linkFlags : List Bytes}

theorem objOf_below (sg : Bool) (out p : Bytes) : (out ++ b!"/bob/") <+: objOf sg out p := by
  unfold objOf genCookie
  simp only [List.append_assoc]
  rw [← List.append_assoc]
  exact List.prefix_append ..

theorem progOf_below (sg : Bool) (out : Bytes) (qs : List Bytes) : (out ++ b!"/bob/") <+: progOf sg out qs := by
  refine ⟨b!"linker.link" ++ b!".cookie." ++ hex (linkHash sg (qs.map (objOf sg out))) ++ b!"." ++ b!"l", ?_⟩
  unfold progOf linkCookie
  simp only [List.append_assoc, Bool.false_eq_true, if_false]
  rfl

theorem managed_prefix {o p : Bytes} (h : Managed o p) : o <+: p := by
  rcases h with rfl | rfl | rfl | rfl
  · exact List.prefix_refl _
  all_goals exact List.prefix_append ..

theorem layout_below {o : Bytes} (h : (P.layout sg out).isOut o) : (out ++ b!"/bob/") <+: o := by
  rcases h with ⟨p, _, rfl⟩ | ⟨qs, _, rfl⟩
  · exact objOf_below ..
  · exact progOf_below ..

theorem layout_obj (hP : P.Ok sg out) {p : Bytes} (hp : P.src p) : (P.layout sg out).kind (objOf sg out p) = .compile p := by
  have h : ∃ q, P.src q ∧ objOf sg out p = objOf sg out q := ⟨p, hp, rfl⟩
  unfold Plan.layout
  dsimp only
  rw [dif_pos h]
  rw [← hP.objects p h.choose hp h.choose_spec.1 h.choose_spec.2]

theorem layout_prog (hP : P.Ok sg out) {qs : List Bytes} (hq : P.lists qs) : (P.layout sg out).kind (progOf sg out qs) = .link false (qs.map (objOf sg out)) := by
  have h : ∃ rs, P.lists rs ∧ progOf sg out qs = progOf sg out rs := ⟨qs, hq, rfl⟩
  have hn : ¬ ∃ p, P.src p ∧ progOf sg out qs = objOf sg out p := fun ⟨p, _, e⟩ => (C14_kinds_never_clash sg out p (qs.map (objOf sg out)) []).1 e.symm
  unfold Plan.layout
  dsimp only
  rw [dif_neg hn, dif_pos h]
  rw [← hP.programs qs h.choose hq h.choose_spec.1 h.choose_spec.2]

/-- What is asked of the places things are installed at, if they are. -/
def PlaceOk (P : Plan) (out : Bytes) (c : InstCfg) : Prop :=
  ∀ d, c.pre = some d → ∀ e ∈ c.map, ¬ P.user (d ++ b!"/" ++ e.2) ∧ ¬ (out ++ b!"/bob/") <+: (d ++ b!"/" ++ e.2)

/-- An install map for the program of these sources: other entries are no products. -/
def MapOk (P : Plan) (sg : Bool) (out : Bytes) (qs : List Bytes) (entry : Bytes) (map : List (Bytes × Bytes)) : Prop :=
  ∃ rest, map = (progOf sg out qs, entry) :: rest ∧ ∀ e ∈ rest, ¬ (P.layout sg out).isOut e.1

theorem one_dest {c : InstCfg} {qs : List Bytes} {entry : Bytes} (hm : MapOk P sg out qs entry c.map) {o d : Bytes} (ho : (P.layout sg out).isOut o) (h : c.dest o = some d) :
    o = progOf sg out qs ∧ ∃ pre, c.pre = some pre ∧ d = pre ++ b!"/" ++ entry := by
  obtain ⟨rest, hm, hr⟩ := hm
  unfold InstCfg.dest at h
  rw [hm] at h
  cases hp : c.pre with
  | none => rw [hp] at h; cases h
  | some pre =>
    rw [hp] at h
    simp only [Option.bind_some, Option.map_eq_some_iff] at h
    obtain ⟨e, h1, h2⟩ := h
    rw [List.find?_cons] at h1
    split at h1
    · rename_i he
      cases h1
      exact ⟨(eq_of_beq he).symm, pre, rfl, h2.symm⟩
    · have he := List.find?_some h1
      have hmem := List.mem_of_find?_eq_some h1
      exact (hr e hmem (by rw [eq_of_beq he]; exact ho)).elim

theorem one_dest_some {c : InstCfg} {qs : List Bytes} {entry pre : Bytes} (hm : MapOk P sg out qs entry c.map) (hp : c.pre = some pre) :
    c.dest (progOf sg out qs) = some (pre ++ b!"/" ++ entry) := by
  obtain ⟨rest, hm, -⟩ := hm
  unfold InstCfg.dest
  rw [hm, hp]
  simp

theorem dest_mem {c : InstCfg} {o d : Bytes} (h : c.dest o = some d) : ∃ pre, c.pre = some pre ∧ ∃ e ∈ c.map, d = pre ++ b!"/" ++ e.2 := by
  unfold InstCfg.dest at h
  cases hp : c.pre with
  | none => rw [hp] at h; cases h
  | some pre =>
    rw [hp] at h
    simp only [Option.bind_some, Option.map_eq_some_iff] at h
    obtain ⟨e, h1, h2⟩ := h
    exact ⟨pre, rfl, e, List.mem_of_find?_eq_some h1, h2.symm⟩

theorem one_layoutOk (hP : P.Ok sg out) {c : InstCfg} (hc : PlaceOk P out c) : LayoutOk (P.layout sg out) c where
  ext := by
    rintro o (⟨p, _, rfl⟩ | ⟨qs, _, rfl⟩)
    · exact ⟨out ++ b!"/bob/" ++ p.map foldSlash ++ b!".cookie." ++ hex (strHash sg p), 111, by decide, by unfold objOf genCookie; rw [List.append_assoc]; rfl⟩
    · refine ⟨out ++ b!"/bob/linker." ++ b!"link" ++ b!".cookie." ++ hex (linkHash sg (qs.map (objOf sg out))), 108, by decide, ?_⟩
      unfold progOf linkCookie
      simp only [Bool.false_eq_true, if_false]
      rw [List.append_assoc]
      rfl
  linkSrcs := by
    rintro o a srcs (⟨p, hp, rfl⟩ | ⟨qs, hq, rfl⟩) hk
    · rw [layout_obj hP hp] at hk
      cases hk
    · rw [layout_prog hP hq] at hk
      cases hk
      intro x hx
      obtain ⟨p, hp, rfl⟩ := List.mem_map.1 hx
      exact Or.inr (Or.inl ⟨p, ⟨qs, hq, hp⟩, rfl⟩)
  outNotUser := fun o p ho hm hu => hP.outside p hu ((layout_below ho).trans (managed_prefix hm))
  destNotUser := by
    intro o d hd
    obtain ⟨pre, hp, e, he, rfl⟩ := dest_mem hd
    exact (hc pre hp e he).1
  destNotManaged := by
    intro o d hd o' ho' hm
    obtain ⟨pre, hp, e, he, rfl⟩ := dest_mem hd
    exact (hc pre hp e he).2 ((layout_below ho').trans (managed_prefix hm))

theorem one_destInj {c : InstCfg} {qs : List Bytes} {entry : Bytes} (hm : MapOk P sg out qs entry c.map) : DestInj (P.layout sg out) c :=
  fun _ _ _ ho ho' h h' => (one_dest hm ho h).1.trans (one_dest hm ho' h').1.symm

theorem outs_one (qs : List Bytes) : outsOf (oneReqs sg out flags linkFlags qs) = qs.map (objOf sg out) ++ [progOf sg out qs] := by
  simp [oneReqs, outsOf, Req.outs, Function.comp_def]

theorem one_reqsOk (hP : P.Ok sg out) {qs : List Bytes} (hq : P.lists qs) (hnd : qs.Nodup) (hf : ∀ f ∈ flags, CleanFlag f) (hlf : ∀ f ∈ linkFlags, CleanFlag f) :
    ReqsOk (P.layout sg out) (oneReqs sg out flags linkFlags qs) := by
  have hprog : progOf sg out qs ∉ qs.map (objOf sg out) := by
    intro h
    obtain ⟨p, _, e⟩ := List.mem_map.1 h
    exact (C14_kinds_never_clash sg out p (qs.map (objOf sg out)) []).1 e
  have hlink : ∀ x ∈ qs.map (objOf sg out), (P.layout sg out).isOut x := by
    intro x hx
    obtain ⟨p, hp, rfl⟩ := List.mem_map.1 hx
    exact Or.inl ⟨p, ⟨qs, hq, hp⟩, rfl⟩
  refine ⟨?_, ?_, ?_⟩
  · intro r hr
    simp only [oneReqs, List.mem_cons, List.not_mem_nil, or_false] at hr
    rcases hr with rfl | rfl
    · intro j hj
      obtain ⟨p, hp, rfl⟩ := List.mem_map.1 hj
      have hs : P.src p := ⟨qs, hq, hp⟩
      exact ⟨Or.inl ⟨p, hs, rfl⟩, layout_obj hP hs, hP.user p hs, hf⟩
    · exact ⟨Or.inr ⟨qs, hq, rfl⟩, layout_prog hP hq, fun x hx => Or.inr (hlink x hx), hlf⟩
  · rw [outs_one, List.nodup_append]
    refine ⟨?_, by simp, ?_⟩
    · rw [List.Nodup, List.pairwise_map]
      refine hnd.imp_of_mem fun ha hb hne e => hne (hP.objects _ _ ⟨qs, hq, ha⟩ ⟨qs, hq, hb⟩ e)
    · intro a ha b hb
      cases List.mem_singleton.1 hb
      exact fun e => hprog (e ▸ ha)
  · intro pre j post he p hp
    have : pre = [.compile (qs.map fun p => { src := p, out := objOf sg out p, flags := flags })] ∧
        j = { archive := false, srcs := qs.map (objOf sg out), out := progOf sg out qs, flags := linkFlags } ∧ post = [] := by
      unfold oneReqs at he
      rcases pre with _ | ⟨a, _ | ⟨b, _ | ⟨c, pre⟩⟩⟩
      · injection he with he; cases he
      · injection he with h1 h2
        injection h2 with h2 h3
        injection h2 with h2
        exact ⟨by rw [← h1], h2.symm, h3.symm⟩
      · simp at he
      · simp at he
    obtain ⟨rfl, rfl, rfl⟩ := this
    simp only [outsOf, Req.outs, List.flatMap_cons, List.flatMap_nil, List.append_nil, List.mem_singleton]
    exact fun e => hprog (e ▸ hp)

/-- The flags a product is always made with. -/
noncomputable def oneFlags (P : Plan) (sg : Bool) (out : Bytes) (flags linkFlags : List Bytes) (o : Bytes) : List Bytes :=
  match (P.layout sg out).kind o with
  | .compile _ => flags
  | .link _ _ => linkFlags

theorem one_flags (hP : P.Ok sg out) {qs : List Bytes} (hq : P.lists qs) :
    ∀ r ∈ oneReqs sg out flags linkFlags qs, ∀ o F, r.flagsOf o F → F = oneFlags P sg out flags linkFlags o := by
  intro r hr o F h
  simp only [oneReqs, List.mem_cons, List.not_mem_nil, or_false] at hr
  rcases hr with rfl | rfl
  · obtain ⟨j, hj, rfl, rfl⟩ := h
    obtain ⟨p, hp, rfl⟩ := List.mem_map.1 hj
    unfold oneFlags
    rw [layout_obj hP ⟨qs, hq, hp⟩]
  · obtain ⟨rfl, rfl⟩ := h
    unfold oneFlags
    rw [layout_prog hP hq]

theorem one_linked {fs : FS} {qs : List Bytes} (h : ProjFresh tc fs (oneReqs sg out flags linkFlags qs)) : Linked tc fs flags linkFlags qs (progOf sg out qs) := by
  have h1 := h _ (List.mem_cons_self ..)
  have h2 := h (.link _) (List.mem_cons_of_mem _ (List.mem_cons_self ..))
  refine ⟨qs.map (objOf sg out), ?_, h2⟩
  rw [List.forall₂_map_right_iff]
  refine List.forall₂_same.2 fun q hq => ?_
  exact h1 _ (List.mem_map_of_mem hq)

end Bob
