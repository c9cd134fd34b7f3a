import Verif.Lemmas.SenseNodes
/-!
# What the interpreter makes of nodes that follow the grammar
-/

namespace Bob.Parse
open Bob.Fl

/-- No assertion fails, and if `strict`, there is no error either. -/
def Good' (strict : Bool) {α : Type} : Low α → Prop
  | .ok _ => True
  | .error .error => strict = false
  | .error _ => False

section
variable {strict : Bool} {α β : Type}

theorem Good'.bind {x : Low α} {f : α → Low β} (hx : Good' strict x) (hf : ∀ a, x = .ok a → Good' strict (f a)) : Good' strict (x >>= f) := by
  cases x with
  | ok a => exact hf a rfl
  | error e => cases e <;> exact hx

theorem good_ok (a : α) : Good' strict (.ok a : Low α) := trivial

theorem good_pure (a : α) : Good' strict (pure a : Low α) := trivial

theorem good_check {b : Bool} (h : b = true) : Good' strict (check b) := by rw [h]; trivial

theorem good_expect {b : Bool} (h : strict = true → b = true) : Good' strict (expect b) := by
  cases b with
  | true => trivial
  | false =>
    cases strict with
    | true => cases h rfl
    | false => rfl

theorem good_error (h : strict = false) : Good' strict (.error .error : Low α) := h

theorem expect_ok {b : Bool} {u : Unit} (h : expect b = .ok u) : b = true := by
  cases b with
  | true => rfl
  | false => cases h

theorem good_mapM {f : Tree → Low β} {l : List Tree} (h : ∀ c ∈ l, Good' strict (f c)) : Good' strict (l.mapM f) := by
  induction l with
  | nil => exact good_pure _
  | cons c l ih =>
    rw [List.mapM_cons]
    exact (h c (.head _)).bind fun _ _ => (ih fun c hc => h c (.tail _ hc)).bind fun _ _ => good_pure _

end

theorem type_of {t : Tree} {s : Nat} (h : t.sym = s) : t.type = symbolNames.getD s [] := by rw [Tree.type, h]

theorem sym_of_type (w : Bytes) (s : Nat) (hw : ((List.range 110).all fun x => !(symbolNames.getD x [] == w) || Nat.beq x s) = true) {strict : Bool} {t : Tree} (h : Fine strict t)
    (ht : t.type = w) : t.sym = s := by
  have := List.all_eq_true.1 hw t.sym (List.mem_range.2 h.sym_lt)
  unfold Tree.type at ht
  rw [ht, beq_self_eq_true] at this
  simpa using this

theorem comment_type {t : Tree} (h : Comment t) : t.type = b!"comment" ∨ t.type = b!"doc_comment" := by
  cases h with
  | hash => exact .inl rfl
  | doc => exact .inr rfl

theorem mem_one {x a : Nat} (h : x ∈ [a]) : x = a := by simpa using h

/-! ## Leaves of the syntax -/

theorem one_literal : needOne 87 [54, 55, 59, 105] = true := by decide +kernel

theorem lit_good {strict : Bool} {t : Tree} (h : Fine strict t) (hs : t.sym = 87) : Good' strict (lowerLit t) := by
  obtain ⟨c, hk, _, hc⟩ := h.one (by rw [hs]; decide) (by rw [hs]; exact one_literal)
  have hm := hc.sym
  simp only [List.mem_cons, List.not_mem_nil, or_false] at hm
  unfold lowerLit
  rw [hk]
  simp only []
  rcases hm with h | h | h | h <;> rw [type_of h]
  · rw [if_neg (by decide), if_neg (by decide), if_pos (by decide)]; trivial
  · rw [if_neg (by decide), if_neg (by decide), if_neg (by decide), if_pos (by decide)]; trivial
  · rw [if_pos (by decide)]; trivial
  · rw [if_neg (by decide), if_pos (by decide)]; trivial

theorem identRules : (grammar.all fun r => !Nat.beq r.lhs 104 || r.rhs == [[53, 103]]) = true := by decide +kernel

theorem ident_good {strict : Bool} {t : Tree} (h : Fine strict t) (hs : t.sym = 104) (hn : t.isTypeName = false) : Good' strict (lowerIdent t) := by
  obtain ⟨r, cs, hr, rfl, hf, hp, _, _, hh, hl⟩ := h.node (by rw [hs]; decide)
  have := List.all_eq_true.1 identRules r hr
  simp only [Tree.sym] at hs
  simp only [hs, Nat.beq_refl, Bool.not_true, Bool.false_or, beq_iff_eq] at this
  rw [this] at hf
  obtain ⟨c, rfl, he, hc⟩ := single hp (by rw [fills_length hf]; rfl) hh hl
  rw [solid_cons he] at hf
  have h53 : c.sym = 53 := by
    have := hf.1
    simp only [List.mem_cons, List.not_mem_nil, or_false] at this
    rcases this with h | h
    · exact h
    · have h1 : (Tree.node r.lhs r.pid [c] false).sym = 104 := hs
      have h2 : (Tree.node r.lhs r.pid [c] false).children = [c] := rfl
      rw [Tree.isTypeName, h1, h2] at hn
      simp [h] at hn
  have hk : (Tree.node r.lhs r.pid [c] false).kids false = [] := by
    rw [Tree.kids, kidsOf_skip (by rw [h53]; rfl), kidsOf_nil, List.append_nil]
    cases hc.derives with
    | tok _ => rw [Tree.kids]
    | rule hr => exact absurd (lhs_ok hr).1 (by simp only [Tree.sym] at h53; rw [h53]; decide)
  unfold lowerIdent
  rw [hk]
  exact (good_check rfl).bind fun _ _ => good_pure _

/-! ## Parameters and names -/

theorem need_ident : needField 84 b!"ident" [104] = true := by decide +kernel

theorem param_good {strict : Bool} {t : Tree} (h : Fine strict t) (hs : t.sym = 84) : Good' strict (lowerParam t) := by
  obtain ⟨c, hg, hc⟩ := h.get (name := b!"ident") (by rw [hs]; decide) (by rw [hs]; exact need_ident)
  unfold lowerParam
  rw [hg, ok_bind]
  refine (good_check ?_).bind fun _ _ => good_pure _
  rw [type_of (mem_one hc.sym)]; rfl

theorem param_closed : (closed true [84, 26, 107] && madeOf 85 [84, 26, 107] && closed true [78, 26, 108] && madeOf 86 [78, 26, 108]) = true := by decide +kernel

theorem known_bare {s : Nat} {cs : List Tree} (h : knownNode s cs = true) (hs : s = 86 ∨ s = 85) : allBare cs = true := by
  simp only [knownNode, Bool.and_eq_true, Bool.or_eq_true, Bool.not_eq_true', Bool.or_eq_false_iff, beq_eq_false_iff_ne] at h
  rcases h.2 with h | h
  · rcases hs with rfl | rfl
    · exact absurd rfl h.1
    · exact absurd rfl h.2
  · exact h

/-- In a list without comments no child is one. -/
theorem bare_kids {strict : Bool} {S : List Nat} (hS : closed true S = true) (hv : ∀ s ∈ S, relevant true s = false → s < 60 ∨ s = 107 ∨ s = 108) :
    ∀ (n : Nat) {cs : List Tree}, sizes cs ≤ n → Parts strict cs → allBare cs = true → (∀ c ∈ cs, c.extra = false → c.sym ∈ S) → ∀ k ∈ kidsOf true cs, k.extra = false
  | n, [], _, _, _, _, k, hk => by cases hk
  | 0, c :: cs, hn, _, _, _, _, _ => by have := size_pos c; rw [sizes] at hn; omega
  | n + 1, c :: cs, hn, hp, hb, hs, k, hk => by
    obtain ⟨h1, h2⟩ := hp.cons
    have := size_pos c
    rw [sizes] at hn
    rw [allBare, Bool.and_eq_true] at hb
    have he : c.extra = false := by
      cases c with
      | leaf _ _ _ e => simpa [Tree.bare, Tree.extra] using hb.1
      | node _ _ _ e =>
        have := hb.1
        simp only [Tree.bare, Bool.and_eq_true, Bool.not_eq_true'] at this
        exact this.1
    have hfc : Fine strict c := by
      rcases h1 with h1 | h1
      · exact h1.2
      · rw [h1.extra] at he; cases he
    have rest : k ∈ kidsOf true cs → k.extra = false := bare_kids hS hv n (by omega) h2 hb.2 (fun c hc => hs c (.tail _ hc)) k
    cases hr : relevant true c.sym with
    | true =>
      rw [kidsOf_seen hr] at hk
      cases hk with
      | head => exact he
      | tail _ hk => exact rest hk
    | false =>
      rw [kidsOf_skip hr, List.mem_append] at hk
      rcases hk with hk | hk
      · have hcS := hs c (.head _) he
        by_cases h60 : 60 ≤ c.sym
        · obtain ⟨r, ds, hr', rfl, hf, hp', _⟩ := hfc.node h60
          rw [Tree.kids] at hk
          have hsz : (Tree.node r.lhs r.pid ds false).size = 1 + sizes ds := by rw [Tree.size]
          have hsym : r.lhs = 107 ∨ r.lhs = 108 := by
            rcases hv _ hcS hr with h | h
            · exact absurd h60 (Nat.not_le.2 h)
            · exact h
          refine bare_kids hS hv n (by omega) hp' ?_ (fun d hd hde => ?_) k hk
          · have := hb.1
            simp only [Tree.bare, Bool.and_eq_true, Bool.or_eq_true, Bool.not_eq_true', Bool.or_eq_false_iff, beq_eq_false_iff_ne] at this
            rcases this.2 with h | h
            · rcases hsym with e | e
              · exact absurd e h.2
              · exact absurd e h.1
            · exact h
          · obtain ⟨p, hp1, hp2⟩ := fills_mem hf _ (solid_mem hd hde)
            have hcl := List.all_eq_true.1 hS r hr'
            have hin := natIn_iff.2 hcS
            simp only [Tree.sym] at hin hr
            rw [hin, hr] at hcl
            simp only [Bool.not_true, Bool.false_or, List.all_eq_true, natIn_iff] at hcl
            exact hcl p hp1 _ hp2
        · cases hfc.derives with
          | tok _ => rw [Tree.kids] at hk; cases hk
          | rule hr' => exact absurd (lhs_ok hr').1 h60
      · exact rest hk

/-- The members of a list of arguments or parameters. -/
theorem list_kids {s x R : Nat} (hS : closed true [x, 26, R] = true) (hm : madeOf s [x, 26, R] = true) (h60 : 60 ≤ s) (hsx : s = 86 ∧ R = 108 ∨ s = 85 ∧ R = 107)
    (hx : relevant true x = true) {t : Tree} (h : Fine true t) (hs : t.sym = s) : ∀ k ∈ t.kids true, k.sym = x := by
  intro k hk
  have hR : relevant true R = false := by rcases hsx with h | h <;> rw [h.2] <;> rfl
  obtain ⟨r, cs, hr, rfl, hf, hp, _, hkn, _⟩ := h.node (by rw [hs]; exact h60)
  simp only [Tree.sym] at hs
  have hin : ∀ c ∈ cs, c.extra = false → c.sym ∈ [x, 26, R] := fun c hc he => by
    obtain ⟨p, h1, h2⟩ := fills_mem hf _ (solid_mem hc he)
    have := List.all_eq_true.1 hm r hr
    simp only [hs, Nat.beq_refl, Bool.not_true, Bool.false_or, List.all_eq_true, natIn_iff] at this
    exact this p h1 _ h2
  rw [Tree.kids] at hk
  have hb : allBare cs = true := known_bare (hkn rfl) (by rw [hs]; rcases hsx with h | h <;> simp [h.1])
  have he : k.extra = false := by
    refine bare_kids hS (fun y hy hyr => ?_) (sizes cs) (Nat.le_refl _) hp hb hin k hk
    simp only [List.mem_cons, List.not_mem_nil, or_false] at hy
    rcases hy with rfl | rfl | rfl
    · rw [hx] at hyr; cases hyr
    · exact .inl (by decide)
    · rcases hsx with h | h <;> simp [h.2]
  rcases (kids_fine hS (sizes cs) (Nat.le_refl _) hp hin k hk).1 with ⟨_, h2, h3⟩ | h2
  · simp only [List.mem_cons, List.not_mem_nil, or_false] at h2
    rcases h2 with h2 | h2 | h2
    · exact h2
    · rw [h2] at h3; cases h3
    · rw [h2, hR] at h3; cases h3
  · rw [h2.extra] at he; cases he

theorem param_parts : closed true [84, 26, 107] = true ∧ madeOf 85 [84, 26, 107] = true ∧ closed true [78, 26, 108] = true ∧ madeOf 86 [78, 26, 108] = true := by
  have := param_closed
  simp only [Bool.and_eq_true] at this
  exact ⟨this.1.1.1, this.1.1.2, this.1.2, this.2⟩

/-- Whatever is called a parameter is one. -/
theorem named_param {strict : Bool} {t k : Tree} (h : Fine strict t) (hs : t.sym = 85) (hk : k ∈ t.kids true) (ht : k.type = b!"param") : Fine strict k ∧ k.sym = 84 := by
  rcases (h.kids (by rw [hs]; decide) param_parts.1 (by rw [hs]; exact param_parts.2.1) k hk).1 with h | h
  · exact ⟨h.1, sym_of_type b!"param" 84 (by decide +kernel) h.1 ht⟩
  · rcases comment_type h with h | h <;> rw [h] at ht <;> cases ht

theorem params_good {strict : Bool} {o : Option Tree} (h : ∀ t, o = some t → Fine strict t ∧ t.sym = 85) : Good' strict (lowerParams o) := by
  cases o with
  | none => exact good_ok _
  | some t =>
    obtain ⟨hf, hs⟩ := h t rfl
    unfold lowerParams
    refine (good_expect fun _ => by rw [type_of hs]; rfl).bind fun _ _ => (good_expect fun hst => ?_).bind fun u hu => ?_
    · subst hst
      refine List.all_eq_true.2 fun k hk => ?_
      rw [type_of (list_kids param_parts.1 param_parts.2.1 (by decide) (.inr ⟨rfl, rfl⟩) rfl hf hs k hk)]
      rfl
    · refine good_mapM fun k hk => ?_
      have := List.all_eq_true.1 (expect_ok hu) k hk
      obtain ⟨h1, h2⟩ := named_param hf hs hk (eq_of_beq this)
      exact param_good h1 h2

theorem opt_qualifiers : ([71, 72, 74, 88].all fun s => optField s b!"qualifiers" [70]) = true := by decide +kernel

theorem qualifiers {strict : Bool} {t : Tree} (h : Fine strict t) (hs : t.sym ∈ [71, 72, 74, 88]) : t.field b!"qualifiers" = none ∨
    ∃ c, t.field b!"qualifiers" = some c ∧ c.type = b!"qualifier_list" := by
  have h60 : 60 ≤ t.sym := by
    simp only [List.mem_cons, List.not_mem_nil, or_false] at hs
    omega
  rcases h.opt h60 (List.all_eq_true.1 opt_qualifiers _ hs) with h | ⟨c, h1, h2⟩
  · exact .inl h
  · exact .inr ⟨c, h1, by rw [type_of (mem_one h2.sym)]; rfl⟩

theorem static_good {strict : Bool} {t : Tree} (h : Fine strict t) (hs : t.sym ∈ [71, 72, 74, 88]) : Good' strict (lowerStatic t) := by
  unfold lowerStatic
  rcases qualifiers h hs with h | ⟨c, h1, h2⟩
  · rw [h]; exact good_ok _
  · rw [h1]
    exact (good_check (by rw [h2]; rfl)).bind fun _ _ => good_pure _

theorem need_name : ([71, 72, 74, 88].all fun s => needField s b!"name" [102, 104]) = true := by decide +kernel

theorem class_name : needField 74 b!"name" [104] = true ∧ needField 88 b!"name" [104] = true := by decide +kernel

theorem name_good {strict : Bool} {t : Tree} (h : Fine strict t) (hs : t.sym ∈ [71, 72, 74, 88]) : Good' strict (lowerName t) := by
  have h60 : 60 ≤ t.sym := by
    simp only [List.mem_cons, List.not_mem_nil, or_false] at hs
    omega
  obtain ⟨c, hg, hc⟩ := h.get h60 (List.all_eq_true.1 need_name _ hs)
  unfold lowerName
  rw [hg, ok_bind]
  refine (good_expect fun hst => ?_).bind fun _ _ => good_pure _
  have : c.sym = 104 := by
    by_cases h1 : t.sym = 74 ∨ t.sym = 88
    · obtain ⟨c', hg', hc'⟩ := h.get (name := b!"name") (syms := [104]) h60 (by rcases h1 with h1 | h1 <;> rw [h1]; exact class_name.1; exact class_name.2)
      rw [hg] at hg'
      cases hg'
      exact mem_one hc'.sym
    · obtain ⟨r, cs, hr, rfl, hf, hp, _, hkn, _⟩ := h.node h60
      have hk := hkn hst
      simp only [Tree.sym] at hs h1
      simp only [List.mem_cons, List.not_mem_nil, or_false] at hs
      have hfp : r.lhs = 72 ∨ r.lhs = 71 := by omega
      simp only [knownNode, Bool.and_eq_true, Bool.or_eq_true, Bool.not_eq_true', Bool.or_eq_false_iff, beq_eq_false_iff_ne] at hk
      have hall : cs.all (·.sym != 102) = true := by
        rcases hk.1.2 with h | h
        · rcases hfp with e | e
          · exact absurd e h.1
          · exact absurd e h.2
        · exact h
      have := hc.sym
      simp only [List.mem_cons, List.not_mem_nil, or_false] at this
      rcases this with e | e
      · have := List.all_eq_true.1 hall c hc.mem
        rw [e] at this; cases this
      · exact e
  rw [type_of this]; rfl

theorem opt_params : ([71, 72, 73, 74].all fun s => optField s b!"params" [85]) = true := by decide +kernel

theorem field_params {strict : Bool} {t : Tree} (h : Fine strict t) (hs : t.sym ∈ [71, 72, 73, 74]) : Good' strict (lowerParams (t.field b!"params")) := by
  have h60 : 60 ≤ t.sym := by
    simp only [List.mem_cons, List.not_mem_nil, or_false] at hs
    omega
  refine params_good fun c hc => ?_
  rcases h.opt h60 (List.all_eq_true.1 opt_params _ hs) with hn | ⟨c', h1, h2⟩
  · rw [hn] at hc; cases hc
  · rw [h1] at hc; cases hc
    exact ⟨h2.fine, mem_one h2.sym⟩

theorem head_good {strict : Bool} {t : Tree} (h : Fine strict t) (hs : t.sym ∈ [71, 72, 74]) : Good' strict (lowerHead t) := by
  have hs' : t.sym ∈ [71, 72, 74, 88] ∧ t.sym ∈ [71, 72, 73, 74] := by
    simp only [List.mem_cons, List.not_mem_nil, or_false] at hs ⊢
    omega
  unfold lowerHead
  have rest : Good' strict (do
      let name ← lowerName t
      let ps ← lowerParams (t.field b!"params")
      return (← lowerStatic t, name, ps)) :=
    (name_good h hs'.1).bind fun _ _ => (field_params h hs'.2).bind fun _ _ => (static_good h hs'.1).bind fun _ _ => good_pure _
  rcases qualifiers h hs'.1 with hq | ⟨c, h1, h2⟩
  · rw [hq]; exact rest
  · rw [h1]
    exact (good_expect fun _ => by rw [h2]; rfl).bind fun _ _ => rest

/-! ## Operators -/

theorem text_leaf (s : Nat) (pad text : Bytes) (e : Bool) : (Tree.leaf s pad text e).text = text := by
  simp [Tree.text, Tree.whole, Tree.padding]

theorem text_node (s pid : Nat) (c : Tree) (e : Bool) : (Tree.node s pid [c] e).text = c.text := by
  simp [Tree.text, Tree.whole, Tree.padding, wholeOf, paddingOf]

/-- Tokens with their own spelling. -/
theorem token_text {t : Tree} (h : Fine true t) (hs : t.sym < 60) {w : Bytes} (hw : fixedTexts.lookup t.sym = some w) : t.text = w := by
  have := h.spelled rfl
  cases h.derives with
  | tok _ =>
    simp only [Tree.leaves, spelled, List.all_cons, List.all_nil, Bool.and_true, Bool.and_eq_true] at this
    have h2 := this.2
    unfold spelling at h2
    simp only [Tree.sym] at hw
    rw [hw] at h2
    rw [text_leaf]
    exact eq_of_beq h2
  | rule hr => exact absurd (lhs_ok hr).1 (Nat.not_le.2 hs)

theorem operator_rules : (grammar.all fun r => !natIn r.lhs [90, 92, 93, 94, 95] || match r.rhs with
    | [p] => p.all fun x => Nat.blt x 60 && (match fixedTexts.lookup x with
      | none => false
      | some w => bif Nat.beq r.lhs 90 then [UnOp.neg, .not].any (·.text == w) else
          [BinOp.add, .sub, .mul, .div, .mod, .pow, .eq, .ne, .lt, .le, .gt, .ge, .and, .or, .xor].any (·.text == w))
    | _ => false) = true := by decide +kernel

theorem operator_text {t : Tree} (h : Fine true t) (hs : t.sym ∈ [90, 92, 93, 94, 95]) :
    (if t.sym = 90 then [UnOp.neg, .not].any (·.text == t.text) else
      [BinOp.add, .sub, .mul, .div, .mod, .pow, .eq, .ne, .lt, .le, .gt, .ge, .and, .or, .xor].any (·.text == t.text)) = true := by
  have h60 : 60 ≤ t.sym := by
    simp only [List.mem_cons, List.not_mem_nil, or_false] at hs
    omega
  obtain ⟨r, cs, hr, rfl, hf, hp, _, _, hh, hl⟩ := h.node h60
  have := List.all_eq_true.1 operator_rules r hr
  simp only [Tree.sym] at hs ⊢
  rw [natIn_iff.2 hs] at this
  simp only [Bool.not_true, Bool.false_or] at this
  split at this
  · rename_i p hrp
    rw [hrp] at hf
    obtain ⟨c, rfl, he, hc⟩ := single hp (by rw [fills_length hf]; rfl) hh hl
    rw [solid_cons he] at hf
    have := List.all_eq_true.1 this _ hf.1
    simp only [Bool.and_eq_true, Nat.blt_eq] at this
    obtain ⟨h1, h2⟩ := this
    split at h2
    · cases h2
    · rename_i w hw
      rw [text_node, token_text hc h1 hw]
      by_cases h90 : r.lhs = 90
      · refine (if_pos (c := (Tree.node r.lhs r.pid [c] false).sym = 90) h90).trans ?_
        rw [h90] at h2
        exact h2
      · refine (if_neg (c := (Tree.node r.lhs r.pid [c] false).sym = 90) h90).trans ?_
        rw [show Nat.beq r.lhs 90 = false from by rw [← Bool.not_eq_true, Nat.beq_eq]; exact h90] at h2
        exact h2
  · cases this

theorem find_any {α : Type} {p : α → Bool} {l : List α} (h : l.any p = true) : ∃ a, l.find? p = some a := by
  cases hf : l.find? p with
  | some a => exact ⟨a, rfl⟩
  | none =>
    rw [List.find?_eq_none] at hf
    obtain ⟨a, h1, h2⟩ := List.any_eq_true.1 h
    exact absurd h2 (hf a h1)

theorem unOp_good {strict : Bool} {t : Tree} (h : Fine strict t) (hs : t.sym = 90) : Good' strict (lowerUnOp t) := by
  unfold lowerUnOp
  refine (good_expect fun _ => by rw [type_of hs]; rfl).bind fun _ _ => ?_
  split
  · exact good_ok _
  · rename_i hn
    cases strict with
    | false => exact good_error rfl
    | true =>
      have := operator_text h (by rw [hs]; decide)
      rw [if_pos hs] at this
      obtain ⟨a, ha⟩ := find_any this
      rw [ha] at hn; cases hn

theorem binOp_good {strict : Bool} {t : Tree} (h : Fine strict t) (hs : t.sym ∈ [32, 41, 92, 93, 94, 95]) : Good' strict (lowerBinOp t) := by
  unfold lowerBinOp
  split
  · exact good_ok _
  · rename_i hn
    cases strict with
    | false => exact good_error rfl
    | true =>
      exfalso
      simp only [List.mem_cons, List.not_mem_nil, or_false] at hs
      by_cases h60 : t.sym < 60
      · have : t.text = b!"**" ∨ t.text = b!"&&" := by
          rcases hs with hs | hs | hs
          · exact .inl (token_text h h60 (by rw [hs]; rfl))
          · exact .inr (token_text h h60 (by rw [hs]; rfl))
          · omega
        rcases this with e | e <;> rw [e] at hn <;> revert hn <;> decide
      · have := operator_text h (by simp only [List.mem_cons, List.not_mem_nil, or_false]; omega)
        rw [if_neg (by omega)] at this
        obtain ⟨a, ha⟩ := find_any this
        rw [ha] at hn; cases hn

/-! ## Paths -/

theorem path_facts : needCount 67 [] false [1, 3] = true ∧ needField 67 b!"bit" [104] = true ∧ optField 67 b!"rest" [67] = true := by decide +kernel

theorem path_good {strict : Bool} : ∀ {n : Nat} {t : Tree}, Fine strict t → t.sym = 67 → t.size ≤ n → Good' strict (lowerPath n t)
  | 0, t, _, _, hn => by have := size_pos t; omega
  | n + 1, t, h, hs, hn => by
    have h60 : 60 ≤ t.sym := by rw [hs]; decide
    have hc := h.count h60 (named := false) (ns := [1, 3]) (by rw [hs]; rfl) (by rw [hs]; exact path_facts.1)
    obtain ⟨c, hg, hcc⟩ := h.get (name := b!"bit") (syms := [104]) h60 (by rw [hs]; exact path_facts.2.1)
    unfold lowerPath
    refine (good_check ?_).bind fun _ _ => ?_
    · simp only [List.mem_cons, List.not_mem_nil, or_false] at hc
      rcases hc with e | e <;> rw [e] <;> rfl
    rw [hg, ok_bind]
    refine (good_expect fun _ => by rw [type_of (mem_one hcc.sym)]; rfl).bind fun _ _ => ?_
    rcases h.opt h60 (name := b!"rest") (syms := [67]) (by rw [hs]; exact path_facts.2.2) with e | ⟨d, e, hd⟩
    · rw [e]; exact good_pure _
    · rw [e]
      refine (good_expect fun _ => by rw [type_of (mem_one hd.sym)]; rfl).bind fun _ _ => ?_
      refine (path_good hd.fine (mem_one hd.sym) (by have := hd.size; omega)).bind fun _ _ => good_pure _

end Bob.Parse
