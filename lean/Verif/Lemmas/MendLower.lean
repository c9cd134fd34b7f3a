import Verif.Spec.Mend
/-!
# How tokens are spelled does not matter
-/

namespace Bob.Parse
open Bob.Fl

theorem SameTexts.refl (t : Tree) : SameTexts t t := ⟨fun _ => rfl, fun _ => rfl, fun _ => rfl, fun _ => rfl, fun _ => rfl⟩

mutual
theorem Respelt.refl : ∀ t : Tree, Respelt t t
  | .leaf .. => .leaf fun _ => rfl
  | .node _ _ cs _ => .node (Respelts.refl cs) (.refl _)
theorem Respelts.refl : ∀ cs : List Tree, Respelts cs cs
  | [] => .nil
  | c :: cs => .cons (Respelt.refl c) (Respelts.refl cs)
end

theorem Respelt.sym_eq {t t' : Tree} (h : Respelt t t') : t'.sym = t.sym := by cases h <;> rfl
theorem Respelt.extra_eq {t t' : Tree} (h : Respelt t t') : t'.extra = t.extra := by cases h <;> rfl
theorem Respelt.type_eq {t t' : Tree} (h : Respelt t t') : t'.type = t.type := by rw [Tree.type, Tree.type, h.sym_eq]

theorem leaf_text (s : Nat) (pad text : Bytes) (x : Bool) : (Tree.leaf s pad text x).text = text := by simp [Tree.text, Tree.whole, Tree.padding]

theorem Respelt.text_eq {t t' : Tree} (h : Respelt t t') (ht : spelt t.type = true) : t'.text = t.text := by
  cases h with
  | leaf h1 => rw [leaf_text, leaf_text]; exact h1 ht
  | node _ h1 => exact h1.1 ht

theorem leaf_nofield (s : Nat) (pad text : Bytes) (x : Bool) (name : Bytes) : (Tree.leaf s pad text x).field name = none := rfl

theorem Respelt.quals {t t' : Tree} (h : Respelt t t') (e : t.type = b!"qualifier_list") : (t'.kids false).map Tree.text = (t.kids false).map Tree.text := by
  cases h with
  | leaf => rfl
  | node _ h => exact h.2.1 e

theorem Respelt.operator {t t' : Tree} (h : Respelt t t') (e : t.type = b!"binary_expression") : (t'.field b!"operator").map Tree.text = (t.field b!"operator").map Tree.text := by
  cases h with
  | leaf => rfl
  | node _ h => exact h.2.2.1 e

theorem Respelt.left {t t' : Tree} (h : Respelt t t') (e : t.type = b!"assignment") : (t'.field b!"left").map Tree.text = (t.field b!"left").map Tree.text := by
  cases h with
  | leaf => rfl
  | node _ h => exact h.2.2.2.1 e

theorem Respelt.test {t t' : Tree} (h : Respelt t t') (e : t.type = b!"assert") : (t'.field b!"test").map Tree.text = (t.field b!"test").map Tree.text := by
  cases h with
  | leaf => rfl
  | node _ h => exact h.2.2.2.2 e

theorem Respelts.append : ∀ {as as' bs bs' : List Tree}, Respelts as as' → Respelts bs bs' → Respelts (as ++ bs) (as' ++ bs')
  | _, _, _, _, .nil, h => h
  | _, _, _, _, .cons h1 h2, h => .cons h1 (h2.append h)

mutual
theorem Respelt.kids (b : Bool) : ∀ {t t' : Tree}, Respelt t t' → Respelts (t.kids b) (t'.kids b)
  | _, _, .leaf _ => .nil
  | _, _, .node h _ => h.kidsOf b
theorem Respelts.kidsOf (b : Bool) : ∀ {cs cs' : List Tree}, Respelts cs cs' → Respelts (Bob.Parse.kidsOf b cs) (Bob.Parse.kidsOf b cs')
  | _, _, .nil => .nil
  | c :: cs, c' :: cs', .cons h1 h2 => by
    rw [Bob.Parse.kidsOf, Bob.Parse.kidsOf, h1.sym_eq]
    cases relevant b c.sym
    · exact (h1.kids b).append (h2.kidsOf b)
    · exact .cons h1 (h2.kidsOf b)
end

mutual
theorem Respelt.size_eq : ∀ {t t' : Tree}, Respelt t t' → t'.size = t.size
  | _, _, .leaf _ => rfl
  | _, _, .node h _ => by rw [Tree.size, Tree.size, h.sizes_eq]
theorem Respelts.sizes_eq : ∀ {cs cs' : List Tree}, Respelts cs cs' → sizes cs' = sizes cs
  | _, _, .nil => rfl
  | _, _, .cons h1 h2 => by rw [sizes, sizes, h1.size_eq, h2.sizes_eq]
end

theorem Respelts.length_eq : ∀ {cs cs' : List Tree}, Respelts cs cs' → cs'.length = cs.length
  | _, _, .nil => rfl
  | _, _, .cons _ h => by rw [List.length_cons, List.length_cons, h.length_eq]

theorem Respelts.empty_eq {cs cs' : List Tree} (h : Respelts cs cs') : cs'.isEmpty = cs.isEmpty := by cases h <;> rfl

theorem Respelts.filter {p : Tree → Bool} (hp : ∀ {t t'}, Respelt t t' → p t' = p t) : ∀ {cs cs' : List Tree}, Respelts cs cs' → Respelts (cs.filter p) (cs'.filter p)
  | _, _, .nil => .nil
  | c :: cs, c' :: cs', .cons h1 h2 => by
    rw [List.filter_cons, List.filter_cons, hp h1]
    split
    · exact .cons h1 (h2.filter hp)
    · exact h2.filter hp

theorem Respelts.all_eq {p : Tree → Bool} (hp : ∀ {t t'}, Respelt t t' → p t' = p t) : ∀ {cs cs' : List Tree}, Respelts cs cs' → cs'.all p = cs.all p
  | _, _, .nil => rfl
  | _, _, .cons h1 h2 => by rw [List.all_cons, List.all_cons, hp h1, h2.all_eq hp]

inductive RespeltOpt : Option Tree → Option Tree → Prop where
  | none : RespeltOpt none none
  | some {t t' : Tree} : Respelt t t' → RespeltOpt (some t) (some t')

theorem RespeltOpt.refl : ∀ o : Option Tree, RespeltOpt o o
  | .none => .none
  | .some t => .some (.refl t)

theorem Respelts.nth : ∀ {cs cs' : List Tree}, Respelts cs cs' → ∀ i : Nat, RespeltOpt cs[i]? cs'[i]?
  | _, _, .nil, _ => .none
  | _, _, .cons h1 _, 0 => .some h1
  | _, _, .cons _ h2, i + 1 => h2.nth i

theorem Respelts.first {cs cs' : List Tree} (h : Respelts cs cs') : RespeltOpt cs.head? cs'.head? := by
  cases h with
  | nil => exact .none
  | cons h1 _ => exact .some h1

theorem Respelt.field {t t' : Tree} (h : Respelt t t') (name : Bytes) : RespeltOpt (t.field name) (t'.field name) := by
  cases h with
  | leaf => exact .none
  | @node s pid cs cs' x h1 =>
    simp only [Tree.field]
    cases (fieldMap.lookup pid).bind fun fs => fs.lookup name with
    | none => exact .none
    | some ix =>
      obtain ⟨i, b⟩ := ix
      have := (h1.filter (p := fun c => !c.extra) fun h => by rw [h.extra_eq]).nth i
      simp only []
      generalize (List.filter (fun c => !c.extra) cs)[i]? = o at this ⊢
      generalize (List.filter (fun c => !c.extra) cs')[i]? = o' at this ⊢
      cases this with
      | none => exact .none
      | @some c c' h2 =>
        simp only [h2.sym_eq]
        split
        · exact .some h2
        · exact (h2.kids false).first

theorem Respelt.get_bind {α : Type} {t t' : Tree} (h : Respelt t t') (name : Bytes) {f g : Tree → Low α} (hf : ∀ c c', Respelt c c' → f c = g c') :
    (t.get name >>= f) = (t'.get name >>= g) := by
  unfold Tree.get
  have := h.field name
  generalize t.field name = o at this
  generalize t'.field name = o' at this
  cases this with
  | none => rfl
  | some h => exact hf _ _ h

/-- The same, where the texts are the same. -/
theorem Respelt.get_bind_text {α : Type} {t t' : Tree} (h : Respelt t t') {name : Bytes} (ht : (t'.field name).map Tree.text = (t.field name).map Tree.text) {f g : Tree → Low α}
    (hf : ∀ c c', Respelt c c' → c'.text = c.text → f c = g c') : (t.get name >>= f) = (t'.get name >>= g) := by
  unfold Tree.get
  have := h.field name
  generalize t.field name = o at this ht
  generalize t'.field name = o' at this ht
  cases this with
  | none => rfl
  | some h => exact hf _ _ h (by simpa using ht)

theorem bind_same {α β : Type} {x y : Low α} {f g : α → Low β} (hx : x = y) (hf : ∀ a, f a = g a) : (x >>= f) = (y >>= g) := by
  rw [hx, funext hf]

theorem Respelts.mapM_eq {α : Type} {f : Tree → Low α} (hf : ∀ {t t'}, Respelt t t' → f t = f t') : ∀ {cs cs' : List Tree}, Respelts cs cs' → cs.mapM f = cs'.mapM f
  | _, _, .nil => rfl
  | _, _, .cons h1 h2 => by rw [List.mapM_cons, List.mapM_cons, hf h1, h2.mapM_eq hf]

theorem lit_same {t t' : Tree} (h : Respelt t t') : lowerLit t = lowerLit t' := by
  unfold lowerLit
  have := h.kids false
  generalize t.kids false = cs at this
  generalize t'.kids false = cs' at this
  match cs, cs', this with
  | [], [], _ => rfl
  | [c], [c'], .cons h1 .nil =>
    simp only [h1.type_eq]
    refine ite_congr rfl (fun _ => rfl) fun _ => ite_congr rfl (fun e => ?_) fun _ => ite_congr rfl (fun e => ?_) fun _ => ite_congr rfl (fun e => ?_) fun _ => rfl <;>
      rw [h1.text_eq (by rw [e]; decide)]
  | _ :: _ :: _, _ :: _ :: _, _ => rfl

/-- What is done with a node of a type that is checked. -/
theorem spelt_bind {α : Type} {c c' : Tree} (h : Respelt c c') {ty : Bytes} (hs : spelt ty = true) {f g : Low α} (hfg : c'.text = c.text → f = g) :
    (expect (c.type == ty) >>= fun _ => f) = (expect (c'.type == ty) >>= fun _ => g) := by
  rw [h.type_eq]
  by_cases e : c.type = ty
  · rw [hfg (h.text_eq (by rw [e]; exact hs))]
  · rw [show (c.type == ty) = false by rw [beq_eq_false_iff_ne]; exact e]; rfl

theorem spelt_check {α : Type} {c c' : Tree} (h : Respelt c c') {ty : Bytes} (hs : spelt ty = true) {f g : Low α} (hfg : c'.text = c.text → f = g) :
    (check (c.type == ty) >>= fun _ => f) = (check (c'.type == ty) >>= fun _ => g) := by
  rw [h.type_eq]
  by_cases e : c.type = ty
  · rw [hfg (h.text_eq (by rw [e]; exact hs))]
  · rw [show (c.type == ty) = false by rw [beq_eq_false_iff_ne]; exact e]; rfl

theorem param_same {t t' : Tree} (h : Respelt t t') : lowerParam t = lowerParam t' := by
  unfold lowerParam
  exact h.get_bind _ fun c c' hc => spelt_check hc (by decide) fun e => by rw [e]

theorem type_is {ty : Bytes} : ∀ {t t' : Tree}, Respelt t t' → (t'.type == ty) = (t.type == ty) := fun h => by rw [h.type_eq]

theorem params_same {o o' : Option Tree} (h : RespeltOpt o o') : lowerParams o = lowerParams o' := by
  cases h with
  | none => rfl
  | some h =>
    simp only [lowerParams]
    refine bind_same (by rw [h.type_eq]) fun _ => bind_same (by rw [(h.kids true).all_eq type_is]) fun _ => (h.kids true).mapM_eq param_same

theorem static_same {t t' : Tree} (h : Respelt t t') : lowerStatic t = lowerStatic t' := by
  unfold lowerStatic
  have := h.field b!"qualifiers"
  generalize t.field b!"qualifiers" = o at this
  generalize t'.field b!"qualifiers" = o' at this
  cases this with
  | none => rfl
  | @some c c' h =>
    by_cases e : c.type = b!"qualifier_list"
    · have := h.quals e
      have any : ∀ cs : List Tree, (cs.any fun q => q.text.isPrefixOf b!"static") = (cs.map Tree.text).any fun q => q.isPrefixOf b!"static" := fun cs => by rw [List.any_map]; rfl
      simp only [h.type_eq, any, this]
    · simp only [h.type_eq, show (c.type == b!"qualifier_list") = false by rw [beq_eq_false_iff_ne]; exact e]
      rfl

theorem name_same {t t' : Tree} (h : Respelt t t') : lowerName t = lowerName t' := by
  unfold lowerName
  exact h.get_bind _ fun c c' hc => spelt_bind hc (by decide) fun e => by rw [e]

theorem unOp_same {t t' : Tree} (h : Respelt t t') : lowerUnOp t = lowerUnOp t' := by
  unfold lowerUnOp
  exact spelt_bind h (by decide) fun e => by rw [e]

theorem path_same : ∀ {n : Nat} {t t' : Tree}, Respelt t t' → lowerPath n t = lowerPath n t'
  | 0, _, _, _ => rfl
  | n + 1, t, t', h => by
    rw [lowerPath, lowerPath]
    refine bind_same (by rw [(h.kids false).length_eq]) fun _ => h.get_bind _ fun c c' hc => spelt_bind hc (by decide) fun e => ?_
    simp only [e]
    have := h.field b!"rest"
    generalize t.field b!"rest" = o at this
    generalize t'.field b!"rest" = o' at this
    cases this with
    | none => rfl
    | some h => exact bind_same (by rw [h.type_eq]) fun _ => by rw [path_same h]

theorem head_same {t t' : Tree} (h : Respelt t t') : lowerHead t = lowerHead t' := by
  unfold lowerHead
  rw [name_same h, params_same (h.field _), static_same h]
  have := h.field b!"qualifiers"
  generalize t.field b!"qualifiers" = o at this
  generalize t'.field b!"qualifiers" = o' at this
  cases this with
  | none => rfl
  | some h => simp only [h.type_eq]

/-- All functions at once. -/
structure SameAt (n : Nat) : Prop where
  expr : ∀ {t t' : Tree}, Respelt t t' → lowerExpr n t = lowerExpr n t'
  kind : ∀ {t t' : Tree}, Respelt t t' → lowerKind n t = lowerKind n t'
  access : ∀ {t t' : Tree}, Respelt t t' → lowerAccess n t = lowerAccess n t'
  index : ∀ {t t' : Tree}, Respelt t t' → lowerIndex n t = lowerIndex n t'
  item : ∀ {t t' : Tree}, Respelt t t' → lowerItem n t = lowerItem n t'
  block : ∀ {t t' : Tree}, Respelt t t' → lowerBlock n t = lowerBlock n t'
  stmt : ∀ {t t' : Tree}, Respelt t t' → lowerStmt n t = lowerStmt n t'
  body : ∀ {t t' : Tree}, Respelt t t' → lowerFnBody n t = lowerFnBody n t'
  line : ∀ {t t' : Tree}, Respelt t t' → lowerLine n t = lowerLine n t'

section
variable {n : Nat} (ih : SameAt n) {t t' : Tree} (h : Respelt t t')
include ih h

theorem expr_same : lowerExpr (n + 1) t = lowerExpr (n + 1) t' := by
  rw [lowerExpr, lowerExpr]
  refine bind_same (by rw [h.type_eq]) fun _ => ?_
  have := h.kids false
  generalize t.kids false = cs at this
  generalize t'.kids false = cs' at this
  match cs, cs', this with
  | [], [], _ => rfl
  | [c], [c'], .cons h1 .nil => exact ih.kind h1
  | _ :: _ :: _, _ :: _ :: _, _ => rfl

theorem access_same : lowerAccess (n + 1) t = lowerAccess (n + 1) t' := by
  rw [lowerAccess, lowerAccess]
  refine bind_same (by rw [(h.kids true).length_eq]) fun _ => h.get_bind _ fun c c' hc => bind_same (by rw [hc.type_eq]) fun _ =>
    h.get_bind _ fun d d' hd => spelt_bind hd (by decide) fun e => ?_
  rw [ih.expr hc, e]

theorem index_same : lowerIndex (n + 1) t = lowerIndex (n + 1) t' := by
  rw [lowerIndex, lowerIndex]
  refine h.get_bind _ fun c c' hc => bind_same (by rw [hc.type_eq]) fun _ => h.get_bind _ fun d d' hd => bind_same (by rw [hd.type_eq]) fun _ => ?_
  rw [ih.expr hc, ih.expr hd]

theorem item_same : lowerItem (n + 1) t = lowerItem (n + 1) t' := by
  rw [lowerItem, lowerItem]
  refine h.get_bind _ fun c c' hc => h.get_bind _ fun d d' hd => bind_same (by rw [hc.type_eq]) fun _ => bind_same (by rw [hd.type_eq]) fun _ => ?_
  rw [ih.expr hc, ih.expr hd]

theorem block_same : lowerBlock (n + 1) t = lowerBlock (n + 1) t' := by
  rw [lowerBlock, lowerBlock]
  exact bind_same (by rw [h.type_eq]) fun _ => (h.kids true).mapM_eq ih.stmt

theorem body_same : lowerFnBody (n + 1) t = lowerFnBody (n + 1) t' := by
  rw [lowerFnBody, lowerFnBody]
  exact h.get_bind _ fun c c' hc => bind_same (by rw [hc.type_eq]) fun _ => ih.block hc

theorem stmt_same : lowerStmt (n + 1) t = lowerStmt (n + 1) t' := by
  rw [lowerStmt, lowerStmt, h.type_eq, ih.block h, head_same h, ih.body h]
  have := h.kids false
  generalize t.kids false = cs at this
  generalize t'.kids false = cs' at this
  match cs, cs', this with
  | [], [], _ => rfl
  | [c], [c'], .cons h1 .nil => simp only [ih.line h1]
  | _ :: _ :: _, _ :: _ :: _, _ => rfl

theorem kind_same : lowerKind (n + 1) t = lowerKind (n + 1) t' := by
  rw [lowerKind, lowerKind, h.type_eq]
  refine ite_congr rfl (fun _ => by rw [lit_same h]) fun _ => ite_congr rfl (fun e => by simp only [lowerIdent, (h.kids false).empty_eq, h.text_eq (by rw [e]; decide)]) fun _ => ite_congr rfl (fun _ => ?_) fun _ =>
    ite_congr rfl (fun _ => by rw [((h.kids false).filter type_is).mapM_eq ih.expr]) fun _ =>
    ite_congr rfl (fun _ => by rw [((h.kids false).filter type_is).mapM_eq ih.item]) fun _ =>
    ite_congr rfl (fun _ => ?_) fun _ => ite_congr rfl (fun _ => ?_) fun _ => ite_congr rfl (fun _ => ?_) fun _ => ite_congr rfl (fun e => ?_) fun _ =>
    ite_congr rfl (fun _ => by rw [ih.access h]) fun _ => ite_congr rfl (fun _ => by rw [ih.index h]) fun _ => rfl
  · exact bind_same (params_same (h.field _)) fun _ => h.get_bind _ fun c c' hc => by rw [hc.type_eq, ih.block hc, ih.expr hc]
  · refine bind_same (by rw [(h.kids false).length_eq]) fun _ => h.get_bind _ fun c c' hc => bind_same (by rw [hc.type_eq]) fun _ => ?_
    have := h.field b!"args"
    generalize t.field b!"args" = o at this
    generalize t'.field b!"args" = o' at this
    cases this with
    | none => simp only [ih.expr hc]
    | some h => simp only [ih.expr hc, h.type_eq, (h.kids true).all_eq type_is, (h.kids true).mapM_eq ih.expr]
  · exact h.get_bind _ fun c c' hc => by rw [ih.expr hc]
  · refine bind_same (by rw [(h.kids true).length_eq]) fun _ => h.get_bind _ fun c c' hc => bind_same (by rw [hc.type_eq]) fun _ =>
      h.get_bind _ fun d d' hd => by rw [unOp_same hd, ih.expr hc]
  · refine bind_same (by rw [(h.kids true).length_eq]) fun _ => h.get_bind _ fun c c' hc => bind_same (by rw [hc.type_eq]) fun _ =>
      h.get_bind _ fun d d' hd => bind_same (by rw [hd.type_eq]) fun _ => h.get_bind_text (h.operator e) fun o o' _ ho => by
        simp only [lowerBinOp, ho, ih.expr hc, ih.expr hd]

theorem line_same : lowerLine (n + 1) t = lowerLine (n + 1) t' := by
  rw [lowerLine, lowerLine, h.type_eq]
  refine ite_congr rfl (fun _ => ?_) fun _ => ite_congr rfl (fun _ => ?_) fun _ => ite_congr rfl (fun e => ?_) fun _ =>
    ite_congr rfl (fun _ => ?_) fun _ => ite_congr rfl (fun e => ?_) fun _ => ite_congr rfl (fun _ => by rw [head_same h]) fun _ =>
    ite_congr rfl (fun _ => by rw [ih.expr h]) fun _ => ite_congr rfl (fun _ => ?_) fun _ => rfl
  · exact bind_same (by rw [(h.kids false).length_eq]) fun _ => h.get_bind _ fun c c' hc => bind_same (by rw [hc.type_eq]) fun _ => by rw [ih.expr hc]
  · refine bind_same (by rw [(h.kids false).length_eq]) fun _ => ?_
    have := h.field b!"rv"
    generalize t.field b!"rv" = o at this
    generalize t'.field b!"rv" = o' at this
    cases this with
    | none => rfl
    | some h => exact bind_same (by rw [h.type_eq]) fun _ => by rw [ih.expr h]
  · exact bind_same (by rw [(h.kids false).length_eq]) fun _ => h.get_bind_text (h.test e) fun c c' hc ht => bind_same (by rw [hc.type_eq]) fun _ => by rw [ih.expr hc, ht]
  · refine bind_same (by rw [(h.kids true).length_eq]) fun _ => bind_same (name_same h) fun name => ?_
    rw [static_same h]
    have hi := h.field b!"initial"
    have ht := h.field b!"type"
    generalize t.field b!"initial" = o at hi
    generalize t'.field b!"initial" = o' at hi
    generalize t.field b!"type" = p at ht
    generalize t'.field b!"type" = p' at ht
    cases hi with
    | none => cases ht with
      | none => rfl
      | some h => simp only [h.type_eq]
    | some hx => cases ht with
      | none => simp only [hx.type_eq, ih.expr hx]
      | some h => simp only [h.type_eq, hx.type_eq, ih.expr hx]
  · refine bind_same (by rw [(h.kids false).length_eq]) fun _ => h.get_bind _ fun c c' hc => bind_same (by rw [hc.type_eq]) fun _ =>
      h.get_bind_text (h.left e) fun l l' hl ht => by rw [hl.type_eq, ht, ih.access hl, ih.index hl, ih.expr hc]
  · refine bind_same (by rw [(h.kids false).length_eq]) fun _ => h.get_bind _ fun c c' hc => bind_same (by rw [hc.type_eq]) fun _ => ?_
    rw [path_same hc]
    have := h.field b!"relative"
    generalize t.field b!"relative" = o at this
    generalize t'.field b!"relative" = o' at this
    cases this <;> rfl

end

theorem same_at : ∀ n : Nat, SameAt n
  | 0 => ⟨fun _ => rfl, fun _ => rfl, fun _ => rfl, fun _ => rfl, fun _ => rfl, fun _ => rfl, fun _ => rfl, fun _ => rfl, fun _ => rfl⟩
  | n + 1 => ⟨expr_same (same_at n), kind_same (same_at n), access_same (same_at n), index_same (same_at n), item_same (same_at n), block_same (same_at n), stmt_same (same_at n),
      body_same (same_at n), line_same (same_at n)⟩

/-- The interpreter takes the same script out of them. -/
theorem lower_same {t t' : Tree} (h : Respelt t t') : lower t = lower t' := by
  unfold lower
  rw [h.type_eq, h.size_eq, (h.kids false).mapM_eq (same_at _).stmt]

end Bob.Parse
