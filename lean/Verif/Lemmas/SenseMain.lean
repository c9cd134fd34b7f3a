import Verif.Lemmas.SenseLower
/-!
# Induction over trees that make sense
-/

namespace Bob.Parse
open Bob.Fl

def kindSyms : List Nat := [73, 79, 80, 81, 87, 91, 96, 97, 98, 99, 101, 104]
def lineSyms : List Nat := [66, 71, 75, 76, 77, 78, 88, 89]

structure GoodAt (strict : Bool) (t : Tree) : Prop where
  expr : ∀ {n}, t.sym = 78 → 3 * t.size ≤ n → Good' strict (lowerExpr n t)
  kind : ∀ {n}, t.sym ∈ kindSyms → t.isTypeName = false → 3 * t.size + 1 ≤ n → Good' strict (lowerKind n t)
  access : ∀ {n}, t.sym = 80 → 3 * t.size ≤ n → Good' strict (lowerAccess n t)
  index : ∀ {n}, t.sym = 98 → 3 * t.size ≤ n → Good' strict (lowerIndex n t)
  item : ∀ {n}, t.sym = 100 → 3 * t.size ≤ n → Good' strict (lowerItem n t)
  block : ∀ {n}, t.sym = 65 → 3 * t.size ≤ n + 1 → Good' strict (lowerBlock n t)
  stmt : ∀ {n}, t.sym ∈ [1, 2, 64, 65, 72, 74] → 3 * t.size ≤ n → Good' strict (lowerStmt n t)
  body : ∀ {n}, t.sym ∈ [72, 74] → 3 * t.size ≤ n + 1 → Good' strict (lowerFnBody n t)
  line : ∀ {n}, t.sym ∈ lineSyms → 3 * t.size + 1 ≤ n → Good' strict (lowerLine n t)

section
variable {strict : Bool} {t : Tree}

theorem expr_type_of {s : Nat} (h : s ∈ [78]) {c : Tree} (hc : c.sym = s) : (c.type == b!"expression") = true := by
  rw [type_of (hc.trans (mem_one h))]; rfl

theorem access_facts : needCount 80 [] true [2] = true ∧ needField 80 b!"accessed" [78] = true ∧ needField 80 b!"accessor" [104] = true := by decide +kernel

theorem access_at (h : Fine strict t) (ih : ∀ c, c.size < t.size → Fine strict c → GoodAt strict c) {n : Nat} (hs : t.sym = 80) (hn : 3 * t.size ≤ n) : Good' strict (lowerAccess n t) := by
  have h60 : 60 ≤ t.sym := by rw [hs]; decide
  have := size_pos t
  obtain ⟨n, rfl⟩ : ∃ m, n = m + 1 := ⟨n - 1, by omega⟩
  have hc := h.count h60 (named := true) (ns := [2]) (by rw [hs]; rfl) (by rw [hs]; exact access_facts.1)
  obtain ⟨e, he1, he⟩ := h.get (name := b!"accessed") (syms := [78]) h60 (by rw [hs]; exact access_facts.2.1)
  obtain ⟨c, hc1, hcc⟩ := h.get (name := b!"accessor") (syms := [104]) h60 (by rw [hs]; exact access_facts.2.2)
  rw [lowerAccess]
  refine (good_check (by rw [mem_one hc]; rfl)).bind fun _ _ => ?_
  rw [he1, ok_bind]
  refine (good_expect fun _ => expr_type_of he.sym rfl).bind fun _ _ => ?_
  rw [hc1, ok_bind]
  refine (good_expect fun _ => by rw [type_of (mem_one hcc.sym)]; rfl).bind fun _ _ => ?_
  have := he.size
  exact ((ih e he.size he.fine).expr (mem_one he.sym) (by omega)).bind fun _ _ => good_pure _

theorem index_facts : needField 98 b!"indexed" [78] = true ∧ needField 98 b!"index" [78] = true := by decide +kernel

theorem index_at (h : Fine strict t) (ih : ∀ c, c.size < t.size → Fine strict c → GoodAt strict c) {n : Nat} (hs : t.sym = 98) (hn : 3 * t.size ≤ n) : Good' strict (lowerIndex n t) := by
  have h60 : 60 ≤ t.sym := by rw [hs]; decide
  have := size_pos t
  obtain ⟨n, rfl⟩ : ∃ m, n = m + 1 := ⟨n - 1, by omega⟩
  obtain ⟨e, he1, he⟩ := h.get (name := b!"indexed") (syms := [78]) h60 (by rw [hs]; exact index_facts.1)
  obtain ⟨c, hc1, hcc⟩ := h.get (name := b!"index") (syms := [78]) h60 (by rw [hs]; exact index_facts.2)
  rw [lowerIndex]
  rw [he1, ok_bind]
  refine (good_expect fun _ => expr_type_of he.sym rfl).bind fun _ _ => ?_
  rw [hc1, ok_bind]
  refine (good_expect fun _ => expr_type_of hcc.sym rfl).bind fun _ _ => ?_
  have := he.size
  have := hcc.size
  exact ((ih e he.size he.fine).expr (mem_one he.sym) (by omega)).bind fun _ _ => ((ih c hcc.size hcc.fine).expr (mem_one hcc.sym) (by omega)).bind fun _ _ => good_pure _

theorem item_facts : needField 100 b!"key" [78] = true ∧ needField 100 b!"value" [78] = true := by decide +kernel

theorem item_at (h : Fine strict t) (ih : ∀ c, c.size < t.size → Fine strict c → GoodAt strict c) {n : Nat} (hs : t.sym = 100) (hn : 3 * t.size ≤ n) : Good' strict (lowerItem n t) := by
  have h60 : 60 ≤ t.sym := by rw [hs]; decide
  have := size_pos t
  obtain ⟨n, rfl⟩ : ∃ m, n = m + 1 := ⟨n - 1, by omega⟩
  obtain ⟨e, he1, he⟩ := h.get (name := b!"key") (syms := [78]) h60 (by rw [hs]; exact item_facts.1)
  obtain ⟨c, hc1, hcc⟩ := h.get (name := b!"value") (syms := [78]) h60 (by rw [hs]; exact item_facts.2)
  rw [lowerItem]
  rw [he1, ok_bind, hc1, ok_bind]
  refine (good_check (expr_type_of he.sym rfl)).bind fun _ _ => ?_
  refine (good_check (expr_type_of hcc.sym rfl)).bind fun _ _ => ?_
  have := he.size
  have := hcc.size
  exact ((ih e he.size he.fine).expr (mem_one he.sym) (by omega)).bind fun _ _ => ((ih c hcc.size hcc.fine).expr (mem_one hcc.sym) (by omega)).bind fun _ _ => good_pure _

theorem one_expr : needOne 78 kindSyms = true := by decide +kernel

theorem expr_at (h : Fine strict t) (ih : ∀ c, c.size < t.size → Fine strict c → GoodAt strict c) {n : Nat} (hs : t.sym = 78) (hn : 3 * t.size ≤ n) : Good' strict (lowerExpr n t) := by
  have h60 : 60 ≤ t.sym := by rw [hs]; decide
  have := size_pos t
  obtain ⟨n, rfl⟩ : ∃ m, n = m + 1 := ⟨n - 1, by omega⟩
  obtain ⟨c, hk, hch, hc⟩ := h.one h60 (syms := kindSyms) (by rw [hs]; exact one_expr)
  rw [lowerExpr]
  refine (good_check (by rw [type_of hs]; rfl)).bind fun _ _ => ?_
  rw [hk]
  have := hc.size
  refine (ih c hc.size hc.fine).kind hc.sym ?_ (by omega)
  obtain ⟨r, cs, hr, rfl, hf, hp, hx, _⟩ := h.node h60
  cases (show cs = [c] from hch)
  have hs : r.lhs = N.expression := hs
  simp only [safeNode, Bool.and_eq_true, Bool.not_eq_true', hs, beq_self_eq_true, Bool.true_and, List.any_cons, List.any_nil, Bool.or_false] at hx
  exact hx.2

theorem stmt_closed : closed true [1, 2, 6, 7, 61, 63, 64, 65, 72, 74] = true ∧ closed false [1, 2, 61, 63, 64, 65, 72, 74] = true ∧
    madeOf 65 [1, 2, 6, 7, 61, 63, 64, 65, 72, 74] = true ∧ madeOf 60 [1, 2, 61, 63, 64, 65, 72, 74] = true := by decide +kernel

theorem comment_stmt {n : Nat} {k : Tree} (h : Comment k) (hn : 1 ≤ n) : Good' strict (lowerStmt n k) := by
  obtain ⟨n, rfl⟩ : ∃ m, n = m + 1 := ⟨n - 1, by omega⟩
  rw [lowerStmt]
  rcases comment_type h with e | e <;> rw [e, if_pos (by decide)] <;> trivial

theorem block_at (h : Fine strict t) (ih : ∀ c, c.size < t.size → Fine strict c → GoodAt strict c) {n : Nat} (hs : t.sym = 65) (hn : 3 * t.size ≤ n + 1) : Good' strict (lowerBlock n t) := by
  have h60 : 60 ≤ t.sym := by rw [hs]; decide
  have := size_pos t
  obtain ⟨n, rfl⟩ : ∃ m, n = m + 1 := ⟨n - 1, by omega⟩
  rw [lowerBlock]
  refine (good_check (by rw [type_of hs]; rfl)).bind fun _ _ => good_mapM fun k hk => ?_
  obtain ⟨h1, h2⟩ := h.kids h60 stmt_closed.1 (by rw [hs]; exact stmt_closed.2.2.1) k hk
  rcases h1 with ⟨h1, h3, h4⟩ | h1
  · refine (ih k h2 h1).stmt ?_ (by omega)
    simp only [List.mem_cons, List.not_mem_nil, or_false] at h3 ⊢
    rcases h3 with e | e | e | e | e | e | e | e | e | e <;> simp [e] <;> rw [e] at h4 <;> cases h4
  · exact comment_stmt h1 (by have := size_pos k; omega)

theorem body_facts : ([72, 74].all fun s => needField s b!"body" [65]) = true := by decide +kernel

theorem body_at (h : Fine strict t) (ih : ∀ c, c.size < t.size → Fine strict c → GoodAt strict c) {n : Nat} (hs : t.sym ∈ [72, 74]) (hn : 3 * t.size ≤ n + 1) : Good' strict (lowerFnBody n t) := by
  have h60 : 60 ≤ t.sym := by
    simp only [List.mem_cons, List.not_mem_nil, or_false] at hs
    omega
  have := size_pos t
  obtain ⟨n, rfl⟩ : ∃ m, n = m + 1 := ⟨n - 1, by omega⟩
  obtain ⟨c, hg, hc⟩ := h.get (name := b!"body") (syms := [65]) h60 (List.all_eq_true.1 body_facts _ hs)
  rw [lowerFnBody, hg, ok_bind]
  refine (good_expect fun _ => by rw [type_of (mem_one hc.sym)]; rfl).bind fun _ _ => ?_
  have := hc.size
  exact (ih c hc.size hc.fine).block (mem_one hc.sym) (by omega)

theorem one_stmt : needOne 64 lineSyms = true := by decide +kernel

theorem stmt_at (h : Fine strict t) (ih : ∀ c, c.size < t.size → Fine strict c → GoodAt strict c) {n : Nat} (hs : t.sym ∈ [1, 2, 64, 65, 72, 74]) (hn : 3 * t.size ≤ n) :
    Good' strict (lowerStmt n t) := by
  have := size_pos t
  obtain ⟨n, rfl⟩ : ∃ m, n = m + 1 := ⟨n - 1, by omega⟩
  have hs' := hs
  simp only [List.mem_cons, List.not_mem_nil, or_false] at hs'
  rw [lowerStmt]
  rcases hs' with e | e | e | e | e | e <;> rw [type_of e]
  · rw [if_pos (by decide)]; trivial
  · rw [if_pos (by decide)]; trivial
  · rw [if_neg (by decide), if_neg (by decide), if_neg (by decide), if_neg (by decide)]
    obtain ⟨c, hk, _, hc⟩ := h.one (by rw [e]; decide) (syms := lineSyms) (by rw [e]; exact one_stmt)
    refine (good_check (by decide)).bind fun _ _ => ?_
    rw [hk]
    have := hc.size
    exact ((ih c hc.size hc.fine).line hc.sym (by omega)).bind fun _ _ => good_pure _
  · rw [if_neg (by decide), if_pos (by decide)]
    exact (block_at h ih e (by omega)).bind fun _ _ => good_pure _
  · rw [if_neg (by decide), if_neg (by decide), if_pos (by decide)]
    exact (head_good h (by rw [e]; decide)).bind fun _ _ => (body_at h ih (by rw [e]; decide) (by omega)).bind fun _ _ => good_pure _
  · rw [if_neg (by decide), if_neg (by decide), if_neg (by decide), if_pos (by decide)]
    exact (head_good h (by rw [e]; decide)).bind fun _ _ => (body_at h ih (by rw [e]; decide) (by omega)).bind fun _ _ => good_pure _

/-- Whatever is called an expression is one. -/
theorem named_kid {named : Bool} {w : Bytes} {s : Nat} (hw : ((List.range 110).all fun x => !(symbolNames.getD x [] == w) || Nat.beq x s) = true) (hc : w ≠ b!"comment" ∧ w ≠ b!"doc_comment")
    (h : Fine strict t) (h60 : 60 ≤ t.sym) {k : Tree} (hk : k ∈ t.kids named) (ht : k.type = w) : Fine strict k ∧ k.sym = s ∧ k.size < t.size := by
  have hS : closed named (List.range 110) = true := by cases named <;> decide +kernel
  have hm : ∀ x < 110, madeOf x (List.range 110) = true := fun x hx =>
    List.all_eq_true.1 (show ((List.range 110).all fun x => madeOf x (List.range 110)) = true by decide +kernel) x (List.mem_range.2 hx)
  obtain ⟨h1, h2⟩ := h.kids h60 hS (hm _ h.sym_lt) k hk
  rcases h1 with h1 | h1
  · exact ⟨h1.1, sym_of_type w s hw h1.1 ht, h2⟩
  · rcases comment_type h1 with e | e <;> rw [e] at ht
    · exact absurd ht.symm hc.1
    · exact absurd ht.symm hc.2

theorem is_expr : ((List.range 110).all fun x => !(symbolNames.getD x [] == b!"expression") || Nat.beq x 78) = true := by decide +kernel
theorem is_item : ((List.range 110).all fun x => !(symbolNames.getD x [] == b!"map_item") || Nat.beq x 100) = true := by decide +kernel

theorem kind_facts : (needField 73 b!"body" [65, 78] && needField 79 b!"expression" [78] && needField 81 b!"callable" [78] && needCount 81 [] false [3, 4] &&
    optField 81 b!"args" [86] && needCount 91 [] true [2] && needField 91 b!"operand" [78] && needField 91 b!"operator" [90] && needCount 96 [] true [3] &&
    needField 96 b!"left" [78] && needField 96 b!"right" [78] && needField 96 b!"operator" [32, 41, 92, 93, 94, 95]) = true := by decide +kernel

theorem kind_at (h : Fine strict t) (ih : ∀ c, c.size < t.size → Fine strict c → GoodAt strict c) {n : Nat} (hs : t.sym ∈ kindSyms) (hname : t.isTypeName = false)
    (hn : 3 * t.size + 1 ≤ n) : Good' strict (lowerKind n t) := by
  have h60 : 60 ≤ t.sym := by
    simp only [kindSyms, List.mem_cons, List.not_mem_nil, or_false] at hs
    omega
  have := size_pos t
  obtain ⟨n, rfl⟩ : ∃ m, n = m + 1 := ⟨n - 1, by omega⟩
  have fx := kind_facts
  simp only [Bool.and_eq_true] at fx
  obtain ⟨⟨⟨⟨⟨⟨⟨⟨⟨⟨⟨f1, f2⟩, f3⟩, f4⟩, f5⟩, f6⟩, f7⟩, f8⟩, f9⟩, f10⟩, f11⟩, f12⟩ := fx
  have sub : ∀ {c}, Child strict t [78] c → Good' strict (lowerExpr n c) := fun hc => by
    have := hc.size
    exact (ih _ hc.size hc.fine).expr (mem_one hc.sym) (by omega)
  have hs' := hs
  simp only [kindSyms, List.mem_cons, List.not_mem_nil, or_false] at hs'
  rw [lowerKind]
  rcases hs' with e | e | e | e | e | e | e | e | e | e | e | e <;> rw [type_of e]
  -- lambda
  · rw [if_neg (by decide), if_neg (by decide), if_pos (by decide)]
    refine (field_params h (by rw [e]; decide)).bind fun _ _ => ?_
    obtain ⟨c, hg, hc⟩ := h.get (name := b!"body") (syms := [65, 78]) h60 (by rw [e]; exact f1)
    rw [hg, ok_bind]
    have := hc.sym
    simp only [List.mem_cons, List.not_mem_nil, or_false] at this
    have := hc.size
    rcases ‹c.sym = 65 ∨ c.sym = 78› with e | e <;> rw [type_of e]
    · rw [if_pos (by decide)]
      exact ((ih c hc.size hc.fine).block e (by omega)).bind fun _ _ => good_pure _
    · rw [if_neg (by decide), if_pos (by decide)]
      exact ((ih c hc.size hc.fine).expr e (by omega)).bind fun _ _ => good_pure _
  -- parenthesized_expression
  · repeat rw [if_neg (by decide)]
    rw [if_pos (by decide)]
    obtain ⟨c, hg, hc⟩ := h.get (name := b!"expression") (syms := [78]) h60 (by rw [e]; exact f2)
    rw [hg, ok_bind]
    exact (sub hc).bind fun _ _ => good_pure _
  -- access
  · repeat rw [if_neg (by decide)]
    rw [if_pos (by decide)]
    exact (access_at h ih e (by omega)).bind fun _ _ => good_pure _
  -- call
  · repeat rw [if_neg (by decide)]
    rw [if_pos (by decide)]
    have hc := h.count h60 (named := false) (ns := [3, 4]) (by rw [e]; rfl) (by rw [e]; exact f4)
    obtain ⟨c, hg, hcc⟩ := h.get (name := b!"callable") (syms := [78]) h60 (by rw [e]; exact f3)
    refine (good_check ?_).bind fun _ _ => ?_
    · simp only [List.mem_cons, List.not_mem_nil, or_false] at hc
      rcases hc with e | e <;> rw [e] <;> rfl
    rw [hg, ok_bind]
    refine (good_expect fun _ => expr_type_of hcc.sym rfl).bind fun _ _ => ?_
    rcases h.opt h60 (name := b!"args") (syms := [86]) (by rw [e]; exact f5) with e | ⟨d, e, hd⟩ <;> rw [e]
    · exact (sub hcc).bind fun _ _ => good_pure _
    · have hd86 := mem_one hd.sym
      refine (good_expect fun _ => by rw [type_of hd86]; rfl).bind fun _ _ => (sub hcc).bind fun _ _ => (good_expect fun hst => ?_).bind fun u hu => ?_
      · subst hst
        refine List.all_eq_true.2 fun k hk => ?_
        rw [type_of (list_kids param_parts.2.2.1 param_parts.2.2.2 (by decide) (.inl ⟨rfl, rfl⟩) rfl hd.fine hd86 k hk)]
        rfl
      · refine Good'.bind (good_mapM fun k hk => ?_) fun _ _ => good_pure _
        have := List.all_eq_true.1 (expect_ok hu) k hk
        obtain ⟨h1, h2, h3⟩ := named_kid is_expr ⟨by decide, by decide⟩ hd.fine (by rw [hd86]; decide) hk (eq_of_beq this)
        have := hd.size
        exact (ih k (by omega) h1).expr h2 (by omega)
  -- literal
  · rw [if_pos (by decide)]
    exact (lit_good h e).bind fun _ _ => good_pure _
  -- unary_expression
  · repeat rw [if_neg (by decide)]
    rw [if_pos (by decide)]
    have hc := h.count h60 (named := true) (ns := [2]) (by rw [e]; rfl) (by rw [e]; exact f6)
    obtain ⟨c, hg, hcc⟩ := h.get (name := b!"operand") (syms := [78]) h60 (by rw [e]; exact f7)
    obtain ⟨d, hg', hd⟩ := h.get (name := b!"operator") (syms := [90]) h60 (by rw [e]; exact f8)
    refine (good_check (by rw [mem_one hc]; rfl)).bind fun _ _ => ?_
    rw [hg, ok_bind]
    refine (good_expect fun _ => expr_type_of hcc.sym rfl).bind fun _ _ => ?_
    rw [hg', ok_bind]
    exact (unOp_good hd.fine (mem_one hd.sym)).bind fun _ _ => (sub hcc).bind fun _ _ => good_pure _
  -- binary_expression
  · repeat rw [if_neg (by decide)]
    rw [if_pos (by decide)]
    have hc := h.count h60 (named := true) (ns := [3]) (by rw [e]; rfl) (by rw [e]; exact f9)
    obtain ⟨l, hg, hl⟩ := h.get (name := b!"left") (syms := [78]) h60 (by rw [e]; exact f10)
    obtain ⟨r, hg', hr⟩ := h.get (name := b!"right") (syms := [78]) h60 (by rw [e]; exact f11)
    obtain ⟨d, hg'', hd⟩ := h.get (name := b!"operator") (syms := [32, 41, 92, 93, 94, 95]) h60 (by rw [e]; exact f12)
    refine (good_check (by rw [mem_one hc]; rfl)).bind fun _ _ => ?_
    rw [hg, ok_bind]
    refine (good_expect fun _ => expr_type_of hl.sym rfl).bind fun _ _ => ?_
    rw [hg', ok_bind]
    refine (good_expect fun _ => expr_type_of hr.sym rfl).bind fun _ _ => ?_
    rw [hg'', ok_bind]
    exact (binOp_good hd.fine hd.sym).bind fun _ _ => (sub hl).bind fun _ _ => (sub hr).bind fun _ _ => good_pure _
  -- vec
  · repeat rw [if_neg (by decide)]
    rw [if_pos (by decide)]
    refine Good'.bind (good_mapM fun k hk => ?_) fun _ _ => good_pure _
    simp only [List.mem_filter] at hk
    obtain ⟨h1, h2, h3⟩ := named_kid is_expr ⟨by decide, by decide⟩ h h60 hk.1 (eq_of_beq hk.2)
    exact (ih k h3 h1).expr h2 (by omega)
  -- index
  · repeat rw [if_neg (by decide)]
    rw [if_pos (by decide)]
    exact (index_at h ih e (by omega)).bind fun _ _ => good_pure _
  -- slice
  · repeat rw [if_neg (by decide)]
    cases strict with
    | false => exact good_error rfl
    | true =>
      obtain ⟨r, cs, hr, rfl, hf, hp, _, hkn, _⟩ := h.node h60
      have hk := hkn rfl
      have e : r.lhs = 99 := e
      rw [e] at hk
      cases hk
  -- map
  · repeat rw [if_neg (by decide)]
    rw [if_pos (by decide)]
    refine Good'.bind (good_mapM fun k hk => ?_) fun _ _ => good_pure _
    simp only [List.mem_filter] at hk
    obtain ⟨h1, h2, h3⟩ := named_kid is_item ⟨by decide, by decide⟩ h h60 hk.1 (eq_of_beq hk.2)
    exact (ih k h3 h1).item h2 (by omega)
  -- identifier
  · rw [if_neg (by decide), if_pos (by decide)]
    exact (ident_good h e hname).bind fun _ _ => good_pure _

theorem line_facts : (needField 75 b!"msg" [78] && needCount 75 [] false [2] && optField 77 b!"rv" [78] && needCount 77 [] false [1, 2] && needField 76 b!"test" [78] &&
    needCount 76 [] false [2] && optField 88 b!"type" [83] && optField 88 b!"initial" [78] && needCount 88 [49] true [1, 2, 3] && needField 89 b!"left" [80, 98, 104] &&
    needField 89 b!"right" [78] && needCount 89 [] false [3] && needField 66 b!"path" [67] && needCount 66 [] false [2, 3]) = true := by decide +kernel

theorem decl_count (h : Fine strict t) (hs : t.sym = 88) (f : needCount 88 [49] true [1, 2, 3] = true) : (t.kids true).length ∈ [1, 2, 3] := by
  obtain ⟨r, cs, hr, rfl, hf, hp, hx, _⟩ := h.node (by rw [hs]; decide)
  have hs : r.lhs = 88 := hs
  have := List.all_eq_true.1 f r hr
  have h49 : r.pid ≠ 49 := by
    intro h49
    rw [hs, h49] at hx
    simp [safeNode] at hx
  have hb : natIn r.pid [49] = false := by
    rw [← Bool.not_eq_true, natIn_iff]
    simpa using h49
  rw [hs, hb] at this
  simp only [Nat.beq_refl, Bool.not_true, Bool.false_or] at this
  split at this
  · cases this
  · rename_i k hk
    rw [Tree.kids, kids_count hp (counted_bare hx (by rw [hs]; rfl)) hf hk]
    exact natIn_iff.1 this

theorem line_at (h : Fine strict t) (ih : ∀ c, c.size < t.size → Fine strict c → GoodAt strict c) {n : Nat} (hs : t.sym ∈ lineSyms)
    (hn : 3 * t.size + 1 ≤ n) : Good' strict (lowerLine n t) := by
  have h60 : 60 ≤ t.sym := by
    simp only [lineSyms, List.mem_cons, List.not_mem_nil, or_false] at hs
    omega
  have := size_pos t
  obtain ⟨n, rfl⟩ : ∃ m, n = m + 1 := ⟨n - 1, by omega⟩
  have fx := line_facts
  simp only [Bool.and_eq_true] at fx
  obtain ⟨⟨⟨⟨⟨⟨⟨⟨⟨⟨⟨⟨⟨f1, f2⟩, f3⟩, f4⟩, f5⟩, f6⟩, f7⟩, f8⟩, f9⟩, f10⟩, f11⟩, f12⟩, f13⟩, f14⟩ := fx
  have sub : ∀ {c}, Child strict t [78] c → Good' strict (lowerExpr n c) := fun hc => by
    have := hc.size
    exact (ih _ hc.size hc.fine).expr (mem_one hc.sym) (by omega)
  have hs' := hs
  simp only [lineSyms, List.mem_cons, List.not_mem_nil, or_false] at hs'
  rw [lowerLine]
  rcases hs' with e | e | e | e | e | e | e | e <;> rw [type_of e]
  -- import
  · repeat rw [if_neg (by decide)]
    rw [if_pos (by decide)]
    have hc := h.count h60 (named := false) (ns := [2, 3]) (by rw [e]; rfl) (by rw [e]; exact f14)
    obtain ⟨c, hg, hcc⟩ := h.get (name := b!"path") (syms := [67]) h60 (by rw [e]; exact f13)
    refine (good_check ?_).bind fun _ _ => ?_
    · simp only [List.mem_cons, List.not_mem_nil, or_false] at hc
      rcases hc with e | e <;> rw [e] <;> rfl
    rw [hg, ok_bind]
    refine (good_expect fun _ => by rw [type_of (mem_one hcc.sym)]; rfl).bind fun _ _ => ?_
    have := hcc.size
    exact (path_good hcc.fine (mem_one hcc.sym) (by omega)).bind fun _ _ => good_pure _
  -- proto
  · repeat rw [if_neg (by decide)]
    rw [if_pos (by decide)]
    exact (head_good h (by rw [e]; decide)).bind fun _ _ => good_pure _
  -- print
  · rw [if_pos (by decide)]
    have hc := h.count h60 (named := false) (ns := [2]) (by rw [e]; rfl) (by rw [e]; exact f2)
    obtain ⟨c, hg, hcc⟩ := h.get (name := b!"msg") (syms := [78]) h60 (by rw [e]; exact f1)
    refine (good_check (by rw [mem_one hc]; rfl)).bind fun _ _ => ?_
    rw [hg, ok_bind]
    exact (good_expect fun _ => expr_type_of hcc.sym rfl).bind fun _ _ => (sub hcc).bind fun _ _ => good_pure _
  -- assert
  · repeat rw [if_neg (by decide)]
    rw [if_pos (by decide)]
    have hc := h.count h60 (named := false) (ns := [2]) (by rw [e]; rfl) (by rw [e]; exact f6)
    obtain ⟨c, hg, hcc⟩ := h.get (name := b!"test") (syms := [78]) h60 (by rw [e]; exact f5)
    refine (good_check (by rw [mem_one hc]; rfl)).bind fun _ _ => ?_
    rw [hg, ok_bind]
    exact (good_expect fun _ => expr_type_of hcc.sym rfl).bind fun _ _ => (sub hcc).bind fun _ _ => good_pure _
  -- return
  · repeat rw [if_neg (by decide)]
    rw [if_pos (by decide)]
    have hc := h.count h60 (named := false) (ns := [1, 2]) (by rw [e]; rfl) (by rw [e]; exact f4)
    refine (good_check ?_).bind fun _ _ => ?_
    · simp only [List.mem_cons, List.not_mem_nil, or_false] at hc
      rcases hc with e | e <;> rw [e] <;> rfl
    rcases h.opt h60 (name := b!"rv") (syms := [78]) (by rw [e]; exact f3) with e | ⟨d, e, hd⟩ <;> rw [e]
    · exact good_pure _
    · exact (good_expect fun _ => expr_type_of hd.sym rfl).bind fun _ _ => (sub hd).bind fun _ _ => good_pure _
  -- expression
  · repeat rw [if_neg (by decide)]
    rw [if_pos (by decide)]
    exact (expr_at h ih e (by omega)).bind fun _ _ => good_pure _
  -- var_decl
  · repeat rw [if_neg (by decide)]
    rw [if_pos (by decide)]
    have hc := decl_count h e f9
    have hq : t.sym ∈ [71, 72, 74, 88] := by rw [e]; decide
    refine (good_check ?_).bind fun _ _ => (name_good h hq).bind fun _ _ => ?_
    · simp only [List.mem_cons, List.not_mem_nil, or_false] at hc
      rcases hc with e | e | e <;> rw [e] <;> rfl
    have rest : ∀ w : Bytes, Good' strict (match t.field b!"initial" with
      | none => do return Line.decl (← lowerStatic t) w none
      | some e => do
        expect (e.type == b!"expression")
        let isStatic ← lowerStatic t
        return .decl isStatic w (some (← lowerExpr n e))) := fun w => by
      rcases h.opt h60 (name := b!"initial") (syms := [78]) (by rw [e]; exact f8) with e | ⟨d, e, hd⟩ <;> rw [e]
      · exact (static_good h hq).bind fun _ _ => good_pure _
      · exact (good_expect fun _ => expr_type_of hd.sym rfl).bind fun _ _ => (static_good h hq).bind fun _ _ => (sub hd).bind fun _ _ => good_pure _
    rcases h.opt h60 (name := b!"type") (syms := [83]) (by rw [e]; exact f7) with e | ⟨d, e, hd⟩ <;> rw [e]
    · exact rest _
    · exact (good_expect fun _ => by rw [type_of (mem_one hd.sym)]; rfl).bind fun _ _ => rest _
  -- assignment
  · repeat rw [if_neg (by decide)]
    rw [if_pos (by decide)]
    have hc := h.count h60 (named := false) (ns := [3]) (by rw [e]; rfl) (by rw [e]; exact f12)
    obtain ⟨r, hg, hr⟩ := h.get (name := b!"right") (syms := [78]) h60 (by rw [e]; exact f11)
    obtain ⟨l, hg', hl⟩ := h.get (name := b!"left") (syms := [80, 98, 104]) h60 (by rw [e]; exact f10)
    refine (good_check (by rw [mem_one hc]; rfl)).bind fun _ _ => ?_
    rw [hg, ok_bind]
    refine (good_expect fun _ => expr_type_of hr.sym rfl).bind fun _ _ => ?_
    rw [hg', ok_bind]
    have hls := hl.sym
    simp only [List.mem_cons, List.not_mem_nil, or_false] at hls
    have := hl.size
    rcases hls with e | e | e <;> rw [type_of e]
    · rw [if_neg (by decide), if_pos (by decide)]
      exact ((ih l hl.size hl.fine).access e (by omega)).bind fun _ _ => (sub hr).bind fun _ _ => good_pure _
    · rw [if_neg (by decide), if_neg (by decide), if_pos (by decide)]
      exact ((ih l hl.size hl.fine).index e (by omega)).bind fun _ _ => (sub hr).bind fun _ _ => good_pure _
    · rw [if_pos (by decide)]
      exact (sub hr).bind fun _ _ => good_pure _

end

theorem good_all {strict : Bool} : ∀ (k : Nat) {t : Tree}, t.size ≤ k → Fine strict t → GoodAt strict t
  | 0, t, hk, _ => by have := size_pos t; omega
  | k + 1, t, hk, h => by
    have ih : ∀ c, c.size < t.size → Fine strict c → GoodAt strict c := fun c hc hf => good_all k (by omega) hf
    exact ⟨expr_at h ih, kind_at h ih, access_at h ih, index_at h ih, item_at h ih, block_at h ih, stmt_at h ih, body_at h ih, line_at h ih⟩

/-- The whole tree. -/
theorem whole_good {strict : Bool} {t : Tree} (h : WholeTree t) (hs : t.sense strict = true) (hsp : strict = true → spelled isLooseComment t.leaves = true) : Good' strict (lower t) := by
  cases h with
  | @mk r cs pad text hr hl hd hf =>
    have hsens : ∀ {as bs : List Tree}, allSense strict (as ++ bs) = true → allSense strict as = true := by
      intro as bs
      induction as with
      | nil => intro _; rfl
      | cons a as ih =>
        intro h
        simp only [List.cons_append, allSense, Bool.and_eq_true] at h ⊢
        exact ⟨h.1, ih h.2⟩
    have hp : Parts strict cs := by
      refine ⟨hd, ?_, fun hst => ?_⟩
      · simp only [Tree.sense, Bool.and_eq_true] at hs
        exact hsens hs.2
      · have := hsp hst
        rw [Tree.leaves, leaves_append, spelled_append, Bool.and_eq_true] at this
        exact this.1
    unfold lower
    refine (good_check (by rw [type_of (s := r.lhs) rfl, hl]; rfl)).bind fun _ _ => good_mapM fun k hk => ?_
    rw [Tree.kids, kidsOf_append, kidsOf_skip (c := .leaf T.eof pad text true) rfl, kidsOf_nil, Tree.kids, List.append_nil, List.append_nil] at hk
    have hin : ∀ c ∈ cs, c.extra = false → c.sym ∈ [1, 2, 61, 63, 64, 65, 72, 74] := fun c hc he => by
      obtain ⟨p, h1, h2⟩ := fills_mem hf _ (solid_mem hc he)
      have := List.all_eq_true.1 stmt_closed.2.2.2 r hr
      rw [hl] at this
      simp only [Nat.beq_refl, Bool.not_true, Bool.false_or, List.all_eq_true, natIn_iff] at this
      exact this p h1 _ h2
    obtain ⟨h1, h2⟩ := kids_fine stmt_closed.2.1 (sizes cs) (Nat.le_refl _) hp hin k hk
    have hsz : k.size ≤ (Tree.node r.lhs r.pid (cs ++ [.leaf T.eof pad text true]) false).size := by
      have : ∀ (as bs : List Tree), sizes as ≤ sizes (as ++ bs) := by
        intro as bs
        induction as with
        | nil => simp [sizes]
        | cons a as ih => simp only [List.cons_append, sizes]; omega
      have := this cs [.leaf T.eof pad text true]
      rw [Tree.size]; omega
    rcases h1 with ⟨h1, h3, h4⟩ | h1
    · refine (good_all k.size (Nat.le_refl _) h1).stmt ?_ (by omega)
      simp only [List.mem_cons, List.not_mem_nil, or_false] at h3 ⊢
      rcases h3 with e | e | e | e | e | e | e | e <;> first | (simp [e]; done) | (exfalso; revert h4; rw [e]; decide)
    · exact comment_stmt h1 (by have := size_pos k; omega)

end Bob.Parse
