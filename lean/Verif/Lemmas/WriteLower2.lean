import Verif.Lemmas.WriteLower
/-!
# What the interpreter takes out of the trees of scripts is the script
-/

namespace Bob.Parse
open Bob.Fl

theorem size_pos : ∀ (t : Tree), 1 ≤ t.size
  | .leaf .. => Nat.le_refl _
  | .node .. => by rw [Tree.size]; omega

theorem size_nd (A pid : Nat) (cs : List Tree) : (nw A pid cs).size = 1 + sizes cs := rfl
theorem size_lf (s : Nat) (w : Bytes) : (lf s w).size = 1 := rfl
theorem sizes_nil : sizes [] = 0 := rfl
theorem sizes_cons (c : Tree) (cs : List Tree) : sizes (c :: cs) = c.size + sizes cs := rfl
theorem sizes_append : ∀ (as bs : List Tree), sizes (as ++ bs) = sizes as + sizes bs
  | [], bs => by rw [sizes_nil, Nat.zero_add]; rfl
  | a :: as, bs => by rw [List.cons_append, sizes_cons, sizes_cons, sizes_append as bs, Nat.add_assoc]
theorem size_expr (c : Tree) : (expr c).size = 1 + c.size := by rw [expr, size_nd, sizes_cons, sizes_nil, Nat.add_zero]

theorem access_lower {n : Nat} {e : Expr} {name : Bytes} (hn : nameOK name = true) (he : lowerExpr n (exprTree e) = .ok e) :
    lowerAccess (n + 1) (nw N.access 15 [exprTree e, lf T.dot b!".", identTree name]) = .ok (e, name) := by
  have hx : ∀ c ∈ [exprTree e, lf T.dot b!".", identTree name], c.extra = false := by simp [expr_extra, extra_lf, identTree, extra_nd]
  rw [lowerAccess, check_true, ok_bind, get_some (field_some (i := 0) (b := false) (c := exprTree e) (by rfl) hx rfl (expr_seen false e)), ok_bind,
    expect_true (by rw [expr_type]; rfl), ok_bind, get_some (field_some (i := 2) (b := false) (c := identTree name) (by rfl) hx rfl rfl), ok_bind,
    expect_true (by rfl), ok_bind, he, ok_bind, ident_text hn, pure_ok]
  rw [kids_nd, kidsOf_seen (expr_seen true e), kidsOf_skip (by rfl), kidsOf_seen (by rfl), kids_lf, kidsOf_nil]
  rfl

theorem index_lower {n : Nat} {e i : Expr} (he : lowerExpr n (exprTree e) = .ok e) (hi : lowerExpr n (exprTree i) = .ok i) :
    lowerIndex (n + 1) (nw N.index 29 [exprTree e, lf T.lbracket b!"[", exprTree i, lf T.rbracket b!"]"]) = .ok (e, i) := by
  have hx : ∀ c ∈ [exprTree e, lf T.lbracket b!"[", exprTree i, lf T.rbracket b!"]"], c.extra = false := by simp [expr_extra, extra_lf]
  rw [lowerIndex, get_some (field_some (i := 0) (b := false) (c := exprTree e) (by rfl) hx rfl (expr_seen false e)), ok_bind,
    expect_true (by rw [expr_type]; rfl), ok_bind, get_some (field_some (i := 2) (b := false) (c := exprTree i) (by rfl) hx rfl (expr_seen false i)), ok_bind,
    expect_true (by rw [expr_type]; rfl), ok_bind, he, ok_bind, hi, ok_bind, pure_ok]

theorem expr_bool (e : Expr) : ((exprTree e).type == b!"expression") = true := by rw [expr_type]; rfl

theorem body_extra (b : Body) : (bodyTree b).extra = false := by
  cases b with
  | block ss => rw [bodyTree]; exact block_extra _
  | expr e => rw [bodyTree]; exact expr_extra e

theorem body_seen (b : Body) : relevant false (bodyTree b).sym = true := by
  cases b with
  | block ss => rw [bodyTree, block_sym]; rfl
  | expr e => rw [bodyTree]; exact expr_seen false e

theorem block_lower {ss : List Stmt} {n : Nat} (hn : 3 * (blockOf (stmtTrees ss)).size ≤ n)
    (h : ∀ n, (∀ c ∈ stmtTrees ss, 3 * c.size ≤ n) → ((stmtTrees ss).flatMap (Tree.kids true)).mapM (lowerStmt n) = .ok ss) :
    lowerBlock n (blockOf (stmtTrees ss)) = .ok ss := by
  have := size_pos (blockOf (stmtTrees ss))
  obtain ⟨n, rfl⟩ : ∃ m, n = m + 1 := ⟨n - 1, by omega⟩
  rw [lowerBlock, check_true (by rw [block_type]; rfl), ok_bind, blockOf_kids (stmts_sym ss)]
  exact h n fun c hc => by
    have := blockOf_size c hc
    omega

theorem qualParts_extra {st : Bool} {cs : List Tree} (h : ∀ c ∈ cs, c.extra = false) : ∀ c ∈ qualParts st ++ cs, c.extra = false := by
  intro c hc
  rcases List.mem_append.1 hc with hc | hc
  · cases st with
    | false => cases hc
    | true => simp only [qualParts, if_true, List.mem_singleton] at hc; rw [hc]; rfl
  · exact h c hc

theorem static_lower {A pid : Nat} {st : Bool} {cs : List Tree} (h : ∀ c ∈ cs, c.extra = false)
    (h1 : ((fieldMap.lookup pid).bind fun fs => fs.lookup b!"qualifiers") = if st then some (0, false) else none) :
    lowerStatic (nw A pid (qualParts st ++ cs)) = .ok st := by
  cases st with
  | false => rw [lowerStatic, field_none h1]
  | true =>
    rw [lowerStatic, field_some (c := qualTree) h1 (qualParts_extra h) rfl rfl]
    rfl

theorem name_lower {A pid : Nat} {st : Bool} {kw : Tree} {name : Bytes} {cs : List Tree} (hn : nameOK name = true) (h : ∀ c ∈ kw :: identTree name :: cs, c.extra = false)
    (h1 : ((fieldMap.lookup pid).bind fun fs => fs.lookup b!"name") = some (if st then 2 else 1, false)) :
    lowerName (nw A pid (qualParts st ++ kw :: identTree name :: cs)) = .ok name := by
  rw [lowerName, get_some (field_some (c := identTree name) h1 (qualParts_extra h) (by cases st <;> rfl) rfl), ok_bind, expect_true (by rfl), ok_bind, ident_text hn, pure_ok]

theorem fnBody_lower {A pid i n : Nat} {cs : List Tree} {ss : List Stmt} (hx : ∀ c ∈ cs, c.extra = false)
    (h1 : ((fieldMap.lookup pid).bind fun fs => fs.lookup b!"body") = some (i, false)) (h2 : cs[i]? = some (blockOf (stmtTrees ss)))
    (h : lowerBlock n (blockOf (stmtTrees ss)) = .ok ss) : lowerFnBody (n + 1) (nw A pid cs) = .ok ss := by
  rw [lowerFnBody, get_some (field_some h1 hx h2 (by rw [block_sym]; rfl)), ok_bind, expect_true (by rw [block_type]; rfl), ok_bind, h]

theorem fnParts_extra {st : Bool} {kw : Tree} {name : Bytes} {ps : List Bytes} {xs : List Tree} (hk : kw.extra = false) :
    ∀ c ∈ qualParts st ++ [kw, identTree name, lf T.lparen b!"("] ++ paramList ps ++ [lf T.rparen b!")", blockOf xs], c.extra = false := by
  rw [List.append_assoc, List.append_assoc]
  refine qualParts_extra fun c hc => ?_
  simp only [List.mem_append, List.mem_cons, List.not_mem_nil, or_false] at hc
  rcases hc with (rfl | rfl | rfl) | hc | rfl | rfl
  · exact hk
  · rfl
  · rfl
  · exact paramList_extra ps c hc
  · rfl
  · exact block_extra xs

theorem line_seen (l : Line) : relevant false (lineTree l).sym = true := by
  match l with
  | .print e => rw [lineTree]; rfl
  | .ret none => rw [lineTree, retTree]; rfl
  | .ret (some e) => rw [lineTree, retTree]; rfl
  | .assert e text => rw [lineTree]; rfl
  | .decl st name none => rw [lineTree, declTree]; rfl
  | .decl st name (some e) => rw [lineTree, declTree]; rfl
  | .assign lhs rhs => rw [lineTree]; rfl
  | .proto st name ps => rw [lineTree]; rfl
  | .expr e => rw [lineTree]; exact expr_seen false e
  | .import false path => rw [lineTree]; rfl
  | .import true path => rw [lineTree]; rfl

mutual

theorem expr_lower : ∀ (e : Expr) (n : Nat), e.proper = true → 3 * (exprTree e).size ≤ n → lowerExpr n (exprTree e) = .ok e
  | .lit l, n, h, hn => by
    rw [exprTree, size_expr, size_nd] at hn
    obtain ⟨n, rfl⟩ : ∃ m, n = m + 2 := ⟨n - 2, by omega⟩
    rw [Expr.proper] at h
    rw [exprTree, lowerExpr_expr (by rfl), kind_lit (by rfl), lit_lower h, ok_bind, pure_ok]
  | .ident name, n, h, hn => by
    rw [exprTree, size_expr, identTree, size_nd] at hn
    obtain ⟨n, rfl⟩ : ∃ m, n = m + 2 := ⟨n - 2, by omega⟩
    rw [Expr.proper] at h
    rw [exprTree, lowerExpr_expr (by rfl), kind_ident (by rfl), lowerIdent, check_true (by rfl), ok_bind, ident_text h, pure_ok, ok_bind, pure_ok]
  | .lambda ps b, n, h, hn => by
    rw [exprTree, size_expr, size_nd, sizes_append, sizes_cons (lf T.bar b!"|"), sizes_cons (bodyTree b), sizes_nil, size_lf] at hn
    have hsz := size_pos (bodyTree b)
    obtain ⟨n, rfl⟩ : ∃ m, n = m + 2 := ⟨n - 2, by omega⟩
    rw [Expr.proper, Bool.and_eq_true] at h
    rw [exprTree, lowerExpr_expr (by rfl), kind_lambda (by rfl)]
    have hx : ∀ c ∈ [lf T.bar b!"|"] ++ paramList ps ++ [lf T.bar b!"|", bodyTree b], c.extra = false := by
      intro c hc
      simp only [List.mem_append, List.mem_cons, List.not_mem_nil, or_false] at hc
      rcases hc with (rfl | hc) | rfl | rfl
      · rfl
      · exact paramList_extra ps c hc
      · rfl
      · exact body_extra b
    have hb : (nw N.lambda (if ps.isEmpty = true then 13 else 22) ([lf T.bar b!"|"] ++ paramList ps ++ [lf T.bar b!"|", bodyTree b])).get b!"body" = .ok (bodyTree b) := by
      cases ps with
      | nil => exact get_some (field_some (i := 2) (b := false) (by rfl) hx rfl (body_seen b))
      | cons p ps => exact get_some (field_some (i := 3) (b := false) (by rfl) hx rfl (body_seen b))
    have hp : lowerParams ((nw N.lambda (if ps.isEmpty = true then 13 else 22) ([lf T.bar b!"|"] ++ paramList ps ++ [lf T.bar b!"|", bodyTree b])).field b!"params") = .ok ps := by
      refine params_lower h.1 (fun he => by rw [he]; exact field_none (by rfl)) fun c hc => ?_
      cases ps with
      | nil => cases hc
      | cons p ps => exact field_some (i := 1) (b := false) (by rfl) hx (by rw [hc]; rfl) (paramList_sym hc)
    rw [hp, ok_bind, hb, ok_bind]
    exact body_lower ps b n h.2 (by omega)
  | .vec es, n, h, hn => by
    rw [exprTree, size_expr, size_nd, sizes_append, sizes_append] at hn
    obtain ⟨n, rfl⟩ : ∃ m, n = m + 2 := ⟨n - 2, by omega⟩
    rw [Expr.proper] at h
    have hf : (kidsOf false ([lf T.lbracket b!"["] ++ listParts N.argListRepeat1 (exprTrees es) ++ [lf T.rbracket b!"]"])).filter (·.type == b!"expression") = exprTrees es := by
      rw [kidsOf_append, kidsOf_append, List.filter_append, List.filter_append,
        listParts_filter (by rfl) (by rfl) (fun x hx => (exprs_seen false es x hx).1) fun x hx => by rw [(exprs_seen false es x hx).2]; rfl,
        kidsOf_seen (by rfl), kidsOf_seen (by rfl), kidsOf_nil]
      simp [Tree.type, sym_lf, symbolNames]
    rw [exprTree, lowerExpr_expr (by rfl), kind_vec (by rfl), kids_nd, hf, exprs_lower es n h fun c hc => by
      have := listParts_size N.argListRepeat1 c hc
      omega]
    rfl
  | .map is, n, h, hn => by
    rw [exprTree, size_expr, size_nd, sizes_append, sizes_append] at hn
    obtain ⟨n, rfl⟩ : ∃ m, n = m + 2 := ⟨n - 2, by omega⟩
    rw [Expr.proper] at h
    have hf : (kidsOf false ([lf T.lbrace b!"{"] ++ listParts N.mapRepeat1 (itemTrees is) ++ [lf T.rbrace b!"}"])).filter (·.type == b!"map_item") = itemTrees is := by
      rw [kidsOf_append, kidsOf_append, List.filter_append, List.filter_append,
        listParts_filter (by rfl) (by rfl) (fun x hx => (items_seen is x hx).1) fun x hx => by rw [(items_seen is x hx).2]; rfl,
        kidsOf_seen (by rfl), kidsOf_seen (by rfl), kidsOf_nil]
      simp [Tree.type, sym_lf, symbolNames]
    rw [exprTree, lowerExpr_expr (by rfl), kind_map (by rfl), kids_nd, hf, items_lower is n h fun c hc => by
      have := listParts_size N.mapRepeat1 c hc
      omega]
    rfl
  | .call f [], n, h, hn => by
    rw [exprTree, size_expr, size_nd, sizes_cons] at hn
    obtain ⟨n, rfl⟩ : ∃ m, n = m + 2 := ⟨n - 2, by omega⟩
    simp only [Expr.proper, Bool.and_eq_true] at h
    have hx : ∀ c ∈ [exprTree f, lf T.lparen b!"(", lf T.rparen b!")"], c.extra = false := by simp [expr_extra, extra_lf]
    rw [exprTree, lowerExpr_expr (by rfl), kind_call (by rfl), check_true, ok_bind,
      get_some (field_some (i := 0) (b := false) (c := exprTree f) (by rfl) hx rfl (expr_seen false f)), ok_bind, expect_true (expr_bool f), ok_bind, field_none (by rfl)]
    · simp only [expr_lower f n h.1.2 (by omega), ok_bind, pure_ok]
    · rw [kids_nd, kidsOf_seen (expr_seen false f), kidsOf_seen (by rfl), kidsOf_seen (by rfl), kidsOf_nil]
      rfl
  | .call f (e :: es), n, h, hn => by
    rw [exprTree, size_expr, size_nd, sizes_cons, sizes_cons, sizes_cons, size_nd] at hn
    obtain ⟨n, rfl⟩ : ∃ m, n = m + 2 := ⟨n - 2, by omega⟩
    rw [Expr.proper, Bool.and_eq_true, Bool.and_eq_true] at h
    have hes := exprs_lower (e :: es) n h.2 fun c hc => by
      have := listParts_size N.argListRepeat1 c hc
      rw [exprTrees] at this
      omega
    have hse := exprs_seen true (e :: es)
    rw [exprTrees] at hes hse
    have hk : (nw N.argList 0 (listParts N.argListRepeat1 (exprTree e :: exprTrees es))).kids true = exprTree e :: exprTrees es := by
      rw [kids_nd, listParts_named (by rfl) fun x hx => (hse x hx).1]
    have ht : (exprTree e :: exprTrees es).all (·.type == b!"expression") = true := by
      rw [List.all_eq_true]
      intro x hx
      rw [(hse x hx).2]
      rfl
    have hf := expr_lower f n h.1.2 (by omega)
    have hx : ∀ c ∈ [exprTree f, lf T.lparen b!"(", nw N.argList 0 (listParts N.argListRepeat1 (exprTree e :: exprTrees es)), lf T.rparen b!")"], c.extra = false := by
      simp [expr_extra, extra_lf, extra_nd]
    rw [exprTree, lowerExpr_expr (by rfl), kind_call (by rfl), check_true, ok_bind,
      get_some (field_some (i := 0) (b := false) (c := exprTree f) (by rfl) hx rfl (expr_seen false f)), ok_bind, expect_true (expr_bool f), ok_bind,
      field_some (i := 2) (b := false) (by rfl) hx rfl rfl]
    · simp only [hk, ht, hes, hf, ok_bind, pure_ok]
      rw [expect_true (by rfl), ok_bind, expect_true (by rfl), ok_bind]
    · rw [kids_nd, kidsOf_seen (expr_seen false f), kidsOf_seen (by rfl), kidsOf_seen (by rfl), kidsOf_seen (by rfl), kidsOf_nil]
      rfl
  | .paren e, n, h, hn => by
    rw [exprTree, size_expr, size_nd, sizes_cons, sizes_cons] at hn
    obtain ⟨n, rfl⟩ : ∃ m, n = m + 2 := ⟨n - 2, by omega⟩
    rw [Expr.proper] at h
    have hx : ∀ c ∈ [lf T.lparen b!"(", exprTree e, lf T.rparen b!")"], c.extra = false := by simp [expr_extra, extra_lf]
    rw [exprTree, lowerExpr_expr (by rfl), kind_paren (by rfl), get_some (field_some (i := 1) (b := false) (c := exprTree e) (by rfl) hx rfl (expr_seen false e)), ok_bind,
      expr_lower e n h (by omega), ok_bind, pure_ok]
  | .un op e, n, h, hn => by
    rw [exprTree, size_expr, size_nd, sizes_cons, sizes_cons] at hn
    obtain ⟨n, rfl⟩ : ∃ m, n = m + 2 := ⟨n - 2, by omega⟩
    rw [Expr.proper, Bool.and_eq_true] at h
    have hx : ∀ c ∈ [unTree op, exprTree e], c.extra = false := by simp [expr_extra, unTree, extra_nd]
    rw [exprTree, lowerExpr_expr (by rfl), kind_un (by rfl), check_true, ok_bind,
      get_some (field_some (i := 1) (b := false) (c := exprTree e) (by rfl) hx rfl (expr_seen false e)), ok_bind, expect_true (expr_bool e), ok_bind,
      get_some (field_some (i := 0) (b := false) (c := unTree op) (by rfl) hx rfl rfl), ok_bind, un_lower, ok_bind, expr_lower e n h.2 (by omega), ok_bind, pure_ok]
    rw [kids_nd, kidsOf_seen (by rfl), kidsOf_seen (expr_seen true e), kidsOf_nil]
    rfl
  | .bin op l r, n, h, hn => by
    rw [exprTree, size_expr, size_nd, sizes_cons, sizes_cons, sizes_cons] at hn
    obtain ⟨n, rfl⟩ : ∃ m, n = m + 2 := ⟨n - 2, by omega⟩
    rw [Expr.proper, Bool.and_eq_true, Bool.and_eq_true, Bool.and_eq_true] at h
    have hx : ∀ c ∈ [exprTree l, binTree op, exprTree r], c.extra = false := by simp [expr_extra, bin_extra]
    rw [exprTree, lowerExpr_expr (by rfl), kind_bin (by rfl), check_true, ok_bind,
      get_some (field_some (i := 0) (b := false) (c := exprTree l) (by rfl) hx rfl (expr_seen false l)), ok_bind, expect_true (expr_bool l), ok_bind,
      get_some (field_some (i := 2) (b := false) (c := exprTree r) (by rfl) hx rfl (expr_seen false r)), ok_bind, expect_true (expr_bool r), ok_bind,
      get_some (field_some (i := 1) (b := false) (c := binTree op) (by rfl) hx rfl (bin_seen op)), ok_bind, bin_lower, ok_bind, expr_lower l n h.1.1.2 (by omega), ok_bind,
      expr_lower r n h.2 (by omega), ok_bind, pure_ok]
    rw [kids_nd, kidsOf_seen (expr_seen true l), kidsOf_seen (bin_named op), kidsOf_seen (expr_seen true r), kidsOf_nil]
    rfl
  | .access e name, n, h, hn => by
    rw [exprTree, size_expr, size_nd, sizes_cons] at hn
    obtain ⟨n, rfl⟩ : ∃ m, n = m + 3 := ⟨n - 3, by omega⟩
    rw [Expr.proper, Bool.and_eq_true, Bool.and_eq_true] at h
    rw [exprTree, lowerExpr_expr (by rfl), kind_access (by rfl), access_lower h.2 (expr_lower e n h.1.2 (by omega)), ok_bind]
    rfl
  | .index e i, n, h, hn => by
    rw [exprTree, size_expr, size_nd, sizes_cons, sizes_cons, sizes_cons] at hn
    obtain ⟨n, rfl⟩ : ∃ m, n = m + 3 := ⟨n - 3, by omega⟩
    rw [Expr.proper, Bool.and_eq_true, Bool.and_eq_true] at h
    rw [exprTree, lowerExpr_expr (by rfl), kind_index (by rfl), index_lower (expr_lower e n h.1.2 (by omega)) (expr_lower i n h.2 (by omega)), ok_bind]
    rfl

theorem exprs_lower : ∀ (es : List Expr) (n : Nat), exprsProper es = true → (∀ c ∈ exprTrees es, 3 * c.size ≤ n) → (exprTrees es).mapM (lowerExpr n) = .ok es
  | [], n, _, _ => by rw [exprTrees]; rfl
  | e :: es, n, h, hn => by
    rw [exprsProper, Bool.and_eq_true] at h
    rw [exprTrees] at hn ⊢
    rw [List.mapM_cons, expr_lower e n h.1 (hn _ (List.mem_cons_self ..)), ok_bind, exprs_lower es n h.2 fun c hc => hn c (List.mem_cons_of_mem _ hc), ok_bind, pure_ok]

theorem items_lower : ∀ (is : List (Expr × Expr)) (n : Nat), itemsProper is = true → (∀ c ∈ itemTrees is, 3 * c.size ≤ n) → (itemTrees is).mapM (lowerItem n) = .ok is
  | [], n, _, _ => by rw [itemTrees]; rfl
  | (k, v) :: is, n, h, hn => by
    rw [itemsProper, Bool.and_eq_true, itemProper, Bool.and_eq_true] at h
    rw [itemTrees, itemTree] at hn ⊢
    have h1 := hn _ (List.mem_cons_self ..)
    rw [size_nd, sizes_cons, sizes_cons, sizes_cons] at h1
    rw [List.mapM_cons, items_lower is n h.2 fun c hc => hn c (List.mem_cons_of_mem _ hc)]
    obtain ⟨n, rfl⟩ : ∃ m, n = m + 1 := ⟨n - 1, by omega⟩
    have hx : ∀ c ∈ [exprTree k, lf T.colon b!":", exprTree v], c.extra = false := by simp [expr_extra, extra_lf]
    rw [lowerItem, get_some (field_some (i := 0) (b := false) (c := exprTree k) (by rfl) hx rfl (expr_seen false k)), ok_bind,
      get_some (field_some (i := 2) (b := false) (c := exprTree v) (by rfl) hx rfl (expr_seen false v)), ok_bind, check_true (expr_bool k), ok_bind, check_true (expr_bool v), ok_bind,
      expr_lower k n h.1.1 (by omega), ok_bind, expr_lower v n h.1.2 (by omega), ok_bind, pure_ok, ok_bind, ok_bind, pure_ok]

theorem body_lower : ∀ (ps : List Bytes) (b : Body) (n : Nat), b.proper = true → 3 * (bodyTree b).size ≤ n →
    (if (bodyTree b).type = b!"block" then (do return .lambda ps (.block (← lowerBlock n (bodyTree b))))
      else if (bodyTree b).type = b!"expression" then (do return .lambda ps (.expr (← lowerExpr n (bodyTree b))))
      else .error .error : Low Expr) = .ok (.lambda ps b)
  | ps, .block ss, n, h, hn => by
    simp only [Body.proper, Bool.and_eq_true] at h
    rw [bodyTree] at hn ⊢
    rw [if_pos (block_type _), block_lower hn fun n hn => stmts_lower ss n h.2 hn, ok_bind, pure_ok]
  | ps, .expr e, n, h, hn => by
    simp only [Body.proper, Bool.and_eq_true] at h
    rw [bodyTree] at hn ⊢
    rw [if_neg (by rw [expr_type]; decide), if_pos (expr_type e), expr_lower e n h.1 hn, ok_bind, pure_ok]

theorem lhs_lower : ∀ (l : Lhs) (n : Nat) (e : Expr) (he : Low Expr), l.proper = true → 3 * (lhsTree l).size ≤ n → he = .ok e →
    (if (lhsTree l).type = b!"identifier" then (do return .assign (.ident (lhsTree l).text) (← he))
      else if (lhsTree l).type = b!"access" then (do
        let (e, name) ← lowerAccess n (lhsTree l)
        return .assign (.access e name (lhsTree l).text) (← he))
      else if (lhsTree l).type = b!"index" then (do
        let (e, i) ← lowerIndex n (lhsTree l)
        return .assign (.index e i (lhsTree l).text) (← he))
      else .error .error : Low Line) = .ok (.assign l e)
  | .ident name, n, e, he, h, hn, hr => by
    rw [Lhs.proper] at h
    rw [lhsTree, if_pos (by rfl), hr, ok_bind, ident_text h, pure_ok]
  | .access e' name text, n, e, he, h, hn, hr => by
    have ht := (lhs_der _ h).text
    rw [lhs_yield, Lhs.words] at ht
    simp only [Lhs.proper, Bool.and_eq_true, beq_iff_eq] at h
    rw [← h.2] at ht
    rw [lhsTree, size_nd, sizes_cons] at hn
    obtain ⟨n, rfl⟩ : ∃ m, n = m + 1 := ⟨n - 1, by omega⟩
    rw [ht, lhsTree, if_neg (by rw [type_nd]; decide), if_pos (by rfl), access_lower h.1.1.2 (expr_lower e' n h.1.1.1.2 (by omega)), ok_bind, hr]
    rfl
  | .index e' i text, n, e, he, h, hn, hr => by
    have ht := (lhs_der _ h).text
    rw [lhs_yield, Lhs.words] at ht
    simp only [Lhs.proper, Bool.and_eq_true, beq_iff_eq] at h
    rw [← h.2] at ht
    rw [lhsTree, size_nd, sizes_cons, sizes_cons, sizes_cons] at hn
    obtain ⟨n, rfl⟩ : ∃ m, n = m + 1 := ⟨n - 1, by omega⟩
    rw [ht, lhsTree, if_neg (by rw [type_nd]; decide), if_neg (by rw [type_nd]; decide), if_pos (by rfl),
      index_lower (expr_lower e' n h.1.1.1.2 (by omega)) (expr_lower i n h.1.1.2 (by omega)), ok_bind, hr]
    rfl

theorem ret_lower : ∀ (e : Option Expr) (n : Nat), optProper e = true → 3 * (retTree e).size ≤ n → lowerLine n (retTree e) = .ok (.ret e)
  | none, n, _, hn => by
    rw [retTree, size_nd] at hn
    obtain ⟨n, rfl⟩ : ∃ m, n = m + 1 := ⟨n - 1, by omega⟩
    rw [retTree, lowerLine]
    repeat rw [if_neg (by rw [type_nd]; decide)]
    rw [if_pos (by rfl), check_true (by rfl), ok_bind, field_none (by rfl)]
    rfl
  | some e, n, h, hn => by
    rw [retTree, size_nd, sizes_cons, sizes_cons] at hn
    obtain ⟨n, rfl⟩ : ∃ m, n = m + 1 := ⟨n - 1, by omega⟩
    rw [optProper] at h
    have hx : ∀ c ∈ [lf T.return_ b!"return", exprTree e], c.extra = false := by simp [expr_extra, extra_lf]
    rw [retTree, lowerLine]
    repeat rw [if_neg (by rw [type_nd]; decide)]
    rw [if_pos (by rfl), check_true, ok_bind, field_some (i := 1) (b := false) (c := exprTree e) (by rfl) hx rfl (expr_seen false e)]
    · simp only [expr_lower e n h (by omega), expect_true (expr_bool e), ok_bind, pure_ok]
    · rw [kids_nd, kidsOf_seen (by rfl), kidsOf_seen (expr_seen false e), kidsOf_nil]
      rfl

theorem decl_lower : ∀ (st : Bool) (name : Bytes) (e : Option Expr) (n : Nat), nameOK name = true → optProper e = true → 3 * (declTree st name e).size ≤ n →
    lowerLine n (declTree st name e) = .ok (.decl st name e)
  | st, name, none, n, hna, _, hn => by
    rw [declTree, size_nd] at hn
    obtain ⟨n, rfl⟩ : ∃ m, n = m + 1 := ⟨n - 1, by omega⟩
    have hx : ∀ c ∈ [lf T.let_ b!"let", identTree name], c.extra = false := by simp [identTree, extra_nd, extra_lf]
    rw [declTree, lowerLine]
    repeat rw [if_neg (by rw [type_nd]; decide)]
    rw [if_pos (by rfl), check_true (by cases st <;> rfl), ok_bind, name_lower hna hx (by cases st <;> rfl), ok_bind, static_lower hx (by cases st <;> rfl),
      field_none (by cases st <;> rfl), field_none (by cases st <;> rfl)]
    rfl
  | st, name, some e, n, hna, h, hn => by
    rw [declTree, size_nd, sizes_append, sizes_cons, sizes_cons, sizes_cons, sizes_cons] at hn
    obtain ⟨n, rfl⟩ : ∃ m, n = m + 1 := ⟨n - 1, by omega⟩
    rw [optProper] at h
    have hx : ∀ c ∈ [lf T.let_ b!"let", identTree name, lf T.assign b!"=", exprTree e], c.extra = false := by simp [identTree, extra_nd, extra_lf, expr_extra]
    have he : (nw N.varDecl (if st = true then 35 else 25) (qualParts st ++ [lf T.let_ b!"let", identTree name, lf T.assign b!"=", exprTree e])).field b!"initial" = some (exprTree e) := by
      cases st with
      | false => exact field_some (i := 3) (b := false) (by rfl) (qualParts_extra hx) rfl (expr_seen false e)
      | true => exact field_some (i := 4) (b := false) (by rfl) (qualParts_extra hx) rfl (expr_seen false e)
    have hk : (kidsOf true (qualParts st ++ [lf T.let_ b!"let", identTree name, lf T.assign b!"=", exprTree e])).length = if st then 3 else 2 := by
      rw [kidsOf_append, kidsOf_skip (by rfl), kidsOf_seen (by rfl), kidsOf_skip (by rfl), kidsOf_seen (expr_seen true e), kidsOf_nil]
      cases st <;> rfl
    rw [declTree, lowerLine]
    repeat rw [if_neg (by rw [type_nd]; decide)]
    rw [if_pos (by rfl), check_true (by rw [kids_nd, hk]; cases st <;> rfl), ok_bind, name_lower hna hx (by cases st <;> rfl), ok_bind, static_lower hx (by cases st <;> rfl),
      field_none (name := b!"type") (by cases st <;> rfl), he]
    simp only [expr_lower e n h (by omega), expect_true (expr_bool e), ok_bind, pure_ok]

theorem line_lower : ∀ (l : Line) (n : Nat), l.proper = true → 3 * (lineTree l).size ≤ n → lowerLine (n + 1) (lineTree l) = .ok l
  | .print e, n, h, hn => by
    rw [lineTree, size_nd, sizes_cons, sizes_cons] at hn
    rw [Line.proper] at h
    have hx : ∀ c ∈ [lf T.print b!"print", exprTree e], c.extra = false := by simp [expr_extra, extra_lf]
    rw [lineTree, lowerLine, if_pos (by rfl), check_true, ok_bind, get_some (field_some (i := 1) (b := false) (c := exprTree e) (by rfl) hx rfl (expr_seen false e)), ok_bind,
      expect_true (expr_bool e), ok_bind, expr_lower e n h (by omega), ok_bind, pure_ok]
    rw [kids_nd, kidsOf_seen (by rfl), kidsOf_seen (expr_seen false e), kidsOf_nil]
    rfl
  | .ret e, n, h, hn => by
    rw [Line.proper] at h
    rw [lineTree] at hn ⊢
    exact ret_lower e (n + 1) h (by omega)
  | .assert e text, n, h, hn => by
    rw [lineTree, size_nd, sizes_cons, sizes_cons] at hn
    rw [Line.proper, Bool.and_eq_true, beq_iff_eq] at h
    have ht := (expr_der e h.1).text
    rw [expr_yield, ← h.2] at ht
    have hx : ∀ c ∈ [lf T.assert_ b!"assert", exprTree e], c.extra = false := by simp [expr_extra, extra_lf]
    rw [lineTree, lowerLine]
    repeat rw [if_neg (by rw [type_nd]; decide)]
    rw [if_pos (by rfl), check_true, ok_bind, get_some (field_some (i := 1) (b := false) (c := exprTree e) (by rfl) hx rfl (expr_seen false e)), ok_bind,
      expect_true (expr_bool e), ok_bind, expr_lower e n h.1 (by omega), ok_bind, pure_ok, ht]
    rw [kids_nd, kidsOf_seen (by rfl), kidsOf_seen (expr_seen false e), kidsOf_nil]
    rfl
  | .decl st name e, n, h, hn => by
    rw [Line.proper, Bool.and_eq_true] at h
    rw [lineTree] at hn ⊢
    exact decl_lower st name e (n + 1) h.1 h.2 (by omega)
  | .assign lhs rhs, n, h, hn => by
    rw [lineTree, size_nd, sizes_cons, sizes_cons, sizes_cons] at hn
    rw [Line.proper, Bool.and_eq_true] at h
    have hlx : (lhsTree lhs).extra = false ∧ relevant false (lhsTree lhs).sym = true := by
      cases lhs <;> rw [lhsTree] <;> exact ⟨rfl, rfl⟩
    have hx : ∀ c ∈ [lhsTree lhs, lf T.assign b!"=", exprTree rhs], c.extra = false := by simp [expr_extra, extra_lf, hlx.1]
    rw [lineTree, lowerLine]
    repeat rw [if_neg (by rw [type_nd]; decide)]
    rw [if_pos (by rfl), check_true, ok_bind, get_some (field_some (i := 2) (b := false) (c := exprTree rhs) (by rfl) hx rfl (expr_seen false rhs)), ok_bind,
      expect_true (expr_bool rhs), ok_bind, get_some (field_some (i := 0) (b := false) (c := lhsTree lhs) (by rfl) hx rfl hlx.2), ok_bind]
    · exact lhs_lower lhs n rhs _ h.1 (by omega) (expr_lower rhs n h.2 (by omega))
    · rw [kids_nd, kidsOf_seen hlx.2, kidsOf_seen (by rfl), kidsOf_seen (expr_seen false rhs), kidsOf_nil]
      rfl
  | .proto st name ps, n, h, hn => by
    rw [Line.proper, Bool.and_eq_true] at h
    rw [lineTree, lowerLine]
    repeat rw [if_neg (by rw [type_nd]; decide)]
    rw [if_pos (by rfl), head_lower h.1 h.2 rfl (by simp [extra_lf]) (by cases st <;> cases ps <;> rfl) (by cases st <;> cases ps <;> rfl) (by cases st <;> cases ps <;> rfl)]
    rfl
  | .expr e, n, h, hn => by
    simp only [Line.proper, Bool.and_eq_true] at h
    rw [lineTree] at hn ⊢
    rw [lowerLine]
    repeat rw [if_neg (by rw [expr_type]; decide)]
    rw [if_pos (expr_type e), expr_lower e n h.1 (by omega), ok_bind, pure_ok]
  | .import false path, n, h, hn => by
    rw [lineTree, size_nd, sizes_cons, sizes_cons] at hn
    simp only [Line.proper, Bool.and_eq_true, Bool.not_eq_true'] at h
    have hp := path_lower (n := n) h.1 h.2 (by omega)
    obtain ⟨pid, cs, hnd⟩ := path_nd path
    rw [hnd] at hp
    have hx : ∀ c ∈ [lf T.import_ b!"import", nw 67 pid cs], c.extra = false := by simp [extra_nd, extra_lf]
    rw [lineTree, hnd, lowerLine]
    repeat rw [if_neg (by rw [type_nd]; decide)]
    rw [if_pos (by rfl), check_true (by rfl), ok_bind, get_some (field_some (i := 1) (b := false) (c := nw 67 pid cs) (by rfl) hx rfl rfl), ok_bind,
      expect_true (by rfl), ok_bind, hp, ok_bind, field_none (by rfl)]
    rfl
  | .import true path, n, h, hn => by
    rw [lineTree, size_nd, sizes_cons, sizes_cons, sizes_cons] at hn
    simp only [Line.proper, Bool.and_eq_true, Bool.not_eq_true'] at h
    have hp := path_lower (n := n) h.1 h.2 (by omega)
    obtain ⟨pid, cs, hnd⟩ := path_nd path
    rw [hnd] at hp
    have hx : ∀ c ∈ [lf T.import_ b!"import", nw N.importRelativeDot 0 [lf T.dot b!"."], nw 67 pid cs], c.extra = false := by simp [extra_nd, extra_lf]
    rw [lineTree, hnd, lowerLine]
    repeat rw [if_neg (by rw [type_nd]; decide)]
    rw [if_pos (by rfl), check_true (by rfl), ok_bind, get_some (field_some (i := 2) (b := false) (c := nw 67 pid cs) (by rfl) hx rfl rfl), ok_bind,
      expect_true (by rfl), ok_bind, hp, ok_bind, field_some (i := 1) (b := false) (by rfl) hx rfl rfl]
    rfl

theorem stmt_lower : ∀ (s : Stmt) (n : Nat), s.proper = true → 3 * (stmtTree s).size ≤ n → lowerStmt n (stmtNode s) = .ok s
  | .skip, n, h, hn => by rw [Stmt.proper] at h; cases h
  | .block ss, n, h, hn => by
    simp only [Stmt.proper, Bool.and_eq_true] at h
    rw [stmtTree, size_nd, sizes_cons, size_nd, sizes_cons, sizes_nil] at hn
    obtain ⟨n, rfl⟩ : ∃ m, n = m + 1 := ⟨n - 1, by omega⟩
    rw [stmtNode, lowerStmt, if_neg (by rw [block_type]; decide), if_pos (block_type _), block_lower (by omega) fun n hn => stmts_lower ss n h.2 hn, ok_bind, pure_ok]
  | .fn st name ps ss, n, h, hn => by
    rw [Stmt.proper, Bool.and_eq_true, Bool.and_eq_true] at h
    rw [stmtTree, size_nd, sizes_cons, size_nd, sizes_cons, size_nd, sizes_append, sizes_cons (lf T.rparen b!")"), sizes_cons (blockOf (stmtTrees ss))] at hn
    obtain ⟨n, rfl⟩ : ∃ m, n = m + 2 := ⟨n - 2, by omega⟩
    rw [stmtNode, lowerStmt, if_neg (by rw [type_nd]; decide), if_neg (by rw [type_nd]; decide), if_pos (by rfl),
      head_lower h.1.1 h.1.2 rfl (by simp [extra_lf, block_extra]) (by cases st <;> cases ps <;> rfl) (by cases st <;> cases ps <;> rfl) (by cases st <;> cases ps <;> rfl), ok_bind,
      fnBody_lower (i := (if st then 5 else 4) + (if ps.isEmpty then 0 else 1)) (fnParts_extra rfl) (by cases st <;> cases ps <;> rfl) (by cases st <;> cases ps <;> rfl)
        (block_lower (by omega) fun n hn => stmts_lower ss n h.2 hn)]
    rfl
  | .cls st name ps ss, n, h, hn => by
    rw [Stmt.proper, Bool.and_eq_true, Bool.and_eq_true, Bool.and_eq_true] at h
    cases st with
    | true => cases h.1.1.1
    | false =>
      rw [stmtTree, size_nd, sizes_cons, size_nd, sizes_cons, size_nd, sizes_append, sizes_cons (lf T.rparen b!")"), sizes_cons (blockOf (stmtTrees ss))] at hn
      obtain ⟨n, rfl⟩ : ∃ m, n = m + 2 := ⟨n - 2, by omega⟩
      have hh := head_lower (A := N.classDeclaration) (pid := fnPid false ps.isEmpty) (st := false) (kw := lf T.class_ b!"class") (rest := [lf T.rparen b!")", blockOf (stmtTrees ss)])
        h.1.1.2 h.1.2 rfl (by simp [extra_lf, block_extra]) (by cases ps <;> rfl) (by cases ps <;> rfl) (by cases ps <;> rfl)
      have hb := fnBody_lower (A := N.classDeclaration) (pid := fnPid false ps.isEmpty) (i := 4 + (if ps.isEmpty then 0 else 1)) (n := n)
        (fnParts_extra (st := false) (kw := lf T.class_ b!"class") (name := name) (ps := ps) (xs := stmtTrees ss) rfl)
        (by cases ps <;> rfl) (by cases ps <;> rfl) (block_lower (by omega) fun n hn => stmts_lower ss n h.2 hn)
      rw [show qualParts false = [] from rfl, List.nil_append] at hh hb
      rw [stmtNode, lowerStmt, if_neg (by rw [type_nd]; decide), if_neg (by rw [type_nd]; decide), if_neg (by rw [type_nd]; decide), if_pos (by rfl), hh, ok_bind, hb]
      rfl
  | .line l, n, h, hn => by
    rw [Stmt.proper] at h
    rw [stmtTree, size_nd, sizes_cons, size_nd, sizes_cons, sizes_nil] at hn
    obtain ⟨n, rfl⟩ : ∃ m, n = m + 2 := ⟨n - 2, by omega⟩
    rw [stmtNode, lowerStmt]
    repeat rw [if_neg (by rw [type_nd]; decide)]
    rw [check_true (by rfl), ok_bind, kids_nd, kidsOf_seen (line_seen l), kidsOf_nil]
    simp only [line_lower l n h (by omega), ok_bind, pure_ok]

theorem stmts_lower : ∀ (ss : List Stmt) (n : Nat), stmtsProper ss = true → (∀ c ∈ stmtTrees ss, 3 * c.size ≤ n) →
    ((stmtTrees ss).flatMap (Tree.kids true)).mapM (lowerStmt n) = .ok ss
  | [], n, _, _ => by rw [stmtTrees]; rfl
  | s :: ss, n, h, hn => by
    rw [stmtsProper, Bool.and_eq_true] at h
    rw [stmtTrees] at hn ⊢
    rw [List.flatMap_cons, stmt_kids h.1, List.singleton_append, List.mapM_cons, stmt_lower s n h.1 (hn _ (List.mem_cons_self ..)), ok_bind,
      stmts_lower ss n h.2 fun c hc => hn c (List.mem_cons_of_mem _ hc), ok_bind, pure_ok]

end

end Bob.Parse
