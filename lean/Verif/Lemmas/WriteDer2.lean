import Verif.Lemmas.WriteDer
/-!
# The trees of expressions and statements follow the rules
-/

namespace Bob.Parse
open Bob.Fl

theorem expr_kind {p : List Nat} {c : Tree} {k : Nat} (hr : ⟨k, 0, [p]⟩ ∈ wRules) (hs : shape k = 78) (h : OneOf p c) : Der k (expr c) :=
  der_rule hr hs (.one h .nil)

/-- Expressions that begin with an operand. -/
theorem post_der {A k1 k2 pid : Nat} {ps : List (List Nat)} {e : Expr} {cs : List Tree} (ha : e.isAtom = true) (he : Der (kindOf e) (exprTree e)) (hcs : Ders ps cs)
    (h1 : ⟨A, pid, [78] :: ps⟩ ∈ wRules) (h2 : ⟨A + 128, pid, [206] :: ps⟩ ∈ wRules) (s1 : shape A = A) (s2 : shape (A + 128) = A)
    {p1 p2 : List Nat} (r1 : ⟨k1, 0, [p1]⟩ ∈ wRules) (r2 : ⟨k2, 0, [p2]⟩ ∈ wRules) (s3 : shape k1 = 78) (s4 : shape k2 = 78) (m1 : A ∈ p1) (m2 : A + 128 ∈ p2) :
    Der (bif e.brace then k2 else k1) (expr (nw A pid (exprTree e :: cs))) := by
  rw [kind_atom ha] at he
  cases hb : e.brace with
  | false =>
    rw [hb] at he
    exact expr_kind r1 s3 ((der_rule h1 s1 (.one he.one1 hcs)).one m1)
  | true =>
    rw [hb] at he
    exact expr_kind r2 s4 ((der_rule h2 s2 (.one he.one1 hcs)).one m2)

theorem post_lhs {A pid : Nat} {ps : List (List Nat)} {e : Expr} {cs : List Tree} (ha : e.isAtom = true) (hb : e.brace = false) (he : Der (kindOf e) (exprTree e))
    (hcs : Ders ps cs) (h1 : ⟨A, pid, [78] :: ps⟩ ∈ wRules) (s1 : shape A = A) : Der A (nw A pid (exprTree e :: cs)) := by
  rw [kind_atom ha, hb] at he
  exact der_rule h1 s1 (.one he.one1 hcs)

theorem fn_der {A : Nat} {kw : Tree} {tk : Nat} {name : Bytes} {ps : List Bytes} {xs : List Tree} (hn : nameOK name = true) (hp : ps.all nameOK = true)
    (hx : ∀ x ∈ xs, OneOf [61] x) (hk : Der tk kw) (s : shape A = A) (h1 : ⟨A, 31, [[tk], [104], [13], [14], [65, 193]]⟩ ∈ wRules)
    (h2 : ⟨A, 39, [[tk], [104], [13], [85], [14], [65, 193]]⟩ ∈ wRules) :
    Der A (nw A (fnPid false ps.isEmpty) ([kw, identTree name, lf T.lparen b!"("] ++ paramList ps ++ [lf T.rparen b!")", blockOf xs])) := by
  rcases paramList_der hp with ⟨h, h'⟩ | ⟨h, h'⟩
  · rw [h, h']
    exact der_rule h1 s (.one hk.one1 (.one (ident_der hn).one1 (.one (tok1 rfl) (.one (tok1 rfl) (.one (blockOf_any hx) .nil)))))
  · rw [h, List.append_assoc]
    exact der_rule h2 s (.one hk.one1 (.one (ident_der hn).one1 (.one (tok1 rfl) (h'.append (.one (tok1 rfl) (.one (blockOf_any hx) .nil))))))

theorem fn_static_der {name : Bytes} {ps : List Bytes} {xs : List Tree} (hn : nameOK name = true) (hp : ps.all nameOK = true)
    (hx : ∀ x ∈ xs, OneOf [61] x) : Der 72 (nw 72 (fnPid true ps.isEmpty) ([qualTree, lf T.fn b!"fn", identTree name, lf T.lparen b!"("] ++ paramList ps ++ [lf T.rparen b!")", blockOf xs])) := by
  rcases paramList_der hp with ⟨h, h'⟩ | ⟨h, h'⟩
  · rw [h, h']
    exact der_rule (rhs := [[70], [16], [104], [13], [14], [65, 193]]) (by decide) rfl
      (.one qual_der.one1 (.one (tok1 rfl) (.one (ident_der hn).one1 (.one (tok1 rfl) (.one (tok1 rfl) (.one (blockOf_any hx) .nil))))))
  · rw [h, List.append_assoc]
    exact der_rule (rhs := [[70], [16], [104], [13], [85], [14], [65, 193]]) (by decide) rfl
      (.one qual_der.one1 (.one (tok1 rfl) (.one (ident_der hn).one1 (.one (tok1 rfl) (h'.append (.one (tok1 rfl) (.one (blockOf_any hx) .nil)))))))

theorem proto_der {st : Bool} {name : Bytes} {ps : List Bytes} (hn : nameOK name = true) (hp : ps.all nameOK = true) :
    Der 71 (nw 71 (protoPid st ps.isEmpty) (qualParts st ++ [lf T.proto b!"proto", identTree name, lf T.lparen b!"("] ++ paramList ps ++ [lf T.rparen b!")"])) := by
  rcases paramList_der hp with ⟨h, h'⟩ | ⟨h, h'⟩
  · rw [h, h']
    cases st with
    | false =>
      exact der_rule (rhs := [[12], [104], [13], [14]]) (by decide) rfl (.one (tok1 rfl) (.one (ident_der hn).one1 (.one (tok1 rfl) (.one (tok1 rfl) .nil))))
    | true =>
      exact der_rule (rhs := [[70], [12], [104], [13], [14]]) (by decide) rfl
        (.one qual_der.one1 (.one (tok1 rfl) (.one (ident_der hn).one1 (.one (tok1 rfl) (.one (tok1 rfl) .nil)))))
  · rw [h, List.append_assoc]
    cases st with
    | false =>
      exact der_rule (rhs := [[12], [104], [13], [85], [14]]) (by decide) rfl
        (.one (tok1 rfl) (.one (ident_der hn).one1 (.one (tok1 rfl) (h'.append (.one (tok1 rfl) .nil)))))
    | true =>
      exact der_rule (rhs := [[70], [12], [104], [13], [85], [14]]) (by decide) rfl
        (.one qual_der.one1 (.one (tok1 rfl) (.one (ident_der hn).one1 (.one (tok1 rfl) (h'.append (.one (tok1 rfl) .nil))))))

theorem stmtTrees_ne {ss : List Stmt} (h : ss.isEmpty = false) : stmtTrees ss ≠ [] := by
  cases ss with
  | nil => cases h
  | cons s ss => rw [stmtTrees]; simp

mutual

theorem expr_der : ∀ (e : Expr), e.proper = true → Der (kindOf e) (exprTree e)
  | .lit l, h => by
    rw [Expr.proper] at h
    exact expr_kind (k := 78) (p := [79, 80, 81, 87, 97, 98, 104]) (by decide) rfl ((der_rule (k := 87) (rhs := [[54, 55, 59, 105]]) (by decide) rfl (.one (lit_der h) .nil)).one (by decide))
  | .ident name, h => by
    rw [Expr.proper] at h
    exact expr_kind (k := 78) (p := [79, 80, 81, 87, 97, 98, 104]) (by decide) rfl ((ident_der h).one (by decide))
  | .lambda ps b, h => by
    rw [Expr.proper, Bool.and_eq_true] at h
    have hb := body_der b h.2
    rw [exprTree]
    refine expr_kind (k := 334) (p := [73, 91, 96]) (by decide) rfl (Der.one (k := 73) ?_ (by decide))
    rcases paramList_der h.1 with ⟨h1, h2⟩ | ⟨h1, h2⟩
    · rw [h1, h2]
      exact der_rule (rhs := [[17], [17], [65, 78, 334]]) (by decide) rfl (.one (tok1 rfl) (.one (tok1 rfl) (.one hb .nil)))
    · rw [h1, List.append_assoc]
      exact der_rule (rhs := [[17], [85], [17], [65, 78, 334]]) (by decide) rfl (.one (tok1 rfl) (h2.append (.one (tok1 rfl) (.one hb .nil))))
  | .vec es, h => by
    rw [Expr.proper] at h
    rw [exprTree]
    refine expr_kind (k := 78) (p := [79, 80, 81, 87, 97, 98, 104]) (by decide) rfl (Der.one (k := 97) ?_ (by decide))
    rcases listParts_der exprs_kind (exprs_der es h) with ⟨-, h'⟩ | h' | h'
    · rw [h']
      exact der_rule (rhs := [[44], [45]]) (by decide) rfl (.one (tok1 rfl) (.one (tok1 rfl) .nil))
    · rw [List.append_assoc]
      exact der_rule (rhs := [[44], [78, 206, 334, 462], [45]]) (by decide) rfl (.one (tok1 rfl) (h'.append (.one (tok1 rfl) .nil)))
    · rw [List.append_assoc]
      exact der_rule (rhs := [[44], [78, 206, 334, 462], [108, 236], [45]]) (by decide) rfl (.one (tok1 rfl) (h'.append (.one (tok1 rfl) .nil)))
  | .map is, h => by
    rw [Expr.proper] at h
    rw [exprTree]
    refine expr_kind (k := 206) (p := [101, 208, 209, 226]) (by decide) rfl (Der.one (k := 101) ?_ (by decide))
    rcases listParts_der items_kind (items_der is h) with ⟨-, h'⟩ | h' | h'
    · rw [h']
      exact der_rule (rhs := [[6], [7]]) (by decide) rfl (.one (tok1 rfl) (.one (tok1 rfl) .nil))
    · rw [List.append_assoc]
      exact der_rule (rhs := [[6], [100], [7]]) (by decide) rfl (.one (tok1 rfl) (h'.append (.one (tok1 rfl) .nil)))
    · rw [List.append_assoc]
      exact der_rule (rhs := [[6], [100], [109, 237], [7]]) (by decide) rfl (.one (tok1 rfl) (h'.append (.one (tok1 rfl) .nil)))
  | .call f [], h => by
    simp only [Expr.proper, Bool.and_eq_true] at h
    rw [exprTree]
    exact post_der (ps := [[13], [14]]) h.1.1 (expr_der f h.1.2) (.one (tok1 rfl) (.one (tok1 rfl) .nil)) (by decide) (by decide) rfl rfl
      (p1 := [79, 80, 81, 87, 97, 98, 104]) (p2 := [101, 208, 209, 226]) (by decide) (by decide) rfl rfl (by decide) (by decide)
  | .call f (e :: es), h => by
    rw [Expr.proper, Bool.and_eq_true, Bool.and_eq_true] at h
    rw [exprTree]
    have ha : Der 86 (nw N.argList 0 (listParts N.argListRepeat1 (exprTree e :: exprTrees es))) := by
      have := listParts_der exprs_kind (exprs_der (e :: es) h.2)
      rw [exprTrees] at this
      rcases this with ⟨h', -⟩ | h' | h'
      · cases h'
      · exact der_rule (by decide) rfl h'
      · exact der_rule (by decide) rfl h'
    exact post_der (ps := [[13], [86], [14]]) h.1.1 (expr_der f h.1.2) (.one (tok1 rfl) (.one ha.one1 (.one (tok1 rfl) .nil))) (by decide) (by decide) rfl rfl
      (p1 := [79, 80, 81, 87, 97, 98, 104]) (p2 := [101, 208, 209, 226]) (by decide) (by decide) rfl rfl (by decide) (by decide)
  | .paren e, h => by
    rw [Expr.proper] at h
    rw [exprTree]
    exact expr_kind (k := 78) (p := [79, 80, 81, 87, 97, 98, 104]) (by decide) rfl (Der.one (k := 79)
      (der_rule (rhs := [[13], [78, 206, 334, 462], [14]]) (by decide) rfl (.one (tok1 rfl) (.one ((expr_der e h).one (kind_any e)) (.one (tok1 rfl) .nil)))) (by decide))
  | .un op e, h => by
    rw [Expr.proper, Bool.and_eq_true] at h
    rw [exprTree]
    exact expr_kind (k := 334) (p := [73, 91, 96]) (by decide) rfl (Der.one (k := 91)
      (der_rule (rhs := [[90], [78, 206]]) (by decide) rfl (.one (un_der op).one1 (.one ((expr_der e h.2).one (kind_operand h.1)) .nil))) (by decide))
  | .bin op l r, h => by
    rw [Expr.proper, Bool.and_eq_true, Bool.and_eq_true, Bool.and_eq_true] at h
    rw [exprTree]
    exact post_der (ps := [[32, 41, 92, 93, 94, 95], [78, 206]]) h.1.1.1 (expr_der l h.1.1.2) (.one (bin_der op) (.one ((expr_der r h.2).one (kind_operand h.1.2)) .nil))
      (by decide) (by decide) rfl rfl (p1 := [73, 91, 96]) (p2 := [224]) (by decide) (by decide) rfl rfl (by decide) (by decide)
  | .access e name, h => by
    rw [Expr.proper, Bool.and_eq_true, Bool.and_eq_true] at h
    rw [exprTree]
    exact post_der (ps := [[9], [104]]) h.1.1 (expr_der e h.1.2) (.one (tok1 rfl) (.one (ident_der h.2).one1 .nil)) (by decide) (by decide) rfl rfl
      (p1 := [79, 80, 81, 87, 97, 98, 104]) (p2 := [101, 208, 209, 226]) (by decide) (by decide) rfl rfl (by decide) (by decide)
  | .index e i, h => by
    rw [Expr.proper, Bool.and_eq_true, Bool.and_eq_true] at h
    rw [exprTree]
    exact post_der (ps := [[44], [78, 206, 334, 462], [45]]) h.1.1 (expr_der e h.1.2) (.one (tok1 rfl) (.one ((expr_der i h.2).one (kind_any i)) (.one (tok1 rfl) .nil))) (by decide) (by decide)
      rfl rfl (p1 := [79, 80, 81, 87, 97, 98, 104]) (p2 := [101, 208, 209, 226]) (by decide) (by decide) rfl rfl (by decide) (by decide)

theorem exprs_der : ∀ (es : List Expr), exprsProper es = true → ∀ c ∈ exprTrees es, OneOf [78, 206, 334, 462] c
  | [], _, c, hc => by rw [exprTrees] at hc; cases hc
  | e :: es, h, c, hc => by
    rw [exprsProper, Bool.and_eq_true] at h
    rw [exprTrees] at hc
    rcases List.mem_cons.1 hc with hc | hc
    · rw [hc]; exact (expr_der e h.1).one (kind_any e)
    · exact exprs_der es h.2 c hc

theorem items_der : ∀ (is : List (Expr × Expr)), itemsProper is = true → ∀ c ∈ itemTrees is, OneOf [100] c
  | [], _, c, hc => by rw [itemTrees] at hc; cases hc
  | (k, v) :: is, h, c, hc => by
    rw [itemsProper, Bool.and_eq_true, itemProper, Bool.and_eq_true] at h
    rw [itemTrees, itemTree] at hc
    rcases List.mem_cons.1 hc with hc | hc
    · rw [hc]
      exact (der_rule (k := 100) (rhs := [[78, 206, 334, 462], [27], [78, 206, 334, 462]]) (by decide) rfl
        (.one ((expr_der k h.1.1).one (kind_any k)) (.one (tok1 rfl) (.one ((expr_der v h.1.2).one (kind_any v)) .nil)))).one1
    · exact items_der is h.2 c hc

theorem body_der : ∀ (b : Body), b.proper = true → OneOf [65, 78, 334] (bodyTree b)
  | .block ss, h => by
    simp only [Body.proper, Bool.and_eq_true, Bool.not_eq_true'] at h
    rw [bodyTree]
    exact ((blockOf_der (stmts_der ss h.2)).2 (stmtTrees_ne h.1)).one (by decide)
  | .expr e, h => by
    simp only [Body.proper, Bool.and_eq_true, Bool.not_eq_true'] at h
    rw [bodyTree]
    exact ((expr_der e h.1).one (kind_proper h.2)).mono (by decide)

theorem ret_der : ∀ (e : Option Expr), optProper e = true → Der 77 (retTree e)
  | none, _ => by
    rw [retTree]
    exact der_rule (rhs := [[21]]) (by decide) rfl (.one (tok1 rfl) .nil)
  | some e, h => by
    rw [optProper] at h
    rw [retTree]
    exact der_rule (rhs := [[21], [78, 206, 334, 462]]) (by decide) rfl (.one (tok1 rfl) (.one ((expr_der e h).one (kind_any e)) .nil))

theorem lhs_der : ∀ (l : Lhs), l.proper = true → OneOf [80, 98, 104] (lhsTree l)
  | .ident name, h => by
    rw [Lhs.proper] at h
    rw [lhsTree]
    exact (ident_der h).one (by decide)
  | .access e name text, h => by
    simp only [Lhs.proper, Bool.and_eq_true, Bool.not_eq_true'] at h
    rw [lhsTree]
    exact (post_lhs (ps := [[9], [104]]) h.1.1.1.1 h.1.2 (expr_der e h.1.1.1.2) (.one (tok1 rfl) (.one (ident_der h.1.1.2).one1 .nil)) (by decide) rfl).one (by decide)
  | .index e i text, h => by
    simp only [Lhs.proper, Bool.and_eq_true, Bool.not_eq_true'] at h
    rw [lhsTree]
    exact (post_lhs (ps := [[44], [78, 206, 334, 462], [45]]) h.1.1.1.1 h.1.2 (expr_der e h.1.1.1.2)
      (.one (tok1 rfl) (.one ((expr_der i h.1.1.2).one (kind_any i)) (.one (tok1 rfl) .nil))) (by decide) rfl).one (by decide)

theorem decl_der : ∀ (st : Bool) (name : Bytes) (e : Option Expr), nameOK name = true → optProper e = true → Der 88 (declTree st name e)
  | false, name, none, hn, _ => by
    rw [declTree]
    exact der_rule (rhs := [[28], [104]]) (by decide) rfl (.one (tok1 rfl) (.one (ident_der hn).one1 .nil))
  | true, name, none, hn, _ => by
    rw [declTree]
    exact der_rule (rhs := [[70], [28], [104]]) (by decide) rfl (.one qual_der.one1 (.one (tok1 rfl) (.one (ident_der hn).one1 .nil)))
  | false, name, some e, hn, h => by
    rw [optProper] at h
    rw [declTree]
    exact der_rule (rhs := [[28], [104], [29], [78, 206, 334, 462]]) (by decide) rfl
      (.one (tok1 rfl) (.one (ident_der hn).one1 (.one (tok1 rfl) (.one ((expr_der e h).one (kind_any e)) .nil))))
  | true, name, some e, hn, h => by
    rw [optProper] at h
    rw [declTree]
    exact der_rule (rhs := [[70], [28], [104], [29], [78, 206, 334, 462]]) (by decide) rfl
      (.one qual_der.one1 (.one (tok1 rfl) (.one (ident_der hn).one1 (.one (tok1 rfl) (.one ((expr_der e h).one (kind_any e)) .nil)))))

theorem line_der : ∀ (l : Line), l.proper = true → OneOf [66, 71, 75, 76, 77, 78, 334, 88, 89] (lineTree l)
  | .print e, h => by
    rw [Line.proper] at h
    rw [lineTree]
    exact (der_rule (k := 75) (rhs := [[19], [78, 206, 334, 462]]) (by decide) rfl (.one (tok1 rfl) (.one ((expr_der e h).one (kind_any e)) .nil))).one (by decide)
  | .ret e, h => by
    rw [Line.proper] at h
    rw [lineTree]
    exact (ret_der e h).one (by decide)
  | .assert e text, h => by
    rw [Line.proper, Bool.and_eq_true] at h
    rw [lineTree]
    exact (der_rule (k := 76) (rhs := [[20], [78, 206, 334, 462]]) (by decide) rfl (.one (tok1 rfl) (.one ((expr_der e h.1).one (kind_any e)) .nil))).one (by decide)
  | .decl st name e, h => by
    rw [Line.proper, Bool.and_eq_true] at h
    rw [lineTree]
    exact (decl_der st name e h.1 h.2).one (by decide)
  | .assign lhs rhs, h => by
    rw [Line.proper, Bool.and_eq_true] at h
    rw [lineTree]
    exact (der_rule (k := 89) (rhs := [[80, 98, 104], [29], [78, 206, 334, 462]]) (by decide) rfl
      (.one (lhs_der lhs h.1) (.one (tok1 rfl) (.one ((expr_der rhs h.2).one (kind_any rhs)) .nil)))).one (by decide)
  | .proto st name ps, h => by
    rw [Line.proper, Bool.and_eq_true] at h
    rw [lineTree]
    exact (proto_der h.1 h.2).one (by decide)
  | .expr e, h => by
    simp only [Line.proper, Bool.and_eq_true, Bool.not_eq_true'] at h
    rw [lineTree]
    exact ((expr_der e h.1).one (kind_proper h.2)).mono (by decide)
  | .import false path, h => by
    simp only [Line.proper, Bool.and_eq_true, Bool.not_eq_true'] at h
    rw [lineTree]
    exact (der_rule (k := 66) (rhs := [[8], [67]]) (by decide) rfl (.one (tok1 rfl) (.one (path_der h.1 h.2).one1 .nil))).one (by decide)
  | .import true path, h => by
    simp only [Line.proper, Bool.and_eq_true, Bool.not_eq_true'] at h
    rw [lineTree]
    exact (der_rule (k := 66) (rhs := [[8], [68], [67]]) (by decide) rfl (.one (tok1 rfl)
      (.one (der_rule (k := 68) (rhs := [[9]]) (by decide) rfl (.one (tok1 rfl) .nil)).one1 (.one (path_der h.1 h.2).one1 .nil)))).one (by decide)

theorem stmt_der : ∀ (s : Stmt), s.proper = true → Der 61 (stmtTree s)
  | .skip, h => by rw [Stmt.proper] at h; cases h
  | .block ss, h => by
    simp only [Stmt.proper, Bool.and_eq_true, Bool.not_eq_true'] at h
    rw [stmtTree]
    exact der_rule (rhs := [[63]]) (by decide) rfl (.one (der_rule (k := 63) (rhs := [[65, 72, 74]]) (by decide) rfl
      (.one (((blockOf_der (stmts_der ss h.2)).2 (stmtTrees_ne h.1)).one (by decide)) .nil)).one1 .nil)
  | .fn false name ps ss, h => by
    rw [Stmt.proper, Bool.and_eq_true, Bool.and_eq_true] at h
    rw [stmtTree]
    exact der_rule (rhs := [[63]]) (by decide) rfl (.one (der_rule (k := 63) (rhs := [[65, 72, 74]]) (by decide) rfl
      (.one ((fn_der h.1.1 h.1.2 (stmts_der ss h.2) (tok rfl) rfl (by decide) (by decide)).one (by decide)) .nil)).one1 .nil)
  | .fn true name ps ss, h => by
    rw [Stmt.proper, Bool.and_eq_true, Bool.and_eq_true] at h
    rw [stmtTree]
    exact der_rule (rhs := [[63]]) (by decide) rfl (.one (der_rule (k := 63) (rhs := [[65, 72, 74]]) (by decide) rfl
      (.one ((fn_static_der h.1.1 h.1.2 (stmts_der ss h.2)).one (by decide)) .nil)).one1 .nil)
  | .cls st name ps ss, h => by
    rw [Stmt.proper, Bool.and_eq_true, Bool.and_eq_true, Bool.and_eq_true] at h
    rw [stmtTree]
    exact der_rule (rhs := [[63]]) (by decide) rfl (.one (der_rule (k := 63) (rhs := [[65, 72, 74]]) (by decide) rfl
      (.one ((fn_der h.1.1.2 h.1.2 (stmts_der ss h.2) (tok rfl) rfl (by decide) (by decide)).one (by decide)) .nil)).one1 .nil)
  | .line l, h => by
    rw [Stmt.proper] at h
    rw [stmtTree]
    exact der_rule (rhs := [[64], [2]]) (by decide) rfl (.one (der_rule (k := 64) (rhs := [[66, 71, 75, 76, 77, 78, 334, 88, 89]]) (by decide) rfl
      (.one (line_der l h) .nil)).one1 (.one (tok1 rfl) .nil))

theorem stmts_der : ∀ (ss : List Stmt), stmtsProper ss = true → ∀ c ∈ stmtTrees ss, OneOf [61] c
  | [], _, c, hc => by rw [stmtTrees] at hc; cases hc
  | s :: ss, h, c, hc => by
    rw [stmtsProper, Bool.and_eq_true] at h
    rw [stmtTrees] at hc
    rcases List.mem_cons.1 hc with hc | hc
    · rw [hc]; exact (stmt_der s h.1).one1
    · exact stmts_der ss h.2 c hc

end

/-- The text of the tree of a script is parsed to that tree. -/
theorem script_parses {ss : List Stmt} (h : stmtsProper ss = true) :
    Parses (yields (scriptParts ss)) (.tree (.node 60 0 (scriptParts ss ++ [.leaf 0 [] [] true]) false)) := by
  cases ss with
  | nil =>
    rw [scriptParts, stmtTrees, seqTree]
    exact parses_of_fits (f := 0) (cs := []) (.node (n := 0) .nil (by decide +kernel) rfl ⟨by simp, by simp⟩ (by decide) (by decide) (by decide))
      (by rw [LexAlls]; trivial) rfl
  | cons s ss =>
    rw [stmtsProper, Bool.and_eq_true] at h
    rw [scriptParts, stmtTrees, seqTree]
    exact Der.parses (der_rule (rhs := [[61, 189]]) (by decide) rfl (.one (seqFrom_der ((stmt_der s h.1).one (by decide)) (stmts_der ss h.2)) .nil))

end Bob.Parse
