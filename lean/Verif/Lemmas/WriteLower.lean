import Verif.Lemmas.WriteLow
/-!
# What the interpreter takes out of the trees of scripts
-/

namespace Bob.Parse
open Bob.Fl

theorem lowerExpr_expr {n : Nat} {c : Tree} (h : relevant false c.sym = true) : lowerExpr (n + 1) (expr c) = lowerKind n c := by
  rw [lowerExpr, check_true (by rfl), ok_bind, expr, kids_nd, kidsOf_seen h, kidsOf_nil]

theorem expr_seen (named : Bool) (e : Expr) : relevant named (exprTree e).sym = true := by rw [expr_sym]; cases named <;> rfl

theorem exprs_seen (named : Bool) : ∀ (es : List Expr), ∀ x ∈ exprTrees es, relevant named x.sym = true ∧ x.type = b!"expression"
  | [], x, h => by rw [exprTrees] at h; cases h
  | e :: es, x, h => by
    rw [exprTrees] at h
    rcases List.mem_cons.1 h with rfl | h
    · exact ⟨expr_seen named e, expr_type e⟩
    · exact exprs_seen named es x h

theorem items_seen : ∀ (is : List (Expr × Expr)), ∀ x ∈ itemTrees is, relevant false x.sym = true ∧ x.type = b!"map_item"
  | [], x, h => by rw [itemTrees] at h; cases h
  | (k, v) :: is, x, h => by
    rw [itemTrees, itemTree] at h
    rcases List.mem_cons.1 h with rfl | h
    · exact ⟨rfl, rfl⟩
    · exact items_seen is x h

theorem ident_text {w : Bytes} (h : nameOK w = true) : (identTree w).text = w := by rw [(ident_der h).text, ident_yield]; rfl

theorem lit_seen (l : Lit) : relevant false (litTree l).sym = true := by
  match l with
  | .none => rfl
  | .bool true => rfl
  | .bool false => rfl
  | .num t => rfl
  | .str s => rfl

theorem lit_lower {l : Lit} (h : l.proper = true) : lowerLit (nw N.literal 0 [litTree l]) = .ok l := by
  have ht := (lit_der h).text
  rw [lit_yield] at ht
  rw [lowerLit, kids_nd, kidsOf_seen (lit_seen l), kidsOf_nil]
  match l, h, ht with
  | .none, _, _ => rfl
  | .bool true, _, _ => rfl
  | .bool false, _, _ => rfl
  | .num t, _, ht =>
    have hty : (litTree (.num t)).type = b!"number" := rfl
    simp only [hty, ht]
    rfl
  | .str s, _, ht =>
    have hty : (litTree (.str s)).type = b!"string" := rfl
    simp only [hty, ht]
    rw [if_neg (by decide), if_neg (by decide), if_neg (by decide), if_pos (by decide)]
    simp [Lit.word]

/-! ## Parameters -/

theorem params_lower_aux : ∀ {ps : List Bytes}, ps.all nameOK = true → (paramTrees ps).mapM lowerParam = .ok ps
  | [], _ => rfl
  | p :: ps, h => by
    rw [List.all_cons, Bool.and_eq_true] at h
    have h1 : lowerParam (nw N.param 4 [identTree p]) = .ok p := by
      rw [lowerParam, get_some (field_some (i := 0) (b := false) (by rfl) (by intro c hc; simp at hc; rw [hc]; rfl) rfl rfl), ok_bind, check_true (by rfl), ok_bind, ident_text h.1, pure_ok]
    have h2 := params_lower_aux h.2
    rw [paramTrees] at h2 ⊢
    rw [List.map_cons, List.mapM_cons, h1, ok_bind, h2, ok_bind, pure_ok]

theorem paramTrees_seen {ps : List Bytes} : ∀ x ∈ paramTrees ps, relevant true x.sym = true ∧ x.type = b!"param" := by
  intro x hx
  obtain ⟨p, hp, rfl⟩ := List.mem_map.1 hx
  exact ⟨rfl, rfl⟩

theorem params_lower {ps : List Bytes} (h : ps.all nameOK = true) {t : Tree}
    (h0 : ps.isEmpty = true → t.field b!"params" = none) (h1 : ∀ c, paramList ps = [c] → t.field b!"params" = some c) : lowerParams (t.field b!"params") = .ok ps := by
  cases ps with
  | nil => rw [h0 rfl]; rfl
  | cons p ps =>
    rw [h1 (nw N.paramList 0 (listParts N.paramListRepeat1 (paramTrees (p :: ps)))) rfl, lowerParams, expect_true (by rfl), ok_bind, kids_nd,
      listParts_named (by rfl) fun x hx => (paramTrees_seen x hx).1, expect_true ?_, ok_bind, params_lower_aux h]
    rw [List.all_eq_true]
    intro x hx
    rw [(paramTrees_seen x hx).2]
    rfl

theorem paramList_extra (ps : List Bytes) : ∀ c ∈ paramList ps, c.extra = false := by
  intro c hc
  cases ps with
  | nil => cases hc
  | cons p ps =>
    simp only [paramList, List.isEmpty_cons, Bool.false_eq_true, if_false, List.mem_singleton] at hc
    rw [hc]; rfl

theorem paramList_sym {ps : List Bytes} {c : Tree} (h : paramList ps = [c]) : relevant false c.sym = true := by
  cases ps with
  | nil => cases h
  | cons p ps =>
    simp only [paramList, List.isEmpty_cons, Bool.false_eq_true, if_false, List.cons.injEq, and_true] at h
    rw [← h]; rfl

/-! ## Operators -/

theorem un_lower (op : UnOp) : lowerUnOp (unTree op) = .ok op := by cases op <;> rfl

theorem bin_lower (op : BinOp) : lowerBinOp (binTree op) = .ok op := by cases op <;> rfl

theorem bin_named (op : BinOp) : relevant true (binTree op).sym = true := by cases op <;> rfl

/-! ## Kinds of nodes -/

theorem kind_lit {n : Nat} {c : Tree} (h : c.type = b!"literal") : lowerKind (n + 1) c = (do return .lit (← lowerLit c)) := by
  rw [lowerKind, if_pos h]

theorem kind_ident {n : Nat} {c : Tree} (h : c.type = b!"identifier") : lowerKind (n + 1) c = (do return .ident (← lowerIdent c)) := by
  rw [lowerKind]
  repeat rw [if_neg (by rw [h]; decide)]
  rw [if_pos h]

theorem kind_lambda {n : Nat} {c : Tree} (h : c.type = b!"lambda") : lowerKind (n + 1) c = (do
      let ps ← lowerParams (c.field b!"params")
      let body ← c.get b!"body"
      if body.type = b!"block" then return .lambda ps (.block (← lowerBlock n body))
      else if body.type = b!"expression" then return .lambda ps (.expr (← lowerExpr n body))
      else .error .error) := by
  rw [lowerKind]
  repeat rw [if_neg (by rw [h]; decide)]
  rw [if_pos h]

theorem kind_vec {n : Nat} {c : Tree} (h : c.type = b!"vec") :
    lowerKind (n + 1) c = (do return .vec (← ((c.kids false).filter (·.type == b!"expression")).mapM (lowerExpr n))) := by
  rw [lowerKind]
  repeat rw [if_neg (by rw [h]; decide)]
  rw [if_pos h]

theorem kind_map {n : Nat} {c : Tree} (h : c.type = b!"map") :
    lowerKind (n + 1) c = (do return .map (← ((c.kids false).filter (·.type == b!"map_item")).mapM (lowerItem n))) := by
  rw [lowerKind]
  repeat rw [if_neg (by rw [h]; decide)]
  rw [if_pos h]

theorem kind_call {n : Nat} {c : Tree} (h : c.type = b!"call") : lowerKind (n + 1) c = (do
      check ((c.kids false).length == 3 || (c.kids false).length == 4)
      let f ← c.get b!"callable"
      expect (f.type == b!"expression")
      match c.field b!"args" with
      | none => return .call (← lowerExpr n f) []
      | some args =>
        expect (args.type == b!"arg_list")
        let f ← lowerExpr n f
        expect ((args.kids true).all (·.type == b!"expression"))
        return .call f (← (args.kids true).mapM (lowerExpr n))) := by
  rw [lowerKind]
  repeat rw [if_neg (by rw [h]; decide)]
  rw [if_pos h]
  rfl

theorem kind_paren {n : Nat} {c : Tree} (h : c.type = b!"parenthesized_expression") :
    lowerKind (n + 1) c = (do return .paren (← lowerExpr n (← c.get b!"expression"))) := by
  rw [lowerKind]
  repeat rw [if_neg (by rw [h]; decide)]
  rw [if_pos h]

theorem kind_un {n : Nat} {c : Tree} (h : c.type = b!"unary_expression") : lowerKind (n + 1) c = (do
      check ((c.kids true).length == 2)
      let e ← c.get b!"operand"
      expect (e.type == b!"expression")
      let op ← lowerUnOp (← c.get b!"operator")
      return .un op (← lowerExpr n e)) := by
  rw [lowerKind]
  repeat rw [if_neg (by rw [h]; decide)]
  rw [if_pos h]

theorem kind_bin {n : Nat} {c : Tree} (h : c.type = b!"binary_expression") : lowerKind (n + 1) c = (do
      check ((c.kids true).length == 3)
      let l ← c.get b!"left"
      expect (l.type == b!"expression")
      let r ← c.get b!"right"
      expect (r.type == b!"expression")
      let op ← lowerBinOp (← c.get b!"operator")
      let l ← lowerExpr n l
      return .bin op l (← lowerExpr n r)) := by
  rw [lowerKind]
  repeat rw [if_neg (by rw [h]; decide)]
  rw [if_pos h]

theorem kind_access {n : Nat} {c : Tree} (h : c.type = b!"access") : lowerKind (n + 1) c = (do
      let (e, name) ← lowerAccess n c
      return .access e name) := by
  rw [lowerKind]
  repeat rw [if_neg (by rw [h]; decide)]
  rw [if_pos h]

theorem kind_index {n : Nat} {c : Tree} (h : c.type = b!"index") : lowerKind (n + 1) c = (do
      let (e, i) ← lowerIndex n c
      return .index e i) := by
  rw [lowerKind]
  repeat rw [if_neg (by rw [h]; decide)]
  rw [if_pos h]

/-- The node of a statement. -/
def stmtNode : Stmt → Tree
  | .skip => nw 0 0 []
  | .block ss => blockOf (stmtTrees ss)
  | .fn st name ps ss => nw N.functionDeclaration (fnPid st ps.isEmpty)
      (qualParts st ++ [lf T.fn b!"fn", identTree name, lf T.lparen b!"("] ++ paramList ps ++ [lf T.rparen b!")", blockOf (stmtTrees ss)])
  | .cls _ name ps ss => nw N.classDeclaration (fnPid false ps.isEmpty)
      ([lf T.class_ b!"class", identTree name, lf T.lparen b!"("] ++ paramList ps ++ [lf T.rparen b!")", blockOf (stmtTrees ss)])
  | .line l => nw N.statement 0 [lineTree l]

theorem stmt_kids {s : Stmt} (h : s.proper = true) : (stmtTree s).kids true = [stmtNode s] := by
  cases s with
  | skip => rw [Stmt.proper] at h; cases h
  | block ss =>
    rw [stmtTree, kids_nd, kidsOf_skip (by rfl), kids_nd, kidsOf_seen (by rw [block_sym]; rfl), kidsOf_nil]
    rfl
  | fn st name ps ss => rw [stmtTree, kids_nd, kidsOf_skip (by rfl), kids_nd, kidsOf_seen (by rfl), kidsOf_nil]; rfl
  | cls st name ps ss => rw [stmtTree, kids_nd, kidsOf_skip (by rfl), kids_nd, kidsOf_seen (by rfl), kidsOf_nil]; rfl
  | line l => rw [stmtTree, kids_nd, kidsOf_seen (by rfl), kidsOf_skip (by rfl), kids_lf, kidsOf_nil]; rfl

theorem stmt_sym (s : Stmt) : (stmtTree s).sym = 61 := by cases s <;> rw [stmtTree] <;> rfl

theorem stmts_sym : ∀ (ss : List Stmt), ∀ x ∈ stmtTrees ss, x.sym = 61
  | [], x, h => by rw [stmtTrees] at h; cases h
  | s :: ss, x, h => by
    rw [stmtTrees] at h
    rcases List.mem_cons.1 h with rfl | h
    · exact stmt_sym s
    · exact stmts_sym ss x h

theorem path_lower : ∀ {ws : List Bytes} {n : Nat}, ws.isEmpty = false → ws.all nameOK = true → (pathTree ws).size ≤ n → lowerPath n (pathTree ws) = .ok ws
  | [], _, h, _, _ => by cases h
  | [w], 0, _, _, hn => by simp [pathTree, nw, Tree.size] at hn
  | [w], n + 1, _, h, _ => by
    have hw : nameOK w = true := by simpa using h
    rw [pathTree, lowerPath, check_true (by rfl), ok_bind, get_some (field_some (i := 0) (b := false) (c := identTree w) (by rfl) (by simp [identTree, extra_nd]) rfl rfl), ok_bind,
      expect_true (by rfl), ok_bind, field_none (by rfl)]
    simp only [ident_text hw, pure_ok]
  | w :: v :: ws, 0, _, _, hn => by
    rw [pathTree] at hn
    · simp [nw, Tree.size] at hn
    · simp
  | w :: v :: ws, n + 1, _, h, hn => by
    have hw : nameOK w = true ∧ (v :: ws).all nameOK = true := by simpa using h
    obtain ⟨pid, cs, hp⟩ := path_nd (v :: ws)
    rw [pathTree] at hn ⊢
    · have ih := path_lower (ws := v :: ws) (n := n) rfl hw.2 (by simp only [nw, Tree.size, sizes, identTree, lf] at hn; omega)
      rw [hp] at ih ⊢
      have hx : ∀ c ∈ [identTree w, lf T.dot b!".", nw 67 pid cs], c.extra = false := by simp [identTree, extra_nd, extra_lf]
      rw [lowerPath, check_true (by rfl), ok_bind, get_some (field_some (i := 0) (b := false) (c := identTree w) (by rfl) hx rfl rfl), ok_bind,
        expect_true (by rfl), ok_bind, field_some (i := 2) (b := false) (c := nw 67 pid cs) (by rfl) hx rfl rfl]
      simp only [ident_text hw.1, pure_ok, ih, ok_bind]
      rw [expect_true (by rfl), ok_bind]
    · simp
    · simp

theorem head_lower {A : Nat} {st : Bool} {kw : Tree} {name : Bytes} {ps : List Bytes} {rest : List Tree} {pid : Nat} (hn : nameOK name = true) (hp : ps.all nameOK = true)
    (hkw : kw.extra = false) (hrest : ∀ c ∈ rest, c.extra = false)
    (h1 : ((fieldMap.lookup pid).bind fun fs => fs.lookup b!"qualifiers") = if st then some (0, false) else none)
    (h2 : ((fieldMap.lookup pid).bind fun fs => fs.lookup b!"name") = some (if st then 2 else 1, false))
    (h3 : ((fieldMap.lookup pid).bind fun fs => fs.lookup b!"params") = if ps.isEmpty then none else some (if st then 4 else 3, false)) :
    lowerHead (nw A pid (qualParts st ++ [kw, identTree name, lf T.lparen b!"("] ++ paramList ps ++ rest)) = .ok (st, name, ps) := by
  have hx : ∀ c ∈ qualParts st ++ [kw, identTree name, lf T.lparen b!"("] ++ paramList ps ++ rest, c.extra = false := by
    intro c hc
    simp only [List.mem_append, List.mem_cons, List.not_mem_nil, or_false] at hc
    rcases hc with ((hc | rfl | rfl | rfl) | hc) | hc
    · cases st with
      | false => cases hc
      | true => simp only [qualParts, if_true, List.mem_singleton] at hc; rw [hc]; rfl
    · exact hkw
    · rfl
    · rfl
    · exact paramList_extra ps c hc
    · exact hrest c hc
  have hname : (nw A pid (qualParts st ++ [kw, identTree name, lf T.lparen b!"("] ++ paramList ps ++ rest)).get b!"name" = .ok (identTree name) :=
    get_some (field_some h2 hx (by cases st <;> rfl) rfl)
  have hps : lowerParams ((nw A pid (qualParts st ++ [kw, identTree name, lf T.lparen b!"("] ++ paramList ps ++ rest)).field b!"params") = .ok ps := by
    refine params_lower hp (fun he => field_none (by rw [h3, he]; rfl)) fun c hc => field_some (i := if st then 4 else 3) (b := false) ?_ hx ?_ (paramList_sym hc)
    · rw [h3]
      cases ps with
      | nil => cases hc
      | cons => rfl
    · rw [hc]
      cases st <;> rfl
  cases st with
  | false =>
    have hq : (nw A pid (qualParts false ++ [kw, identTree name, lf T.lparen b!"("] ++ paramList ps ++ rest)).field b!"qualifiers" = none := field_none h1
    rw [lowerHead, lowerName, lowerStatic, hname, hps, hq]
    simp only [pure_ok, ok_bind, ident_text hn]
    rfl
  | true =>
    have hq : (nw A pid (qualParts true ++ [kw, identTree name, lf T.lparen b!"("] ++ paramList ps ++ rest)).field b!"qualifiers" = some qualTree :=
      field_some h1 hx rfl rfl
    rw [lowerHead, lowerName, lowerStatic, hname, hps, hq]
    simp only [pure_ok, ok_bind, ident_text hn]
    rfl

end Bob.Parse
