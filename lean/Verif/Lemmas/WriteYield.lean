import Verif.Lemmas.WriteTree
import Verif.Lemmas.ParYield
/-!
# The text of the tree of a script
-/

namespace Bob.Parse
open Bob.Fl

theorem spaced_nil : spaced [] = [] := rfl

theorem spaced_cons (w : Bytes) (ws : List Bytes) : spaced (w :: ws) = 32 :: (w ++ spaced ws) := rfl

theorem spaced_append (a b : List Bytes) : spaced (a ++ b) = spaced a ++ spaced b := by simp [spaced]

theorem yields_nil : yields [] = [] := rfl

theorem yields_cons (c : Tree) (cs : List Tree) : yields (c :: cs) = c.yield ++ yields cs := rfl

theorem yield_nd (A pid : Nat) (cs : List Tree) : (nw A pid cs).yield = yields cs := rfl

theorem yield_lf (s : Nat) (w : Bytes) : (lf s w).yield = 32 :: w := rfl

theorem yield_expr (c : Tree) : (expr c).yield = c.yield := by rw [expr, yield_nd, yields_cons, yields_nil, List.append_nil]

theorem repFrom_yield (R : Nat) : ∀ (xs : List Tree) (acc : Tree), (repFrom R acc xs).yield = acc.yield ++ xs.flatMap fun x => 32 :: 44 :: x.yield
  | [], acc => by simp [repFrom]
  | x :: xs, acc => by
    rw [repFrom, repFrom_yield]
    simp [yield_nd, yields_cons, yields_nil, yield_lf]

theorem flatMap_listed : ∀ (xs : List Tree) (ws : List (List Bytes)) (w : List Bytes), xs.map Tree.yield = ws.map spaced →
    spaced (listed (w :: ws)) = spaced w ++ xs.flatMap fun x => 32 :: 44 :: x.yield
  | [], [], w, _ => by simp [listed]
  | x :: xs, [], w, h => by simp at h
  | [], w' :: ws, w, h => by simp at h
  | x :: xs, w' :: ws, w, h => by
    simp only [List.map_cons, List.cons.injEq] at h
    rw [listed]
    · rw [spaced_append, spaced_append, flatMap_listed xs ws w' h.2]
      simp [spaced_cons, spaced_nil, h.1]
    · simp

theorem listParts_yield (R : Nat) {xs : List Tree} {ws : List (List Bytes)} (h : xs.map Tree.yield = ws.map spaced) :
    yields (listParts R xs) = spaced (listed ws) := by
  match xs, ws, h with
  | [], [], _ => rfl
  | [x], [w], h => simpa [listParts, listed, yields_cons, yields_nil] using h
  | x :: y :: xs, w :: v :: ws, h =>
    rw [flatMap_listed (y :: xs) (v :: ws) w (by simpa using (List.cons.inj h).2)]
    simp [listParts, yields_cons, yields_nil, repFrom_yield, yield_nd, yield_lf, (List.cons.inj h).1]
  | [], _ :: _, h => simp at h
  | [_], [], h => simp at h
  | [_], _ :: _ :: _, h => simp at h
  | _ :: _ :: _, [], h => simp at h
  | _ :: _ :: _, [_], h => simp at h

theorem ident_yield (w : Bytes) : (identTree w).yield = 32 :: w := by simp [identTree, yield_nd, yields_cons, yields_nil, yield_lf]

theorem paramList_yield (ps : List Bytes) : yields (paramList ps) = spaced (paramWords ps) := by
  cases ps with
  | nil => rfl
  | cons p ps =>
    rw [paramList, List.isEmpty_cons, if_neg (by decide), yields_cons, yields_nil, List.append_nil, yield_nd, paramWords]
    apply listParts_yield
    simp [paramTrees, yield_nd, yields_cons, yields_nil, ident_yield, spaced_cons, spaced_nil, Function.comp_def]

theorem lit_yield (l : Lit) : (litTree l).yield = 32 :: l.word := by
  match l with
  | .none => rfl
  | .bool true => rfl
  | .bool false => rfl
  | .num t => rfl
  | .str s => rfl

theorem un_yield (op : UnOp) : (unTree op).yield = 32 :: op.text := by cases op <;> rfl

theorem bin_yield (op : BinOp) : (binTree op).yield = 32 :: op.text := by cases op <;> rfl

theorem qual_yield (st : Bool) : yields (qualParts st) = spaced (staticWords st) := by cases st <;> rfl

theorem path_yield : ∀ (ws : List Bytes), (pathTree ws).yield = spaced (dots ws)
  | [] => rfl
  | [w] => by simp [pathTree, dots, yield_nd, yields_cons, yields_nil, ident_yield, spaced_cons, spaced_nil]
  | w :: v :: ws => by
    rw [pathTree, dots]
    · simp [yield_nd, yields_cons, yields_nil, ident_yield, yield_lf, spaced_cons, path_yield (v :: ws)]
    · simp
    · simp

theorem seqFrom_yield : ∀ (xs : List Tree) (acc : Tree), (seqFrom acc xs).yield = acc.yield ++ yields xs
  | [], acc => by simp [seqFrom, yields_nil]
  | x :: xs, acc => by
    rw [seqFrom, seqFrom_yield]
    simp [yield_nd, yields_cons, yields_nil]

theorem seqTree_yield (xs : List Tree) : yields (seqTree xs) = yields xs := by
  cases xs with
  | nil => rfl
  | cons x xs => simp [seqTree, yields_cons, yields_nil, seqFrom_yield]

theorem block_yield (xs : List Tree) : (blockOf xs).yield = 32 :: 123 :: (yields xs ++ [32, 125]) := by
  cases xs with
  | nil => rfl
  | cons x xs => simp [blockOf, yield_nd, yields_cons, yields_nil, yield_lf, seqFrom_yield]

mutual

theorem expr_yield : ∀ (e : Expr), (exprTree e).yield = spaced e.words
  | .lit l => by simp [exprTree, Expr.words, yield_expr, yield_nd, yields_cons, yields_nil, lit_yield, spaced_cons, spaced_nil]
  | .ident name => by simp [exprTree, Expr.words, yield_expr, ident_yield, spaced_cons, spaced_nil]
  | .lambda ps b => by
    simp [exprTree, Expr.words, yield_expr, yield_nd, yields_cons, yields_nil, yields_append, yield_lf, spaced_cons, spaced_append, paramList_yield, body_yield b]
  | .vec es => by
    simp [exprTree, Expr.words, yield_expr, yield_nd, yields_cons, yields_nil, yields_append, yield_lf, spaced_cons, spaced_nil, spaced_append, listParts_yield _ (exprs_yield es)]
  | .map is => by
    simp [exprTree, Expr.words, yield_expr, yield_nd, yields_cons, yields_nil, yields_append, yield_lf, spaced_cons, spaced_nil, spaced_append, listParts_yield _ (items_yield is)]
  | .call f [] => by
    simp [exprTree, Expr.words, exprsWords, listed, yield_expr, yield_nd, yields_cons, yields_nil, yield_lf, spaced_cons, spaced_nil, spaced_append, expr_yield f]
  | .call f (e :: es) => by
    have h := listParts_yield N.argListRepeat1 (exprs_yield (e :: es))
    rw [exprTrees] at h
    simp [exprTree, Expr.words, yield_expr, yield_nd, yields_cons, yields_nil, yield_lf, spaced_cons, spaced_nil, spaced_append, expr_yield f, h]
  | .paren e => by
    simp [exprTree, Expr.words, yield_expr, yield_nd, yields_cons, yields_nil, yield_lf, spaced_cons, spaced_nil, spaced_append, expr_yield e]
  | .un op e => by
    simp [exprTree, Expr.words, yield_expr, yield_nd, yields_cons, yields_nil, spaced_cons, expr_yield e, un_yield]
  | .bin op l r => by
    simp [exprTree, Expr.words, yield_expr, yield_nd, yields_cons, yields_nil, spaced_cons, spaced_append, expr_yield l, expr_yield r, bin_yield]
  | .access e name => by
    simp [exprTree, Expr.words, yield_expr, yield_nd, yields_cons, yields_nil, yield_lf, spaced_cons, spaced_nil, spaced_append, expr_yield e, ident_yield]
  | .index e i => by
    simp [exprTree, Expr.words, yield_expr, yield_nd, yields_cons, yields_nil, yield_lf, spaced_cons, spaced_nil, spaced_append, expr_yield e, expr_yield i]

theorem exprs_yield : ∀ (es : List Expr), (exprTrees es).map Tree.yield = (exprsWords es).map spaced
  | [] => by simp [exprTrees, exprsWords]
  | e :: es => by simp [exprTrees, exprsWords, expr_yield e, exprs_yield es]

theorem items_yield : ∀ (is : List (Expr × Expr)), (itemTrees is).map Tree.yield = (itemsWords is).map spaced
  | [] => by simp [itemTrees, itemsWords]
  | (k, v) :: is => by
    simp [itemTrees, itemsWords, itemTree, itemWords, items_yield is, yield_nd, yields_cons, yields_nil, yield_lf, spaced_cons, spaced_append, expr_yield k, expr_yield v]

theorem body_yield : ∀ (b : Body), (bodyTree b).yield = spaced b.words
  | .block ss => by simp [bodyTree, Body.words, block_yield, stmts_yield ss, spaced_cons, spaced_nil, spaced_append]
  | .expr e => by simp [bodyTree, Body.words, expr_yield e]

theorem ret_yield : ∀ (e : Option Expr), (retTree e).yield = 32 :: b!"return" ++ spaced (optWords e)
  | none => by simp [retTree, optWords, yield_nd, yields_cons, yields_nil, yield_lf, spaced_nil]
  | some e => by simp [retTree, optWords, yield_nd, yields_cons, yields_nil, yield_lf, expr_yield e]

theorem lhs_yield : ∀ (l : Lhs), (lhsTree l).yield = spaced l.words
  | .ident name => by simp [lhsTree, Lhs.words, ident_yield, spaced_cons, spaced_nil]
  | .access e name text => by
    simp [lhsTree, Lhs.words, yield_nd, yields_cons, yields_nil, yield_lf, spaced_cons, spaced_nil, spaced_append, expr_yield e, ident_yield]
  | .index e i text => by
    simp [lhsTree, Lhs.words, yield_nd, yields_cons, yields_nil, yield_lf, spaced_cons, spaced_nil, spaced_append, expr_yield e, expr_yield i]

theorem line_yield : ∀ (l : Line), (lineTree l).yield = spaced l.words
  | .print e => by simp [lineTree, Line.words, yield_nd, yields_cons, yields_nil, yield_lf, spaced_cons, expr_yield e]
  | .ret e => by simp [lineTree, Line.words, ret_yield e, spaced_cons]
  | .assert e text => by simp [lineTree, Line.words, yield_nd, yields_cons, yields_nil, yield_lf, spaced_cons, expr_yield e]
  | .decl st name none => by
    simp [lineTree, declTree, Line.words, yield_nd, yields_cons, yields_nil, yields_append, yield_lf, spaced_cons, spaced_nil, spaced_append, ident_yield, qual_yield]
  | .decl st name (some e) => by
    simp [lineTree, declTree, Line.words, yield_nd, yields_cons, yields_nil, yields_append, yield_lf, spaced_cons, spaced_append, ident_yield, qual_yield, expr_yield e]
  | .assign lhs rhs => by
    simp [lineTree, Line.words, yield_nd, yields_cons, yields_nil, yield_lf, spaced_cons, spaced_append, lhs_yield lhs, expr_yield rhs]
  | .proto st name ps => by
    simp [lineTree, Line.words, yield_nd, yields_cons, yields_nil, yields_append, yield_lf, spaced_cons, spaced_nil, spaced_append, ident_yield, qual_yield, paramList_yield]
  | .expr e => by simp [lineTree, Line.words, expr_yield e]
  | .import false path => by simp [lineTree, Line.words, yield_nd, yields_cons, yields_nil, yield_lf, spaced_cons, path_yield]
  | .import true path => by simp [lineTree, Line.words, yield_nd, yields_cons, yields_nil, yield_lf, spaced_cons, path_yield]

theorem stmt_yield : ∀ (s : Stmt), (stmtTree s).yield = spaced s.words
  | .skip => by simp [stmtTree, Stmt.words, yield_nd, yields_nil, spaced_nil]
  | .block ss => by simp [stmtTree, Stmt.words, yield_nd, yields_cons, yields_nil, block_yield, stmts_yield ss, spaced_cons, spaced_nil, spaced_append]
  | .fn st name ps ss => by
    simp [stmtTree, Stmt.words, yield_nd, yields_cons, yields_nil, yields_append, yield_lf, block_yield, stmts_yield ss, spaced_cons, spaced_nil, spaced_append, ident_yield, qual_yield, paramList_yield]
  | .cls st name ps ss => by
    simp [stmtTree, Stmt.words, yield_nd, yields_cons, yields_nil, yields_append, yield_lf, block_yield, stmts_yield ss, spaced_cons, spaced_nil, spaced_append, ident_yield, paramList_yield]
  | .line l => by simp [stmtTree, Stmt.words, yield_nd, yields_cons, yields_nil, yield_lf, line_yield l, spaced_cons, spaced_nil, spaced_append]

theorem stmts_yield : ∀ (ss : List Stmt), yields (stmtTrees ss) = spaced (stmtsWords ss)
  | [] => by simp [stmtTrees, stmtsWords, yields_nil, spaced_nil]
  | s :: ss => by simp [stmtTrees, stmtsWords, yields_cons, spaced_append, stmt_yield s, stmts_yield ss]

end

theorem script_yield (ss : List Stmt) : yields (scriptParts ss) = scriptText ss := by
  rw [scriptParts, seqTree_yield, stmts_yield, scriptText]

end Bob.Parse
