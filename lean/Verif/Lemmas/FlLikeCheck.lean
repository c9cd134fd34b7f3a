import Verif.Spec.FlLike
/-!
# Checking whether scripts are alike
-/

namespace Bob.Fl

/-- Statements without effect at the beginning are left out. -/
def dropSkips : List Stmt → List Stmt
  | .skip :: ss => dropSkips ss
  | ss => ss

mutual
def likeExpr : Expr → Expr → Bool
  | .lit l, .lit l' => l == l'
  | .ident x, .ident x' => x == x'
  | .lambda ps b, .lambda ps' b' => ps == ps' && likeBody b b'
  | .vec es, .vec es' => likeExprs es es'
  | .map is, .map is' => likeItems is is'
  | .call f es, .call f' es' => likeExpr f f' && likeExprs es es'
  | .paren e, .paren e' => likeExpr e e'
  | .un op e, .un op' e' => op == op' && likeExpr e e'
  | .bin op l r, .bin op' l' r' => op == op' && (likeExpr l l' && likeExpr r r')
  | .access e x, .access e' x' => x == x' && likeExpr e e'
  | .index e i, .index e' i' => likeExpr e e' && likeExpr i i'
  | _, _ => false

def likeExprs : List Expr → List Expr → Bool
  | [], [] => true
  | e :: es, e' :: es' => likeExpr e e' && likeExprs es es'
  | _, _ => false

def likeItems : List (Expr × Expr) → List (Expr × Expr) → Bool
  | [], [] => true
  | (k, v) :: is, (k', v') :: is' => likeExpr k k' && (likeExpr v v' && likeItems is is')
  | _, _ => false

def likeBody : Body → Body → Bool
  | .block ss, .block ss' => likeStmts ss ss'
  | .expr e, .expr e' => likeExpr e e'
  | _, _ => false

def likeOpt : Option Expr → Option Expr → Bool
  | none, none => true
  | some e, some e' => likeExpr e e'
  | _, _ => false

def likeLhs : Lhs → Lhs → Bool
  | .ident x, .ident x' => x == x'
  | .access e x t, .access e' x' t' => x == x' && (t == t' && likeExpr e e')
  | .index e i t, .index e' i' t' => t == t' && (likeExpr e e' && likeExpr i i')
  | _, _ => false

def likeLine : Line → Line → Bool
  | .print e, .print e' => likeExpr e e'
  | .ret o, .ret o' => likeOpt o o'
  | .assert e t, .assert e' t' => t == t' && likeExpr e e'
  | .decl st x o, .decl st' x' o' => st == st' && (x == x' && likeOpt o o')
  | .assign l e, .assign l' e' => likeLhs l l' && likeExpr e e'
  | .proto st x ps, .proto st' x' ps' => st == st' && (x == x' && ps == ps')
  | .expr e, .expr e' => likeExpr e e'
  | .import r p, .import r' p' => r == r' && p == p'
  | _, _ => false

def likeStmt : Stmt → Stmt → Bool
  | .skip, .skip => true
  | .block ss, .block ss' => likeStmts ss ss'
  | .fn st x ps ss, .fn st' x' ps' ss' => st == st' && (x == x' && (ps == ps' && likeStmts ss ss'))
  | .cls st x ps ss, .cls st' x' ps' ss' => st == st' && (x == x' && (ps == ps' && likeStmts ss ss'))
  | .line l, .line l' => likeLine l l'
  | _, _ => false

def likeStmts : List Stmt → List Stmt → Bool
  | [], ss' => (dropSkips ss').isEmpty
  | s :: ss, ss' =>
    match s with
    | .skip => likeStmts ss ss'
    | s =>
      match dropSkips ss' with
      | s' :: ss' => likeStmt s s' && likeStmts ss ss'
      | [] => false
end

theorem like_drop {ss : List Stmt} : ∀ {ss' : List Stmt}, StmtsLike true ss (dropSkips ss') → StmtsLike true ss ss'
  | [], h => h
  | .skip :: _, h => .right rfl (like_drop h)
  | .block _ :: _, h => h
  | .fn _ _ _ _ :: _, h => h
  | .cls _ _ _ _ :: _, h => h
  | .line _ :: _, h => h

mutual
theorem likeExpr_sound : ∀ {e e' : Expr}, likeExpr e e' = true → ExprLike true e e'
  | .lit _, e', h => by
    cases e' <;> simp only [likeExpr, Bool.false_eq_true] at h
    rw [beq_iff_eq] at h; subst h; exact .lit _
  | .ident _, e', h => by
    cases e' <;> simp only [likeExpr, Bool.false_eq_true] at h
    rw [beq_iff_eq] at h; subst h; exact .ident _
  | .lambda _ b, e', h => by
    cases e' <;> simp only [likeExpr, Bool.false_eq_true, Bool.and_eq_true, beq_iff_eq] at h
    obtain ⟨rfl, h⟩ := h; exact .lambda _ (likeBody_sound h)
  | .vec es, e', h => by
    cases e' <;> simp only [likeExpr, Bool.false_eq_true] at h
    exact .vec (likeExprs_sound h)
  | .map is, e', h => by
    cases e' <;> simp only [likeExpr, Bool.false_eq_true] at h
    exact .map (likeItems_sound h)
  | .call f es, e', h => by
    cases e' <;> simp only [likeExpr, Bool.false_eq_true, Bool.and_eq_true] at h
    exact .call (likeExpr_sound h.1) (likeExprs_sound h.2)
  | .paren e, e', h => by
    cases e' <;> simp only [likeExpr, Bool.false_eq_true] at h
    exact .paren (likeExpr_sound h)
  | .un op e, e', h => by
    cases e' <;> simp only [likeExpr, Bool.false_eq_true, Bool.and_eq_true, beq_iff_eq] at h
    obtain ⟨rfl, h⟩ := h; exact .un _ (likeExpr_sound h)
  | .bin op l r, e', h => by
    cases e' <;> simp only [likeExpr, Bool.false_eq_true, Bool.and_eq_true, beq_iff_eq] at h
    obtain ⟨rfl, h1, h2⟩ := h; exact .bin _ (likeExpr_sound h1) (likeExpr_sound h2)
  | .access e x, e', h => by
    cases e' <;> simp only [likeExpr, Bool.false_eq_true, Bool.and_eq_true, beq_iff_eq] at h
    obtain ⟨rfl, h⟩ := h; exact .access _ (likeExpr_sound h)
  | .index e i, e', h => by
    cases e' <;> simp only [likeExpr, Bool.false_eq_true, Bool.and_eq_true] at h
    exact .index (likeExpr_sound h.1) (likeExpr_sound h.2)

theorem likeExprs_sound : ∀ {es es' : List Expr}, likeExprs es es' = true → ExprsLike true es es'
  | [], es', h => by
    cases es' <;> simp only [likeExprs, Bool.false_eq_true] at h
    exact .nil
  | e :: es, es', h => by
    cases es' <;> simp only [likeExprs, Bool.false_eq_true, Bool.and_eq_true] at h
    exact .cons (likeExpr_sound h.1) (likeExprs_sound h.2)

theorem likeItems_sound : ∀ {is is' : List (Expr × Expr)}, likeItems is is' = true → ItemsLike true is is'
  | [], is', h => by
    cases is' <;> simp only [likeItems, Bool.false_eq_true] at h
    exact .nil
  | (k, v) :: is, is', h => by
    rcases is' with _ | ⟨⟨k', v'⟩, is'⟩ <;> simp only [likeItems, Bool.false_eq_true, Bool.and_eq_true] at h
    exact .cons (likeExpr_sound h.1) (likeExpr_sound h.2.1) (likeItems_sound h.2.2)

theorem likeBody_sound : ∀ {b b' : Body}, likeBody b b' = true → BodyLike true b b'
  | .block ss, b', h => by
    cases b' <;> simp only [likeBody, Bool.false_eq_true] at h
    exact .block (likeStmts_sound h)
  | .expr e, b', h => by
    cases b' <;> simp only [likeBody, Bool.false_eq_true] at h
    exact .expr (likeExpr_sound h)

theorem likeOpt_sound : ∀ {o o' : Option Expr}, likeOpt o o' = true → OptLike true o o'
  | none, o', h => by
    cases o' <;> simp only [likeOpt, Bool.false_eq_true] at h
    exact .none
  | some e, o', h => by
    cases o' <;> simp only [likeOpt, Bool.false_eq_true] at h
    exact .some (likeExpr_sound h)

theorem likeLhs_sound : ∀ {l l' : Lhs}, likeLhs l l' = true → LhsLike true l l'
  | .ident _, l', h => by
    cases l' <;> simp only [likeLhs, Bool.false_eq_true, beq_iff_eq] at h
    subst h; exact .ident _
  | .access e x t, l', h => by
    cases l' <;> simp only [likeLhs, Bool.false_eq_true, Bool.and_eq_true, beq_iff_eq] at h
    obtain ⟨rfl, rfl, h⟩ := h; exact .access _ _ (likeExpr_sound h)
  | .index e i t, l', h => by
    cases l' <;> simp only [likeLhs, Bool.false_eq_true, Bool.and_eq_true, beq_iff_eq] at h
    obtain ⟨rfl, h1, h2⟩ := h; exact .index _ (likeExpr_sound h1) (likeExpr_sound h2)

theorem likeLine_sound : ∀ {l l' : Line}, likeLine l l' = true → LineLike true l l'
  | .print e, l', h => by
    cases l' <;> simp only [likeLine, Bool.false_eq_true] at h
    exact .print (likeExpr_sound h)
  | .ret o, l', h => by
    cases l' <;> simp only [likeLine, Bool.false_eq_true] at h
    exact .ret (likeOpt_sound h)
  | .assert e t, l', h => by
    cases l' <;> simp only [likeLine, Bool.false_eq_true, Bool.and_eq_true, beq_iff_eq] at h
    obtain ⟨rfl, h⟩ := h; exact .assert _ (likeExpr_sound h)
  | .decl st x o, l', h => by
    cases l' <;> simp only [likeLine, Bool.false_eq_true, Bool.and_eq_true, beq_iff_eq] at h
    obtain ⟨rfl, rfl, h⟩ := h; exact .decl _ _ (likeOpt_sound h)
  | .assign l e, l', h => by
    cases l' <;> simp only [likeLine, Bool.false_eq_true, Bool.and_eq_true] at h
    exact .assign (likeLhs_sound h.1) (likeExpr_sound h.2)
  | .proto st x ps, l', h => by
    cases l' <;> simp only [likeLine, Bool.false_eq_true, Bool.and_eq_true, beq_iff_eq] at h
    obtain ⟨rfl, rfl, rfl⟩ := h; exact .proto _ _ _
  | .expr e, l', h => by
    cases l' <;> simp only [likeLine, Bool.false_eq_true] at h
    exact .expr (likeExpr_sound h)
  | .import r p, l', h => by
    cases l' <;> simp only [likeLine, Bool.false_eq_true, Bool.and_eq_true, beq_iff_eq] at h
    obtain ⟨rfl, rfl⟩ := h; exact .import _ _

theorem likeStmt_sound : ∀ {s s' : Stmt}, likeStmt s s' = true → StmtLike true s s'
  | .skip, s', h => by
    cases s' <;> simp only [likeStmt, Bool.false_eq_true] at h
    exact .skip
  | .block ss, s', h => by
    cases s' <;> simp only [likeStmt, Bool.false_eq_true] at h
    exact .block (likeStmts_sound h)
  | .fn st x ps ss, s', h => by
    cases s' <;> simp only [likeStmt, Bool.false_eq_true, Bool.and_eq_true, beq_iff_eq] at h
    obtain ⟨rfl, rfl, rfl, h⟩ := h; exact .fn _ _ _ (likeStmts_sound h)
  | .cls st x ps ss, s', h => by
    cases s' <;> simp only [likeStmt, Bool.false_eq_true, Bool.and_eq_true, beq_iff_eq] at h
    obtain ⟨rfl, rfl, rfl, h⟩ := h; exact .cls _ _ _ (likeStmts_sound h)
  | .line l, s', h => by
    cases s' <;> simp only [likeStmt, Bool.false_eq_true] at h
    exact .line (likeLine_sound h)

theorem likeStmts_sound : ∀ {ss ss' : List Stmt}, likeStmts ss ss' = true → StmtsLike true ss ss'
  | [], ss', h => by
    rw [likeStmts, List.isEmpty_iff] at h
    refine like_drop ?_
    rw [h]
    exact .nil
  | s :: ss, ss', h => by
    by_cases hs : s = .skip
    · subst hs
      rw [likeStmts] at h
      exact .left rfl (likeStmts_sound h)
    · rw [likeStmts] at h
      · split at h
        · rename_i s' ss1 hd
          rw [Bool.and_eq_true] at h
          refine like_drop ?_
          rw [hd]
          exact .cons (likeStmt_sound h.1) (likeStmts_sound h.2)
        · cases h
      · exact hs
end

end Bob.Fl
