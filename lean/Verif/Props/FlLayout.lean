import Verif.Props.FlHandover
import Verif.Lemmas.FlSimAll
import Verif.Props.FlDeterminism
import Verif.Props.FlSafe
/-!
# C100: ends of lines, `;` and comments have no effect
-/

namespace Bob.Fl

variable {loose : Bool}

/-! ## Being alike goes both ways -/

mutual
theorem ExprLike.symm : ∀ {e e' : Expr}, ExprLike loose e e' → ExprLike loose e' e
  | _, _, .lit l => .lit l
  | _, _, .ident x => .ident x
  | _, _, .lambda ps h => .lambda ps h.symm
  | _, _, .vec h => .vec h.symm
  | _, _, .map h => .map h.symm
  | _, _, .call h1 h2 => .call h1.symm h2.symm
  | _, _, .paren h => .paren h.symm
  | _, _, .un op h => .un op h.symm
  | _, _, .bin op h1 h2 => .bin op h1.symm h2.symm
  | _, _, .access name h => .access name h.symm
  | _, _, .index h1 h2 => .index h1.symm h2.symm

theorem ExprsLike.symm : ∀ {es es' : List Expr}, ExprsLike loose es es' → ExprsLike loose es' es
  | _, _, .nil => .nil
  | _, _, .cons h1 h2 => .cons h1.symm h2.symm

theorem ItemsLike.symm : ∀ {is is' : List (Expr × Expr)}, ItemsLike loose is is' → ItemsLike loose is' is
  | _, _, .nil => .nil
  | _, _, .cons h1 h2 h3 => .cons h1.symm h2.symm h3.symm

theorem BodyLike.symm : ∀ {b b' : Body}, BodyLike loose b b' → BodyLike loose b' b
  | _, _, .block h => .block h.symm
  | _, _, .expr h => .expr h.symm

theorem OptLike.symm : ∀ {o o' : Option Expr}, OptLike loose o o' → OptLike loose o' o
  | _, _, .none => .none
  | _, _, .some h => .some h.symm

theorem LhsLike.symm : ∀ {l l' : Lhs}, LhsLike loose l l' → LhsLike loose l' l
  | _, _, .ident x => .ident x
  | _, _, .access name text h => .access name text h.symm
  | _, _, .index text h1 h2 => .index text h1.symm h2.symm

theorem LineLike.symm : ∀ {l l' : Line}, LineLike loose l l' → LineLike loose l' l
  | _, _, .print h => .print h.symm
  | _, _, .ret h => .ret h.symm
  | _, _, .assert text h => .assert text h.symm
  | _, _, .decl st name h => .decl st name h.symm
  | _, _, .assign h1 h2 => .assign h1.symm h2.symm
  | _, _, .proto st name ps => .proto st name ps
  | _, _, .expr h => .expr h.symm
  | _, _, .import rel path => .import rel path

theorem StmtLike.symm : ∀ {s s' : Stmt}, StmtLike loose s s' → StmtLike loose s' s
  | _, _, .skip => .skip
  | _, _, .block h => .block h.symm
  | _, _, .fn st name ps h => .fn st name ps h.symm
  | _, _, .cls st name ps h => .cls st name ps h.symm
  | _, _, .line h => .line h.symm

theorem StmtsLike.symm : ∀ {ss ss' : List Stmt}, StmtsLike loose ss ss' → StmtsLike loose ss' ss
  | _, _, .nil => .nil
  | _, _, .cons h1 h2 => .cons h1.symm h2.symm
  | _, _, .left hl h => .right hl h.symm
  | _, _, .right hl h => .left hl h.symm
end

theorem FileLike.symm {f f' : FileRes} (h : FileLike loose f f') : FileLike loose f' f := by
  cases h with
  | refl => exact .refl _
  | src h => exact .src h.symm

theorem WorldLike.symm {w w' : World} (h : WorldLike loose w w') : WorldLike loose w' w :=
  ⟨fun p => (h.file p).symm, h.list.symm, h.pow.symm, h.outPath.symm, h.signed.symm⟩

theorem WorldLike.refl (w : World) : WorldLike loose w w := ⟨fun _ => .refl _, rfl, rfl, rfl, rfl⟩

/-! ## What can be seen -/

theorem seen_like {o o' : Out Unit} (h : OutLike loose o o') {x : Seen} (hx : seen o = some x) : seen o' = some x := by
  rw [← hx]
  cases h with
  | timeout o => cases hx
  | ok a h => rw [h.same]; rfl
  | err msg h => rw [h.same]; rfl
  | abort h => rw [h.same]; rfl
  | ub h => rw [h.same]; rfl

theorem shows_like {w w' : World} (hw : WorldLike loose w w') {p p' : List Stmt} (hp : StmtsLike loose p p') {paths : List Bytes} {x : Seen}
    (h : Shows w paths p x) : Shows w' paths p' x := by
  obtain ⟨n, hn⟩ := h
  exact ⟨n + 1, seen_like (runScript_like hw (Nat.lt_succ_self n) paths hp) hn⟩

/-- **C100.** Scripts that are the same but for ends of lines, `;` and comments, at any depth, also in the scripts they import, do the same: they print the same, fail with the same message or crash in the same
way, and leave the same variables and the same things to build behind, or they both go on for ever. -/
theorem C100_layout_has_no_effect {w w' : World} (hw : WorldLike true w w') {p p' : List Stmt} (hp : StmtsLike true p p') (paths : List Bytes) (x : Seen) :
    Shows w paths p x ↔ Shows w' paths p' x := ⟨shows_like hw hp, shows_like hw.symm hp.symm⟩

/-- **C100.** A script shows one thing only. -/
theorem C100_shows_one_thing {w : World} {paths : List Bytes} {p : List Stmt} {x y : Seen} (hx : Shows w paths p x) (hy : Shows w paths p y) : x = y := by
  obtain ⟨n, hn⟩ := hx
  obtain ⟨m, hm⟩ := hy
  have e := C64_unique (w := w) (paths := paths) (p := p) (o := runScript w n paths p) (o' := runScript w m paths p)
    ⟨fun h => (by rw [h] at hn; cases hn), n, rfl⟩ ⟨fun h => (by rw [h] at hm; cases hm), m, rfl⟩
  rw [e, hm] at hn
  exact (Option.some.inj hn).symm

/-! ## Leaving out what has no effect -/

mutual
theorem bareExpr_like : ∀ e : Expr, ExprLike true e (bareExpr e)
  | .lit l => .lit l
  | .ident x => .ident x
  | .lambda ps b => .lambda ps (bareBody_like b)
  | .vec es => .vec (bareExprs_like es)
  | .map is => .map (bareItems_like is)
  | .call f es => .call (bareExpr_like f) (bareExprs_like es)
  | .paren e => .paren (bareExpr_like e)
  | .un op e => .un op (bareExpr_like e)
  | .bin op l r => .bin op (bareExpr_like l) (bareExpr_like r)
  | .access e name => .access name (bareExpr_like e)
  | .index e i => .index (bareExpr_like e) (bareExpr_like i)

theorem bareExprs_like : ∀ es : List Expr, ExprsLike true es (bareExprs es)
  | [] => .nil
  | e :: es => .cons (bareExpr_like e) (bareExprs_like es)

theorem bareItems_like : ∀ is : List (Expr × Expr), ItemsLike true is (bareItems is)
  | [] => .nil
  | (k, v) :: is => .cons (bareExpr_like k) (bareExpr_like v) (bareItems_like is)

theorem bareBody_like : ∀ b : Body, BodyLike true b (bareBody b)
  | .block ss => .block (bare_like ss)
  | .expr e => .expr (bareExpr_like e)

theorem bareOpt_like : ∀ o : Option Expr, OptLike true o (bareOpt o)
  | none => .none
  | some e => .some (bareExpr_like e)

theorem bareLhs_like : ∀ l : Lhs, LhsLike true l (bareLhs l)
  | .ident x => .ident x
  | .access e name text => .access name text (bareExpr_like e)
  | .index e i text => .index text (bareExpr_like e) (bareExpr_like i)

theorem bareLine_like : ∀ l : Line, LineLike true l (bareLine l)
  | .print e => .print (bareExpr_like e)
  | .ret o => .ret (bareOpt_like o)
  | .assert e text => .assert text (bareExpr_like e)
  | .decl st name o => .decl st name (bareOpt_like o)
  | .assign l e => .assign (bareLhs_like l) (bareExpr_like e)
  | .proto st name ps => .proto st name ps
  | .expr e => .expr (bareExpr_like e)
  | .import rel path => .import rel path

theorem bareStmt_like : ∀ s : Stmt, StmtLike true s (bareStmt s)
  | .skip => .skip
  | .block ss => .block (bare_like ss)
  | .fn st name ps ss => .fn st name ps (bare_like ss)
  | .cls st name ps ss => .cls st name ps (bare_like ss)
  | .line l => .line (bareLine_like l)

theorem bare_like : ∀ ss : List Stmt, StmtsLike true ss (bare ss)
  | [] => .nil
  | .skip :: ss => .left rfl (bare_like ss)
  | .block b :: ss => .cons (bareStmt_like (.block b)) (bare_like ss)
  | .fn st name ps b :: ss => .cons (bareStmt_like (.fn st name ps b)) (bare_like ss)
  | .cls st name ps b :: ss => .cons (bareStmt_like (.cls st name ps b)) (bare_like ss)
  | .line l :: ss => .cons (bareStmt_like (.line l)) (bare_like ss)
end

/-- **C100.** They may all be left out. -/
theorem C100_may_be_left_out (w : World) (p : List Stmt) (paths : List Bytes) (x : Seen) : Shows w paths p x ↔ Shows w paths (bare p) x :=
  C100_layout_has_no_effect (.refl w) (bare_like p) paths x

/-- A script with statements without effect everywhere. -/
def airy : List Stmt := [.skip, sBob, .skip, .fn false b!"f" [b!"a"] [.skip, .line (.ret (some (.vec [.ident b!"a"]))), .skip],
  sLet b!"src" (.lambda [b!"x"] (.block [.skip, .line (.ret (some (.vec [.ident b!"x"]))), .skip])), .skip,
  .line (.print (.call (.ident b!"src") [eNum b!"1"])), .skip]

theorem C100_sample_bare : bare airy = [sBob, .fn false b!"f" [b!"a"] [.line (.ret (some (.vec [.ident b!"a"])))],
    sLet b!"src" (.lambda [b!"x"] (.block [.line (.ret (some (.vec [.ident b!"x"])))])),
    .line (.print (.call (.ident b!"src") [eNum b!"1"]))] := rfl

/-- It prints a vector. -/
theorem C100_sample_shows : (match runScript bobWorld 40 bobPaths airy with
    | .ok _ s => some s.out
    | _ => none) = some [b!"[1]"] := by decide +kernel

end Bob.Fl
