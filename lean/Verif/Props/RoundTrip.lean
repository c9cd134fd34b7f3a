import Verif.Lemmas.WriteLower2
import Verif.Props.Parse
/-!
# C96: scripts that are written down are read back
-/

namespace Bob.Parse
open Bob.Fl

/-- The node of a statement, and the end of its line. -/
def topNodes (s : Stmt) : List Tree :=
  match s with
  | .line _ => [stmtNode s, lf T.newline b!"\n"]
  | _ => [stmtNode s]

theorem stmt_kids_all {s : Stmt} (h : s.proper = true) : (stmtTree s).kids false = topNodes s := by
  cases s with
  | skip => rw [Stmt.proper] at h; cases h
  | block ss => rw [stmtTree, kids_nd, kidsOf_skip (by rfl), kids_nd, kidsOf_seen (by rw [block_sym]; rfl), kidsOf_nil]; rfl
  | fn st name ps ss => rw [stmtTree, kids_nd, kidsOf_skip (by rfl), kids_nd, kidsOf_seen (by rfl), kidsOf_nil]; rfl
  | cls st name ps ss => rw [stmtTree, kids_nd, kidsOf_skip (by rfl), kids_nd, kidsOf_seen (by rfl), kidsOf_nil]; rfl
  | line l => rw [stmtTree, kids_nd, kidsOf_seen (by rfl), kidsOf_seen (by rfl), kidsOf_nil]; rfl

theorem top_lower : ∀ {ss : List Stmt} {n : Nat}, stmtsProper ss = true → (∀ c ∈ stmtTrees ss, 3 * c.size ≤ n) →
    ((stmtTrees ss).flatMap (Tree.kids false)).mapM (lowerStmt n) = .ok (withEnds ss)
  | [], n, _, _ => by rw [stmtTrees]; rfl
  | s :: ss, n, h, hn => by
    rw [stmtsProper, Bool.and_eq_true] at h
    rw [stmtTrees] at hn ⊢
    have h1 := stmt_lower s n h.1 (hn _ (List.mem_cons_self ..))
    have h2 := top_lower h.2 fun c hc => hn c (List.mem_cons_of_mem _ hc)
    have hp := hn _ (List.mem_cons_self ..)
    have := size_pos (stmtTree s)
    obtain ⟨n, rfl⟩ : ∃ m, n = m + 1 := ⟨n - 1, by omega⟩
    rw [List.flatMap_cons, stmt_kids_all h.1]
    cases s with
    | line l =>
      have h3 : lowerStmt (n + 1) (lf T.newline b!"\n") = .ok .skip := by rw [lowerStmt, if_pos (by rfl)]
      rw [topNodes, List.cons_append, List.singleton_append, List.mapM_cons, h1, ok_bind, List.mapM_cons, h3, ok_bind, h2, ok_bind, pure_ok, ok_bind, pure_ok, withEnds]
    | _ => rw [topNodes, List.singleton_append, List.mapM_cons, h1, ok_bind, h2, ok_bind, pure_ok, withEnds] <;> exact fun _ h => (nomatch h)

/-- The tree that is found for a script. -/
def scriptTree (ss : List Stmt) : Tree := .node 60 0 (scriptParts ss ++ [.leaf 0 [] [] true]) false

theorem scriptParts_kids {ss : List Stmt} : kidsOf false (scriptParts ss) = (stmtTrees ss).flatMap (Tree.kids false) := by
  cases ss with
  | nil => rw [scriptParts, stmtTrees, seqTree, kidsOf_nil]; rfl
  | cons s ss =>
    rw [scriptParts, stmtTrees, seqTree, kidsOf_skip (by rw [seqFrom_sym _ (stmt_sym s)]; rfl), kidsOf_nil, seqFrom_kids false (stmt_sym s) (stmts_sym ss), List.append_nil,
      List.flatMap_cons]

theorem scriptParts_size {ss : List Stmt} : ∀ c ∈ stmtTrees ss, c.size ≤ sizes (scriptParts ss) := by
  cases ss with
  | nil => intro c h; rw [stmtTrees] at h; cases h
  | cons s ss =>
    intro c h
    rw [stmtTrees] at h
    rw [scriptParts, stmtTrees, seqTree, sizes_cons, sizes_nil, Nat.add_zero]
    have := seqFrom_size (stmtTrees ss) (stmtTree s)
    rcases List.mem_cons.1 h with rfl | h
    · exact this.1
    · exact this.2 c h

theorem script_lower {ss : List Stmt} (h : stmtsProper ss = true) : lower (scriptTree ss) = .ok (withEnds ss) := by
  have hk : (scriptTree ss).kids false = (stmtTrees ss).flatMap (Tree.kids false) := by
    rw [scriptTree, Tree.kids, kidsOf_append, scriptParts_kids, kidsOf_skip (by rfl), Tree.kids, kidsOf_nil, List.append_nil, List.append_nil]
  rw [lower, check_true (by rfl), ok_bind, hk]
  refine top_lower h fun c hc => ?_
  have := scriptParts_size c hc
  rw [scriptTree, Tree.size, sizes_append]
  omega

/-- **C96.** Every script that is written down with a blank before each word, with operands in parentheses, is accepted, and the interpreter gets to see
the same statements again. -/
theorem C96_written_scripts_are_read_back {ss : List Stmt} (h : stmtsProper ss = true) :
    ∃ t, (∀ o, Parses (scriptText ss) o ↔ o = .tree t) ∧ lower t = .ok (withEnds ss) := by
  have hp := script_parses h
  rw [script_yield] at hp
  obtain ⟨o, -, ho⟩ := C94_parsing_ends (scriptText ss)
  refine ⟨scriptTree ss, fun o' => ?_, script_lower h⟩
  rw [ho, ← (ho _).1 hp]
  rfl

theorem withEnds_inj : ∀ {ss ss' : List Stmt}, stmtsProper ss = true → stmtsProper ss' = true → withEnds ss = withEnds ss' → ss = ss'
  | [], [], _, _, _ => rfl
  | [], s :: ss, _, _, h => by cases s <;> simp [withEnds] at h
  | s :: ss, [], _, _, h => by cases s <;> simp [withEnds] at h
  | s :: ss, s' :: ss', h1, h2, h => by
    rw [stmtsProper, Bool.and_eq_true] at h1 h2
    have ih := withEnds_inj h1.2 h2.2
    cases s <;> cases s' <;> simp only [withEnds, List.cons.injEq, reduceCtorEq, false_and, true_and] at h <;>
      first
      | (rw [h.1, ih h.2])
      | (rw [ih h])
      | skip

/-- Different scripts have different texts. -/
theorem C96_texts_tell_scripts_apart {ss ss' : List Stmt} (h : stmtsProper ss = true) (h' : stmtsProper ss' = true) (he : scriptText ss = scriptText ss') : ss = ss' := by
  obtain ⟨t, h1, h2⟩ := C96_written_scripts_are_read_back h
  obtain ⟨t', h3, h4⟩ := C96_written_scripts_are_read_back h'
  have : Outcome.tree t = .tree t' := (h3 _).1 (he ▸ (h1 _).2 rfl)
  cases this
  rw [h2] at h4
  exact withEnds_inj h h' (Except.ok.inj h4)

/-- A script with something of everything. -/
def sampleScript : List Stmt := [
  .line (.import true [b!"lib", b!"cc"]),
  .line (.decl true b!"n" none),
  .line (.decl false b!"m" (some (.map [(.lit (.str b!"a b"), .vec [.lit (.num b!"12"), .lit .none])]))),
  .fn true b!"f" [b!"a", b!"b"] [
    .line (.assert (.bin .lt (.ident b!"a") (.lit (.num b!"3"))) b!"a < 3"),
    .block [.line (.ret (some (.bin .pow (.ident b!"a") (.paren (.un .neg (.index (.ident b!"b") (.lit (.bool true))))))))]],
  .cls false b!"K" [] [],
  .line (.assign (.access (.call (.ident b!"K") []) b!"x" b!"K ( ) . x") (.lambda [b!"y"] (.expr (.ident b!"y")))),
  .line (.proto false b!"p" [b!"q"]),
  .line (.print (.call (.access (.map []) b!"len") [.lambda [] (.block [.line (.ret none)]), .lit (.str [])])),
  .line (.expr (.call (.ident b!"f") [.lit (.num b!"1"), .ident b!"m"]))]

set_option maxRecDepth 100000 in
theorem C96_sample : stmtsProper sampleScript = true ∧
    scriptText sampleScript = b!" import . lib . cc \n static let n \n let m = { \"a b\" : [ 12 , none ] } \n static fn f ( a , b ) { assert a < 3 \n { return a ** ( - b [ true ] ) \n } } class K ( ) { } K ( ) . x = | y | y \n proto p ( q ) \n print { } . len ( | | { return \n } , \"\" ) \n f ( 1 , m ) \n" := by
  constructor <;> decide +kernel

end Bob.Parse
