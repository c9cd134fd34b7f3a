import Verif.Lemmas.ParPrec
import Verif.Lemmas.ParEq
/-!
# C95: how operators bind
-/

namespace Bob.Parse

theorem chk_bin : (grammar.all fun r => !Nat.beq r.lhs 96 || decide (r.rhs = [[78], [32, 41, 92, 93, 94, 95], [78]])) = true := by decide +kernel

theorem chk_un : (grammar.all fun r => !Nat.beq r.lhs 91 || decide (r.rhs = [[90], [78]])) = true := by decide +kernel

/-- Access, calls, indices and slices begin with an expression and a token. -/
theorem chk_post : (grammar.all fun r => !(Nat.beq r.lhs 80 || Nat.beq r.lhs 81 || Nat.beq r.lhs 98 || Nat.beq r.lhs 99) || match r.rhs with
    | [78] :: [p] :: _ => Nat.beq p 9 || Nat.beq p 13 || Nat.beq p 44
    | _ => false) = true := by decide +kernel

theorem level_eq {o : Nat} (h : o ∈ opSyms) : level o = symLevel o ∧ symLevel o ≠ 0 := by
  simp only [opSyms, List.mem_cons, List.not_mem_nil, or_false] at h
  rcases h with rfl | rfl | rfl | rfl | rfl | rfl <;> decide

theorem parts_extra {t c : Tree} {l : List Tree} (h : t.parts = l) (hc : c ∈ l) : c.extra = false := by
  subst h
  simpa using (List.mem_filter.1 hc).2

theorem solid_parts {A pid : Nat} {cs : List Tree} {e : Bool} : solid cs = (Tree.node A pid cs e).parts.map Tree.sym := rfl

/-- The states between the parts of a binary expression. -/
structure BinAt (q t f : Nat) (l o r : Tree) where
  f1 : Nat
  f2 : Nat
  n : Nat
  pid : Nat
  el : edge q 78 ≠ 0
  fl : Fits q f1 l f
  eo : edge (edge q 78) o.sym ≠ 0
  fo : Fits (edge q 78) f2 o f1
  er : edge (edge (edge q 78) o.sym) 78 ≠ 0
  fr : Fits (edge (edge q 78) o.sym) t r f2
  act : actions (edge (edge (edge q 78) o.sym) 78) t = [.reduce 96 n pid]
  op : o.sym ∈ opSyms
  live : Live (edge q 78)
  live2 : Live (edge (edge q 78) o.sym)

theorem binAt {q t f : Nat} {s l o r : Tree} (hq : Live q) (hf : Fits q t s f) (hs : Binary s l o r) : Nonempty (BinAt q t f l o r) := by
  obtain ⟨hs, hp⟩ := hs
  cases hf with
  | leaf h => cases hs; exact absurd h (by decide)
  | @node _ _ _ _ A n pid cs hc ha hn _ _ _ _ =>
    obtain ⟨ru, hr, hl, _, hfi, _⟩ := reduce_rule hc hq ha hn
    cases hs
    have := List.all_eq_true.1 chk_bin ru hr
    simp only [hl, Nat.beq_refl, Bool.not_true, Bool.false_or, decide_eq_true_eq] at this
    rw [this, solid_parts, hp] at hfi
    obtain ⟨h1, h2, h3, _⟩ := hfi
    have h1 : l.sym = 78 := List.mem_singleton.1 h1
    have h3 : r.sym = 78 := List.mem_singleton.1 h3
    have hcs : cs.filter (!·.extra) = [l, o, r] := hp
    have hc' := hc.solid
    rw [hcs] at hc'
    obtain ⟨f1, e1, g1, c1⟩ := hc'.head (parts_extra hp (by simp))
    rw [h1] at e1 c1
    have l1 := (edge_ok hq (by decide) (by decide) e1).live
    obtain ⟨f2, e2, g2, c2⟩ := c1.head (parts_extra hp (by simp))
    obtain ⟨f3, e3, g3, c3⟩ := c2.head (parts_extra hp (by simp))
    rw [h3] at e3 c3
    cases c3
    exact ⟨f1, f2, n, pid, e1, g1, e2, g2, e3, g3, ha, h2, l1, (edge_ok l1 g2.sym.1 g2.sym.2 e2).live⟩

/-- What an expression is was made up in the same place. -/
theorem is_fits {q t f : Nat} {e s : Tree} (hf : Fits q t e f) (h : Is e s) : Fits q t s f := by
  obtain ⟨h1, h2⟩ := h
  cases hf with
  | leaf h => cases h1; exact absurd h (by decide)
  | @node _ _ _ _ _ _ _ cs hc =>
    have hc' := hc.solid
    have hcs : cs.filter (!·.extra) = [s] := h2
    rw [hcs] at hc'
    obtain ⟨f1, _, g, c⟩ := hc'.head (parts_extra h2 (by simp))
    cases c
    exact g

theorem fits_of {s t : Tree} {text : Bytes} (h : Parses text (.tree t)) (hw : Within s t) (h1 : s.sym ≠ 60) (h2 : s.sym ≠ 0) (h3 : s.sym ≠ 3) (h4 : s.sym ≠ 62) :
    ∃ q t f, Live q ∧ Fits q t s f := by
  obtain ⟨n, h⟩ := h
  have hg : WholeFits t := run_good (start_good text) h
  rcases (hg.within hw).resolve_left h1 |>.resolve_left h2 with h | h
  · exact h
  · cases h
    · exact absurd rfl h3
    · exact absurd rfl h4

/-- **C95, binary operators.** In whatever the parser accepts, the left operand of a binary operator has no operator at its top that binds less tightly, and the
right operand none that binds less or equally tightly. -/
theorem C95_binary_operators_bind_partial (text : Bytes) (t : Tree) (h : Parses text (.tree t)) (s l o r : Tree) (hw : Within s t) (hs : Binary s l o r) :
    (∀ b l' o' r', Is l b → Binary b l' o' r' → level o.sym ≤ level o'.sym) ∧ ∀ b l' o' r', Is r b → Binary b l' o' r' → level o.sym < level o'.sym := by
  obtain ⟨q, k, f, hq, hf⟩ := fits_of h hw (by rw [hs.1]; decide) (by rw [hs.1]; decide) (by rw [hs.1]; decide) (by rw [hs.1]; decide)
  obtain ⟨a⟩ := binAt hq hf hs
  have ho := level_eq a.op
  obtain ⟨t1, t2, t3⟩ := op_first a.live a.fo a.eo ho.2
  refine ⟨fun b l' o' r' hb hbin => ?_, fun b l' o' r' hb hbin => ?_⟩
  · obtain ⟨a'⟩ := binAt hq (is_fits a.fl hb) hbin
    have ho' := level_eq a'.op
    have := ((prec_state hq).1 _ a'.op a'.el a'.eo a'.er a.f1 t1 (t2 ▸ ho.2)).1 _ _ a'.act
    rw [ho.1, ho'.1, ← t2]
    exact this
  · obtain ⟨a'⟩ := binAt a.live2 (is_fits a.fr hb) hbin
    have ho' := level_eq a'.op
    obtain ⟨s1, s2, s3⟩ := op_first a'.live a'.fo a'.eo ho'.2
    have := ((prec_state hq).1 _ a.op a.el a.eo a.er a'.f1 s1 (s2 ▸ ho'.2)).2 s3
    rw [ho.1, ho'.1, ← s2]
    exact this

theorem un_fits {q t f : Nat} {s o e : Tree} (hq : Live q) (hf : Fits q t s f) (hs : Unary s o e) (ht : t < 60) : tokLevel t = 0 := by
  obtain ⟨hs, hp⟩ := hs
  cases hf with
  | leaf h => cases hs; exact absurd h (by decide)
  | @node _ _ _ _ A n pid cs hc ha hn _ _ _ _ =>
    obtain ⟨ru, hr, hl, _, hfi, _⟩ := reduce_rule hc hq ha hn
    cases hs
    have := List.all_eq_true.1 chk_un ru hr
    simp only [hl, Nat.beq_refl, Bool.not_true, Bool.false_or, decide_eq_true_eq] at this
    rw [this, solid_parts, hp] at hfi
    obtain ⟨h1, h2, _⟩ := hfi
    have h1 : o.sym = 90 := List.mem_singleton.1 h1
    have h2 : e.sym = 78 := List.mem_singleton.1 h2
    have hcs : cs.filter (!·.extra) = [o, e] := hp
    have hc' := hc.solid
    rw [hcs] at hc'
    obtain ⟨f1, e1, g1, c1⟩ := hc'.head (parts_extra hp (by simp))
    obtain ⟨f2, e2, g2, c2⟩ := c1.head (parts_extra hp (by simp))
    rw [h1] at e1 e2 c2
    rw [h2] at e2 c2
    cases c2
    exact (prec_state hq).2 e1 e2 t ht _ _ ha

/-- **C95, unary operators: the converse holds.** In whatever the parser accepts, no unary expression is the left operand of a binary operator: the operand of `-` and `!` goes
on over all binary operators after it. -/
theorem C95_unary_operators_bind_last (text : Bytes) (t : Tree) (h : Parses text (.tree t)) (s l o r : Tree) (hw : Within s t) (hs : Binary s l o r) :
    ∀ u op e, Is l u → ¬ Unary u op e := by
  obtain ⟨q, k, f, hq, hf⟩ := fits_of h hw (by rw [hs.1]; decide) (by rw [hs.1]; decide) (by rw [hs.1]; decide) (by rw [hs.1]; decide)
  obtain ⟨a⟩ := binAt hq hf hs
  have ho := level_eq a.op
  obtain ⟨t1, t2, _⟩ := op_first a.live a.fo a.eo ho.2
  intro u op e hu hun
  exact ho.2 (t2 ▸ un_fits hq (is_fits a.fl hu) hun t1)

/-- **C95, postfix.** What is accessed, called, indexed or sliced is neither a binary nor a unary expression, unless in parentheses. -/
theorem C95_postfix_binds_first (text : Bytes) (t : Tree) (h : Parses text (.tree t)) (s e : Tree) (hw : Within s t) (hs : Postfix s e) :
    (∀ b l o r, Is e b → ¬ Binary b l o r) ∧ ∀ u o x, Is e u → ¬ Unary u o x := by
  obtain ⟨hsym, p, ps, hp⟩ := hs
  obtain ⟨q, k, f, hq, hf⟩ := fits_of h hw (by rcases hsym with h | h | h | h <;> rw [h] <;> decide) (by rcases hsym with h | h | h | h <;> rw [h] <;> decide)
    (by rcases hsym with h | h | h | h <;> rw [h] <;> decide) (by rcases hsym with h | h | h | h <;> rw [h] <;> decide)
  have key : ∃ f1, Fits q f1 e f ∧ f1 < 60 ∧ tokLevel f1 = 7 := by
    cases hf with
    | leaf h => rcases hsym with h' | h' | h' | h' <;> (cases h'; exact absurd h (by decide))
    | @node _ _ _ _ A n pid cs hc ha hn _ _ _ _ =>
      obtain ⟨ru, hr, hl, _, hfi, _⟩ := reduce_rule hc hq ha hn
      have hA : A = 80 ∨ A = 81 ∨ A = 98 ∨ A = 99 := hsym
      have := List.all_eq_true.1 chk_post ru hr
      have hb : (Nat.beq ru.lhs 80 || Nat.beq ru.lhs 81 || Nat.beq ru.lhs 98 || Nat.beq ru.lhs 99) = true := by
        rw [hl]; rcases hA with rfl | rfl | rfl | rfl <;> rfl
      rw [hb, Bool.not_true, Bool.false_or] at this
      rw [solid_parts, hp] at hfi
      split at this
      · rename_i x rest hrhs
        rw [hrhs] at hfi
        obtain ⟨h1, h2, _⟩ := hfi
        have h2 : p.sym = x := List.mem_singleton.1 h2
        have hcs : cs.filter (!·.extra) = e :: p :: ps := hp
        have hc' := hc.solid
        rw [hcs] at hc'
        obtain ⟨f1, e1, g1, c1⟩ := hc'.head (parts_extra hp (by simp))
        obtain ⟨f2, e2, g2, c2⟩ := c1.head (parts_extra hp (by simp))
        simp only [Bool.or_eq_true, Nat.beq_eq] at this
        refine ⟨f1, g1, ?_⟩
        cases g2 with
        | leaf =>
          cases h2
          rcases this with (h | h) | h <;> (simp only [Tree.sym] at h; subst h; decide)
        | node _ _ _ _ h60 =>
          simp only [Tree.sym] at h2
          omega
      · cases this
  obtain ⟨f1, hf1, ht, hl⟩ := key
  refine ⟨fun b l o r hb hbin => ?_, fun u o x hu hun => ?_⟩
  · obtain ⟨a⟩ := binAt hq (is_fits hf1 hb) hbin
    have := ((prec_state hq).1 _ a.op a.el a.eo a.er f1 ht (by omega)).1 _ _ a.act
    rw [hl] at this
    have h6 : symLevel o.sym ≤ 6 := by
      have := a.op
      simp only [opSyms, List.mem_cons, List.not_mem_nil, or_false] at this
      rcases this with h | h | h | h | h | h <;> rw [h] <;> decide
    omega
  · have := un_fits hq (is_fits hf1 hu) hun ht
    omega

/-! Samples. -/

/-- `a - b * c - d` is `(a - (b * c)) - d`. -/
def sampleBin : Tree :=
  nd 96 17 [exprOf (nd 96 17 [identOf b!" " b!"a", nd 93 0 [tk 30 b!" " b!"-"],
      exprOf (nd 96 17 [identOf b!" " b!"b", nd 92 0 [tk 33 b!" " b!"*"], identOf b!" " b!"c"])]),
    nd 93 0 [tk 30 b!" " b!"-"], identOf b!" " b!"d"]

set_option maxRecDepth 100000 in
theorem C95_sample_binary : Parses b!"print a - b * c - d\n" (.tree (oneLine (nd 75 5 [tk 19 [] b!"print", exprOf sampleBin]))) :=
  yieldsTree_parses (by decide +kernel)

/-- `-a + b` is `-(a + b)`. -/
def sampleUn : Tree :=
  nd 91 8 [nd 90 0 [tk 30 b!" " b!"-"], exprOf (nd 96 17 [identOf [] b!"a", nd 93 0 [tk 36 b!" " b!"+"], identOf b!" " b!"b"])]

set_option maxRecDepth 100000 in
theorem C95_sample_unary : Parses b!"print -a + b\n" (.tree (oneLine (nd 75 5 [tk 19 [] b!"print", exprOf sampleUn]))) :=
  yieldsTree_parses (by decide +kernel)

/-- **C95 fails for unary operators**: that they bind tighter than binary ones is not so. -/
theorem C95_unary_operators_bind_first_false :
    ¬ ∀ (text : Bytes) (t s o e b l op r : Tree), Parses text (.tree t) → Within s t → Unary s o e → Is e b → ¬ Binary b l op r := by
  intro h
  refine h _ _ sampleUn _ _ _ _ _ _ C95_sample_unary ?_ ⟨rfl, rfl⟩ ⟨rfl, rfl⟩ ⟨rfl, rfl⟩
  unfold oneLine exprOf nd
  exact .child (List.mem_cons_self ..) (.child (List.mem_cons_self ..) (.child (List.mem_cons_self ..)
    (.child (List.mem_cons_of_mem _ (List.mem_cons_self ..)) (.child (List.mem_cons_self ..) .refl))))

set_option maxRecDepth 100000 in
/-- `-a.b` is `-(a.b)`. -/
theorem C95_sample_postfix : Parses b!"print -a.b\n" (.tree (oneLine (nd 75 5 [tk 19 [] b!"print", exprOf (nd 91 8 [nd 90 0 [tk 30 b!" " b!"-"],
    exprOf (nd 80 15 [identOf [] b!"a", tk 9 [] b!".", nd 104 0 [tk 53 [] b!"b"]])])]))) :=
  yieldsTree_parses (by decide +kernel)

end Bob.Parse
