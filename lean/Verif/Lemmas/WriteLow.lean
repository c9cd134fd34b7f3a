import Verif.Lemmas.WriteDer2
import Verif.Lemmas.WriteYield
/-!
# What the interpreter takes out of the trees of scripts: parts
-/

namespace Bob.Parse
open Bob.Fl

theorem ok_bind {α β : Type} (a : α) (f : α → Low β) : ((Except.ok a : Low α) >>= f) = f a := rfl

theorem pure_ok {α : Type} (a : α) : (pure a : Low α) = .ok a := rfl

theorem check_true {b : Bool} (h : b = true) : check b = .ok () := by rw [h]; rfl

theorem expect_true {b : Bool} (h : b = true) : expect b = .ok () := by rw [h]; rfl

mutual
theorem whole_yield : ∀ (t : Tree), t.whole = t.yield
  | .leaf .. => rfl
  | .node _ _ cs _ => by rw [Tree.whole, Tree.yield, wholeOf_yields cs]
theorem wholeOf_yields : ∀ (cs : List Tree), wholeOf cs = yields cs
  | [] => rfl
  | c :: cs => by rw [wholeOf, yields, whole_yield c, wholeOf_yields cs]
end

theorem Der.padding : ∀ (n : Nat), (∀ {k : Nat} {c : Tree}, sizeOf c ≤ n → Der k c → c.padding = [32]) := by
  intro n
  induction n with
  | zero => intro k c hs; cases c <;> simp at hs
  | succ n ih =>
    intro k c hs h
    cases h with
    | leaf => rfl
    | @node r cs hr hd =>
      cases hd' : r.rhs with
      | nil => have := (rule_facts hr).1; rw [headOk, hd'] at this; cases this
      | cons p ps =>
        rw [hd'] at hd
        cases hd with
        | @cons _ _ k c cs hk hc hcs => rw [Tree.padding, paddingOf, ih (c := c) (by simp at hs; omega) hc]

/-- The text of a tree is all but the blank before it. -/
theorem Der.text {k : Nat} {c : Tree} (h : Der k c) : c.text = c.yield.drop 1 := by
  rw [Tree.text, Der.padding _ (Nat.le_refl _) h, whole_yield]
  rfl

theorem OneOf.text {p : List Nat} {c : Tree} (h : OneOf p c) : c.text = c.yield.drop 1 := let ⟨_, _, h⟩ := h; h.text

/-! ## Fields -/

theorem field_some {A pid i : Nat} {b : Bool} {name : Bytes} {cs : List Tree} {c : Tree}
    (h : ((fieldMap.lookup pid).bind fun fs => fs.lookup name) = some (i, b)) (hx : ∀ c ∈ cs, c.extra = false) (hc : cs[i]? = some c)
    (hr : relevant false c.sym = true) : (nw A pid cs).field name = some c := by
  rw [nw, Tree.field, h]
  simp only [List.filter_eq_self.2 (fun c hm => by rw [hx c hm]; rfl : ∀ c ∈ cs, (!c.extra) = true), hc, hr, if_true]

theorem field_none {A pid : Nat} {name : Bytes} {cs : List Tree} (h : ((fieldMap.lookup pid).bind fun fs => fs.lookup name) = none) :
    (nw A pid cs).field name = none := by
  rw [nw, Tree.field, h]

theorem get_some {t c : Tree} {name : Bytes} (h : t.field name = some c) : t.get name = .ok c := by rw [Tree.get, h]

/-! ## Parts that are looked at -/

theorem type_nd (A pid : Nat) (cs : List Tree) : (nw A pid cs).type = symbolNames.getD A [] := rfl
theorem sym_nd (A pid : Nat) (cs : List Tree) : (nw A pid cs).sym = A := rfl
theorem extra_nd (A pid : Nat) (cs : List Tree) : (nw A pid cs).extra = false := rfl
theorem extra_lf (s : Nat) (w : Bytes) : (lf s w).extra = false := rfl
theorem sym_lf (s : Nat) (w : Bytes) : (lf s w).sym = s := rfl
theorem kids_nd (named : Bool) (A pid : Nat) (cs : List Tree) : (nw A pid cs).kids named = kidsOf named cs := by rw [nw, Tree.kids]
theorem kids_lf (named : Bool) (s : Nat) (w : Bytes) : (lf s w).kids named = [] := by rw [lf, Tree.kids]

theorem kidsOf_nil (named : Bool) : kidsOf named [] = [] := by rw [kidsOf]

theorem kidsOf_seen {named : Bool} {c : Tree} {cs : List Tree} (h : relevant named c.sym = true) : kidsOf named (c :: cs) = c :: kidsOf named cs := by
  rw [kidsOf, h, cond_true]

theorem kidsOf_skip {named : Bool} {c : Tree} {cs : List Tree} (h : relevant named c.sym = false) : kidsOf named (c :: cs) = c.kids named ++ kidsOf named cs := by
  rw [kidsOf, h, cond_false]

theorem kidsOf_append (named : Bool) : ∀ (as bs : List Tree), kidsOf named (as ++ bs) = kidsOf named as ++ kidsOf named bs
  | [], bs => by rw [kidsOf_nil]; rfl
  | a :: as, bs => by
    rw [List.cons_append]
    cases h : relevant named a.sym with
    | true => rw [kidsOf_seen h, kidsOf_seen h, kidsOf_append named as bs]; rfl
    | false => rw [kidsOf_skip h, kidsOf_skip h, kidsOf_append named as bs, List.append_assoc]

theorem expr_shape (e : Expr) : ∃ c, exprTree e = expr c := by
  cases e with
  | call f es => cases es <;> exact ⟨_, by rw [exprTree]⟩
  | _ => exact ⟨_, by rw [exprTree]⟩

theorem expr_sym (e : Expr) : (exprTree e).sym = 78 := by obtain ⟨c, h⟩ := expr_shape e; rw [h]; rfl
theorem expr_extra (e : Expr) : (exprTree e).extra = false := by obtain ⟨c, h⟩ := expr_shape e; rw [h]; rfl
theorem expr_type (e : Expr) : (exprTree e).type = b!"expression" := by rw [Tree.type, expr_sym]; rfl

theorem bin_extra (op : BinOp) : (binTree op).extra = false := by cases op <;> rfl
theorem bin_seen (op : BinOp) : relevant false (binTree op).sym = true := by cases op <;> rfl

theorem blockOf_nd (xs : List Tree) : ∃ pid cs, blockOf xs = nw 65 pid cs := by cases xs <;> exact ⟨_, _, rfl⟩
theorem block_sym (xs : List Tree) : (blockOf xs).sym = 65 := by cases xs <;> rfl
theorem block_extra (xs : List Tree) : (blockOf xs).extra = false := by cases xs <;> rfl
theorem block_type (xs : List Tree) : (blockOf xs).type = b!"block" := by rw [Tree.type, block_sym]; rfl

theorem path_nd (ws : List Bytes) : ∃ pid cs, pathTree ws = nw 67 pid cs := by
  match ws with
  | [] => exact ⟨_, _, rfl⟩
  | [w] => exact ⟨_, _, rfl⟩
  | w :: v :: ws => exact ⟨_, _, by rw [pathTree]; simp⟩

/-! ## Lists with commas -/

/-- What lists with commas consist of. -/
def between (named : Bool) (xs : List Tree) : List Tree := xs.flatMap fun x => (bif relevant named 26 then [lf T.comma b!","] else []) ++ [x]

theorem kidsOf_comma {named : Bool} {x : Tree} (h : relevant named x.sym = true) :
    kidsOf named [lf T.comma b!",", x] = (bif relevant named 26 then [lf T.comma b!","] else []) ++ [x] := by
  cases hn : relevant named 26 with
  | true => rw [kidsOf_seen (by exact hn), kidsOf_seen h, kidsOf_nil]; rfl
  | false => rw [kidsOf_skip (by exact hn), kidsOf_seen h, kidsOf_nil, kids_lf]; rfl

theorem repFrom_sym (R : Nat) : ∀ (xs : List Tree) {acc : Tree}, acc.sym = R → (repFrom R acc xs).sym = R
  | [], _, h => h
  | x :: xs, acc, _ => by rw [repFrom]; exact repFrom_sym R xs rfl

theorem repFrom_kids {named : Bool} {R : Nat} (hR : relevant named R = false) : ∀ {xs : List Tree} {acc : Tree}, acc.sym = R →
    (∀ x ∈ xs, relevant named x.sym = true) → (repFrom R acc xs).kids named = acc.kids named ++ between named xs
  | [], acc, _, _ => by rw [repFrom, between, List.flatMap_nil, List.append_nil]
  | x :: xs, acc, ha, h => by
    rw [repFrom, repFrom_kids hR rfl fun y hy => h y (List.mem_cons_of_mem _ hy), kids_nd, kidsOf_skip (by rw [ha]; exact hR), kidsOf_skip (by exact hR), kids_nd,
      kidsOf_comma (h x (List.mem_cons_self ..)), kidsOf_nil, List.append_nil, between, between, List.flatMap_cons, List.append_assoc]

theorem listParts_kids {named : Bool} {R : Nat} (hR : relevant named R = false) {xs : List Tree} (h : ∀ x ∈ xs, relevant named x.sym = true) :
    kidsOf named (listParts R xs) = match xs with | [] => [] | x :: xs => x :: between named xs := by
  match xs, h with
  | [], _ => exact kidsOf_nil _
  | [x], h => rw [listParts, kidsOf_seen (h x (by simp)), kidsOf_nil]; rfl
  | x :: y :: xs, h =>
    rw [listParts, kidsOf_seen (h x (by simp)), kidsOf_skip (by rw [repFrom_sym R xs rfl]; exact hR), repFrom_kids hR rfl fun z hz => h z (by simp [hz]), kids_nd,
      kidsOf_comma (h y (by simp)), kidsOf_nil, List.append_nil]
    simp only [between, List.flatMap_cons]

theorem between_named (xs : List Tree) : between true xs = xs := by
  induction xs with
  | nil => rfl
  | cons x xs ih =>
    rw [between, List.flatMap_cons, ← between, ih]
    rfl

theorem between_filter {p : Tree → Bool} (hp : p (lf T.comma b!",") = false) {xs : List Tree} (h : ∀ x ∈ xs, p x = true) : (between false xs).filter p = xs := by
  induction xs with
  | nil => rfl
  | cons x xs ih =>
    rw [between, List.flatMap_cons, ← between, List.filter_append, ih fun y hy => h y (List.mem_cons_of_mem _ hy)]
    rw [show (bif relevant false 26 then [lf T.comma b!","] else []) = [lf T.comma b!","] from rfl]
    simp [hp, h x (List.mem_cons_self ..)]

theorem listParts_named {R : Nat} (hR : relevant true R = false) {xs : List Tree} (h : ∀ x ∈ xs, relevant true x.sym = true) :
    kidsOf true (listParts R xs) = xs := by
  rw [listParts_kids hR h]
  cases xs with
  | nil => rfl
  | cons x xs => simp only [between_named]

theorem listParts_filter {R : Nat} (hR : relevant false R = false) {p : Tree → Bool} (hp : p (lf T.comma b!",") = false) {xs : List Tree}
    (h : ∀ x ∈ xs, relevant false x.sym = true) (hx : ∀ x ∈ xs, p x = true) : (kidsOf false (listParts R xs)).filter p = xs := by
  rw [listParts_kids hR h]
  cases xs with
  | nil => rfl
  | cons x xs => simp only [List.filter_cons, hx x (List.mem_cons_self ..), if_true, between_filter hp fun y hy => hx y (List.mem_cons_of_mem _ hy)]

theorem repFrom_size (R : Nat) : ∀ (xs : List Tree) (acc : Tree), acc.size ≤ (repFrom R acc xs).size ∧ ∀ x ∈ xs, x.size ≤ (repFrom R acc xs).size
  | [], acc => ⟨Nat.le_refl _, fun _ h => by cases h⟩
  | x :: xs, acc => by
    rw [repFrom]
    have ih := repFrom_size R xs (nw R 0 [acc, nw R 0 [lf T.comma b!",", x]])
    have hs : (nw R 0 [acc, nw R 0 [lf T.comma b!",", x]]).size = 3 + acc.size + x.size := by simp only [nw, lf, Tree.size, sizes]; omega
    rw [hs] at ih
    refine ⟨by omega, fun y hy => ?_⟩
    rcases List.mem_cons.1 hy with rfl | hy
    · omega
    · exact ih.2 y hy

theorem listParts_size (R : Nat) {xs : List Tree} : ∀ x ∈ xs, x.size ≤ sizes (listParts R xs) := by
  match xs with
  | [] => intro x h; cases h
  | [y] => intro x h; simp only [List.mem_singleton] at h; rw [h]; simp [listParts, sizes]
  | y :: z :: xs =>
    intro x h
    have := repFrom_size R xs (nw R 0 [lf T.comma b!",", z])
    have hs : (nw R 0 [lf T.comma b!",", z]).size = 2 + z.size := by simp only [nw, lf, Tree.size, sizes]; omega
    rw [hs] at this
    simp only [listParts, sizes]
    rcases List.mem_cons.1 h with rfl | h
    · omega
    · rcases List.mem_cons.1 h with rfl | h
      · omega
      · have := this.2 x h
        omega

theorem seqFrom_sym : ∀ (xs : List Tree) {acc : Tree}, acc.sym = 61 → (seqFrom acc xs).sym = 61
  | [], _, h => h
  | x :: xs, acc, _ => by rw [seqFrom]; exact seqFrom_sym xs rfl

theorem hidden61 (named : Bool) : relevant named 61 = false := by cases named <;> rfl

theorem seqFrom_kids (named : Bool) : ∀ {xs : List Tree} {acc : Tree}, acc.sym = 61 → (∀ x ∈ xs, x.sym = 61) →
    (seqFrom acc xs).kids named = acc.kids named ++ xs.flatMap (Tree.kids named)
  | [], acc, _, _ => by rw [seqFrom, List.flatMap_nil, List.append_nil]
  | x :: xs, acc, ha, h => by
    rw [seqFrom, seqFrom_kids named rfl fun y hy => h y (List.mem_cons_of_mem _ hy), kids_nd, kidsOf_skip (by rw [ha]; exact hidden61 named),
      kidsOf_skip (by rw [h x (List.mem_cons_self ..)]; exact hidden61 named), kidsOf_nil, List.append_nil, List.flatMap_cons, List.append_assoc]

theorem seqFrom_size : ∀ (xs : List Tree) (acc : Tree), acc.size ≤ (seqFrom acc xs).size ∧ ∀ x ∈ xs, x.size ≤ (seqFrom acc xs).size
  | [], acc => ⟨Nat.le_refl _, fun _ h => by cases h⟩
  | x :: xs, acc => by
    rw [seqFrom]
    have ih := seqFrom_size xs (nw N.statementList 0 [acc, x])
    have hs : (nw N.statementList 0 [acc, x]).size = 1 + acc.size + x.size := by simp only [nw, Tree.size, sizes]; omega
    rw [hs] at ih
    refine ⟨by omega, fun y hy => ?_⟩
    rcases List.mem_cons.1 hy with rfl | hy
    · omega
    · exact ih.2 y hy

theorem blockOf_kids {xs : List Tree} (h : ∀ x ∈ xs, x.sym = 61) : (blockOf xs).kids true = xs.flatMap (Tree.kids true) := by
  cases xs with
  | nil => rfl
  | cons x xs =>
    rw [blockOf, kids_nd, kidsOf_skip (by rfl), kidsOf_skip (by rw [seqFrom_sym xs (h x (List.mem_cons_self ..))]; rfl), kidsOf_skip (by rfl), kids_lf, kids_lf, kidsOf_nil,
      seqFrom_kids true (h x (List.mem_cons_self ..)) fun y hy => h y (List.mem_cons_of_mem _ hy), List.flatMap_cons]
    simp

theorem blockOf_size {xs : List Tree} : ∀ x ∈ xs, x.size + 1 ≤ (blockOf xs).size := by
  cases xs with
  | nil => intro x h; cases h
  | cons y xs =>
    intro x h
    have := seqFrom_size xs y
    have hs : (blockOf (y :: xs)).size = 3 + (seqFrom y xs).size := by simp only [blockOf, nw, lf, Tree.size, sizes]; omega
    rw [hs]
    rcases List.mem_cons.1 h with rfl | h
    · omega
    · have := this.2 x h
      omega

end Bob.Parse
