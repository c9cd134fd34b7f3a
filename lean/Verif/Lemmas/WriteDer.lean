import Verif.Lemmas.WriteFits
import Verif.Lemmas.WriteTree
/-!
# The trees of scripts follow the rules
-/

namespace Bob.Parse
open Bob.Fl

/-- A tree of one of some kinds. -/
def OneOf (p : List Nat) (c : Tree) : Prop := ∃ k ∈ p, Der k c

theorem OneOf.mono {p p' : List Nat} {c : Tree} (h : OneOf p c) (hp : ∀ k ∈ p, k ∈ p') : OneOf p' c :=
  let ⟨k, hk, hd⟩ := h
  ⟨k, hp k hk, hd⟩

theorem Der.one {k : Nat} {c : Tree} (h : Der k c) {p : List Nat} (hp : k ∈ p) : OneOf p c := ⟨k, hp, h⟩

theorem Ders.one {p : List Nat} {ps : List (List Nat)} {c : Tree} {cs : List Tree} (h : OneOf p c) (hs : Ders ps cs) : Ders (p :: ps) (c :: cs) :=
  let ⟨_, hk, hd⟩ := h
  .cons hk hd hs

theorem Ders.append : ∀ {ps ps' : List (List Nat)} {cs cs' : List Tree}, Ders ps cs → Ders ps' cs' → Ders (ps ++ ps') (cs ++ cs')
  | _, _, _, _, .nil, h => h
  | _, _, _, _, .cons hk hd hs, h => .cons hk hd (hs.append h)

theorem der_rule {k pid A : Nat} {rhs : List (List Nat)} {cs : List Tree} (h : ⟨k, pid, rhs⟩ ∈ wRules) (hA : shape k = A) (hd : Ders rhs cs) :
    Der k (nw A pid cs) := hA ▸ Der.node (r := ⟨k, pid, rhs⟩) h hd

theorem tok {s : Nat} {w : Bytes} (h : (natIn s fixedToks && w == tokText s) = true) : Der s (lf s w) := by
  simp only [Bool.and_eq_true, beq_iff_eq, natIn_iff] at h
  rw [h.2]
  have : s < 60 ∧ s ≠ 4 ∧ s ≠ 5 := by
    have := List.all_eq_true.1 (show (fixedToks.all fun s => Nat.blt s 60 && !Nat.beq s 4 && !Nat.beq s 5) = true by decide) s h.1
    simp only [Bool.and_eq_true, nbeq_false] at this
    exact ⟨Nat.blt_eq.mp this.1.1, this.1.2, this.2⟩
  exact .leaf this.1 this.2.1 this.2.2 (knows_fixed h.1)

theorem tok1 {s : Nat} {w : Bytes} (h : (natIn s fixedToks && w == tokText s) = true) : OneOf [s] (lf s w) := (tok h).one (List.mem_singleton.2 rfl)

theorem Der.one1 {k : Nat} {c : Tree} (h : Der k c) : OneOf [k] c := h.one (List.mem_singleton.2 rfl)

theorem ident_der {w : Bytes} (h : nameOK w = true) : Der 104 (identTree w) :=
  der_rule (rhs := [[53]]) (by decide) rfl (.cons (List.mem_singleton.2 rfl) (.leaf (by decide) (by decide) (by decide) (knows_name h)) .nil)

/-- Lists with commas. -/
structure ListKind (R : Nat) (IT : List Nat) : Prop where
  one : ⟨R, 0, [[26], IT]⟩ ∈ wRules
  more : ⟨R + 128, 0, [[R, R + 128], [R]]⟩ ∈ wRules
  sym : shape R = R
  sym' : shape (R + 128) = R

theorem params_kind : ListKind 107 [84] := ⟨by decide, by decide, rfl, rfl⟩
theorem exprs_kind : ListKind 108 [78, 206, 334, 462] := ⟨by decide, by decide, rfl, rfl⟩
theorem items_kind : ListKind 109 [100] := ⟨by decide, by decide, rfl, rfl⟩

theorem rep_one {R : Nat} {IT : List Nat} (hR : ListKind R IT) {x : Tree} (h : OneOf IT x) : Der R (nw R 0 [lf T.comma b!",", x]) :=
  der_rule hR.one hR.sym (.one (tok1 rfl) (.one h .nil))

theorem repFrom_der {R : Nat} {IT : List Nat} (hR : ListKind R IT) : ∀ {xs : List Tree} {acc : Tree}, OneOf [R, R + 128] acc → (∀ x ∈ xs, OneOf IT x) →
    OneOf [R, R + 128] (repFrom R acc xs)
  | [], _, h, _ => h
  | x :: _, _, h, hx => by
    rw [repFrom]
    exact repFrom_der hR ((der_rule hR.more hR.sym' (.one h (.one (rep_one hR (hx x (List.mem_cons_self ..))).one1 .nil))).one (List.mem_cons_of_mem _ (List.mem_singleton.2 rfl)))
      fun y hy => hx y (List.mem_cons_of_mem _ hy)

theorem listParts_der {R : Nat} {IT : List Nat} (hR : ListKind R IT) {xs : List Tree} (hx : ∀ x ∈ xs, OneOf IT x) :
    (xs = [] ∧ listParts R xs = []) ∨ Ders [IT] (listParts R xs) ∨ Ders [IT, [R, R + 128]] (listParts R xs) := by
  match xs, hx with
  | [], _ => exact .inl ⟨rfl, rfl⟩
  | [x], hx => exact .inr (.inl (.one (hx x (by simp)) .nil))
  | x :: y :: xs, hx =>
    exact .inr (.inr (.one (hx x (by simp)) (.one (repFrom_der hR ((rep_one hR (hx y (by simp))).one (List.mem_cons_self ..)) fun z hz => hx z (by simp [hz])) .nil)))

theorem params_der : ∀ {ps : List Bytes}, ps.all nameOK = true → ∀ x ∈ paramTrees ps, OneOf [84] x := by
  intro ps h x hx
  obtain ⟨p, hp, rfl⟩ := List.mem_map.1 hx
  exact (der_rule (rhs := [[104]]) (by decide) rfl (.one (ident_der (List.all_eq_true.1 h p hp)).one1 .nil)).one1

theorem paramList_der {ps : List Bytes} (h : ps.all nameOK = true) :
    (ps.isEmpty = true ∧ paramList ps = []) ∨ (ps.isEmpty = false ∧ Ders [[85]] (paramList ps)) := by
  cases ps with
  | nil => exact .inl ⟨rfl, rfl⟩
  | cons p ps =>
    refine .inr ⟨rfl, .one (Der.one1 ?_) .nil⟩
    rcases listParts_der params_kind (params_der h) with h' | h' | h'
    · cases h'.1
    · exact der_rule (by decide) rfl h'
    · exact der_rule (by decide) rfl h'

theorem lit_der {l : Lit} (h : l.proper = true) : OneOf [54, 55, 59, 105] (litTree l) := by
  match l, h with
  | .none, _ => exact (tok rfl).one (by decide)
  | .bool true, _ => exact (der_rule (k := 105) (rhs := [[56, 57]]) (by decide) rfl (.one ((tok rfl).one (by decide)) .nil)).one (by decide)
  | .bool false, _ => exact (der_rule (k := 105) (rhs := [[56, 57]]) (by decide) rfl (.one ((tok rfl).one (by decide)) .nil)).one (by decide)
  | .num t, h => exact (Der.leaf (by decide) (by decide) (by decide) (knows_num h)).one (by decide)
  | .str s, h => exact (Der.leaf (by decide) (by decide) (by decide) (knows_str h)).one (by decide)

theorem un_der (op : UnOp) : Der 90 (unTree op) := by
  cases op <;> exact der_rule (rhs := [[30, 31]]) (by decide) rfl (.one ((tok rfl).one (by decide)) .nil)

theorem bin_der (op : BinOp) : OneOf [32, 41, 92, 93, 94, 95] (binTree op) := by
  cases op
  case add => exact (der_rule (k := 93) (rhs := [[30, 36]]) (by decide) rfl (.one ((tok rfl).one (by decide)) .nil)).one (by decide)
  case sub => exact (der_rule (k := 93) (rhs := [[30, 36]]) (by decide) rfl (.one ((tok rfl).one (by decide)) .nil)).one (by decide)
  case mul => exact (der_rule (k := 92) (rhs := [[33, 34, 35]]) (by decide) rfl (.one ((tok rfl).one (by decide)) .nil)).one (by decide)
  case div => exact (der_rule (k := 92) (rhs := [[33, 34, 35]]) (by decide) rfl (.one ((tok rfl).one (by decide)) .nil)).one (by decide)
  case mod => exact (der_rule (k := 92) (rhs := [[33, 34, 35]]) (by decide) rfl (.one ((tok rfl).one (by decide)) .nil)).one (by decide)
  case pow => exact (tok rfl).one (by decide)
  case and => exact (tok rfl).one (by decide)
  case or => exact (der_rule (k := 95) (rhs := [[42, 43]]) (by decide) rfl (.one ((tok rfl).one (by decide)) .nil)).one (by decide)
  case xor => exact (der_rule (k := 95) (rhs := [[42, 43]]) (by decide) rfl (.one ((tok rfl).one (by decide)) .nil)).one (by decide)
  all_goals exact (der_rule (k := 94) (rhs := [[24, 25, 37, 38, 39, 40]]) (by decide) rfl (.one ((tok rfl).one (by decide)) .nil)).one (by decide)

theorem qual_der : Der 70 qualTree :=
  der_rule (rhs := [[106]]) (by decide) rfl (.one (der_rule (k := 106) (rhs := [[69]]) (by decide) rfl (.one (der_rule (k := 69) (rhs := [[10]]) (by decide) rfl
    (.one (tok1 rfl) .nil)).one1 .nil)).one1 .nil)

theorem path_der : ∀ {ws : List Bytes}, ws.isEmpty = false → ws.all nameOK = true → Der 67 (pathTree ws)
  | [], h, _ => by cases h
  | [w], _, h => der_rule (rhs := [[104]]) (by decide) rfl (.one (ident_der (by simpa using h)).one1 .nil)
  | w :: v :: ws, _, h => by
    have h : nameOK w = true ∧ (v :: ws).all nameOK = true := by simpa using h
    rw [pathTree]
    · exact der_rule (rhs := [[104], [9], [67]]) (by decide) rfl (.one (ident_der h.1).one1 (.one (tok1 rfl) (.one (path_der rfl h.2).one1 .nil)))
    · intro; simp_all

theorem seqFrom_der : ∀ {xs : List Tree} {acc : Tree}, OneOf [61, 189] acc → (∀ x ∈ xs, OneOf [61] x) → OneOf [61, 189] (seqFrom acc xs)
  | [], _, h, _ => h
  | x :: _, _, h, hx => by
    rw [seqFrom]
    exact seqFrom_der ((der_rule (k := 189) (rhs := [[61, 189], [61]]) (by decide) rfl (.one h (.one (hx x (List.mem_cons_self ..)) .nil))).one (by decide))
      fun y hy => hx y (List.mem_cons_of_mem _ hy)

theorem blockOf_der {xs : List Tree} (hx : ∀ x ∈ xs, OneOf [61] x) : (xs = [] → Der 193 (blockOf xs)) ∧ (xs ≠ [] → Der 65 (blockOf xs)) := by
  cases xs with
  | nil => exact ⟨fun _ => der_rule (rhs := [[6], [7]]) (by decide) rfl (.one (tok1 rfl) (.one (tok1 rfl) .nil)), fun h => absurd rfl h⟩
  | cons x xs =>
    refine ⟨fun h => (nomatch h), fun _ => der_rule (rhs := [[6], [61, 189], [7]]) (by decide) rfl (.one (tok1 rfl) (.one ?_ (.one (tok1 rfl) .nil)))⟩
    exact seqFrom_der ((hx x (List.mem_cons_self ..)).mono (by decide)) fun y hy => hx y (List.mem_cons_of_mem _ hy)

theorem blockOf_any {xs : List Tree} (hx : ∀ x ∈ xs, OneOf [61] x) : OneOf [65, 193] (blockOf xs) := by
  by_cases h : xs = []
  · exact ((blockOf_der hx).1 h).one (by decide)
  · exact ((blockOf_der hx).2 h).one (by decide)

/-- Kinds of expressions. -/
def kindOf (e : Expr) : Nat :=
  bif e.isAtom then bif e.brace then 206 else 78 else bif e.brace then 462 else 334

theorem kind_any (e : Expr) : kindOf e ∈ [78, 206, 334, 462] := by
  unfold kindOf
  cases e.isAtom <;> cases e.brace <;> decide

theorem kind_atom {e : Expr} (h : e.isAtom = true) : kindOf e = bif e.brace then 206 else 78 := by rw [kindOf, h]; rfl

theorem kind_proper {e : Expr} (h : e.brace = false) : kindOf e ∈ [78, 334] := by
  rw [kindOf, h]
  cases e.isAtom <;> decide

theorem kind_operand {e : Expr} (h : e.isAtom = true) : kindOf e ∈ [78, 206] := by
  rw [kind_atom h]
  cases e.brace <;> decide

end Bob.Parse
