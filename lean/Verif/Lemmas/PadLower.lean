import Verif.Lemmas.ParPad
import Verif.Lemmas.MendLower
/-!
# What the interpreter takes out of texts with other blanks
-/

namespace Bob.Parse

/-! ## Trees that are the same without blanks -/

theorem bare_leaf {t' : Tree} {s : Nat} {pad text : Bytes} {x : Bool} (h : t'.stripped = (Tree.leaf s pad text x).stripped) : ∃ pad', t' = .leaf s pad' text x := by
  cases t' with
  | leaf s' pad' text' x' => simp only [Tree.stripped, Tree.leaf.injEq, true_and] at h; obtain ⟨rfl, rfl, rfl⟩ := h; exact ⟨pad', rfl⟩
  | node => simp [Tree.stripped] at h

theorem bare_node {t' : Tree} {s pid : Nat} {cs : List Tree} {x : Bool} (h : t'.stripped = (Tree.node s pid cs x).stripped) : ∃ cs', t' = .node s pid cs' x ∧ strippedOf cs' = strippedOf cs := by
  cases t' with
  | leaf => simp [Tree.stripped] at h
  | node s' pid' cs' x' => simp only [Tree.stripped, Tree.node.injEq] at h; obtain ⟨rfl, rfl, h, rfl⟩ := h; exact ⟨cs', rfl, h⟩

theorem bare_nil {cs' : List Tree} (h : strippedOf cs' = strippedOf []) : cs' = [] := by
  cases cs' with
  | nil => rfl
  | cons => simp [strippedOf] at h

theorem bare_cons {cs' cs : List Tree} {c : Tree} (h : strippedOf cs' = strippedOf (c :: cs)) : ∃ c' cs1, cs' = c' :: cs1 ∧ c'.stripped = c.stripped ∧ strippedOf cs1 = strippedOf cs := by
  cases cs' with
  | nil => simp [strippedOf] at h
  | cons c' cs1 => simp only [strippedOf, List.cons.injEq] at h; exact ⟨c', cs1, rfl, h.1, h.2⟩

theorem sym_of_bare {t t' : Tree} (h : t'.stripped = t.stripped) : t'.sym = t.sym := by rw [← bare_sym, h, bare_sym]
theorem extra_of_bare {t t' : Tree} (h : t'.stripped = t.stripped) : t'.extra = t.extra := by rw [← bare_extra, h, bare_extra]

mutual
theorem stripped_kids (b : Bool) : ∀ t : Tree, t.stripped.kids b = strippedOf (t.kids b)
  | .leaf .. => rfl
  | .node _ _ cs _ => by rw [Tree.stripped, Tree.kids, Tree.kids, bare_kidsOf b cs]
theorem bare_kidsOf (b : Bool) : ∀ cs : List Tree, kidsOf b (strippedOf cs) = strippedOf (kidsOf b cs)
  | [] => rfl
  | c :: cs => by
    rw [strippedOf, kidsOf, kidsOf, bare_sym, bare_kidsOf b cs, stripped_kids b c]
    cases relevant b c.sym <;> simp [strippedOf_map]
end

mutual
theorem bare_leaves_length : ∀ t : Tree, t.stripped.leaves.length = t.leaves.length
  | .leaf .. => rfl
  | .node _ _ cs _ => by rw [Tree.stripped, Tree.leaves, Tree.leaves, bare_leavesOf_length cs]
theorem bare_leavesOf_length : ∀ cs : List Tree, (leavesOf (strippedOf cs)).length = (leavesOf cs).length
  | [] => rfl
  | c :: cs => by rw [strippedOf, leavesOf, leavesOf, List.length_append, List.length_append, bare_leaves_length c, bare_leavesOf_length cs]
end

theorem leaves_length {t t' : Tree} (h : t'.stripped = t.stripped) : t'.leaves.length = t.leaves.length := by rw [← bare_leaves_length, h, bare_leaves_length]

theorem bare_field (name : Bytes) (t : Tree) : t.stripped.field name = (t.field name).map Tree.stripped := by
  cases t with
  | leaf => rfl
  | node s pid cs x =>
    simp only [Tree.stripped, Tree.field]
    cases (fieldMap.lookup pid).bind fun fs => fs.lookup name with
    | none => rfl
    | some ix =>
      obtain ⟨i, b⟩ := ix
      have hf : (strippedOf cs).filter (fun c => !c.extra) = (cs.filter fun c => !c.extra).map Tree.stripped := by
        rw [strippedOf_map, List.filter_map]
        congr 1
        exact List.filter_congr fun c _ => by rw [Function.comp, bare_extra]
      simp only [hf, List.getElem?_map]
      cases (List.filter (fun c => !c.extra) cs)[i]? with
      | none => rfl
      | some c =>
        simp only [Option.map_some, bare_sym]
        split
        · rfl
        · rw [stripped_kids, strippedOf_map, List.head?_map]

theorem other_field {t t' : Tree} (h : t'.stripped = t.stripped) (name : Bytes) : (t'.field name).map Tree.stripped = (t.field name).map Tree.stripped := by rw [← bare_field, h, bare_field]

theorem here_length {t t' : Tree} (h : t'.stripped = t.stripped) : t'.shownHere.length = t.shownHere.length := by
  have hl : ∀ name, ((t'.field name).map Tree.text).toList.length = ((t.field name).map Tree.text).toList.length := fun name => by
    have := other_field h name
    cases h1 : t'.field name <;> cases h2 : t.field name <;> simp_all
  unfold Tree.shownHere
  rw [show t'.type = t.type by rw [Tree.type, Tree.type, sym_of_bare h]]
  split
  · exact hl _
  · split
    · exact hl _
    · rfl

mutual
theorem shown_length : ∀ {t t' : Tree}, t'.stripped = t.stripped → t'.shown.length = t.shown.length
  | .leaf .., t', h => by obtain ⟨_, rfl⟩ := bare_leaf h; rfl
  | .node s pid cs x, t', h => by
    obtain ⟨cs', rfl, hb⟩ := bare_node h
    rw [Tree.shown, Tree.shown, List.length_append, List.length_append, here_length h, shownOf_length hb]
theorem shownOf_length : ∀ {cs cs' : List Tree}, strippedOf cs' = strippedOf cs → (shownOf cs').length = (shownOf cs).length
  | [], cs', h => by rw [bare_nil h]
  | c :: cs, cs', h => by
    obtain ⟨c', cs1, rfl, h1, h2⟩ := bare_cons h
    rw [shownOf, shownOf, List.length_append, List.length_append, shown_length h1, shownOf_length h2]
end

mutual
/-- A tree is known by its tokens and what it is without blanks. -/
theorem tree_eq : ∀ {t t' : Tree}, t'.stripped = t.stripped → t'.leaves = t.leaves → t' = t
  | .leaf .., t', h, hl => by
    obtain ⟨_, rfl⟩ := bare_leaf h
    simp only [Tree.leaves, List.cons.injEq, Prod.mk.injEq, true_and, and_true] at hl
    rw [hl]
  | .node s pid cs x, t', h, hl => by
    obtain ⟨cs', rfl, hb⟩ := bare_node h
    rw [trees_eq hb hl]
theorem trees_eq : ∀ {cs cs' : List Tree}, strippedOf cs' = strippedOf cs → leavesOf cs' = leavesOf cs → cs' = cs
  | [], cs', h, _ => bare_nil h
  | c :: cs, cs', h, hl => by
    obtain ⟨c', cs1, rfl, h1, h2⟩ := bare_cons h
    rw [leavesOf, leavesOf] at hl
    obtain ⟨e1, e2⟩ := List.append_inj hl (leaves_length h1)
    rw [tree_eq h1 e1, trees_eq h2 e2]
end

/-! ## Texts -/

mutual
theorem padding_le : ∀ t : Tree, t.padding.length ≤ t.whole.length
  | .leaf _ pad text _ => by simp [Tree.padding, Tree.whole]
  | .node _ _ cs _ => by rw [Tree.padding, Tree.whole]; exact paddingOf_le cs
theorem paddingOf_le : ∀ cs : List Tree, (paddingOf cs).length ≤ (wholeOf cs).length
  | [] => Nat.le_refl _
  | c :: cs => by
    have := padding_le c
    rw [paddingOf, wholeOf, List.length_append]
    omega
end

theorem node_text (s pid : Nat) (c : Tree) (cs : List Tree) (x : Bool) : (Tree.node s pid (c :: cs) x).text = c.text ++ wholeOf cs := by
  rw [Tree.text, Tree.whole, Tree.padding, wholeOf, paddingOf, List.drop_append_of_le_length (padding_le c), Tree.text]

/-- A token, perhaps within nodes of which it is the only part. -/
inductive Slim : Tree → Prop where
  | leaf {s : Nat} {pad text : Bytes} {x : Bool} : Slim (.leaf s pad text x)
  | node {s pid : Nat} {c : Tree} {x : Bool} : Slim c → Slim (.node s pid [c] x)

theorem slim_text {t t' : Tree} (hs : Slim t) (h : t'.stripped = t.stripped) : t'.text = t.text := by
  induction hs generalizing t' with
  | leaf => obtain ⟨_, rfl⟩ := bare_leaf h; rw [leaf_text, leaf_text]
  | node _ ih =>
    obtain ⟨cs', rfl, hb⟩ := bare_node h
    obtain ⟨c', cs1, rfl, h1, h2⟩ := bare_cons hb
    rw [bare_nil h2, node_text, node_text, ih h1]

def slims : List Nat := [69, 90, 92, 93, 94, 95, 102, 103, 104, 105]

theorem chk_slims : (grammar.all fun r => Nat.ble 60 r.lhs && (!natIn r.lhs slims || match r.rhs with
    | [xs] => xs.all fun x => Nat.blt x 60 || natIn x slims
    | _ => false)) = true := by decide +kernel

theorem slim_rule {r : Rule} (h : r ∈ grammar) : 60 ≤ r.lhs ∧ (r.lhs ∈ slims → ∃ xs, r.rhs = [xs] ∧ ∀ x ∈ xs, x < 60 ∨ x ∈ slims) := by
  have := List.all_eq_true.1 chk_slims r h
  simp only [Bool.and_eq_true, Nat.ble_eq, Bool.or_eq_true, Bool.not_eq_true', ← Bool.not_eq_true, natIn_iff] at this
  refine ⟨this.1, fun hs => ?_⟩
  have := this.2.resolve_left fun h => h hs
  split at this
  · rename_i xs e
    refine ⟨xs, e, fun x hx => ?_⟩
    have := List.all_eq_true.1 this x hx
    simpa only [Bool.or_eq_true, Nat.blt_eq, natIn_iff] using this
  · cases this

theorem comment_extra {c : Tree} (h : Comment c) : c.extra = true := by cases h <;> rfl

theorem one_solid {cs : List Tree} {x : Nat} (h : solid cs = [x]) (h1 : ∀ c ∈ cs.head?, c.extra = false) (h2 : ∀ c ∈ cs.getLast?, c.extra = false) : ∃ c, cs = [c] ∧ c.sym = x ∧ c.extra = false := by
  cases cs with
  | nil => simp [solid] at h
  | cons c cs =>
    have hc : c.extra = false := h1 c rfl
    have e : solid (c :: cs) = c.sym :: solid cs := by simp [solid, hc]
    rw [e, List.cons.injEq] at h
    cases cs with
    | nil => exact ⟨c, rfl, h.1, hc⟩
    | cons d ds =>
      exfalso
      have hl : ((c :: d :: ds).getLast?) = some ((d :: ds).getLast (by simp)) := by rw [List.getLast?_eq_some_getLast (by simp), List.getLast_cons (by simp)]
      have := h2 _ hl
      have hm : (d :: ds).getLast (by simp) ∈ d :: ds := List.getLast_mem _
      have : ((d :: ds).getLast (by simp)).sym ∈ solid (d :: ds) := by
        rw [solid]
        exact List.mem_map.2 ⟨_, List.mem_filter.2 ⟨hm, by simp [this]⟩, rfl⟩
      rw [h.2] at this
      cases this

theorem slim_of : ∀ {t : Tree}, Derives t → t.sym < 60 ∨ t.sym ∈ slims → Slim t
  | _, .tok _, _ => .leaf
  | _, .rule (r := r) (cs := cs) hr ha hf h1 h2, h => by
    obtain ⟨g1, g2⟩ := slim_rule hr
    obtain ⟨xs, e, hx⟩ := g2 (h.resolve_left fun h => by simp only [Tree.sym] at h; omega)
    rw [e] at hf
    obtain ⟨x, hs⟩ : ∃ x, solid cs = [x] := by
      match h : solid cs, hf with
      | [x], _ => exact ⟨x, rfl⟩
      | [], hf => cases hf
      | _ :: _ :: _, hf => exact hf.2.elim
    rw [hs] at hf
    obtain ⟨c, rfl, hc, hex⟩ := one_solid hs h1 h2
    match ha with
    | .cons _ hd _ => exact .node (slim_of hd (by rw [hc]; exact hx x hf.1))
    | .comment hc' _ => rw [comment_extra hc'] at hex; cases hex

/-! ## Comments -/

theorem Repadded.kept {ls ls' : List Leaf} (hk : ∀ l ∈ ls, ofComment l.1 = true) (h : Repadded true ls ls') : ls' = ls := by
  generalize hb : true = b at h
  induction h with
  | nil => rfl
  | @same keep s pad text ls ls' h ih =>
    rw [ih (fun l hl => hk l (List.mem_cons_of_mem _ hl)) (by rw [hk (s, pad, text) (List.mem_cons_self ..)]; rfl)]
  | @other keep s c pad pad' text ls ls' _ h2 _ _ _ =>
    have := hk (s, pad, text) (List.mem_cons_self ..)
    rw [h2 hb.symm] at this; cases this

theorem Repadded.tail_kept {keep : Bool} {l l' : Leaf} {ls ls' : List Leaf} (hk : ∀ d ∈ l :: ls, ofComment d.1 = true) (h : Repadded keep (l :: ls) (l' :: ls')) : ls' = ls := by
  obtain ⟨s, pad, text⟩ := l
  obtain ⟨_, _, e, _, h⟩ := h.first
  cases e
  rw [hk (s, pad, text) (List.mem_cons_self ..), Bool.true_or] at h
  exact h.kept fun d hd => hk d (List.mem_cons_of_mem _ hd)

theorem Repadded.split {keep : Bool} : ∀ {a a' b b' : List Leaf}, a'.length = a.length → Repadded keep (a ++ b) (a' ++ b') → Repadded keep a a' ∧ ∃ k, Repadded k b b' := by
  intro a
  induction a generalizing keep with
  | nil =>
    intro a' b b' hl h
    have : a' = [] := List.length_eq_zero_iff.1 hl
    subst this
    exact ⟨.nil, keep, h⟩
  | cons l a ih =>
    intro a' b b' hl h
    cases a' with
    | nil => cases hl
    | cons l' a' =>
      simp only [List.length_cons, Nat.add_right_cancel_iff] at hl
      cases h with
      | same h => exact ⟨.same (ih hl h).1, (ih hl h).2⟩
      | other h1 h2 h3 h => exact ⟨.other h1 h2 h3 (ih hl h).1, (ih hl h).2⟩

theorem fills_two {cs : List Tree} (h : Fills (solid cs) [[T.hashes], [T.docCommentContent]]) : ∀ x ∈ solid cs, x = 4 ∨ x = 5 := by
  match hs : solid cs, h with
  | [x, y], h =>
    have h1 := List.mem_singleton.1 h.1
    have h2 := List.mem_singleton.1 h.2.1
    intro z hz
    simp only [List.mem_cons, List.not_mem_nil, or_false] at hz
    rcases hz with rfl | rfl
    · exact .inl h1
    · exact .inr h2
  | [], h => exact h.elim
  | [_], h => exact h.2.elim
  | _ :: _ :: _ :: _, h => exact h.2.2.elim

theorem token_leaf {c : Tree} (h : Derives c) (hs : c.sym < 60) : ∃ s pad text, c = .leaf s pad text false := by
  cases h with
  | tok => exact ⟨_, _, _, rfl⟩
  | rule hr => exact absurd (slim_rule hr).1 (by simp only [Tree.sym] at hs; omega)

mutual
theorem comment_leaves : ∀ {c : Tree}, Comment c → c.leaves ≠ [] ∧ ∀ l ∈ c.leaves, ofComment l.1 = true
  | _, .hash => ⟨by simp [Tree.leaves], fun l hl => by
      simp only [Tree.leaves, List.mem_singleton] at hl
      rw [hl]; rfl⟩
  | _, .doc (cs := cs) ha hf => by
    have := comment_parts ha (fills_two hf)
    refine ⟨?_, this.2⟩
    rw [Tree.leaves]
    refine this.1 fun e => ?_
    subst e
    exact hf.elim
theorem comment_parts : ∀ {cs : List Tree}, AllDerive cs → (∀ x ∈ solid cs, x = 4 ∨ x = 5) → (cs ≠ [] → leavesOf cs ≠ []) ∧ ∀ l ∈ leavesOf cs, ofComment l.1 = true
  | _, .nil, _ => ⟨fun h => absurd rfl h, fun _ h => (nomatch h)⟩
  | _, .cons (c := c) (cs := cs) he hd ha, hs => by
    rw [solid_cons he] at hs
    have hc := hs c.sym (List.mem_cons_self ..)
    obtain ⟨s, pad, text, rfl⟩ := token_leaf hd (by omega)
    have ih := comment_parts ha fun x hx => hs x (List.mem_cons_of_mem _ hx)
    refine ⟨fun _ => by simp [leavesOf, Tree.leaves], fun l hl => ?_⟩
    simp only [leavesOf, Tree.leaves, List.singleton_append, List.mem_cons] at hl
    rcases hl with rfl | hl
    · simp only [Tree.sym] at hc
      rcases hc with rfl | rfl <;> rfl
    · exact ih.2 l hl
  | _, .comment (c := c) (cs := cs) hc ha, hs => by
    rw [solid_extra (comment_extra hc)] at hs
    have h1 := comment_leaves hc
    have ih := comment_parts ha hs
    refine ⟨fun _ => by rw [leavesOf]; exact fun e => h1.1 (List.append_eq_nil_iff.1 e).1, fun l hl => ?_⟩
    rw [leavesOf] at hl
    rcases List.mem_append.1 hl with hl | hl
    · exact h1.2 l hl
    · exact ih.2 l hl
end

/-- The text of a comment stays. -/
theorem comment_text : ∀ {c c' : Tree} {keep : Bool}, Comment c → c'.stripped = c.stripped → Repadded keep c.leaves c'.leaves → c'.text = c.text
  | _, c', _, .hash, h, _ => by obtain ⟨_, rfl⟩ := bare_leaf h; rw [leaf_text, leaf_text]
  | _, c', keep, .doc (cs := cs) ha hf, h, hr => by
    have hall := comment_parts ha (fills_two hf)
    obtain ⟨cs', rfl, hb⟩ := bare_node h
    match cs, ha, hb with
    | [], _, _ => exact hf.elim
    | d :: ds, ha, hb =>
      obtain ⟨d', ds', rfl, h1, h2⟩ := bare_cons hb
      have hd : d.leaves ≠ [] ∧ ∀ k, Repadded k d.leaves d'.leaves → d'.text = d.text := by
        match ha with
        | .cons he hd _ =>
          have hs := fills_two hf
          rw [solid_cons he] at hs
          have := hs d.sym (List.mem_cons_self ..)
          obtain ⟨s, pad, text, rfl⟩ := token_leaf hd (by omega)
          exact ⟨by simp [Tree.leaves], fun _ _ => slim_text .leaf h1⟩
        | .comment hc _ => exact ⟨(comment_leaves hc).1, fun k hk => comment_text hc h1 hk⟩
      rw [Tree.leaves, Tree.leaves, leavesOf, leavesOf] at hr
      rw [node_text, node_text]
      have hlen := leaves_length h1
      have hsp := hr.split hlen
      rw [hd.2 _ hsp.1]
      have hrest : leavesOf ds' = leavesOf ds := by
        have hk := hall.2
        rw [leavesOf] at hk
        match hx : d.leaves, hy : d'.leaves with
        | [], _ => exact absurd hx hd.1
        | _ :: _, [] => rw [hx, hy] at hlen; cases hlen
        | l :: u, l' :: u' =>
          rw [hx, hy] at hr
          rw [hx] at hk
          have := hr.tail_kept hk
          rw [hx, hy] at hlen
          simp only [List.length_cons, Nat.add_right_cancel_iff] at hlen
          exact (List.append_inj this hlen).2
      rw [trees_eq h2 hrest]

/-! ## Parts of which the text matters -/

theorem qualifier_facts : relevant false 69 = true ∧ relevant false 106 = false ∧ relevant false 3 = true ∧ relevant false 62 = true := by decide +kernel

theorem comment_seen {c : Tree} (h : Comment c) : relevant false c.sym = true := by
  cases h
  · exact qualifier_facts.2.2.1
  · exact qualifier_facts.2.2.2

def chkText (r : Rule) : Bool :=
  (!spelt (symbolNames.getD r.lhs []) || natIn r.lhs slims) &&
  (!(symbolNames.getD r.lhs [] == b!"qualifier_list" || Nat.beq r.lhs 106) || r.rhs.all fun xs => xs.all fun x => Nat.beq x 69 || Nat.beq x 106) &&
  (!(symbolNames.getD r.lhs [] == b!"binary_expression") || match (fieldMap.lookup r.pid).bind fun fs => fs.lookup b!"operator" with
    | none => true
    | some (i, _) => match r.rhs[i]? with
      | none => true
      | some xs => xs.all fun x => (Nat.blt x 60 || natIn x slims) && relevant false x)

theorem chk_texts : grammar.all chkText = true := by decide +kernel

structure TextRule (r : Rule) : Prop where
  spelt : spelt (symbolNames.getD r.lhs []) = true → r.lhs ∈ slims
  quals : symbolNames.getD r.lhs [] = b!"qualifier_list" ∨ r.lhs = 106 → ∀ xs ∈ r.rhs, ∀ x ∈ xs, x = 69 ∨ x = 106
  op : symbolNames.getD r.lhs [] = b!"binary_expression" → ∀ i b xs, ((fieldMap.lookup r.pid).bind fun fs => fs.lookup b!"operator") = some (i, b) → r.rhs[i]? = some xs →
    ∀ x ∈ xs, (x < 60 ∨ x ∈ slims) ∧ relevant false x = true

theorem text_rule {r : Rule} (h : r ∈ grammar) : TextRule r := by
  have := List.all_eq_true.1 chk_texts r h
  simp only [chkText, Bool.and_eq_true] at this
  obtain ⟨⟨h1, h2⟩, h3⟩ := this
  refine ⟨fun e => ?_, fun e xs hxs x hx => ?_, fun e i b xs hi hxs x hx => ?_⟩
  · rw [e] at h1
    simpa only [Bool.not_true, Bool.false_or, natIn_iff] using h1
  · have : (symbolNames.getD r.lhs [] == b!"qualifier_list" || Nat.beq r.lhs 106) = true := by
      rw [Bool.or_eq_true, beq_iff_eq, Nat.beq_eq]; exact e
    rw [this, Bool.not_true, Bool.false_or] at h2
    have := List.all_eq_true.1 (List.all_eq_true.1 h2 xs hxs) x hx
    simpa only [Bool.or_eq_true, Nat.beq_eq] using this
  · rw [e, hi] at h3
    simp only [beq_self_eq_true, Bool.not_true, Bool.false_or, hxs] at h3
    have := List.all_eq_true.1 h3 x hx
    simpa only [Bool.and_eq_true, Bool.or_eq_true, Nat.blt_eq, natIn_iff] using this

theorem fills_all {P : Nat → Prop} : ∀ {xs : List Nat} {rhs : List (List Nat)}, Fills xs rhs → (∀ ys ∈ rhs, ∀ y ∈ ys, P y) → ∀ x ∈ xs, P x
  | [], _, _, _ => fun _ h => (nomatch h)
  | x :: xs, [], h, _ => h.elim
  | x :: xs, ys :: rhs, h, hp => fun z hz => by
    rcases List.mem_cons.1 hz with rfl | hz
    · exact hp ys (List.mem_cons_self ..) _ h.1
    · exact fills_all h.2 (fun y hy => hp y (List.mem_cons_of_mem _ hy)) z hz

theorem fills_nth : ∀ {xs : List Nat} {rhs : List (List Nat)} {i x : Nat}, Fills xs rhs → xs[i]? = some x → ∃ ys, rhs[i]? = some ys ∧ x ∈ ys
  | [], _, _, _, _, h => by simp at h
  | _ :: _, [], _, _, h, _ => h.elim
  | x :: xs, ys :: rhs, 0, z, h, hx => by simp only [List.getElem?_cons_zero, Option.some.injEq] at hx ⊢; exact ⟨ys, rfl, hx ▸ h.1⟩
  | x :: xs, ys :: rhs, i + 1, z, h, hx => by simp only [List.getElem?_cons_succ] at hx ⊢; exact fills_nth h.2 hx

theorem all_derive : ∀ {cs : List Tree}, AllDerive cs → ∀ c ∈ cs, c.extra = false → Derives c
  | _, .nil, _, h, _ => (nomatch h)
  | _, .cons _ hd ha, c, h, he => (List.mem_cons.1 h).elim (fun e => e ▸ hd) fun h => all_derive ha c h he
  | _, .comment hc ha, c, h, he => (List.mem_cons.1 h).elim (fun e => by rw [e, comment_extra hc] at he; cases he) fun h => all_derive ha c h he

mutual
theorem quals_kids : ∀ {t t' : Tree} {k : Bool}, Derives t → t.sym = 106 → t'.stripped = t.stripped → Repadded k t.leaves t'.leaves →
    (t'.kids false).map Tree.text = (t.kids false).map Tree.text
  | _, t', _, .tok _, _, h, _ => by obtain ⟨_, rfl⟩ := bare_leaf h; rfl
  | _, t', _, .rule hr ha hf _ _, hs, h, hp => by
    obtain ⟨cs', rfl, hb⟩ := bare_node h
    exact quals_kidsOf ha (fills_all hf ((text_rule hr).quals (.inr hs))) hb hp
theorem quals_kidsOf : ∀ {cs cs' : List Tree} {k : Bool}, AllDerive cs → (∀ x ∈ solid cs, x = 69 ∨ x = 106) → strippedOf cs' = strippedOf cs → Repadded k (leavesOf cs) (leavesOf cs') →
    (kidsOf false cs').map Tree.text = (kidsOf false cs).map Tree.text
  | _, cs', _, .nil, _, h, _ => by rw [bare_nil h]
  | _, cs', _, .cons (c := c) (cs := cs) he hd ha, hs, h, hp => by
    obtain ⟨c', cs1, rfl, h1, h2⟩ := bare_cons h
    rw [solid_cons he] at hs
    rw [leavesOf, leavesOf] at hp
    obtain ⟨p1, k, p2⟩ := hp.split (leaves_length h1)
    have ih := quals_kidsOf ha (fun x hx => hs x (List.mem_cons_of_mem _ hx)) h2 p2
    rw [kidsOf, kidsOf, sym_of_bare h1]
    rcases hs c.sym (List.mem_cons_self ..) with hc | hc
    · rw [hc, qualifier_facts.1, cond_true, cond_true, List.map_cons, List.map_cons, ih, slim_text (slim_of hd (.inr (by rw [hc]; decide))) h1]
    · rw [hc, qualifier_facts.2.1, cond_false, cond_false, List.map_append, List.map_append, ih, quals_kids hd hc h1 p1]
  | _, cs', _, .comment (c := c) (cs := cs) hc ha, hs, h, hp => by
    obtain ⟨c', cs1, rfl, h1, h2⟩ := bare_cons h
    rw [solid_extra (comment_extra hc)] at hs
    rw [leavesOf, leavesOf] at hp
    obtain ⟨p1, k, p2⟩ := hp.split (leaves_length h1)
    have ih := quals_kidsOf ha hs h2 p2
    rw [kidsOf, kidsOf, sym_of_bare h1, comment_seen hc, cond_true, cond_true, List.map_cons, List.map_cons, ih, comment_text hc h1 p1]
end

theorem other_operator {r : Rule} {cs cs' : List Tree} (hr : r ∈ grammar) (ha : AllDerive cs) (hf : Fills (solid cs) r.rhs) (hb : strippedOf cs' = strippedOf cs)
    (e : symbolNames.getD r.lhs [] = b!"binary_expression") :
    ((Tree.node r.lhs r.pid cs' false).field b!"operator").map Tree.text = ((Tree.node r.lhs r.pid cs false).field b!"operator").map Tree.text := by
  have hop := (text_rule hr).op e
  simp only [Tree.field]
  cases hi : (fieldMap.lookup r.pid).bind fun fs => fs.lookup b!"operator" with
  | none => rfl
  | some ix =>
    obtain ⟨i, b⟩ := ix
    simp only []
    have hfl : ∀ cs : List Tree, (strippedOf cs).filter (fun c => !c.extra) = (cs.filter fun c => !c.extra).map Tree.stripped := fun cs => by
      rw [strippedOf_map, List.filter_map]
      congr 1
      exact List.filter_congr fun c _ => by rw [Function.comp, bare_extra]
    have hsame : (cs'.filter fun c => !c.extra)[i]?.map Tree.stripped = (cs.filter fun c => !c.extra)[i]?.map Tree.stripped := by
      rw [← List.getElem?_map, ← List.getElem?_map, ← hfl, ← hfl, hb]
    cases hc : (cs.filter fun c => !c.extra)[i]? with
    | none =>
      rw [hc] at hsame
      cases hc' : (cs'.filter fun c => !c.extra)[i]? with
      | none => rfl
      | some c' => rw [hc'] at hsame; cases hsame
    | some c =>
      rw [hc] at hsame
      cases hc' : (cs'.filter fun c => !c.extra)[i]? with
      | none => rw [hc'] at hsame; cases hsame
      | some c' =>
        rw [hc'] at hsame
        simp only [Option.map_some, Option.some.injEq] at hsame
        obtain ⟨ys, hy, hm⟩ := fills_nth (i := i) (x := c.sym) hf (by rw [solid, List.getElem?_map, hc]; rfl)
        have hx := hop i b ys hi hy c.sym hm
        have hin := List.mem_of_getElem? hc
        rw [List.mem_filter] at hin
        have hd := all_derive ha c hin.1 (by simpa using hin.2)
        simp only [sym_of_bare hsame, hx.2, if_true, Option.map_some, slim_text (slim_of hd hx.1) hsame]

theorem toList_inj {α : Type} {a b : Option α} (h : a.toList = b.toList) : a = b := by
  cases a <;> cases b <;> simp_all

theorem here_eq {t t' : Tree} (h : t'.stripped = t.stripped) (hs : t'.shownHere = t.shownHere) :
    (t.type = b!"assignment" → (t'.field b!"left").map Tree.text = (t.field b!"left").map Tree.text) ∧
    (t.type = b!"assert" → (t'.field b!"test").map Tree.text = (t.field b!"test").map Tree.text) := by
  have ht : t'.type = t.type := by rw [Tree.type, Tree.type, sym_of_bare h]
  unfold Tree.shownHere at hs
  rw [ht] at hs
  refine ⟨fun e => ?_, fun e => ?_⟩
  · simp only [e, if_neg (show ¬(b!"assignment" = b!"assert") by decide), if_true] at hs
    exact toList_inj hs
  · simp only [e, if_true] at hs
    exact toList_inj hs

/-! ## Whole trees -/

mutual
theorem alike : ∀ {t t' : Tree} {k : Bool}, Derives t → t'.stripped = t.stripped → Repadded k t.leaves t'.leaves → t'.shown = t.shown → Respelt t t'
  | _, t', _, .tok _, h, _, _ => by obtain ⟨_, rfl⟩ := bare_leaf h; exact .leaf fun _ => rfl
  | _, t', _, .rule (r := r) (cs := cs) hr ha hf h1 h2, h, hp, hs => by
    obtain ⟨cs', rfl, hb⟩ := bare_node h
    rw [Tree.shown, Tree.shown] at hs
    obtain ⟨hs1, hs2⟩ := List.append_inj hs (here_length h)
    have he := here_eq h hs1
    refine .node (alikes ha hb hp hs2) ⟨fun e => ?_, fun e => ?_, fun e => other_operator hr ha hf hb e, he.1, he.2⟩
    · exact slim_text (slim_of (.rule hr ha hf h1 h2) (.inr ((text_rule hr).spelt e))) h
    · exact quals_kidsOf ha (fills_all hf ((text_rule hr).quals (.inl e))) hb hp
theorem alikes : ∀ {cs cs' : List Tree} {k : Bool}, AllDerive cs → strippedOf cs' = strippedOf cs → Repadded k (leavesOf cs) (leavesOf cs') → shownOf cs' = shownOf cs → Respelts cs cs'
  | _, cs', _, .nil, h, _, _ => by rw [bare_nil h]; exact .nil
  | _, cs', _, .cons (c := c) (cs := cs) he hd ha, h, hp, hs => by
    obtain ⟨c', cs1, rfl, h1, h2⟩ := bare_cons h
    rw [leavesOf, leavesOf] at hp
    obtain ⟨p1, k, p2⟩ := hp.split (leaves_length h1)
    rw [shownOf, shownOf] at hs
    obtain ⟨s1, s2⟩ := List.append_inj hs (shown_length h1)
    exact .cons (alike hd h1 p1 s1) (alikes ha h2 p2 s2)
  | _, cs', _, .comment (c := c) (cs := cs) hc ha, h, hp, hs => by
    obtain ⟨c', cs1, rfl, h1, h2⟩ := bare_cons h
    rw [leavesOf, leavesOf] at hp
    obtain ⟨p1, k, p2⟩ := hp.split (leaves_length h1)
    rw [shownOf, shownOf] at hs
    obtain ⟨s1, s2⟩ := List.append_inj hs (shown_length h1)
    exact .cons (comment_alike hc h1 p1 s1) (alikes ha h2 p2 s2)
theorem comment_alike : ∀ {t t' : Tree} {k : Bool}, Comment t → t'.stripped = t.stripped → Repadded k t.leaves t'.leaves → t'.shown = t.shown → Respelt t t'
  | _, t', _, .hash, h, _, _ => by obtain ⟨_, rfl⟩ := bare_leaf h; exact .leaf fun _ => rfl
  | _, t', _, .doc ha hf, h, hp, hs => by
    obtain ⟨cs', rfl, hb⟩ := bare_node h
    rw [Tree.shown, Tree.shown] at hs
    obtain ⟨_, hs2⟩ := List.append_inj hs (here_length h)
    refine .node (alikes ha hb hp hs2) ⟨fun e => ?_, fun e => ?_, fun e => ?_, fun e => ?_, fun e => ?_⟩ <;>
      (simp only [Tree.type, Tree.sym] at e; exact absurd e (by decide +kernel))
end

theorem Respelts.snoc {as as' : List Tree} {c c' : Tree} (h : Respelts as as') (hc : Respelt c c') : Respelts (as ++ [c]) (as' ++ [c']) := h.append (.cons hc .nil)

theorem strippedOf_append (a b : List Tree) : strippedOf (a ++ b) = strippedOf a ++ strippedOf b := by simp [strippedOf_map]

theorem whole_alike {t t' : Tree} {k : Bool} (hw : WholeTree t) (h : t'.stripped = t.stripped) (hp : Repadded k t.leaves t'.leaves) (hs : t'.shown = t.shown) : Respelt t t' := by
  cases hw with
  | @mk r cs pad text hr hl ha hf =>
    obtain ⟨cs2, rfl, hb⟩ := bare_node h
    obtain ⟨cs', d, rfl⟩ : ∃ cs' d, cs2 = cs' ++ [d] := by
      have : cs2 ≠ [] := fun e => by subst e; have := congrArg List.length hb; simp [strippedOf_map] at this
      exact ⟨_, _, (List.dropLast_concat_getLast this).symm⟩
    rw [strippedOf_append, strippedOf_append] at hb
    have hlen : (strippedOf cs').length = (strippedOf cs).length := by
      have := congrArg List.length hb
      simpa [strippedOf_map] using this
    obtain ⟨hb1, hb2⟩ := List.append_inj hb hlen
    simp only [strippedOf, List.cons.injEq, and_true] at hb2
    obtain ⟨pad', rfl⟩ := bare_leaf hb2
    rw [Tree.shown, Tree.shown] at hs
    obtain ⟨_, hs2⟩ := List.append_inj hs (here_length h)
    have shown_snoc : ∀ (a : List Tree) (s : Nat) (p x : Bytes) (b : Bool), shownOf (a ++ [.leaf s p x b]) = shownOf a := fun a s p x b => by
      induction a with
      | nil => rfl
      | cons c a ih => rw [List.cons_append, shownOf, shownOf, ih]
    rw [shown_snoc, shown_snoc] at hs2
    have hl' : (leavesOf cs').length = (leavesOf cs).length := by rw [← bare_leavesOf_length, hb1, bare_leavesOf_length]
    rw [Tree.leaves, Tree.leaves, leaves_append, leaves_append] at hp
    refine .node ((alikes ha hb1 (hp.split hl').1 hs2).snoc (.leaf fun _ => rfl)) ⟨fun e => ?_, fun e => ?_, fun e => ?_, fun e => ?_, fun e => ?_⟩ <;>
      (simp only [Tree.type, Tree.sym, hl] at e; exact absurd e (by decide +kernel))

end Bob.Parse
