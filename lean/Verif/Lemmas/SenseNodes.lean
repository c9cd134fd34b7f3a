import Verif.Lemmas.ParLeaves
import Verif.Lemmas.WriteLow
import Verif.Spec.FlSense
/-!
# Nodes of trees that follow the grammar
-/

namespace Bob.Parse

/-- A tree to which the theorem about sense applies. -/
structure Fine (strict : Bool) (t : Tree) : Prop where
  derives : Derives t
  sense : t.sense strict = true
  spelled : strict = true → spelled isLooseComment t.leaves = true

theorem spelled_append {f : Bytes → Bool} {a b : List (Nat × Bytes × Bytes)} : spelled f (a ++ b) = (spelled f a && spelled f b) := by
  simp only [spelled, List.all_append]

/-- The children of a node. -/
structure Parts (strict : Bool) (cs : List Tree) : Prop where
  derive : AllDerive cs
  sense : allSense strict cs = true
  spelled : strict = true → Bob.Parse.spelled isLooseComment (leavesOf cs) = true

theorem Parts.cons {strict : Bool} {c : Tree} {cs : List Tree} (h : Parts strict (c :: cs)) : (c.extra = false ∧ Fine strict c ∨ Comment c) ∧ Parts strict cs := by
  obtain ⟨h1, h2, h3⟩ := h
  simp only [allSense, Bool.and_eq_true] at h2
  have h3' : strict = true → Bob.Parse.spelled isLooseComment c.leaves = true ∧ Bob.Parse.spelled isLooseComment (leavesOf cs) = true := fun hs => by
    have := h3 hs
    rw [leavesOf, spelled_append, Bool.and_eq_true] at this
    exact this
  cases h1 with
  | cons he hd ht => exact ⟨.inl ⟨he, hd, h2.1, fun hs => (h3' hs).1⟩, ht, h2.2, fun hs => (h3' hs).2⟩
  | comment hc ht => exact ⟨.inr hc, ht, h2.2, fun hs => (h3' hs).2⟩

theorem Comment.extra {c : Tree} (h : Comment c) : c.extra = true := by cases h <;> rfl

theorem Parts.mem {strict : Bool} {cs : List Tree} (h : Parts strict cs) {c : Tree} (hc : c ∈ cs) : c.extra = false ∧ Fine strict c ∨ Comment c := by
  induction cs with
  | nil => cases hc
  | cons a cs ih =>
    obtain ⟨h1, h2⟩ := h.cons
    cases hc with
    | head => exact h1
    | tail _ hc => exact ih h2 hc

theorem size_pos (t : Tree) : 1 ≤ t.size := by cases t <;> simp [Tree.size]

theorem sizes_mem {cs : List Tree} {c : Tree} (h : c ∈ cs) : c.size ≤ sizes cs := by
  induction cs with
  | nil => cases h
  | cons a cs ih =>
    rw [sizes]
    cases h with
    | head => omega
    | tail _ h => have := ih h; omega

theorem Fine.node {strict : Bool} {t : Tree} (h : Fine strict t) (hs : 60 ≤ t.sym) : ∃ r cs, r ∈ grammar ∧ t = .node r.lhs r.pid cs false ∧ Fills (solid cs) r.rhs ∧
    Parts strict cs ∧ safeNode r.lhs r.pid cs = true ∧ (strict = true → knownNode r.lhs cs = true) ∧
    (∀ c ∈ cs.head?, c.extra = false) ∧ (∀ c ∈ cs.getLast?, c.extra = false) := by
  obtain ⟨h1, h2, h3⟩ := h
  cases h1 with
  | tok ht => exact absurd ht (Nat.not_lt.2 hs)
  | @rule r cs hr hd hf hh hl =>
    simp only [Tree.sense, Bool.and_eq_true, Bool.or_eq_true, Bool.not_eq_true'] at h2
    refine ⟨r, cs, hr, rfl, hf, ⟨hd, h2.2, fun hs => ?_⟩, h2.1.1, fun hs => ?_, hh, hl⟩
    · simpa only [Tree.leaves] using h3 hs
    · rcases h2.1.2 with h | h
      · rw [hs] at h; cases h
      · exact h

theorem Fine.sym_lt {strict : Bool} {t : Tree} (h : Fine strict t) : t.sym < 110 := by
  cases h.derives with
  | tok ht => exact Nat.lt_trans ht (by decide)
  | rule hr => exact (lhs_ok hr).2

/-! ## Fields -/

theorem fills_get : ∀ {xs : List Nat} {l : List (List Nat)} {i : Nat} {p : List Nat}, Fills xs l → l[i]? = some p → ∃ x, xs[i]? = some x ∧ x ∈ p
  | [], [], i, p, _, h => by simp at h
  | x :: xs, c :: cs, 0, p, hf, h => by
    simp only [List.getElem?_cons_zero, Option.some.injEq] at h
    exact ⟨x, rfl, h ▸ hf.1⟩
  | x :: xs, c :: cs, i + 1, p, hf, h => by
    simp only [List.getElem?_cons_succ] at h ⊢
    exact fills_get hf.2 h
  | [], _ :: _, _, _, hf, _ => hf.elim
  | _ :: _, [], _, _, hf, _ => hf.elim

theorem fills_length : ∀ {xs : List Nat} {l : List (List Nat)}, Fills xs l → xs.length = l.length
  | [], [], _ => rfl
  | _ :: _, _ :: _, h => by simp [fills_length h.2]
  | [], _ :: _, h => h.elim
  | _ :: _, [], h => h.elim

def fieldNo (pid : Nat) (name : Bytes) : Option (Nat × Bool) := (fieldMap.lookup pid).bind fun fs => fs.lookup name

/-- All nodes of the kind have the field, with one of the symbols. -/
def needField (lhs : Nat) (name : Bytes) (syms : List Nat) : Bool :=
  grammar.all fun r => !Nat.beq r.lhs lhs || match fieldNo r.pid name with
    | none => false
    | some (i, _) => match r.rhs[i]? with
      | none => false
      | some l => l.all fun x => natIn x syms && relevant false x

def optField (lhs : Nat) (name : Bytes) (syms : List Nat) : Bool :=
  grammar.all fun r => !Nat.beq r.lhs lhs || match fieldNo r.pid name with
    | none => true
    | some (i, _) => match r.rhs[i]? with
      | none => false
      | some l => l.all fun x => natIn x syms && relevant false x

theorem field_at {r : Rule} {cs : List Tree} {e : Bool} {name : Bytes} {i : Nat} {b : Bool} {l : List Nat} (hf : Fills (solid cs) r.rhs) (hn : fieldNo r.pid name = some (i, b))
    (hl : r.rhs[i]? = some l) (hv : ∀ x ∈ l, relevant false x = true) : ∃ c ∈ cs, c.extra = false ∧ c.sym ∈ l ∧ (Tree.node r.lhs r.pid cs e).field name = some c := by
  obtain ⟨x, hx, hm⟩ := fills_get hf hl
  simp only [solid, List.getElem?_map, Option.map_eq_some_iff] at hx
  obtain ⟨c, hc, rfl⟩ := hx
  have hmem := List.mem_of_getElem? hc
  simp only [List.mem_filter, Bool.not_eq_true'] at hmem
  refine ⟨c, hmem.1, hmem.2, hm, ?_⟩
  unfold fieldNo at hn
  rw [Tree.field]
  simp only [hn, hc, hv _ hm, if_true]

/-- What is known of a child. -/
structure Child (strict : Bool) (t : Tree) (syms : List Nat) (c : Tree) : Prop where
  fine : Fine strict c
  sym : c.sym ∈ syms
  mem : c ∈ t.children
  size : c.size < t.size

theorem Fine.opt {strict : Bool} {t : Tree} (h : Fine strict t) (hs : 60 ≤ t.sym) {name : Bytes} {syms : List Nat} (hc : optField t.sym name syms = true) :
    t.field name = none ∨ ∃ c, t.field name = some c ∧ Child strict t syms c := by
  obtain ⟨r, cs, hr, rfl, hf, hp, _⟩ := h.node hs
  have := List.all_eq_true.1 hc r hr
  simp only [Tree.sym, Nat.beq_refl, Bool.not_true, Bool.false_or] at this
  split at this
  · rename_i hn
    exact .inl (field_none hn)
  · rename_i i b hn
    split at this
    · cases this
    · rename_i l hl
      simp only [List.all_eq_true, Bool.and_eq_true, natIn_iff] at this
      obtain ⟨c, h1, h2, h3, h4⟩ := field_at (e := false) hf hn hl fun x hx => (this x hx).2
      refine .inr ⟨c, h4, ?_, (this _ h3).1, h1, ?_⟩
      · rcases hp.mem h1 with h | h
        · exact h.2
        · rw [h.extra] at h2; cases h2
      · have := sizes_mem h1
        rw [Tree.size]; omega

theorem Fine.get {strict : Bool} {t : Tree} (h : Fine strict t) (hs : 60 ≤ t.sym) {name : Bytes} {syms : List Nat} (hc : needField t.sym name syms = true) :
    ∃ c, t.get name = .ok c ∧ Child strict t syms c := by
  have ho : optField t.sym name syms = true := by
    refine List.all_eq_true.2 fun r hr => ?_
    have := List.all_eq_true.1 hc r hr
    revert this
    cases Nat.beq r.lhs t.sym with
    | false => exact id
    | true =>
      cases fieldNo r.pid name with
      | none => intro h; cases h
      | some p => exact id
  rcases h.opt hs ho with hn | ⟨c, h1, h2⟩
  · obtain ⟨r, cs, hr, rfl, hf, hp, _⟩ := h.node hs
    have := List.all_eq_true.1 hc r hr
    simp only [Tree.sym, Nat.beq_refl, Bool.not_true, Bool.false_or] at this
    split at this
    · cases this
    · rename_i i b hi
      split at this
      · cases this
      · rename_i l hl
        simp only [List.all_eq_true, Bool.and_eq_true] at this
        obtain ⟨c, _, _, _, h4⟩ := field_at (e := false) hf hi hl fun x hx => (this x hx).2
        rw [h4] at hn; cases hn
  · exact ⟨c, get_some h1, h2⟩

/-! ## Children -/

def countOf (named : Bool) : List (List Nat) → Option Nat
  | [] => some 0
  | p :: ps =>
    match countOf named ps with
    | none => none
    | some k => bif p.all (relevant named) then some (k + 1) else bif p.all (fun x => !relevant named x && Nat.blt x 60) then some k else none

theorem kids_count {named strict : Bool} : ∀ {cs : List Tree} {l : List (List Nat)} {k : Nat}, Parts strict cs → cs.all (!·.extra) = true → Fills (solid cs) l → countOf named l = some k →
    (kidsOf named cs).length = k
  | [], [], k, _, _, _, h => by cases h; rfl
  | [], _ :: _, _, _, _, hf, _ => hf.elim
  | c :: cs, l, k, hp, he, hf, h => by
    simp only [List.all_cons, Bool.and_eq_true, Bool.not_eq_true'] at he
    rw [solid_cons he.1] at hf
    cases l with
    | nil => exact hf.elim
    | cons p l =>
      rw [countOf] at h
      split at h
      · cases h
      · rename_i k' hk
        obtain ⟨h1, h2⟩ := hp.cons
        have ih := kids_count (named := named) h2 he.2 hf.2 hk
        cases ha : p.all (relevant named) with
        | true =>
          rw [ha] at h
          cases h
          rw [kidsOf_seen (List.all_eq_true.1 ha _ hf.1), List.length_cons, ih]
        | false =>
          rw [ha] at h
          cases hb : p.all (fun x => !relevant named x && Nat.blt x 60) with
          | false => rw [hb] at h; cases h
          | true =>
            rw [hb] at h
            cases h
            have := List.all_eq_true.1 hb _ hf.1
            simp only [Bool.and_eq_true, Bool.not_eq_true', Nat.blt_eq] at this
            rw [kidsOf_skip this.1, List.length_append, ih]
            have : c.kids named = [] := by
              rcases h1 with h1 | h1
              · cases h1.2.derives with
                | tok _ => rw [Tree.kids]
                | rule hr => exact absurd this.2 (Nat.not_lt.2 (lhs_ok hr).1)
              · rw [h1.extra] at he; cases he.1
            rw [this]; simp

/-- All nodes of the kind, but those with `but`, have such a number of children. -/
def needCount (lhs : Nat) (but : List Nat) (named : Bool) (ns : List Nat) : Bool :=
  grammar.all fun r => !Nat.beq r.lhs lhs || natIn r.pid but || match countOf named r.rhs with
    | none => false
    | some k => natIn k ns

theorem counted_bare {s pid : Nat} {cs : List Tree} (h : safeNode s pid cs = true) (hc : counted.contains s = true) : cs.all (!·.extra) = true := by
  simp only [safeNode, Bool.and_eq_true, hc, Bool.not_true, Bool.false_or] at h
  exact h.1.1

theorem Fine.count {strict : Bool} {t : Tree} (h : Fine strict t) (hs : 60 ≤ t.sym) {named : Bool} {ns : List Nat} (hc : counted.contains t.sym = true)
    (hn : needCount t.sym [] named ns = true) : (t.kids named).length ∈ ns := by
  obtain ⟨r, cs, hr, rfl, hf, hp, hx, _⟩ := h.node hs
  have := List.all_eq_true.1 hn r hr
  simp only [Tree.sym, Nat.beq_refl, Bool.not_true, Bool.false_or, natIn] at this
  split at this
  · cases this
  · rename_i k hk
    rw [Tree.kids, kids_count hp (counted_bare hx hc) hf hk]
    exact natIn_iff.1 this

/-- A node with one part. -/
theorem single {strict : Bool} {cs : List Tree} (hp : Parts strict cs) (hl : (solid cs).length = 1) (hh : ∀ c ∈ cs.head?, c.extra = false) (ht : ∀ c ∈ cs.getLast?, c.extra = false) :
    ∃ c, cs = [c] ∧ c.extra = false ∧ Fine strict c := by
  cases cs with
  | nil => cases hl
  | cons c cs =>
    have he := hh c rfl
    rw [solid_cons he, List.length_cons] at hl
    have hn : (solid cs) = [] := List.length_eq_zero_iff.1 (by omega)
    have hfc : Fine strict c := by
      rcases hp.cons.1 with h | h
      · exact h.2
      · rw [h.extra] at he; cases he
    cases cs with
    | nil => exact ⟨c, rfl, he, hfc⟩
    | cons d ds =>
      exfalso
      have hlast := ht ((d :: ds).getLast (by simp)) (by rw [List.getLast?_cons_cons, List.getLast?_eq_some_getLast (by simp)]; rfl)
      have hmem : (d :: ds).getLast (by simp) ∈ (d :: ds).filter (!·.extra) := List.mem_filter.2 ⟨List.getLast_mem _, by rw [hlast]; rfl⟩
      simp only [solid, List.map_eq_nil_iff] at hn
      rw [hn] at hmem
      cases hmem

/-- All nodes of the kind have one part, with one of the symbols. -/
def needOne (lhs : Nat) (syms : List Nat) : Bool :=
  grammar.all fun r => !Nat.beq r.lhs lhs || match r.rhs with
    | [p] => p.all fun x => natIn x syms && relevant false x
    | _ => false

theorem Fine.one {strict : Bool} {t : Tree} (h : Fine strict t) (hs : 60 ≤ t.sym) {syms : List Nat} (hn : needOne t.sym syms = true) :
    ∃ c, t.kids false = [c] ∧ t.children = [c] ∧ Child strict t syms c := by
  obtain ⟨r, cs, hr, rfl, hf, hp, hx, _, hh, hl⟩ := h.node hs
  have := List.all_eq_true.1 hn r hr
  simp only [Tree.sym, Nat.beq_refl, Bool.not_true, Bool.false_or] at this
  split at this
  · rename_i p hr'
    simp only [List.all_eq_true, Bool.and_eq_true, natIn_iff] at this
    rw [hr'] at hf
    obtain ⟨c, rfl, he, hc⟩ := single hp (by rw [fills_length hf]; rfl) hh hl
    rw [solid_cons he] at hf
    have hq := this _ hf.1
    refine ⟨c, ?_, rfl, hc, hq.1, by simp [Tree.children], by simp [Tree.size, sizes]⟩
    rw [Tree.kids, kidsOf_seen hq.2, kidsOf_nil]
  · cases this

/-! ## Visible nodes in hidden ones -/

/-- The symbols are closed under what hidden nodes are made up of. -/
def closed (named : Bool) (S : List Nat) : Bool :=
  grammar.all fun r => !natIn r.lhs S || relevant named r.lhs || r.rhs.all fun p => p.all fun x => natIn x S

theorem fills_mem : ∀ {xs : List Nat} {l : List (List Nat)}, Fills xs l → ∀ x ∈ xs, ∃ p ∈ l, x ∈ p
  | [], [], _, _, hx => by cases hx
  | x :: xs, c :: cs, h, y, hy => by
    cases hy with
    | head => exact ⟨c, .head _, h.1⟩
    | tail _ hy =>
      obtain ⟨p, h1, h2⟩ := fills_mem h.2 y hy
      exact ⟨p, .tail _ h1, h2⟩
  | [], _ :: _, h, _, _ => h.elim
  | _ :: _, [], h, _, _ => h.elim

theorem solid_mem {cs : List Tree} {c : Tree} (h : c ∈ cs) (he : c.extra = false) : c.sym ∈ solid cs :=
  List.mem_map.2 ⟨c, List.mem_filter.2 ⟨h, by rw [he]; rfl⟩, rfl⟩

/-- A visible node is a comment, or one of the symbols. -/
theorem kids_fine {strict named : Bool} {S : List Nat} (hS : closed named S = true) : ∀ (n : Nat) {cs : List Tree}, sizes cs ≤ n → Parts strict cs → (∀ c ∈ cs, c.extra = false → c.sym ∈ S) →
    ∀ k ∈ kidsOf named cs, (Fine strict k ∧ k.sym ∈ S ∧ relevant named k.sym = true ∨ Comment k) ∧ k.size ≤ sizes cs
  | n, [], _, _, _, k, hk => by cases hk
  | 0, c :: cs, hn, _, _, _, _ => by have := size_pos c; rw [sizes] at hn; omega
  | n + 1, c :: cs, hn, hp, hs, k, hk => by
    obtain ⟨h1, h2⟩ := hp.cons
    have := size_pos c
    rw [sizes] at hn
    have rest : k ∈ kidsOf named cs → (Fine strict k ∧ k.sym ∈ S ∧ relevant named k.sym = true ∨ Comment k) ∧ k.size ≤ sizes (c :: cs) := fun hk => by
      have := kids_fine hS n (by omega) h2 (fun c hc => hs c (.tail _ hc)) k hk
      exact ⟨this.1, by rw [sizes]; omega⟩
    cases hv : relevant named c.sym with
    | true =>
      rw [kidsOf_seen hv] at hk
      cases hk with
      | head =>
        refine ⟨?_, by rw [sizes]; omega⟩
        rcases h1 with h1 | h1
        · exact .inl ⟨h1.2, hs c (.head _) h1.1, hv⟩
        · exact .inr h1
      | tail _ hk => exact rest hk
    | false =>
      rw [kidsOf_skip hv, List.mem_append] at hk
      rcases hk with hk | hk
      · rcases h1 with ⟨he, h1⟩ | h1
        · by_cases h60 : 60 ≤ c.sym
          · obtain ⟨r, ds, hr, rfl, hf, hp', _⟩ := h1.node h60
            rw [Tree.kids] at hk
            have hsz : (Tree.node r.lhs r.pid ds false).size = 1 + sizes ds := by rw [Tree.size]
            have := kids_fine hS n (by omega) hp' (fun d hd hde => ?_) k hk
            · exact ⟨this.1, by rw [sizes]; omega⟩
            · obtain ⟨p, hp1, hp2⟩ := fills_mem hf _ (solid_mem hd hde)
              have hcl := List.all_eq_true.1 hS r hr
              have hin := natIn_iff.2 (hs _ (.head _) he)
              simp only [Tree.sym] at hin hv
              rw [hin, hv] at hcl
              simp only [Bool.not_true, Bool.false_or, List.all_eq_true, natIn_iff] at hcl
              exact hcl p hp1 _ hp2
          · cases h1.derives with
            | tok _ => rw [Tree.kids] at hk; cases hk
            | rule hr => exact absurd (lhs_ok hr).1 h60
        · cases h1 with
          | hash => rw [Tree.kids] at hk; cases hk
          | doc => cases named <;> cases hv
      · exact rest hk

/-- All nodes of the kind are made up of the symbols. -/
def madeOf (lhs : Nat) (S : List Nat) : Bool := grammar.all fun r => !Nat.beq r.lhs lhs || r.rhs.all fun p => p.all fun x => natIn x S

theorem Fine.kids {strict named : Bool} {S : List Nat} {t : Tree} (h : Fine strict t) (hs : 60 ≤ t.sym) (hS : closed named S = true) (hm : madeOf t.sym S = true) :
    ∀ k ∈ t.kids named, (Fine strict k ∧ k.sym ∈ S ∧ relevant named k.sym = true ∨ Comment k) ∧ k.size < t.size := by
  obtain ⟨r, cs, hr, rfl, hf, hp, _⟩ := h.node hs
  intro k hk
  rw [Tree.kids] at hk
  have := kids_fine hS (sizes cs) (Nat.le_refl _) hp (fun c hc he => ?_) k hk
  · exact ⟨this.1, by rw [Tree.size]; omega⟩
  · obtain ⟨p, h1, h2⟩ := fills_mem hf _ (solid_mem hc he)
    have := List.all_eq_true.1 hm r hr
    simp only [Tree.sym, Nat.beq_refl, Bool.not_true, Bool.false_or, List.all_eq_true, natIn_iff] at this
    exact this p h1 _ h2

end Bob.Parse
