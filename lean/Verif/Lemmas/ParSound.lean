import Verif.Lemmas.ParFacts
/-!
# What is on the stack of the parser

Every subtree was made up from the state below it, with the token that follows it as lookahead.
-/

namespace Bob.Parse

/-- Neither the first nor the last subtree is a comment. -/
def Ends (cs : List Tree) : Prop := (∀ c ∈ cs.head?, c.extra = false) ∧ ∀ c ∈ cs.getLast?, c.extra = false

mutual
/-- A subtree that the parser makes up in state `q` before token `t`; its first token is `f`. -/
inductive Fits : Nat → Nat → Tree → Nat → Prop where
  | leaf {q t s : Nat} {pad text : Bytes} : s < 60 → Fits q t (.leaf s pad text false) s
  | node {q t f q' A n pid : Nat} {cs : List Tree} : Chain q cs t f q' → actions q' t = [.reduce A n pid] → (solid cs).length = n → Ends cs →
      60 ≤ A → A < 110 → A ≠ 62 → Fits q t (.node A pid cs false) f
/-- Subtrees one after the other, from state `q` to state `q'`. -/
inductive Chain : Nat → List Tree → Nat → Nat → Nat → Prop where
  | nil {q t : Nat} : Chain q [] t t q
  | extra {q t f q' : Nat} {c : Tree} {cs : List Tree} : ExtraOK c → Chain q cs t f q' → Chain q (c :: cs) t f q'
  | cons {q t f f' q' : Nat} {c : Tree} {cs : List Tree} : c.extra = false → edge q c.sym ≠ 0 → Fits q f c f' →
      Chain (edge q c.sym) cs t f q' → Chain q (c :: cs) t f' q'
inductive ExtraOK : Tree → Prop where
  | hash {pad text : Bytes} : ExtraOK (.leaf 3 pad text true)
  | doc {q t f : Nat} {cs : List Tree} : Live q → Chain q cs t f 335 → (solid cs).length = 2 → ExtraOK (.node 62 0 cs true)
end

theorem ExtraOK.extra {c : Tree} (h : ExtraOK c) : c.extra = true := by cases h <;> rfl

theorem Fits.sym {q t f : Nat} {c : Tree} (h : Fits q t c f) : c.sym < 110 ∧ c.sym ≠ 62 := by
  cases h with
  | leaf h => exact ⟨Nat.lt_trans h (by decide), fun h' => absurd (h' ▸ h : 62 < 60) (by decide)⟩
  | node _ _ _ _ _ h1 h2 => exact ⟨h1, h2⟩

theorem solid_nil : solid [] = [] := rfl

theorem solid_extra {c : Tree} (h : c.extra = true) (cs : List Tree) : solid (c :: cs) = solid cs := by
  simp [solid, h]

theorem solid_cons {c : Tree} (h : c.extra = false) (cs : List Tree) : solid (c :: cs) = c.sym :: solid cs := by
  simp [solid, h]

theorem solid_append (cs ds : List Tree) : solid (cs ++ ds) = solid cs ++ solid ds := by
  simp [solid]

def FillsPre : List Nat → List (List Nat) → Prop
  | [], _ => True
  | _ :: _, [] => False
  | x :: xs, c :: cs => x ∈ c ∧ FillsPre xs cs

theorem FillsPre.fills : ∀ {xs : List Nat} {cs : List (List Nat)}, FillsPre xs cs → xs.length = cs.length → Fills xs cs
  | [], [], _, _ => trivial
  | [], _ :: _, _, h => nomatch h
  | _ :: _, [], h, _ => h.elim
  | _ :: _, _ :: _, h, h' => ⟨h.1, h.2.fills (Nat.succ.inj h')⟩

theorem nth_drop {x : Nat} {xs : List Nat} {l : List (List Nat)} : ∀ {j : Nat}, x ∈ nth [] l j → FillsPre xs (l.drop (j + 1)) →
    FillsPre (x :: xs) (l.drop j) := by
  induction l with
  | nil => intro j h _; simp [nth] at h
  | cons a l ih =>
    intro j h h'
    cases j with
    | zero => exact ⟨h, h'⟩
    | succ j => exact ih h h'

theorem items_pos : ((List.range 336).all fun q => (items.get q).all fun p => !Nat.beq p.2 0) = true := by decide +kernel

theorem item_ne {q r : Nat} (h : Live q) : (r, 0) ∉ items.get q := fun hm => by
  have := List.all_eq_true.1 (List.all_eq_true.1 items_pos q (List.mem_range.2 h.2)) _ hm
  simp at this

/-- Rules in progress at the end of a chain are in progress along it. -/
theorem chain_items : ∀ {q : Nat} {cs : List Tree} {t f q' : Nat}, Chain q cs t f q' → Live q → Live q' ∧
    ∀ r k, (r, k) ∈ items.get q' → (solid cs).length ≤ k → ∃ j, k = j + (solid cs).length ∧ FillsPre (solid cs) ((ruleOf r).rhs.drop j) ∧
      ((r, j) ∈ items.get q ∨ j = 0 ∧ goto q (ruleOf r).lhs ≠ 0)
  | _, _, _, _, _, .nil, hq => ⟨hq, fun _ k hk _ => ⟨k, rfl, trivial, .inl hk⟩⟩
  | _, _, _, _, _, .extra he h, hq => by
    rw [solid_extra he.extra]
    exact chain_items h hq
  | q, _, _, _, _, .cons (c := c) (cs := cs) he hne hf h, hq => by
    have ok := edge_ok hq hf.sym.1 hf.sym.2 hne
    have ih := chain_items h ok.live
    rw [solid_cons he]
    refine ⟨ih.1, fun r k hk hl => ?_⟩
    obtain ⟨j, rfl, hp, hj⟩ := ih.2 r k hk (Nat.le_of_succ_le hl)
    rcases hj with hj | ⟨rfl, -⟩
    · obtain ⟨i, rfl, hx, hi⟩ := ok.item r j hj
      refine ⟨i, by simp only [List.length_cons]; omega, nth_drop hx hp, ?_⟩
      rcases hi with hi | hi
      · exact .inr hi
      · exact .inl hi
    · simp only [List.length_cons] at hl; omega

theorem chain_live {q t f q' : Nat} {cs : List Tree} (h : Chain q cs t f q') (hq : Live q) : Live q' := (chain_items h hq).1

theorem nth_mem {α : Type} {d : α} : ∀ {l : List α} {n : Nat}, nth d l n ∈ l ∨ nth d l n = d
  | [], _ => .inr rfl
  | _ :: _, 0 => .inl (List.mem_cons_self ..)
  | _ :: l, n + 1 => (nth_mem (l := l) (n := n)).imp (List.mem_cons_of_mem _) id

theorem ruleOf_mem {r : Nat} (h : (ruleOf r).rhs.length ≠ 0) : ruleOf r ∈ grammar :=
  nth_mem.resolve_right fun h' => h (by rw [ruleOf, h']; rfl)

theorem eps_mem : (⟨60, 0, []⟩ : Rule) ∈ grammar := List.mem_cons_self ..

/-- A rule that is reduced is in the grammar and fits the subtrees. -/
theorem reduce_rule {q t t' f q' A n pid : Nat} {cs : List Tree} (hc : Chain q cs t f q') (hq : Live q) (ha : actions q' t' = [.reduce A n pid])
    (hn : (solid cs).length = n) : ∃ r ∈ grammar, r.lhs = A ∧ r.pid = pid ∧ Fills (solid cs) r.rhs ∧ (n ≠ 0 → goto q A ≠ 0) := by
  have hi := chain_items hc hq
  have := act_ok hi.1 t'
  rw [ha] at this
  cases this with
  | reduce _ _ _ h =>
    rcases h with ⟨rfl, rfl, rfl, _⟩ | ⟨r, hm, rfl, rfl, hl, hn0⟩
    · exact ⟨_, eps_mem, rfl, rfl, by rw [List.length_eq_zero_iff.1 hn]; trivial, fun h => absurd rfl h⟩
    · obtain ⟨j, hj, hp, hg⟩ := hi.2 r n hm (Nat.le_of_eq hn)
      have : j = 0 := by omega
      subst this
      refine ⟨ruleOf r, ruleOf_mem (by omega), rfl, rfl, hp.fills (by simp; omega), fun _ => ?_⟩
      rcases hg with hg | hg
      · exact absurd hg (item_ne hq)
      · exact hg.2

theorem doc_rule : ruleOf 5 = ⟨62, 0, [[4], [5]]⟩ := rfl

theorem doc_fills {q t f : Nat} {cs : List Tree} (hc : Chain q cs t f 335) (hq : Live q) (hn : (solid cs).length = 2) :
    Fills (solid cs) [[4], [5]] := by
  have hi := chain_items hc hq
  obtain ⟨j, hj, hp, _⟩ := hi.2 5 2 (by decide) (Nat.le_of_eq hn)
  have : j = 0 := by omega
  subst this
  exact hp.fills (by rw [hn]; rfl)

mutual
theorem Fits.derives : ∀ {q t f : Nat} {c : Tree}, Fits q t c f → Live q → Derives c
  | _, _, _, _, .leaf h, _ => .tok h
  | _, _, _, _, .node hc ha hn he _ _ _, hq => by
    obtain ⟨r, hr, rfl, rfl, hf, _⟩ := reduce_rule hc hq ha hn
    exact .rule hr (hc.derives hq) hf he.1 he.2
theorem Chain.derives : ∀ {q t f q' : Nat} {cs : List Tree}, Chain q cs t f q' → Live q → AllDerive cs
  | _, _, _, _, _, .nil, _ => .nil
  | _, _, _, _, _, .extra he hc, hq => .comment he.comment (hc.derives hq)
  | _, _, _, _, _, .cons he hne hf hc, hq => .cons he (hf.derives hq) (hc.derives (edge_ok hq hf.sym.1 hf.sym.2 hne).live)
theorem ExtraOK.comment : ∀ {c : Tree}, ExtraOK c → Comment c
  | _, .hash => .hash
  | _, .doc hq hc hn => .doc (hc.derives hq) (doc_fills hc hq hn)
end

/-- The last subtree that is not a comment is a token. -/
def Settled : Stack → Prop
  | [] => True
  | (_, c) :: st => (c.extra = true ∧ Settled st) ∨ (c.extra = false ∧ c.children = [] ∧ c.sym < 60)

/-- The stack before token `t`. -/
inductive SOK : Stack → Nat → Prop where
  | nil {t : Nat} : SOK [] t
  | extra {t : Nat} {c : Tree} {st : Stack} : ExtraOK c → SOK st t → SOK ((st.top, c) :: st) t
  | cons {t f : Nat} {c : Tree} {st : Stack} : c.extra = false → edge st.top c.sym ≠ 0 → (c.sym = 4 → Settled st ∧ goto st.top 62 = st.top) →
      Fits st.top t c f → SOK st f → SOK ((edge st.top c.sym, c) :: st) t

theorem SOK.live {st : Stack} {t : Nat} (h : SOK st t) : Live st.top := by
  induction h with
  | nil => exact live_one
  | extra _ _ ih => exact ih
  | cons _ hne _ hf _ ih => exact (edge_ok ih hf.sym.1 hf.sym.2 hne).live

theorem SOK.any {st : Stack} {t : Nat} (h : SOK st t) (hs : Settled st) (t' : Nat) : SOK st t' := by
  induction h with
  | nil => exact .nil
  | extra he _ ih =>
    rcases hs with hs | hs
    · exact .extra he (ih hs.2)
    · rw [he.extra] at hs; cases hs.1
  | cons he hne h4 hf h _ =>
    rcases hs with hs | hs
    · rw [he] at hs; cases hs.1
    · cases hf with
      | leaf hl => exact .cons he hne h4 (.leaf hl) h
      | node _ _ _ _ h60 => exact absurd hs.2.2 (Nat.not_lt.2 h60)

theorem pop_ok : ∀ {n : Nat} {st : Stack} {acc : List Tree} {t f qe : Nat} {cs : List Tree} {st' : Stack}, SOK st f → Chain st.top acc t f qe →
    popCount n st acc = some (cs, st') → ∃ f', SOK st' f' ∧ Chain st'.top cs t f' qe ∧ (solid cs).length = n + (solid acc).length ∧
      (n ≠ 0 → ∃ c cs', cs = c :: cs' ∧ c.extra = false ∧ (c.sym = 4 → Settled st' ∧ goto st'.top 62 = st'.top))
  | 0, st, acc, t, f, qe, cs, st', hs, hc, h => by
    simp only [popCount, Option.some.injEq, Prod.mk.injEq] at h
    obtain ⟨rfl, rfl⟩ := h
    exact ⟨f, hs, hc, (Nat.zero_add _).symm, fun h => absurd rfl h⟩
  | n + 1, [], _, _, _, _, _, _, _, _, h => by simp [popCount] at h
  | n + 1, (q, c) :: st, acc, t, f, qe, cs, st', hs, hc, h => by
    cases hs with
    | extra he hs =>
      simp only [popCount, he.extra, if_true] at h
      have := pop_ok hs (.extra he hc) h
      rwa [solid_extra he.extra] at this
    | cons he hne h4 hf hs =>
      simp only [popCount, he, Bool.false_eq_true, if_false] at h
      obtain ⟨f', h1, h2, h3, h5⟩ := pop_ok hs (.cons he hne hf hc) h
      refine ⟨f', h1, h2, ?_, fun _ => ?_⟩
      · rw [h3, solid_cons he]; simp only [List.length_cons]; omega
      · match n, h, h5 with
        | 0, h, _ =>
          simp only [popCount, Option.some.injEq, Prod.mk.injEq] at h
          obtain ⟨rfl, rfl⟩ := h
          exact ⟨c, acc, rfl, he, h4⟩
        | n + 1, _, h5 => exact h5 (by omega)

theorem pop_some : ∀ {n : Nat} {st : Stack} {acc : List Tree} {t r : Nat}, SOK st t → (n = 0 ∨ (r, n) ∈ items.get st.top) →
    ∃ p, popCount n st acc = some p
  | 0, _, _, _, _, _, _ => ⟨(_, _), by rw [popCount]⟩
  | n + 1, [], _, _, _, _, h => by
    rcases h with h | h
    · cases h
    · exact absurd h (by simp [Stack.top, show items.get 1 = [] from rfl])
  | n + 1, (q, c) :: st, acc, t, r, hs, h => by
    have h := h.resolve_left (Nat.succ_ne_zero _)
    cases hs with
    | extra he hs =>
      simp only [popCount, he.extra, if_true]
      exact pop_some (r := r) hs (.inr h)
    | cons he hne h4 hf hs =>
      simp only [popCount, he, Bool.false_eq_true, if_false]
      obtain ⟨j, hj, _, hi⟩ := (edge_ok hs.live hf.sym.1 hf.sym.2 hne).item r _ h
      cases hj
      exact pop_some (r := r) hs (hi.imp (·.1) id)

theorem Chain.append : ∀ {as bs : List Tree} {q t f q' : Nat}, Chain q (as ++ bs) t f q' → ∃ f' m, Chain q as f' f m ∧ Chain m bs t f' q'
  | [], bs, q, t, f, q', h => ⟨f, q, .nil, h⟩
  | a :: as, bs, q, t, f, q', h => by
    cases h with
    | extra he h =>
      obtain ⟨f', m, h1, h2⟩ := h.append
      exact ⟨f', m, .extra he h1, h2⟩
    | cons he hne hf h =>
      obtain ⟨f', m, h1, h2⟩ := h.append
      exact ⟨f', m, .cons he hne hf h1, h2⟩

theorem Chain.extras : ∀ {cs : List Tree} {q t f q' : Nat}, Chain q cs t f q' → (∀ c ∈ cs, c.extra = true) → f = t ∧ q' = q ∧ ∀ c ∈ cs, ExtraOK c
  | [], _, _, _, _, .nil, _ => ⟨rfl, rfl, by simp⟩
  | c :: cs, q, t, f, q', h, ha => by
    cases h with
    | extra he h =>
      obtain ⟨h1, h2, h3⟩ := h.extras fun c hc => ha c (List.mem_cons_of_mem _ hc)
      exact ⟨h1, h2, List.forall_mem_cons.2 ⟨he, h3⟩⟩
    | cons he => rw [ha c (List.mem_cons_self ..)] at he; cases he

theorem takeWhile_spec {p : Tree → Bool} {c : Tree} : ∀ {cs : List Tree}, c ∈ cs.takeWhile p → p c = true
  | [], h => by simp at h
  | a :: cs, h => by
    cases ha : p a with
    | false => simp [ha] at h
    | true =>
      simp only [List.takeWhile_cons, ha, if_true, List.mem_cons] at h
      rcases h with rfl | h
      · exact ha
      · exact takeWhile_spec h

theorem dropWhile_spec {p : Tree → Bool} {c : Tree} : ∀ {cs : List Tree}, c ∈ (cs.dropWhile p).head? → p c = false
  | [], h => by simp at h
  | a :: cs, h => by
    cases ha : p a with
    | true =>
      simp only [List.dropWhile_cons, ha, if_true] at h
      exact dropWhile_spec h
    | false =>
      simp only [List.dropWhile_cons, ha, Bool.false_eq_true, if_false, List.head?_cons, Option.mem_def, Option.some.injEq] at h
      exact h ▸ ha

theorem split_spec (cs : List Tree) : cs = (splitExtras cs).1 ++ (splitExtras cs).2 ∧ (∀ c ∈ (splitExtras cs).2, c.extra = true) ∧
    ∀ c ∈ (splitExtras cs).1.getLast?, c.extra = false := by
  refine ⟨?_, fun c hc => ?_, fun c hc => ?_⟩
  · rw [splitExtras, ← List.reverse_append, List.takeWhile_append_dropWhile, List.reverse_reverse]
  · exact takeWhile_spec (List.mem_reverse.1 hc)
  · simp only [splitExtras, List.getLast?_reverse] at hc
    exact dropWhile_spec hc

theorem pushAll_ok {q t : Nat} : ∀ {es : List Tree} {st : Stack}, SOK st t → st.top = q → (∀ c ∈ es, ExtraOK c) → SOK (pushAll q es st) t ∧ (pushAll q es st).top = q
  | [], _, h, hq, _ => ⟨h, hq⟩
  | e :: es, st, h, hq, he => by
    subst hq
    have he := List.forall_mem_cons.1 he
    exact pushAll_ok (es := es) (.extra he.1 h) rfl he.2

end Bob.Parse
