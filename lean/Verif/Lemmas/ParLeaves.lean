import Verif.Lemmas.LexSpell
/-!
# The tokens of an accepted text
-/

namespace Bob.Parse

theorem leaves_append : ∀ (as bs : List Tree), leavesOf (as ++ bs) = leavesOf as ++ leavesOf bs
  | [], _ => rfl
  | a :: as, bs => by simp [leavesOf, leaves_append as bs]

/-- Tokens that were read one after the other. -/
inductive Lexed : List (Nat × Bytes × Bytes) → Bytes → Bytes → Prop where
  | nil {text : Bytes} : Lexed [] text text
  | snoc {ls : List (Nat × Bytes × Bytes)} {text : Bytes} {t : Tok} {q m : Nat} {r : Bytes} : Lexed ls text r → Live q → lexMode q = some m → lexTok m r = some t →
      Lexed (ls ++ [(t.sym, t.pad, t.text)]) text t.rest

theorem reduce_leaves {A n pid : Nat} {b : Bool} {st st' : Stack} (h : reduce A n pid b st = some st') : leavesOf (trees st') = leavesOf (trees st) := by
  unfold reduce at h
  split at h
  · cases h
  · rename_i cs st1 hp
    cases h
    have := pop_trees hp
    rw [push_trees, trees_cons, leaves_append, leaves_append]
    simp only [leavesOf, Tree.leaves, List.append_nil] at this ⊢
    rw [List.append_assoc, ← leaves_append, ← (split_spec cs).1, ← leaves_append, this]

theorem accept_leaves : ∀ {before after : List Tree} {root : Tree}, acceptFrom before after = some root → root.leaves = leavesOf (before.reverse ++ after)
  | [], _, _, h => by simp [acceptFrom] at h
  | t :: before, after, root, h => by
    unfold acceptFrom at h
    split at h
    · rw [accept_leaves h]; simp
    · split at h
      · cases h
        simp [Tree.leaves, leaves_append, leavesOf]
      · cases h

/-- A token that was read after the others. -/
def LexedLook (ls : List (Nat × Bytes × Bytes)) (text : Bytes) (t : Tok) : Prop :=
  ∃ q m r, Lexed ls text r ∧ Live q ∧ lexMode q = some m ∧ lexTok m r = some t

theorem LexedLook.snoc {ls : List (Nat × Bytes × Bytes)} {text : Bytes} {t : Tok} (h : LexedLook ls text t) : Lexed (ls ++ [(t.sym, t.pad, t.text)]) text t.rest := by
  obtain ⟨q, m, r, h1, h2, h3, h4⟩ := h
  exact .snoc h1 h2 h3 h4

def ConfLexed (text : Bytes) (c : Config) : Prop :=
  match c.look with
  | some t => LexedLook (leavesOf (trees c.stack)) text t
  | none => Lexed (leavesOf (trees c.stack)) text c.rest

theorem stepTok_lexed {text : Bytes} {st : Stack} {t : Tok} (h : LexedLook (leavesOf (trees st)) text t) :
    (∀ c, stepTok st t = .next c → ConfLexed text c) ∧
    (∀ r, stepTok st t = .stop (.tree r) → Lexed r.leaves text t.rest) := by
  unfold stepTok
  refine ⟨fun c hc => ?_, fun r hr => ?_⟩
  · split at hc
    · cases hc
    · cases hc
      simpa only [ConfLexed, trees_cons, leaves_append, leavesOf, Tree.leaves, List.append_nil] using h.snoc
    · cases hc
      simpa only [ConfLexed, trees_cons, leaves_append, leavesOf, Tree.leaves, List.append_nil] using h.snoc
    · split at hc
      · rename_i hs
        cases hc
        simpa only [ConfLexed, reduce_leaves hs] using h
      · cases hc
    · split at hc <;> cases hc
    · cases hc
    · cases hc
  · split at hr
    · cases hr
    · cases hr
    · cases hr
    · split at hr <;> cases hr
    · split at hr
      · rename_i ha
        cases hr
        rw [accept_leaves ha]
        simpa only [List.reverse_cons, List.append_nil, leaves_append, leavesOf, Tree.leaves, trees] using h.snoc
      · cases hr
    · cases hr
    · cases hr

theorem step_lexed {text : Bytes} {c : Config} (hg : Good c) (h : ConfLexed text c) :
    (∀ c', step c = .next c' → ConfLexed text c') ∧ (∀ r, step c = .stop (.tree r) → ∃ rest, Lexed r.leaves text rest) := by
  obtain ⟨st, look, rest⟩ := c
  cases look with
  | some t =>
    have := stepTok_lexed (show LexedLook (leavesOf (trees st)) text t from h)
    exact ⟨this.1, fun r hr => ⟨_, this.2 r hr⟩⟩
  | none =>
    obtain ⟨⟨t, hs⟩, hset⟩ := hg
    have h : Lexed (leavesOf (trees st)) text rest := h
    simp only [step]
    cases hm : lexMode st.top with
    | none =>
      have h335 := (lexMode_none hs.live).1 hm
      obtain ⟨st', h1, _⟩ := reduce_doc hs h335
      simp only [stepNull, h335, doc_act, h1]
      refine ⟨fun c' hc => ?_, fun r hr => by cases hr⟩
      cases hc
      simpa only [ConfLexed, reduce_leaves h1] using h
    | some m =>
      cases ht : lexTok m rest with
      | none => simp only [ht]; exact ⟨fun _ h => (nomatch h), fun _ h => (nomatch h)⟩
      | some tk =>
        simp only [ht]
        have := stepTok_lexed (st := st) (t := tk) ⟨_, m, rest, h, hs.live, hm, ht⟩
        exact ⟨this.1, fun r hr => ⟨_, this.2 r hr⟩⟩

theorem run_lexed {text : Bytes} : ∀ {n : Nat} {c : Config} {r : Tree}, Good c → LookOK c → ConfLexed text c → run n c = some (.tree r) → ∃ rest, Lexed r.leaves text rest
  | 0, _, _, _, _, _, h => by simp [run] at h
  | n + 1, c, r, hg, hl, hx, h => by
    rw [run] at h
    cases hc : step c with
    | next c' =>
      rw [hc] at h
      obtain ⟨h1, h2, _⟩ := step_next hg hl hc
      exact run_lexed h1 h2 ((step_lexed hg hx).1 c' hc) h
    | stop o =>
      rw [hc] at h
      cases h
      exact (step_lexed hg hx).2 r hc

theorem parses_lexed {text : Bytes} {t : Tree} (h : Parses text (.tree t)) : ∃ rest, Lexed t.leaves (dropMark text) rest := by
  obtain ⟨n, h⟩ := h
  exact run_lexed (start_good text) (start_look text) Lexed.nil h

end Bob.Parse
