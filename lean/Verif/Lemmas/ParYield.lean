import Verif.Lemmas.ParRun
/-!
# The tree covers the text
-/

namespace Bob.Parse

theorem yields_append : ∀ (as bs : List Tree), yields (as ++ bs) = yields as ++ yields bs
  | [], _ => rfl
  | a :: as, bs => by simp only [List.cons_append, yields, yields_append as bs, List.append_assoc]

/-- What a token and what follows it stand for. -/
def Tok.all (t : Tok) : Bytes := t.pad ++ t.text ++ t.rest

theorem mark_all {st : Nat} {pad tok rest all : Bytes} {best : Option Tok} (h : pad ++ tok ++ rest = all) (hb : ∀ b, best = some b → b.all = all) :
    ∀ b, mark st pad tok rest best = some b → b.all = all := by
  intro b hm
  unfold mark at hm
  split at hm
  · cases hm; exact h
  · exact hb b hm

theorem lexGo_all : ∀ {text : Bytes} {st : Nat} {pad tok all : Bytes} {best : Option Tok}, pad ++ tok ++ text = all → (∀ b, best = some b → b.all = all) →
    ∀ b, lexGo st pad tok best text = some b → b.all = all
  | [], st, pad, tok, all, best, h, hb, b, hl => by
    rw [lexGo] at hl
    split at hl
    · exact mark_all h (mark_all h hb) b hl
    · exact mark_all h hb b hl
  | c :: cs, st, pad, tok, all, best, h, hb, b, hl => by
    rw [lexGo] at hl
    split at hl
    · exact lexGo_all (by simpa using h) (mark_all h hb) b hl
    · exact lexGo_all (by simpa using h) (mark_all h hb) b hl
    · exact mark_all h hb b hl

theorem lexTok_all {m : Nat} {text : Bytes} {t : Tok} (h : lexTok m text = some t) : t.all = text := by
  unfold lexTok lexFrom at h
  split at h
  · rename_i h'
    cases h
    exact lexGo_all (by simp) (by simp) _ h'
  · exact lexGo_all (by simp) (by simp) _ h

/-- The subtrees on a stack, in the order of the text. -/
def trees (st : Stack) : List Tree := (st.map (·.2)).reverse

theorem trees_cons (q : Nat) (c : Tree) (st : Stack) : trees ((q, c) :: st) = trees st ++ [c] := by simp [trees]

theorem pop_trees : ∀ {n : Nat} {st : Stack} {acc cs : List Tree} {st' : Stack}, popCount n st acc = some (cs, st') → trees st' ++ cs = trees st ++ acc
  | 0, st, acc, cs, st', h => by rw [popCount] at h; cases h; rfl
  | n + 1, [], _, _, _, h => by simp [popCount] at h
  | n + 1, (q, c) :: st, acc, cs, st', h => by
    rw [popCount] at h
    split at h <;> simpa [trees_cons] using pop_trees h

theorem push_trees (q : Nat) : ∀ (es : List Tree) (st : Stack), trees (pushAll q es st) = trees st ++ es
  | [], st => by simp [pushAll]
  | e :: es, st => by simp [pushAll, push_trees q es, trees_cons]

theorem reduce_yield {A n pid : Nat} {b : Bool} {st st' : Stack} (h : reduce A n pid b st = some st') : yields (trees st') = yields (trees st) := by
  unfold reduce at h
  split at h
  · cases h
  · rename_i cs st1 hp
    cases h
    have := pop_trees hp
    rw [push_trees, trees_cons, yields_append, yields_append]
    simp only [yields, Tree.yield, List.append_nil] at this ⊢
    rw [List.append_assoc, ← yields_append, ← (split_spec cs).1, ← yields_append, this]

theorem accept_yield : ∀ {before after : List Tree} {root : Tree}, acceptFrom before after = some root → root.yield = yields (before.reverse ++ after)
  | [], _, _, h => by simp [acceptFrom] at h
  | t :: before, after, root, h => by
    unfold acceptFrom at h
    split at h
    · rw [accept_yield h]; simp
    · split at h
      · cases h
        simp [Tree.yield, yields_append, yields]
      · cases h

/-- The text that a configuration stands for. -/
def Config.all (c : Config) : Bytes :=
  yields (trees c.stack) ++ match c.look with
    | some t => t.all
    | none => c.rest

theorem stepTok_yield {st : Stack} {t : Tok} :
    (∀ c, stepTok st t = .next c → c.all = yields (trees st) ++ t.all) ∧
    (∀ r, stepTok st t = .stop (.tree r) → t.rest = [] → r.yield = yields (trees st) ++ t.all) := by
  unfold stepTok
  refine ⟨fun c h => ?_, fun r h hr => ?_⟩
  · split at h
    · cases h
    · cases h; simp [Config.all, trees_cons, yields_append, yields, Tree.yield, Tok.all]
    · cases h; simp [Config.all, trees_cons, yields_append, yields, Tree.yield, Tok.all]
    · split at h
      · rename_i hs; cases h; simp [Config.all, reduce_yield hs]
      · cases h
    · split at h <;> cases h
    · cases h
    · cases h
  · split at h
    · cases h
    · cases h
    · cases h
    · split at h <;> cases h
    · split at h
      · rename_i ha; cases h; rw [accept_yield ha]; simp [yields_append, yields, Tree.yield, Tok.all, hr, trees]
      · cases h
    · cases h
    · cases h

end Bob.Parse
