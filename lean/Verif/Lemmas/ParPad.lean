import Verif.Lemmas.LexPad
import Verif.Lemmas.ParLeaves
/-!
# Texts with other blanks
-/

namespace Bob.Parse

/-! ## Trees without blanks -/

theorem strippedOf_map : ∀ cs : List Tree, strippedOf cs = cs.map Tree.stripped
  | [] => rfl
  | c :: cs => by rw [strippedOf, strippedOf_map cs]; rfl

theorem bare_extra (t : Tree) : t.stripped.extra = t.extra := by cases t <;> rfl
theorem bare_sym (t : Tree) : t.stripped.sym = t.sym := by cases t <;> rfl

def Stack.stripped (st : Stack) : Stack := st.map fun e => (e.1, e.2.stripped)

theorem bare_top (st : Stack) : Stack.top (Stack.stripped st) = st.top := by cases st <;> rfl

theorem bare_pop : ∀ (n : Nat) (st : Stack) (acc : List Tree),
    popCount n (Stack.stripped st) (strippedOf acc) = (popCount n st acc).map fun r => (strippedOf r.1, Stack.stripped r.2)
  | 0, _, _ => by simp [popCount]
  | _ + 1, [], _ => rfl
  | n + 1, (q, t) :: st, acc => by
    show popCount (n + 1) ((q, t.stripped) :: Stack.stripped st) (strippedOf acc) = _
    rw [popCount, popCount, bare_extra]
    split
    · exact bare_pop (n + 1) st (t :: acc)
    · exact bare_pop n st (t :: acc)

theorem bare_split (cs : List Tree) : splitExtras (strippedOf cs) = (strippedOf (splitExtras cs).1, strippedOf (splitExtras cs).2) := by
  have : (Tree.extra ∘ Tree.stripped) = Tree.extra := funext bare_extra
  simp only [splitExtras, strippedOf_map, ← List.map_reverse, List.dropWhile_map, List.takeWhile_map, this]

theorem bare_push (q : Nat) : ∀ (ts : List Tree) (st : Stack), pushAll q (strippedOf ts) (Stack.stripped st) = Stack.stripped (pushAll q ts st)
  | [], _ => rfl
  | t :: ts, st => bare_push q ts ((q, t) :: st)

theorem bare_reduce (A n pid : Nat) (b : Bool) (st : Stack) : reduce A n pid b (Stack.stripped st) = (reduce A n pid b st).map Stack.stripped := by
  unfold reduce
  have hp := bare_pop n st []
  rw [strippedOf] at hp
  rw [hp]
  cases popCount n st [] with
  | none => rfl
  | some r =>
    simp only [Option.map_some, bare_split, bare_top]
    rw [← bare_push]
    rfl

theorem bare_accept : ∀ (before after : List Tree), acceptFrom (strippedOf before) (strippedOf after) = (acceptFrom before after).map Tree.stripped
  | [], _ => rfl
  | t :: before, after => by
    have ih := bare_accept before (t :: after)
    cases t with
    | leaf s pad text x =>
      simp only [strippedOf, Tree.stripped] at ih
      simp only [strippedOf, Tree.stripped, acceptFrom, Tree.extra, ih]
      cases x <;> rfl
    | node s pid cs x =>
      simp only [strippedOf, Tree.stripped] at ih
      simp only [strippedOf, Tree.stripped, acceptFrom, Tree.extra, ih]
      cases x
      · simp [Tree.stripped, strippedOf_map]
      · rfl

/-! ## Steps -/

abbrev Leaf := Nat × Bytes × Bytes

theorem stack_bare_inj {st st' : Stack} (h : Stack.stripped st' = Stack.stripped st) : st'.top = st.top := by rw [← bare_top, h, bare_top]

theorem reduce_other {A n pid : Nat} {b : Bool} {st st' st1 : Stack} (h : Stack.stripped st' = Stack.stripped st) (hr : reduce A n pid b st = some st1) :
    ∃ st1', reduce A n pid b st' = some st1' ∧ Stack.stripped st1' = Stack.stripped st1 := by
  have := bare_reduce A n pid b st'
  rw [h, bare_reduce, hr] at this
  cases hx : reduce A n pid b st' with
  | none => rw [hx] at this; cases this
  | some x => rw [hx] at this; simp only [Option.map_some, Option.some.injEq] at this; exact ⟨x, rfl, this.symm⟩

theorem map_bare (st : Stack) : strippedOf (st.map (·.2)) = (Stack.stripped st).map (·.2) := by
  rw [strippedOf_map, Stack.stripped, List.map_map, List.map_map]; rfl

theorem accept_other {s : Nat} {pad pad' text : Bytes} {st st' : Stack} {r : Tree} (h : Stack.stripped st' = Stack.stripped st) (hr : acceptFrom (.leaf s pad text true :: st.map (·.2)) [] = some r) :
    ∃ r', acceptFrom (.leaf s pad' text true :: st'.map (·.2)) [] = some r' ∧ r'.stripped = r.stripped := by
  have h1 := bare_accept (.leaf s pad text true :: st.map (·.2)) []
  have h2 := bare_accept (.leaf s pad' text true :: st'.map (·.2)) []
  simp only [strippedOf, Tree.stripped, map_bare] at h1 h2
  rw [h, h1, hr] at h2
  cases hx : acceptFrom (.leaf s pad' text true :: st'.map (·.2)) [] with
  | none => rw [hx] at h2; cases h2
  | some x => rw [hx] at h2; simp only [Option.map_some, Option.some.injEq] at h2; exact ⟨x, rfl, h2.symm⟩

/-- What a step with a token leads to. -/
theorem stepTok_forms {st : Stack} {t : Tok} :
    (∀ c, stepTok st t = .next c → (c.look = none ∧ c.rest = t.rest ∧ leavesOf (trees c.stack) = leavesOf (trees st) ++ [(t.sym, t.pad, t.text)]) ∨
      (c.look = some t ∧ c.rest = t.rest ∧ leavesOf (trees c.stack) = leavesOf (trees st))) ∧
    (∀ r, stepTok st t = .stop (.tree r) → r.leaves = leavesOf (trees st) ++ [(t.sym, t.pad, t.text)]) := by
  unfold stepTok
  refine ⟨fun c hc => ?_, fun r hr => ?_⟩
  · split at hc
    · cases hc
    · cases hc; exact .inl ⟨rfl, rfl, by simp only [trees_cons, leaves_append, leavesOf, Tree.leaves, List.append_nil]⟩
    · cases hc; exact .inl ⟨rfl, rfl, by simp only [trees_cons, leaves_append, leavesOf, Tree.leaves, List.append_nil]⟩
    · split at hc
      · rename_i hs; cases hc; exact .inr ⟨rfl, rfl, reduce_leaves hs⟩
      · cases hc
    · split at hc <;> cases hc
    · cases hc
    · cases hc
  · split at hr
    · cases hr
    · cases hr
    · cases hr
    · split at hr <;> cases hr
    · split at hr
      · rename_i ha
        cases hr
        rw [accept_leaves ha]
        simp only [List.reverse_cons, List.append_nil, leaves_append, leavesOf, Tree.leaves, trees]
      · cases hr
    · cases hr
    · cases hr

/-- The same step with other blanks. -/
theorem stepTok_other {st st' : Stack} {s : Nat} {pad pad' text rest rest' : Bytes} (h : Stack.stripped st' = Stack.stripped st) :
    (∀ c, stepTok st ⟨s, pad, text, rest⟩ = .next c → ∃ st1, stepTok st' ⟨s, pad', text, rest'⟩ = .next ⟨st1, c.look.map fun _ => ⟨s, pad', text, rest'⟩, rest'⟩ ∧
      Stack.stripped st1 = Stack.stripped c.stack) ∧
    (∀ r, stepTok st ⟨s, pad, text, rest⟩ = .stop (.tree r) → ∃ r', stepTok st' ⟨s, pad', text, rest'⟩ = .stop (.tree r') ∧ r'.stripped = r.stripped) := by
  unfold stepTok
  rw [stack_bare_inj h]
  refine ⟨fun c hc => ?_, fun r hr => ?_⟩
  · split at hc
    · cases hc
    · rename_i q ha
      cases hc
      simp only [ha]
      exact ⟨_, rfl, by rw [Stack.stripped, List.map_cons, ← Stack.stripped, h]; rfl⟩
    · rename_i ha
      cases hc
      simp only [ha]
      exact ⟨_, rfl, by rw [Stack.stripped, List.map_cons, ← Stack.stripped, h]; rfl⟩
    · rename_i A n pid ha
      simp only [ha]
      cases hs : reduce A n pid false st with
      | none => rw [hs] at hc; cases hc
      | some st1 =>
        rw [hs] at hc
        cases hc
        obtain ⟨st1', h1, h2⟩ := reduce_other h hs
        rw [h1]
        exact ⟨st1', rfl, h2⟩
    · split at hc <;> cases hc
    · cases hc
    · cases hc
  · split at hr
    · cases hr
    · cases hr
    · cases hr
    · split at hr <;> cases hr
    · rename_i ha
      simp only [ha]
      split at hr
      · rename_i r1 hx
        cases hr
        obtain ⟨r', h1, h2⟩ := accept_other (pad' := pad') h hx
        rw [h1]
        exact ⟨r', rfl, h2⟩
      · cases hr
    · cases hr
    · cases hr

/-! ## What follows -/

theorem Follows.weaken {a b : Bool} {r r' : Bytes} (h : Follows a r r') (hab : a = false → b = false) : Follows b r r' := by
  rcases h with h | h | ⟨h1, h2⟩
  · exact .inl h
  · exact .inr (.inl h)
  · exact .inr (.inr ⟨hab h1, h2⟩)

theorem Repadded.follows {keep : Bool} {ls ls' : List Leaf} (h : Repadded keep ls ls') : Follows keep (textOf ls) (textOf ls') := by
  induction h with
  | nil => exact .inl ⟨rfl, rfl⟩
  | @same keep s pad text ls ls' _ ih =>
    cases pad with
    | cons c cs => exact .inr (.inl ⟨c, _, _, rfl, rfl⟩)
    | nil =>
      cases text with
      | cons c cs => exact .inr (.inl ⟨c, _, _, rfl, rfl⟩)
      | nil =>
        simp only [List.isEmpty_nil, Bool.or_true] at ih
        exact ih.weaken (nomatch ·)
  | @other keep s c pad pad' text ls ls' h1 _ _ _ _ =>
    rcases h1 with ⟨hk, hc⟩ | hc
    · exact .inr (.inr ⟨hk, c, _, rfl, hc⟩)
    · cases pad with
      | nil => cases hc
      | cons d pad =>
        simp only [List.head?_cons, Option.some.injEq] at hc
        subst hc
        exact .inr (.inl ⟨d, _, _, rfl, rfl⟩)

theorem Repadded.of_nil {keep : Bool} {ls' : List Leaf} (h : Repadded keep [] ls') : ls' = [] := by
  cases h; rfl

theorem Repadded.first {keep : Bool} {s : Nat} {pad text : Bytes} {ls ls' : List Leaf} (h : Repadded keep ((s, pad, text) :: ls) ls') :
    ∃ pad' ls1, ls' = (s, pad', text) :: ls1 ∧ (∀ m, (m = 50 → keep = true) → PadFor m pad pad') ∧ Repadded (ofComment s || text.isEmpty) ls ls1 := by
  cases h with
  | same h => exact ⟨pad, _, rfl, fun _ _ => .inl rfl, h⟩
  | other h1 _ h2 h =>
    refine ⟨_, _, rfl, fun m hm => .inr ⟨h2, fun e hp => ?_⟩, h⟩
    rw [hm e, hp] at h1
    simp at h1

theorem textOf_append : ∀ (a b : List Leaf), textOf (a ++ b) = textOf a ++ textOf b
  | [], _ => rfl
  | (s, p, x) :: a, b => by simp only [List.cons_append, textOf, textOf_append a b, List.append_assoc]

mutual
theorem textOf_leaves : ∀ t : Tree, textOf t.leaves = t.yield
  | .leaf s pad text x => by simp [Tree.leaves, textOf, Tree.yield]
  | .node s pid cs x => by rw [Tree.leaves, Tree.yield, textOf_leavesOf cs]
theorem textOf_leavesOf : ∀ ts : List Tree, textOf (leavesOf ts) = yields ts
  | [] => rfl
  | t :: ts => by rw [leavesOf, textOf_append, textOf_leaves t, textOf_leavesOf ts, yields]
end

/-! ## Runs -/

theorem stepNull_forms {st : Stack} {rest : Bytes} :
    (∀ c, stepNull st rest = .next c → c.look = none ∧ c.rest = rest ∧ leavesOf (trees c.stack) = leavesOf (trees st)) ∧ (∀ r, stepNull st rest ≠ .stop (.tree r)) := by
  unfold stepNull
  refine ⟨fun c hc => ?_, fun r hr => ?_⟩
  · split at hc
    · split at hc
      · rename_i hs; cases hc; exact ⟨rfl, rfl, reduce_leaves hs⟩
      · cases hc
    · cases hc
  · split at hr
    · split at hr <;> cases hr
    · cases hr

/-- The tokens of the tree are those read so far and others. -/
theorem run_prefix : ∀ {n : Nat} {c : Config} {r : Tree}, run n c = some (.tree r) →
    ∃ ls, r.leaves = leavesOf (trees c.stack) ++ (match c.look with | some t => [(t.sym, t.pad, t.text)] | none => []) ++ ls
  | 0, _, _, h => by simp [run] at h
  | n + 1, ⟨st, look, rest⟩, r, h => by
    have tok : ∀ {t : Tok}, (match stepTok st t with | .next c' => run n c' | .stop o => some o) = some (.tree r) → ∃ ls, r.leaves = leavesOf (trees st) ++ (t.sym, t.pad, t.text) :: ls :=
      fun {t} h => by
        cases hs : stepTok st t with
        | next c' =>
          rw [hs] at h
          obtain ⟨ls, hl⟩ := run_prefix h
          rcases stepTok_forms.1 c' hs with ⟨h1, _, h2⟩ | ⟨h1, _, h2⟩
          · rw [h1, h2] at hl; exact ⟨ls, by simpa using hl⟩
          · rw [h1, h2] at hl; exact ⟨ls, by simpa using hl⟩
        | stop o =>
          rw [hs] at h
          cases h
          exact ⟨[], stepTok_forms.2 r hs⟩
    rw [run] at h
    cases look with
    | some t =>
      obtain ⟨ls, hl⟩ := tok (t := t) h
      exact ⟨ls, by simpa using hl⟩
    | none =>
      simp only [step] at h
      cases hm : lexMode st.top with
      | none =>
        simp only [hm] at h
        simp only [List.append_nil]
        cases hs : stepNull st rest with
        | next c' =>
          rw [hs] at h
          obtain ⟨ls, hl⟩ := run_prefix h
          obtain ⟨h1, _, h2⟩ := stepNull_forms.1 c' hs
          exact ⟨ls, by simpa [h1, h2] using hl⟩
        | stop o =>
          rw [hs] at h
          cases h
          exact absurd hs (stepNull_forms.2 r)
      | some m =>
        simp only [hm] at h
        simp only [List.append_nil]
        cases ht : lexTok m rest with
        | none => simp only [ht] at h; cases h
        | some t =>
          simp only [ht] at h
          obtain ⟨ls, hl⟩ := tok h
          exact ⟨_, hl⟩

/-- The states within a `##` comment are entered by parts of one. -/
theorem shift_doc {st : Stack} {t : Tok} {c : Config} (hl : Live st.top) (h : stepTok st t = .next c) (hn : c.look = none) (hc : c.stack.top = 331 ∨ c.stack.top = 335) : ofComment t.sym = true := by
  have ha := act_ok hl t.sym
  unfold stepTok at h
  split at h
  · cases h
  · rename_i q hq
    cases h
    have hlt : t.sym < 60 := act_lt hl (by rw [hq]; exact List.cons_ne_nil _ _)
    have he := edge_shift hlt hq
    have hok := edge_ok hl (Nat.lt_of_lt_of_le hlt (by decide)) (by omega) (by
      rw [he]
      rw [hq] at ha
      cases ha with
      | shift _ h _ => exact h)
    rw [he] at hok
    rcases hc with hc | hc
    · rw [hok.hashes hc]; rfl
    · rw [hok.doc hc]; rfl
  · rename_i hq
    rw [hq] at ha
    cases ha with
    | extra h => rw [h]; rfl
  · split at h
    · cases h; cases hn
    · cases h
  · split at h <;> cases h
  · cases h
  · cases h

/-- Where a configuration is, with other blanks before the tokens that follow. -/
def Beside (c c' : Config) (ls ls' : List Leaf) : Prop :=
  Stack.stripped c'.stack = Stack.stripped c.stack ∧
  match c.look with
  | none => c'.look = none ∧ c'.rest = textOf ls' ∧ ∃ keep, (c.stack.top = 331 ∨ c.stack.top = 335 → keep = true) ∧ Repadded keep ls ls'
  | some t => ∃ pad' ls1 ls1', ls = (t.sym, t.pad, t.text) :: ls1 ∧ ls' = (t.sym, pad', t.text) :: ls1' ∧ c'.look = some ⟨t.sym, pad', t.text, textOf ls1'⟩ ∧
      ∃ keep, (ofComment t.sym = true → keep = true) ∧ Repadded keep ls1 ls1'

theorem run_other : ∀ {n : Nat} {c c' : Config} {r : Tree} {ls ls' : List Leaf}, Good c → LookOK c → run n c = some (.tree r) → r.leaves = leavesOf (trees c.stack) ++ ls →
    Beside c c' ls ls' → ∃ r', run n c' = some (.tree r') ∧ r'.stripped = r.stripped ∧ r'.leaves = leavesOf (trees c'.stack) ++ ls'
  | 0, _, _, _, _, _, _, _, h, _, _ => by simp [run] at h
  | n + 1, ⟨st, look, rest⟩, ⟨st', look', rest'⟩, r, ls, ls', hg, hl, h, hr, hb => by
    have hy := run_yield hg hl h
    have hlive : Live st.top := by
      cases look with
      | none => obtain ⟨⟨u, hs⟩, _⟩ := hg; exact hs.live
      | some t => exact hg.1.live
    have tok : ∀ {t : Tok} {pad' : Bytes} {ls1 ls1' : List Leaf} {keep : Bool}, (∀ c1, stepTok st t = .next c1 → Good c1 ∧ LookOK c1) → Stack.stripped st' = Stack.stripped st →
        (match stepTok st t with | .next c' => run n c' | .stop o => some o) = some (.tree r) → r.leaves = leavesOf (trees st) ++ (t.sym, t.pad, t.text) :: ls1 → (ofComment t.sym = true → keep = true) →
        Repadded keep ls1 ls1' → (∀ r1, stepTok st t = .stop (.tree r1) → ls1' = []) →
        ∃ r', (match stepTok st' ⟨t.sym, pad', t.text, textOf ls1'⟩ with | .next c' => run n c' | .stop o => some o) = some (.tree r') ∧ r'.stripped = r.stripped ∧
          r'.leaves = leavesOf (trees st') ++ (t.sym, pad', t.text) :: ls1' := fun {t pad' ls1 ls1' keep} hgood hst h hr hkeep hp hend => by
      have so := stepTok_other (s := t.sym) (pad := t.pad) (pad' := pad') (text := t.text) (rest := t.rest) (rest' := textOf ls1') hst
      cases hs : stepTok st t with
      | next c1 =>
        rw [hs] at h
        obtain ⟨st1, h1, h2⟩ := so.1 c1 hs
        have hf' := stepTok_forms.1 _ h1
        rw [h1]
        obtain ⟨g1, g2⟩ := hgood c1 hs
        rcases stepTok_forms.1 c1 hs with ⟨hk, _, hv⟩ | ⟨hk, _, hv⟩
        · simp only [hk, Option.map_none, reduceCtorEq, false_and, or_false, true_and] at hf' ⊢
          obtain ⟨r', k1, k2, k3⟩ := run_other (ls := ls1) (ls' := ls1') (c' := ⟨st1, none, textOf ls1'⟩) g1 g2 h (by rw [hr, hv]; simp) ⟨h2, by
            rw [hk]; exact ⟨rfl, rfl, keep, fun h => hkeep (shift_doc hlive hs hk h), hp⟩⟩
          exact ⟨r', k1, k2, by rw [k3, hf']; simp⟩
        · simp only [hk, Option.map_some, reduceCtorEq, false_and, false_or, true_and] at hf' ⊢
          obtain ⟨r', k1, k2, k3⟩ := run_other (ls := (t.sym, t.pad, t.text) :: ls1) (ls' := (t.sym, pad', t.text) :: ls1')
            (c' := ⟨st1, some ⟨t.sym, pad', t.text, textOf ls1'⟩, textOf ls1'⟩) g1 g2 h (by rw [hr, hv]) ⟨h2, by rw [hk]; exact ⟨pad', ls1, ls1', rfl, rfl, rfl, keep, hkeep, hp⟩⟩
          exact ⟨r', k1, k2, by rw [k3, hf']⟩
      | stop o =>
        rw [hs] at h
        cases h
        obtain ⟨r', h1, h2⟩ := so.2 r hs
        rw [h1]
        refine ⟨r', rfl, h2, ?_⟩
        rw [stepTok_forms.2 r' h1, hend r hs]
    obtain ⟨hst, hb⟩ := hb
    simp only [] at hst hb
    rw [run] at h ⊢
    cases look with
    | some t =>
      obtain ⟨pad', ls1, ls1', rfl, rfl, rfl, keep, hkeep, hp⟩ := hb
      refine tok (t := t) (fun c1 hc => ?_) hst h hr hkeep hp fun r1 hs => ?_
      · obtain ⟨g1, g2, _⟩ := step_next hg hl (show step ⟨st, some t, rest⟩ = .next c1 from hc)
        exact ⟨g1, g2⟩
      · have := stepTok_forms.2 r1 hs
        simp only [step, hs] at h
        cases h
        rw [hr] at this
        have : ls1 = [] := by simpa using this
        subst this
        exact hp.of_nil
    | none =>
      obtain ⟨rfl, rfl, keep, hkeep, hp⟩ := hb
      have hgs := hg
      obtain ⟨⟨u, hs⟩, hset⟩ := hgs
      simp only [step] at h ⊢
      rw [stack_bare_inj hst]
      cases hm : lexMode st.top with
      | none =>
        have h335 := (lexMode_none hs.live).1 hm
        obtain ⟨st1, h1, _⟩ := reduce_doc hs h335
        obtain ⟨st1', h2, h3⟩ := reduce_other hst h1
        have hn : step ⟨st, none, rest⟩ = .next ⟨st1, none, rest⟩ := by
          simp only [step, hm]
          simp only [stepNull, h335, doc_act, h1]
        obtain ⟨g1, g2, _⟩ := step_next hg hl hn
        simp only [hm] at h ⊢
        simp only [stepNull, stack_bare_inj hst, h335, doc_act, h1, h2] at h ⊢
        obtain ⟨r', k1, k2, k3⟩ := run_other (ls := ls) (ls' := ls') (c' := ⟨st1', none, textOf ls'⟩) g1 g2 h (by rw [hr, reduce_leaves h1]) ⟨h3, rfl, rfl, keep, fun _ => hkeep (.inr h335), hp⟩
        exact ⟨r', k1, k2, by rw [k3, reduce_leaves h2]⟩
      | some m =>
        simp only [hm] at h
        cases ht : lexTok m rest with
        | none => simp only [ht] at h; cases h
        | some t =>
          simp only [ht] at h
          -- the tokens that follow
          have hpre : ∃ ls1, r.leaves = leavesOf (trees st) ++ (t.sym, t.pad, t.text) :: ls1 := by
            cases hq : stepTok st t with
            | next c1 =>
              rw [hq] at h
              obtain ⟨l, hl'⟩ := run_prefix h
              rcases stepTok_forms.1 c1 hq with ⟨k1, _, k2⟩ | ⟨k1, _, k2⟩
              · rw [k1, k2] at hl'; exact ⟨l, by simpa using hl'⟩
              · rw [k1, k2] at hl'; exact ⟨l, by simpa using hl'⟩
            | stop o => rw [hq] at h; cases h; exact ⟨[], stepTok_forms.2 r hq⟩
          obtain ⟨ls1, hls⟩ := hpre
          have e : ls = (t.sym, t.pad, t.text) :: ls1 := by rw [hr] at hls; exact List.append_cancel_left hls
          subst e
          obtain ⟨pad', ls1', rfl, hpad, hp1⟩ := hp.first
          have hall := lexTok_all ht
          have hrest : textOf ls1 = t.rest := by
            rw [← textOf_leaves, hr, textOf_append, textOf_leavesOf, Config.all] at hy
            simp only [textOf] at hy
            have := List.append_cancel_left hy
            rw [← hall, Tok.all] at this
            exact List.append_cancel_left this
          have ok := lexTok_ok hs.live hm ht
          have hsp := lexTok_spell hs.live hm ht
          have hempty : t.sym = 0 → t.text = [] := fun h0 => by
            have := hsp.2
            rw [h0, spelling, show fixedTexts.lookup 0 = none by decide +kernel] at this
            simpa [T.eof] using this
          have hfol := hp1.follows
          rw [hrest] at hfol
          have hz : t.rest = [] → t.sym = 0 → textOf ls1' = [] := fun h1 h2 => by
            rw [hempty h2, h1] at hfol
            rcases hfol with ⟨_, h⟩ | ⟨c, cs, cs', h, _⟩ | ⟨h, _⟩
            · exact h
            · cases h
            · simp at h
          have hlex : lexTok m (pad' ++ t.text ++ textOf ls1') = some ⟨t.sym, pad', t.text, textOf ls1'⟩ :=
            lexTok_other (mode_ok hs.live hm).1 (hpad m fun e => hkeep (.inl ((mode_ok hs.live hm).2 e))) (hfol.weaken fun h => by simp only [Bool.or_eq_false_iff] at h; exact h.1) hz (by rw [← hall, Tok.all] at ht; exact ht)
          simp only [textOf]
          rw [hlex]
          simp only []
          refine tok (t := t) (fun c1 hc => ?_) hst h hls (fun e => by rw [e]; rfl) hp1 fun r1 hq => ?_
          · obtain ⟨g1, g2, _⟩ := step_next hg hl (show step ⟨st, none, rest⟩ = .next c1 by simp only [step, hm, ht]; exact hc)
            exact ⟨g1, g2⟩
          · have := stepTok_forms.2 r1 hq
            rw [hq] at h
            cases h
            rw [hls] at this
            have : ls1 = [] := by simpa using this
            subst this
            exact hp1.of_nil

/-- A text with other blanks is accepted, with the same tree up to the blanks. -/
theorem parses_other {text : Bytes} {t : Tree} {ls : List Leaf} {keep : Bool} (h : Parses text (.tree t)) (hr : Repadded keep t.leaves ls) {text' : Bytes} (ht : dropMark text' = textOf ls) :
    ∃ t', Parses text' (.tree t') ∧ t'.stripped = t.stripped ∧ t'.leaves = ls := by
  obtain ⟨n, h⟩ := h
  obtain ⟨r', h1, h2, h3⟩ := run_other (c' := start text') (ls := t.leaves) (ls' := ls) (start_good text) (start_look text) h rfl ⟨rfl, rfl, ht, keep, fun h => absurd h (by simp [start, Stack.top]), hr⟩
  exact ⟨r', ⟨n, h1⟩, h2, h3⟩

/-- No token begins like a byte order mark. -/
theorem no_mark {text rest : Bytes} {o : Outcome} (h : Parses text o) (ht : dropMark text = 0xEF :: rest) : o = .error := by
  obtain ⟨n, h⟩ := h
  cases n with
  | zero => simp [run] at h
  | succ n =>
    have hm : lexMode 1 = some 42 := by decide +kernel
    have dead : ∀ m : Nat, m = 0 ∨ m = 42 → lexFrom m (0xEF :: rest) = none := fun m h => by
      have hn : nextLex (0xEF : UInt8).toNat (lexState m).edges = none := by rcases h with rfl | rfl <;> decide +kernel
      have ha : (lexState m).accept = none := by rcases h with rfl | rfl <;> decide +kernel
      rw [lexFrom, lexGo, hn]
      exact mark_not ha
    have : step (start text) = .stop .error := by
      simp only [step, start, Stack.top, hm, ht, lexTok, dead 0 (.inl rfl), dead 42 (.inr rfl)]
    rw [run, this] at h
    cases h
    rfl

theorem other_mark {text : Bytes} {t : Tree} {ls : List Leaf} {keep : Bool} (h : Parses text (.tree t)) (hr : Repadded keep t.leaves ls) : dropMark (textOf ls) = textOf ls := by
  have key : ∀ cs, textOf ls ≠ 0xEF :: cs := fun cs e => by
    have hf := hr.follows
    have hy : textOf t.leaves = dropMark text := by
      obtain ⟨n, h⟩ := h
      rw [textOf_leaves, run_yield (start_good text) (start_look text) h]
      simp [Config.all, start, trees, yields]
    rw [hy, e] at hf
    rcases hf with ⟨_, h⟩ | ⟨c, cs, cs', h1, h2⟩ | ⟨_, c, cs, h1, h2⟩
    · cases h
    · cases h2
      cases no_mark h h1
    · cases h1
      exact absurd h2 (by decide)
  unfold dropMark
  split
  · rename_i e; exact absurd e (key _)
  · rfl

end Bob.Parse
