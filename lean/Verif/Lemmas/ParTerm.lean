import Verif.Lemmas.ParYield
/-!
# The parser ends
-/

namespace Bob.Parse

/-! ## Tokens without text -/

/-- States of the lexer in which nothing has been read yet. -/
def fresh : List Nat := [0, 42, 41, 1, 5, 3, 2, 7, 6, 9, 4, 10, 50]

def chkLexEdge : List (Nat × Nat) × Nat × Bool → Bool
  | (_, t, skip) => !Nat.beq t 43 && Nat.blt t 186 && (!skip || natIn t fresh && !Nat.beq t 50)

def chkLex (st : Nat) : Bool :=
  Nat.beq st 43 || ((lexState st).edges.all chkLexEdge && !((lexState st).accept == some 0) &&
    ((lexState st).eof == none || (lexState st).eof == some 43) &&
    (!natIn st fresh || Nat.beq st 50 || (lexState st).accept == none))

theorem chk_lex : (List.range 186).all chkLex = true := by decide +kernel

theorem chk_modes : ((List.range 336).all fun q => match lexMode q with
    | none => true
    | some m => natIn m fresh && (!Nat.beq m 50 || Nat.beq q 331)) = true := by decide +kernel

theorem mode_ok {q m : Nat} (h : Live q) (hm : lexMode q = some m) : m ∈ fresh ∧ (m = 50 → q = 331) := by
  have := List.all_eq_true.1 chk_modes q (List.mem_range.2 h.2)
  simp only [hm, Bool.and_eq_true, natIn_iff, Bool.or_eq_true, nbeq_false, Nat.beq_eq] at this
  exact ⟨this.1, fun h => this.2.resolve_left fun h' => h' h⟩

theorem fresh_lt {m : Nat} (h : m ∈ fresh) : m ≠ 43 ∧ m < 186 := by
  simp only [fresh, List.mem_cons, List.not_mem_nil, or_false] at h
  omega

theorem nextLex_mem {c : Nat} : ∀ {es : List (List (Nat × Nat) × Nat × Bool)} {t : Nat} {s : Bool}, nextLex c es = some (t, s) → ∃ r, (r, t, s) ∈ es ∧ inRanges c r = true
  | [], _, _, h => by simp [nextLex] at h
  | (r, t', s') :: es, t, s, h => by
    rw [nextLex] at h
    cases hr : inRanges c r with
    | true =>
      simp only [hr, cond_true, Option.some.injEq, Prod.mk.injEq] at h
      obtain ⟨rfl, rfl⟩ := h
      exact ⟨r, List.mem_cons_self .., hr⟩
    | false =>
      simp only [hr, cond_false] at h
      obtain ⟨r', h1, h2⟩ := nextLex_mem h
      exact ⟨r', List.mem_cons_of_mem _ h1, h2⟩

structure LexAt (m st : Nat) (tok : Bytes) : Prop where
  ne : st ≠ 43
  lt : st < 186
  fresh : tok = [] → st ∈ fresh ∧ (st = 50 → m = 50)

structure TokOK (m : Nat) (b : Tok) : Prop where
  text : b.text = [] → b.sym = 0 ∨ m = 50 ∧ b.sym = 5
  eof : b.sym = 0 → b.rest = []

theorem lex_parts {st : Nat} (h1 : st ≠ 43) (h2 : st < 186) :
    (∀ r t s, (r, t, s) ∈ (lexState st).edges → t ≠ 43 ∧ t < 186 ∧ (s = true → t ∈ fresh ∧ t ≠ 50)) ∧ (lexState st).accept ≠ some 0 ∧
    ((lexState st).eof = none ∨ (lexState st).eof = some 43) ∧ (st ∈ fresh → st ≠ 50 → (lexState st).accept = none) := by
  have := List.all_eq_true.1 chk_lex st (List.mem_range.2 h2)
  simp only [chkLex, Bool.or_eq_true, Nat.beq_eq, h1, false_or, Bool.and_eq_true, List.all_eq_true, Bool.not_eq_true', beq_eq_false_iff_ne, beq_iff_eq, ne_eq] at this
  obtain ⟨⟨⟨h3, h4⟩, h5⟩, h6⟩ := this
  refine ⟨fun r t s hm => ?_, h4, h5, fun hf h50 => ?_⟩
  · have := h3 _ hm
    simp only [chkLexEdge, Bool.and_eq_true, nbeq_false, Nat.blt_eq, Bool.or_eq_true, natIn_iff] at this
    refine ⟨this.1.1, this.1.2, fun hs => ?_⟩
    rcases this.2 with h | h
    · rw [hs] at h; cases h
    · exact h
  · rcases h6 with (h6 | h6) | h6
    · rw [← natIn_iff, h6] at hf; cases hf
    · exact absurd h6 h50
    · exact h6

theorem mark_tok {m st : Nat} {pad tok rest : Bytes} {best : Option Tok} (hl : LexAt m st tok) (hb : ∀ b, best = some b → TokOK m b) :
    ∀ b, mark st pad tok rest best = some b → TokOK m b := by
  intro b h
  obtain ⟨_, h0, _, hn⟩ := lex_parts hl.ne hl.lt
  unfold mark at h
  split at h
  · rename_i s hs
    cases h
    refine ⟨fun ht => .inr ?_, fun hz => absurd (hz ▸ hs) h0⟩
    obtain ⟨hf, h50⟩ := hl.fresh ht
    by_cases h5 : st = 50
    · subst h5
      rw [show (lexState 50).accept = some 5 from rfl] at hs
      cases hs
      exact ⟨h50 rfl, rfl⟩
    · rw [hn hf h5] at hs; cases hs
  · exact hb b h

theorem lexGo_tok {m : Nat} : ∀ {text : Bytes} {st : Nat} {pad tok : Bytes} {best : Option Tok}, LexAt m st tok → (∀ b, best = some b → TokOK m b) →
    ∀ b, lexGo st pad tok best text = some b → TokOK m b
  | [], st, pad, tok, best, hl, hb, b, h => by
    rw [lexGo] at h
    split at h
    · rename_i e he
      obtain ⟨_, _, h5, _⟩ := lex_parts hl.ne hl.lt
      rw [he] at h5
      obtain rfl : e = 43 := by rcases h5 with h5 | h5 <;> cases h5; rfl
      unfold mark at h
      rw [show (lexState 43).accept = some 0 from rfl] at h
      cases h
      exact ⟨fun _ => .inl rfl, fun _ => rfl⟩
    · exact mark_tok hl hb b h
  | c :: cs, st, pad, tok, best, hl, hb, b, h => by
    obtain ⟨he, _⟩ := lex_parts hl.ne hl.lt
    rw [lexGo] at h
    split at h
    · rename_i t hn
      obtain ⟨r, hm, _⟩ := nextLex_mem hn
      obtain ⟨h1, h2, h3⟩ := he r t true hm
      exact lexGo_tok ⟨h1, h2, fun _ => ⟨(h3 rfl).1, fun h => absurd h (h3 rfl).2⟩⟩ (mark_tok hl hb) b h
    · rename_i t hn
      obtain ⟨r, hm, _⟩ := nextLex_mem hn
      obtain ⟨h1, h2, _⟩ := he r t false hm
      exact lexGo_tok ⟨h1, h2, fun h => by simp at h⟩ (mark_tok hl hb) b h
    · exact mark_tok hl hb b h

theorem lexTok_ok {q m : Nat} {text : Bytes} {t : Tok} (hq : Live q) (hm : lexMode q = some m) (h : lexTok m text = some t) :
    (t.text = [] → t.sym = 0 ∨ q = 331 ∧ t.sym = 5) ∧ (t.sym = 0 → t.rest = []) := by
  have mo := mode_ok hq hm
  unfold lexTok lexFrom at h
  split at h
  · rename_i h'
    cases h
    have := lexGo_tok (m := m) ⟨(fresh_lt mo.1).1, (fresh_lt mo.1).2, fun _ => ⟨mo.1, id⟩⟩ (by simp) _ h'
    exact ⟨fun h => (this.text h).imp id (.imp mo.2 id), this.eof⟩
  · have := lexGo_tok (m := 0) ⟨by decide, by decide, fun _ => ⟨by decide, id⟩⟩ (by simp) _ h
    exact ⟨fun h => (this.text h).imp id (fun h => by cases h.1), this.eof⟩

/-! ## A measure -/

def ranks : List Nat := [0, 0, 0, 0, 0, 0, 0, 0, 0, 1, 3, 3, 0, 0, 0, 0, 0, 0, 0, 0, 0, 2, 2, 2, 1, 1, 0, 0, 0, 0, 1, 1, 0, 1, 1, 1, 1, 1, 1, 1, 1, 0, 1, 1, 0,
  0, 1, 1, 4, 4, 4, 4, 4, 3, 3, 3, 4, 4, 4, 3, 0, 1, 0, 2, 0, 3, 1, 0, 0, 2, 0, 1, 3, 2, 3, 1, 1, 1, 1, 2, 2, 2, 1, 0, 1, 0, 0, 2, 1, 1, 0, 2, 0, 0, 0, 0, 2, 2,
  2, 2, 0, 2, 0, 3, 2, 3, 1, 0, 0, 0]

/-- How often a symbol can be reduced alone. -/
def rank (s : Nat) : Nat := nth 0 ranks s

theorem rank_le (s : Nat) : rank s ≤ 4 := by
  have h : ranks.all (Nat.ble · 4) = true := by decide +kernel
  rcases nth_mem (d := 0) (l := ranks) (n := s) with h' | h'
  · exact Nat.le_of_ble_eq_true (List.all_eq_true.1 h _ h')
  · rw [rank, h']; decide

theorem rank_units : (grammar.all fun r => match r.rhs with
    | [c] => c.all fun x => Nat.blt (rank r.lhs) (rank x)
    | _ => true) = true := by decide +kernel

theorem rank_unit {r : Rule} {x : Nat} (hr : r ∈ grammar) (h : Fills [x] r.rhs) : rank r.lhs < rank x := by
  have := List.all_eq_true.1 rank_units r hr
  match hc : r.rhs, h with
  | [c], h =>
    rw [hc] at this
    exact Nat.blt_eq.mp (List.all_eq_true.1 this x h.1)

def weight (s : Nat) : Nat := if s = 4 then 20 else 5

def weights (ss : List Nat) : Nat := (ss.map weight).sum

def lastRank (ss : List Nat) : Nat :=
  match ss.getLast? with
  | some s => rank s
  | none => 10

def potSyms (ss : List Nat) : Nat := weights ss + lastRank ss

def potTop (q : Nat) : Nat := if q = 331 then 10 else 0

def potStack (st : Stack) : Nat := potSyms (solid (trees st)) + potTop st.top

theorem weight_ge (s : Nat) : 5 ≤ weight s := by unfold weight; split <;> decide

theorem weight_le (s : Nat) : weight s ≤ 20 := by unfold weight; split <;> decide

theorem weights_append (a b : List Nat) : weights (a ++ b) = weights a + weights b := by simp [weights]

theorem weights_ge : ∀ ss : List Nat, 5 * ss.length ≤ weights ss
  | [] => by decide
  | s :: ss => by
    have h1 := weights_ge ss
    have h2 := weight_ge s
    simp only [weights, List.map_cons, List.sum_cons, List.length_cons] at *
    omega

theorem lastRank_le (ss : List Nat) : lastRank ss ≤ 10 := by
  unfold lastRank
  split
  · exact Nat.le_trans (rank_le _) (by decide)
  · exact Nat.le_refl _

theorem lastRank_append (ss : List Nat) (s : Nat) : lastRank (ss ++ [s]) = rank s := by simp [lastRank]

theorem pot_shift (ss : List Nat) (s : Nat) : potSyms (ss ++ [s]) ≤ potSyms ss + (weight s + 4) := by
  have := rank_le s
  rw [potSyms, potSyms, lastRank_append, weights_append]
  simp only [weights, List.map_cons, List.map_nil, List.sum_cons, List.sum_nil]
  omega

/-- Reductions lower the measure. -/
theorem pot_reduce {ss cs : List Nat} {r : Rule} (hr : r ∈ grammar) (h : Fills cs r.rhs) (h0 : cs = [] → ss = []) :
    potSyms (ss ++ [r.lhs]) < potSyms (ss ++ cs) := by
  have hw : weight r.lhs = 5 := by
    have := lhs_ok hr
    unfold weight; rw [if_neg (by omega)]
  have hk := rank_le r.lhs
  rw [potSyms, potSyms, lastRank_append, weights_append, weights_append]
  have hw' : weights [r.lhs] = 5 := by simp [weights, hw]
  rw [hw']
  match cs with
  | [] =>
    obtain rfl := h0 rfl
    simp only [weights, List.map_nil, List.sum_nil, List.append_nil, lastRank, List.getLast?_nil]
    omega
  | [x] =>
    have h1 := rank_unit hr h
    have h2 := weight_ge x
    rw [lastRank_append]
    simp only [weights, List.map_cons, List.map_nil, List.sum_cons, List.sum_nil] at *
    omega
  | x :: y :: l =>
    have := weights_ge (x :: y :: l)
    simp only [List.length_cons] at this
    omega

/-- What is left of the text. -/
def Config.left (c : Config) : Nat :=
  match c.look with
  | some t => t.all.length
  | none => c.rest.length

def pot (c : Config) : Nat := 100 * c.left + potStack c.stack

theorem solid_extras {cs : List Tree} (h : ∀ c ∈ cs, c.extra = true) : solid cs = [] := by
  simp only [solid, List.map_eq_nil_iff, List.filter_eq_nil_iff, Bool.not_eq_true', Bool.not_eq_false]
  exact h

theorem push_top {q : Nat} : ∀ (es : List Tree) (s : Stack), s.top = q → (pushAll q es s).top = q
  | [], _, h => h
  | _ :: es, _, _ => push_top es _ rfl

/-- The symbols on the stack after a reduction with a lookahead. -/
theorem reduce_pot {st st' : Stack} {t A n pid : Nat} (hs : SOK st t) (h335 : st.top ≠ 335) (ha : actions st.top t = [.reduce A n pid])
    (hr : reduce A n pid false st = some st') : potStack st' < potStack st := by
  obtain ⟨cs, st1, f, hp, h1, h2, h3, _, h5, h6, h7, hg⟩ := reduce_pop hs ha
  obtain ⟨r, hm, hl, _, hf, _⟩ := reduce_rule h2 h1.live ha h3
  have ok := act_ok hs.live t
  rw [ha] at ok
  have h62 : A ≠ 62 := by
    cases ok with
    | reduce _ _ h => exact h h335
  obtain ⟨e1, e2, e3⟩ := split_spec cs
  simp only [reduce, hp, Bool.false_and, Option.some.injEq] at hr
  subst hr
  have he := edge_goto (q := st1.top) h6
  have ok := edge_ok h1.live h7 h62 (he ▸ hg)
  have h331 : potTop (goto st1.top A) = 0 := by
    unfold potTop
    rw [if_neg]
    intro h
    have := ok.hashes (he.trans h)
    omega
  have hsol : solid (trees st) = solid (trees st1) ++ solid cs := by
    rw [← solid_append, pop_trees hp, List.append_nil]
  have := pot_reduce (ss := solid (trees st1)) hm hf fun hc => by
    rw [hc] at h3
    obtain ⟨_, h8, _, h9⟩ := h5 h3.symm
    rw [h8]
    exact solid_extras fun c hc => (one_extras hs h9 c (List.mem_reverse.1 hc)).extra
  rw [potStack, potStack, push_top (q := goto st1.top A) _ _ rfl, h331, push_trees, trees_cons, solid_append, solid_append, solid_extras e2, List.append_nil, hsol, solid_cons rfl, solid_nil]
  rw [hl] at this
  exact Nat.lt_of_lt_of_le this (Nat.le_add_right _ _)

theorem doc_pot {st st' : Stack} {t : Nat} (hs : SOK st t) (h335 : st.top = 335) (hr : reduce 62 2 0 true st = some st') : potStack st' < potStack st := by
  obtain ⟨cs, st1, f, hp, h1, h2, h3, h4, _⟩ := reduce_pop hs (t' := 0) (h335 ▸ doc_act)
  rw [h335] at h2
  obtain ⟨c, cs', hd, hx, h4⟩ := h4 (by decide)
  have hf := doc_fills h2 h1.live h3
  have hc4 : c.sym = 4 := by
    rw [hd, solid_cons hx] at hf
    exact List.mem_singleton.1 hf.1
  obtain ⟨_, hgo⟩ := h4 hc4
  have hcs : solid cs = [4, 5] := by
    match hsc : solid cs, hf with
    | [x, y], hf => rw [List.mem_singleton.1 hf.1, List.mem_singleton.1 hf.2.1]
  obtain ⟨e1, e2, e3⟩ := split_spec cs
  simp only [reduce, hp, Bool.true_and, Option.some.injEq, hgo, beq_self_eq_true] at hr
  subst hr
  have hsol : solid (trees st) = solid (trees st1) ++ solid cs := by
    rw [← solid_append, pop_trees hp, List.append_nil]
  rw [potStack, potStack, push_top (q := st1.top) _ ((st1.top, _) :: st1) rfl, push_trees, trees_cons, solid_append, solid_append, solid_extras e2, List.append_nil, hsol, solid_extra rfl, solid_nil,
    List.append_nil, hcs]
  have h10 := lastRank_le (solid (trees st1))
  have ht : potTop st1.top ≤ 10 := by unfold potTop; split <;> decide
  rw [potSyms, potSyms, weights_append]
  have : weights [4, 5] = 25 := rfl
  omega

theorem shift_pot {st : Stack} {t : Tok} {c : Config} (hs : SOK st t.sym) (h335 : st.top ≠ 335) (hz : t.text = [] → t.sym = 0 ∨ st.top = 331 ∧ t.sym = 5)
    (hstep : stepTok st t = .next c) : pot c < 100 * t.all.length + potStack st := by
  have ok := act_ok hs.live t.sym
  unfold stepTok at hstep
  generalize ha : actions st.top t.sym = as at ok hstep
  have hlen : t.all.length = t.pad.length + t.text.length + t.rest.length := by simp [Tok.all]; omega
  cases ok with
  | none => cases hstep
  | @shift q' h0 hq h4 =>
    simp only [StepRes.next.injEq] at hstep
    subst hstep
    have hlt := act_lt hs.live (t := t.sym) (by rw [ha]; simp)
    have he := edge_shift hlt ha
    have hok := edge_ok hs.live (Nat.lt_trans hlt (by decide)) (by omega) (he ▸ hq)
    rw [he] at hok
    have h1 := pot_shift (solid (trees st)) t.sym
    have h2 := weight_le t.sym
    have h3 : potTop q' ≤ 10 := by unfold potTop; split <;> decide
    have hp : potStack ((q', .leaf t.sym t.pad t.text false) :: st) = potSyms (solid (trees st) ++ [t.sym]) + potTop q' := by
      rw [potStack, trees_cons, solid_append, solid_cons rfl, solid_nil]; rfl
    rw [pot, hp, potStack]
    simp only [Config.left]
    by_cases ht : t.text = []
    · obtain ⟨ht, h5⟩ := (hz ht).resolve_left h0
      have h331 : potTop q' = 0 := by
        unfold potTop
        rw [if_neg]
        intro h
        have := hok.hashes h
        omega
      have : potTop st.top = 10 := by rw [ht]; rfl
      have : weight t.sym = 5 := by rw [h5]; rfl
      omega
    · have : t.text.length ≠ 0 := fun h => ht (List.length_eq_zero_iff.1 h)
      omega
  | extra h3 =>
    simp only [StepRes.next.injEq] at hstep
    subst hstep
    have hp : potStack ((st.top, .leaf t.sym t.pad t.text true) :: st) = potStack st := by
      rw [potStack, potStack, trees_cons, solid_append, solid_extra rfl, solid_nil, List.append_nil]; rfl
    rw [pot, hp]
    simp only [Config.left]
    have : t.text.length ≠ 0 := fun h => by
      have := hz (List.length_eq_zero_iff.1 h)
      omega
    omega
  | reduce h3 h4 h62 hr =>
    obtain ⟨st', h1, _⟩ := reduce_ok hs h335 ha
    simp only [h1, StepRes.next.injEq] at hstep
    subst hstep
    have := reduce_pot hs h335 ha h1
    simp only [pot, Config.left]
    omega
  | accept h0 =>
    simp only [] at hstep
    split at hstep <;> cases hstep
  | recover => cases hstep

theorem doc_next {st : Stack} {rest : Bytes} {c : Config} {t : Nat} (hs : SOK st t) (h335 : st.top = 335) (h : stepNull st rest = .next c) :
    pot c < 100 * rest.length + potStack st := by
  obtain ⟨st', h1, _⟩ := reduce_doc hs h335
  simp only [stepNull, h335, doc_act, h1, StepRes.next.injEq] at h
  subst h
  have := doc_pot hs h335 h1
  simp only [pot, Config.left]
  omega

/-- The token looked at is one that the lexer can have found. -/
def LookOK (c : Config) : Prop := ∀ t, c.look = some t → (t.text = [] → t.sym = 0) ∧ (t.sym = 0 → t.rest = [])

theorem content_act : actions 331 5 = [.shift 335] := by decide +kernel

theorem stepTok_look {st : Stack} {t : Tok} {c : Config} (h1 : t.text = [] → t.sym = 0 ∨ st.top = 331 ∧ t.sym = 5) (h2 : t.sym = 0 → t.rest = [])
    (h : stepTok st t = .next c) : LookOK c := by
  by_cases hc : st.top = 331 ∧ t.sym = 5
  · simp only [stepTok, hc.1, hc.2, content_act, StepRes.next.injEq] at h
    subst h
    exact fun _ h => nomatch h
  · have h1 : t.text = [] → t.sym = 0 := fun h => (h1 h).resolve_right hc
    unfold stepTok at h
    split at h
    · cases h
    · cases h; exact fun _ h => nomatch h
    · cases h; exact fun _ h => nomatch h
    · split at h
      · cases h
        intro t' ht
        cases ht
        exact ⟨h1, h2⟩
      · cases h
    · split at h <;> cases h
    · cases h
    · cases h

/-- One step keeps what is needed, makes the measure smaller and does not lose text. -/
theorem step_next {c c' : Config} (hg : Good c) (hl : LookOK c) (h : step c = .next c') : Good c' ∧ LookOK c' ∧ pot c' < pot c ∧ c'.all = c.all := by
  have hg' := step_good hg
  rw [h] at hg'
  refine ⟨hg', ?_⟩
  obtain ⟨st, look, rest⟩ := c
  cases look with
  | some t =>
    obtain ⟨l1, l2⟩ := hl t rfl
    have h : stepTok st t = .next c' := h
    exact ⟨stepTok_look (fun h => .inl (l1 h)) l2 h, shift_pot hg.1 hg.2.1 (fun h => .inl (l1 h)) h, stepTok_yield.1 c' h⟩
  | none =>
    obtain ⟨⟨t, hs⟩, hset⟩ := hg
    simp only [step] at h
    cases hm : lexMode st.top with
    | none =>
      have h335 := (lexMode_none hs.live).1 hm
      rw [hm] at h
      refine ⟨?_, doc_next hs h335 h, ?_⟩
      · obtain ⟨st', h1, _⟩ := reduce_doc hs h335
        simp only [stepNull, h335, doc_act, h1, StepRes.next.injEq] at h
        subst h
        exact fun _ h => nomatch h
      · obtain ⟨st', h1, _⟩ := reduce_doc hs h335
        simp only [stepNull, h335, doc_act, h1, StepRes.next.injEq] at h
        subst h
        simp [Config.all, reduce_yield h1]
    | some m =>
      simp only [hm] at h
      cases ht : lexTok m rest with
      | none => rw [ht] at h; cases h
      | some tk =>
        simp only [ht] at h
        have ok := lexTok_ok hs.live hm ht
        have h335 : st.top ≠ 335 := fun h => by
          rw [(lexMode_none hs.live).2 h] at hm
          cases hm
        have hall := lexTok_all ht
        refine ⟨stepTok_look ok.1 ok.2 h, ?_, ?_⟩
        · have := shift_pot (hs.any hset _) h335 ok.1 h
          rw [hall] at this
          exact this
        · rw [stepTok_yield.1 c' h, hall]; rfl

/-- The tree at the end covers the text. -/
theorem step_tree {c : Config} {r : Tree} (hg : Good c) (hl : LookOK c) (h : step c = .stop (.tree r)) : r.yield = c.all := by
  obtain ⟨st, look, rest⟩ := c
  cases look with
  | some t =>
    obtain ⟨l1, l2⟩ := hl t rfl
    have h : stepTok st t = .stop (.tree r) := h
    have : t.sym = 0 := by
      have ok := act_ok hg.1.live t.sym
      unfold stepTok at h
      generalize actions st.top t.sym = as at ok h
      cases ok with
      | accept h0 => exact h0
      | none => cases h
      | shift => cases h
      | extra => cases h
      | recover => cases h
      | reduce => simp only [] at h; split at h <;> cases h
    exact stepTok_yield.2 r h (l2 this)
  | none =>
    obtain ⟨⟨t, hs⟩, hset⟩ := hg
    simp only [step] at h
    cases hm : lexMode st.top with
    | none =>
      have h335 := (lexMode_none hs.live).1 hm
      obtain ⟨st', h1, _⟩ := reduce_doc hs h335
      simp only [stepNull, h335, doc_act, h1] at h
      cases h
    | some m =>
      simp only [hm] at h
      cases ht : lexTok m rest with
      | none => rw [ht] at h; cases h
      | some tk =>
        simp only [ht] at h
        have ok := lexTok_ok hs.live hm ht
        have : tk.sym = 0 := by
          have ok := act_ok hs.live tk.sym
          unfold stepTok at h
          generalize actions st.top tk.sym = as at ok h
          cases ok with
          | accept h0 => exact h0
          | none => cases h
          | shift => cases h
          | extra => cases h
          | recover => cases h
          | reduce => simp only [] at h; split at h <;> cases h
        rw [stepTok_yield.2 r h (ok.2 this), lexTok_all ht]; rfl

theorem run_yield : ∀ {n : Nat} {c : Config} {r : Tree}, Good c → LookOK c → run n c = some (.tree r) → r.yield = c.all
  | 0, _, _, _, _, h => by simp [run] at h
  | n + 1, c, r, hg, hl, h => by
    rw [run] at h
    cases hc : step c with
    | next c' =>
      rw [hc] at h
      obtain ⟨h1, h2, _, h3⟩ := step_next hg hl hc
      rw [← h3]
      exact run_yield h1 h2 h
    | stop o =>
      rw [hc] at h
      cases h
      exact step_tree hg hl hc

theorem run_ends : ∀ {n : Nat} {c : Config}, Good c → LookOK c → pot c < n → ∃ o, run n c = some o
  | 0, _, _, _, h => absurd h (Nat.not_lt_zero _)
  | n + 1, c, hg, hl, h => by
    rw [run]
    cases hc : step c with
    | next c' =>
      obtain ⟨h1, h2, h3, _⟩ := step_next hg hl hc
      exact run_ends h1 h2 (by omega)
    | stop o => exact ⟨o, rfl⟩

theorem run_mono : ∀ {n : Nat} {c : Config} {o : Outcome} (k : Nat), run n c = some o → run (n + k) c = some o
  | 0, _, _, _, h => by simp [run] at h
  | n + 1, c, o, k, h => by
    rw [Nat.add_right_comm, run]
    rw [run] at h
    cases hc : step c with
    | next c' => rw [hc] at h; exact run_mono k h
    | stop o' => rw [hc] at h; exact h

theorem start_look (text : Bytes) : LookOK (start text) := fun _ h => nomatch h

theorem dropMark_le (text : Bytes) : (dropMark text).length ≤ text.length := by
  unfold dropMark
  split
  · simp only [List.length_cons]; omega
  · exact Nat.le_refl _

theorem start_pot (text : Bytes) : pot (start text) < 100 * text.length + 100 := by
  have := dropMark_le text
  have h : potStack [] = 10 := by decide
  simp only [pot, start, Config.left, h]
  omega

end Bob.Parse
