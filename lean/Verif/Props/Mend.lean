import Verif.Lemmas.Mend
import Verif.Lemmas.MendLower
import Verif.Props.Sense
/-!
# C119: scripts with syntax errors
-/

namespace Bob.Parse
open Bob.Fl

/-! ## A way to find versions -/

/-- The token that a version is at. -/
def lookOf (c : Config) : Option (Tok × Bytes) :=
  match c.look with
  | some t => some (t, c.rest)
  | none => (lexMode c.stack.top).bind fun m => (lexTok m c.rest).map fun t => (t, t.rest)

/-- Whether token `t` can be used after some reductions. -/
def settles : Nat → Stack → Tok → Bool
  | 0, _, _ => false
  | n + 1, st, t =>
    match stepTok st t with
    | .next ⟨st', some _, _⟩ => settles n st' t
    | .next _ => true
    | .stop (.tree _) => true
    | _ => false

def missTok (st : Stack) (t : Tok) : Option Nat :=
  (List.range 60).find? fun s => mayMiss st.top s t.sym && settles 20 ((nextState st.top s, missingLeaf s) :: st) t

/-- The first reduction that would be done before some token. -/
def reduceSome (st : Stack) : Option Stack :=
  (List.range 60).findSome? fun s =>
    match findActs s (rows.get st.top).acts with
    | .reduce A n pid :: _ => if n = 0 then none else reduce A n pid false st
    | _ => none

/-- The version with a missing token, after some reductions. -/
def mendAt : Nat → Stack → Tok → Bytes → Option Config
  | 0, _, _, _ => none
  | n + 1, st, t, rest =>
    match missTok st t with
    | some s => some ⟨(nextState st.top s, missingLeaf s) :: st, some t, rest⟩
    | none => (reduceSome st).bind fun st' => mendAt n st' t rest

def mendRun : Nat → Config → Option Tree
  | 0, _ => none
  | n + 1, c =>
    match step c with
    | .next c' => mendRun n c'
    | .stop (.tree t) => some t
    | .stop .stuck => none
    | .stop .error => (lookOf c).bind fun (t, rest) => (mendAt 20 c.stack t rest).bind (mendRun n)

theorem Mends.trans {a b c : Config} (h : Mends a b) (h' : Mends b c) : Mends a c := by
  induction h' with
  | refl => exact h
  | tail _ h2 ih => exact .tail ih h2

theorem Mends.one {a b : Config} (h : Mend a b) : Mends a b := .tail (.refl a) h

theorem reduceSome_mend {st st' : Stack} {t : Tok} {rest : Bytes} (h : reduceSome st = some st') : Mend ⟨st, some t, rest⟩ ⟨st', some t, rest⟩ := by
  obtain ⟨s, -, h⟩ := List.exists_of_findSome?_eq_some h
  split at h
  · rename_i A n pid as ha
    split at h
    · cases h
    · rename_i h0
      exact .reduce (s := s) (by rw [ha]; exact List.mem_cons_self ..) h0 h
  · cases h

theorem mendAt_mends : ∀ {n : Nat} {st : Stack} {t : Tok} {rest : Bytes} {c : Config}, mendAt n st t rest = some c → Mends ⟨st, some t, rest⟩ c
  | 0, _, _, _, _, h => nomatch h
  | n + 1, st, t, rest, c, h => by
    rw [mendAt] at h
    split at h
    · rename_i s hs
      cases h
      have := List.find?_some hs
      simp only [Bool.and_eq_true] at this
      exact .one (.missing this.1)
    · obtain ⟨st', h1, h2⟩ := Option.bind_eq_some_iff.1 h
      exact (Mends.one (reduceSome_mend h1)).trans (mendAt_mends h2)

theorem lookOf_mends {c : Config} {t : Tok} {rest : Bytes} (h : lookOf c = some (t, rest)) : Mends c ⟨c.stack, some t, rest⟩ := by
  obtain ⟨st, look, rest'⟩ := c
  cases look with
  | some t' => cases h; exact .refl _
  | none =>
    obtain ⟨m, h1, h2⟩ := Option.bind_eq_some_iff.1 h
    obtain ⟨t', h4, h3⟩ := Option.map_eq_some_iff.1 h2
    cases h3
    exact .one (.look h1 h4)

theorem mendRun_mends : ∀ {n : Nat} {c : Config} {t : Tree}, mendRun n c = some t → ∃ c', Mends c c' ∧ step c' = .stop (.tree t)
  | 0, _, _, h => nomatch h
  | n + 1, c, t, h => by
    rw [mendRun] at h
    split at h
    · rename_i c1 hc
      obtain ⟨c', h1, h2⟩ := mendRun_mends h
      exact ⟨c', (Mends.one (.step hc)).trans h1, h2⟩
    · rename_i t' hc
      cases h
      exact ⟨c, .refl c, hc⟩
    · cases h
    · obtain ⟨⟨tk, rest⟩, h1, h⟩ := Option.bind_eq_some_iff.1 h
      obtain ⟨c1, h2, h3⟩ := Option.bind_eq_some_iff.1 h
      obtain ⟨c', h4, h5⟩ := mendRun_mends h3
      exact ⟨c', ((lookOf_mends h1).trans (mendAt_mends h2)).trans h4, h5⟩

/-! ## What is known of all trees -/

/-- **C119 (part).** Whatever tokens the parser supplies, the tree it makes follows the grammar and consists of the text, so the tokens it has supplied are all that the text lacks.  (Trees with
`ERROR` nodes are not covered.) -/
theorem C119_mended_trees_follow_the_grammar_partial (text : Bytes) (t : Tree) (h : MendsTo text t) : WholeTree t ∧ t.yield = dropMark text := by
  obtain ⟨c, h1, h2⟩ := h
  exact (step_fair (mends_fair (start_fair text) h1)).2 t h2

/-- Nothing is mended where nothing is wrong. -/
theorem parses_mends {text : Bytes} {t : Tree} (h : Parses text (.tree t)) : MendsTo text t := by
  obtain ⟨n, h⟩ := h
  suffices ∀ (n : Nat) (c : Config), run n c = some (.tree t) → ∃ c', Mends c c' ∧ step c' = .stop (.tree t) from this n _ h
  intro n
  induction n with
  | zero => intro c h; cases h
  | succ n ih =>
    intro c h
    rw [run] at h
    split at h
    · rename_i c1 hc
      obtain ⟨c', h1, h2⟩ := ih _ h
      exact ⟨c', (Mends.one (.step hc)).trans h1, h2⟩
    · rename_i o hc
      cases h
      exact ⟨c, .refl c, hc⟩

/-- **C119 (part).** The interpreter does not notice: no assertion about the shape of the nodes fails, under the conditions of `C99`. -/
theorem C119_no_assertion_fails_partial (text : Bytes) (t : Tree) (h : MendsTo text t) (hs : t.sense false = true) : lower t = .error .error ∨ ∃ ss, lower t = .ok ss := by
  have := whole_good (C119_mended_trees_follow_the_grammar_partial text t h).1 hs (fun h => nomatch h)
  revert this
  cases lower t with
  | ok ss => exact fun _ => .inr ⟨ss, rfl⟩
  | error e => cases e with
    | error => exact fun _ => .inl rfl
    | _ => exact fun h => h.elim

/-- **C119 (part).** A script that lacks brackets, commas, ends of lines or keywords is run exactly as the one in which they are. -/
theorem C119_runs_as_if_mended_partial (t t' : Tree) (h : Respelt t t') (ss : List Stmt) : lower t = .ok ss ↔ lower t' = .ok ss := by
  rw [lower_same h]

/-! ## Comparing trees -/

mutual
def treeEq : Tree → Tree → Bool
  | .leaf s pad text x, .leaf s' pad' text' x' => s == s' && pad == pad' && text == text' && x == x'
  | .node s pid cs x, .node s' pid' cs' x' => s == s' && pid == pid' && treesEq cs cs' && x == x'
  | _, _ => false
def treesEq : List Tree → List Tree → Bool
  | [], [] => true
  | c :: cs, c' :: cs' => treeEq c c' && treesEq cs cs'
  | _, _ => false
end

mutual
theorem treeEq_eq : ∀ {t t' : Tree}, treeEq t t' = true → t = t'
  | .leaf s pad text x, .leaf s' pad' text' x', h => by
    simp only [treeEq, Bool.and_eq_true, beq_iff_eq] at h
    obtain ⟨⟨⟨rfl, rfl⟩, rfl⟩, rfl⟩ := h
    rfl
  | .node s pid cs x, .node s' pid' cs' x', h => by
    simp only [treeEq, Bool.and_eq_true, beq_iff_eq] at h
    obtain ⟨⟨⟨rfl, rfl⟩, h⟩, rfl⟩ := h
    rw [treesEq_eq h]
  | .leaf .., .node .., h => by simp [treeEq] at h
  | .node .., .leaf .., h => by simp [treeEq] at h
theorem treesEq_eq : ∀ {cs cs' : List Tree}, treesEq cs cs' = true → cs = cs'
  | [], [], _ => rfl
  | c :: cs, c' :: cs', h => by
    simp only [treesEq, Bool.and_eq_true] at h
    rw [treeEq_eq h.1, treesEq_eq h.2]
  | [], _ :: _, h => by simp [treesEq] at h
  | _ :: _, [], h => by simp [treesEq] at h
end

def optEq : Option Tree → Option Tree → Bool
  | none, none => true
  | some t, some t' => treeEq t t'
  | _, _ => false

theorem optEq_eq {o o' : Option Tree} (h : optEq o o' = true) : o = o' := by
  match o, o', h with
  | none, none, _ => rfl
  | some t, some t', h => rw [treeEq_eq (t := t) (t' := t') h]

mutual
def isRespelt : Tree → Tree → Bool
  | .leaf s pad text x, .leaf s' pad' text' x' => s == s' && x == x' && (!spelt (symbolNames.getD s []) || (pad == pad' && text == text'))
  | .node s pid cs x, .node s' pid' cs' x' => s == s' && pid == pid' && x == x' && (treesEq cs cs' || (!(spelt (symbolNames.getD s []) || symbolNames.getD s [] == b!"qualifier_list" || symbolNames.getD s [] == b!"assert") && areRespelt cs cs' &&
      (symbolNames.getD s [] != b!"binary_expression" || optEq ((Tree.node s pid cs x).field b!"operator") ((Tree.node s pid cs' x).field b!"operator")) &&
      (symbolNames.getD s [] != b!"assignment" || optEq ((Tree.node s pid cs x).field b!"left") ((Tree.node s pid cs' x).field b!"left"))))
  | _, _ => false
def areRespelt : List Tree → List Tree → Bool
  | [], [] => true
  | c :: cs, c' :: cs' => isRespelt c c' && areRespelt cs cs'
  | _, _ => false
end

mutual
theorem isRespelt_spec : ∀ {t t' : Tree}, isRespelt t t' = true → Respelt t t'
  | .leaf s pad text x, .leaf s' pad' text' x', h => by
    simp only [isRespelt, Bool.and_eq_true, beq_iff_eq, Bool.or_eq_true, Bool.not_eq_true'] at h
    obtain ⟨⟨rfl, rfl⟩, h⟩ := h
    rcases h with h | ⟨rfl, rfl⟩
    · exact .leaf fun h' => by rw [h] at h'; cases h'
    · exact .refl _
  | .node s pid cs x, .node s' pid' cs' x', h => by
    simp only [isRespelt, Bool.and_eq_true, beq_iff_eq, Bool.or_eq_true, Bool.not_eq_true', bne_iff_ne] at h
    obtain ⟨⟨⟨rfl, rfl⟩, rfl⟩, h⟩ := h
    rcases h with h | ⟨⟨⟨h1, h2⟩, h3⟩, h4⟩
    · rw [treesEq_eq h]; exact .refl _
    · simp only [Bool.or_eq_false_iff, beq_eq_false_iff_ne, ne_eq] at h1
      refine .node (areRespelt_spec h2) ⟨fun e => ?_, fun e => absurd e h1.1.2, fun e => ?_, fun e => ?_, fun e => absurd e h1.2⟩
      · exact absurd (h1.1.1.symm.trans e) (by decide)
      · rw [optEq_eq (h3.resolve_left fun h => h e)]
      · rw [optEq_eq (h4.resolve_left fun h => h e)]
  | .leaf .., .node .., h => by simp [isRespelt] at h
  | .node .., .leaf .., h => by simp [isRespelt] at h
theorem areRespelt_spec : ∀ {cs cs' : List Tree}, areRespelt cs cs' = true → Respelts cs cs'
  | [], [], _ => .nil
  | c :: cs, c' :: cs', h => by
    simp only [areRespelt, Bool.and_eq_true] at h
    exact .cons (isRespelt_spec h.1) (areRespelt_spec h.2)
  | [], _ :: _, h => by simp [areRespelt] at h
  | _ :: _, [], h => by simp [areRespelt] at h
end

/-! ## Scripts that are run though they have syntax errors -/

/-- Whether a text has a syntax error, and is taken for the other one, of which the interpreter makes sense. -/
def takenFor (text text' : Bytes) : Bool :=
  (match parse text with
  | some .error => true
  | _ => false) &&
  match mendRun (100 * text.length + 100) (start text), parse text' with
  | some t, some (.tree t') => isRespelt t t' && (match lower t' with | .ok _ => true | .error _ => false)
  | _, _ => false

theorem takenFor_spec {text text' : Bytes} (h : takenFor text text' = true) :
    Malformed text ∧ ∃ t t' ss, MendsTo text t ∧ Parses text' (.tree t') ∧ Respelt t t' ∧ lower t = .ok ss ∧ lower t' = .ok ss := by
  unfold takenFor at h
  rw [Bool.and_eq_true] at h
  obtain ⟨h1, h2⟩ := h
  refine ⟨?_, ?_⟩
  · split at h1
    · rename_i hp; exact (parse_iff _ _).2 hp
    · cases h1
  · split at h2
    · rename_i t t' ht ht'
      rw [Bool.and_eq_true] at h2
      have hr := isRespelt_spec h2.1
      obtain ⟨c, hc⟩ := mendRun_mends ht
      cases hl : lower t' with
      | error e => rw [hl] at h2; cases h2.2
      | ok ss => exact ⟨t, t', ss, ⟨c, hc⟩, (parse_iff _ _).2 ht', hr, by rw [lower_same hr, hl], hl⟩
    · cases h2

/-- **C119, a case.** A script without the bracket that closes a vector is run as if it were there. -/
theorem C119_sample : takenFor b!"let a = Cc([\"-g\")\n" b!"let a = Cc([\"-g\"])\n" = true := by decide +kernel

/-- **C119, a case.** So is a script without the end of its last line, or two statements in one line. -/
theorem C119_sample_end : takenFor b!"let a = 1" b!"let a = 1;" = true ∧ takenFor b!"print 1 print 2\n" b!"print 1; print 2\n" = true := by
  constructor <;> decide +kernel

/-- **C119, a case.** And one in which a function is not ended. -/
theorem C119_sample_block : takenFor b!"fn f() {\nprint 1\n" b!"fn f() {\nprint 1\n}" = true := by decide +kernel

/-- The name that the first line of a mended script declares. -/
def declared (text : Bytes) : Option Bytes :=
  match mendRun (100 * text.length + 100) (start text) with
  | some t =>
    match lower t with
    | .ok (.line (.decl false name (some _)) :: _) => some name
    | _ => none
  | none => none

/-- **C119, a case.** A variable without a name gets the empty name. -/
theorem C119_sample_nameless : declared b!"let = 1\n" = some [] := by decide +kernel

/-- **C119 fails.** Scripts with syntax errors are run: nothing looks for them (`src/flamingo/flamingo.c:117-118`). -/
theorem C119_syntax_errors_are_refused_false : ¬ ∀ (text : Bytes) (t : Tree) (ss : List Stmt), Malformed text → MendsTo text t → lower t ≠ .ok ss := by
  intro h
  obtain ⟨h1, t, t', ss, h2, -, -, h3, -⟩ := takenFor_spec C119_sample
  exact h _ t ss h1 h2 h3

end Bob.Parse
