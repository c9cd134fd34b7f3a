import Verif.Lemmas.ParTerm
/-!
# C93, C94: what the parser accepts, and that it ends
-/

namespace Bob.Parse

theorem allDerive_extras {cs : List Tree} (h : ∀ c ∈ cs, ExtraOK c) {ds : List Tree} (hd : AllDerive ds) : AllDerive (cs ++ ds) := by
  induction cs with
  | nil => exact hd
  | cons c cs ih =>
    have h := List.forall_mem_cons.1 h
    exact .comment h.1.comment (ih h.2)

theorem allDerive_append {cs ds : List Tree} (hc : AllDerive cs) (hd : AllDerive ds) : AllDerive (cs ++ ds) := by
  match hc with
  | .nil => exact hd
  | .cons h1 h2 h3 => exact .cons h1 h2 (allDerive_append h3 hd)
  | .comment h1 h2 => exact .comment h1 (allDerive_append h2 hd)

theorem WholeFits.whole {t : Tree} (h : WholeFits t) : WholeTree t := by
  cases h with
  | @mk pid f pre cs post pad text hf h1 h2 =>
    cases hf with
    | node hc ha hn he _ _ _ =>
      obtain ⟨r, hr, hl, hp, hfi, _⟩ := reduce_rule hc live_one ha hn
      have hx : ∀ {es : List Tree}, (∀ c ∈ es, ExtraOK c) → solid es = [] := fun h => solid_extras fun c hc => (h c hc).extra
      have := WholeTree.mk (cs := pre ++ cs ++ post) (pad := pad) (text := text) hr hl
        (allDerive_append (allDerive_append (by simpa using allDerive_extras h1 .nil) (hc.derives live_one)) (by simpa using allDerive_extras h2 .nil))
        (by rw [solid_append, solid_append, hx h1, hx h2]; simpa using hfi)
      rw [hl, hp] at this
      simpa using this

/-- **C93.** When the parser accepts a text, the tree follows the grammar and consists of the whole text (without a byte order mark).  It never has to choose
between actions, nor does one of its assertions fail. -/
theorem C93_accepted_texts_follow_the_grammar (text : Bytes) (o : Outcome) (h : Parses text o) :
    o ≠ .stuck ∧ ∀ t, o = .tree t → WholeTree t ∧ t.yield = dropMark text := by
  obtain ⟨n, h⟩ := h
  have hg := run_good (start_good text) h
  refine ⟨fun hs => ?_, fun t ht => ?_⟩
  · subst hs; exact hg
  · subst ht
    refine ⟨WholeFits.whole hg, ?_⟩
    rw [run_yield (start_good text) (start_look text) h]
    rfl

/-- The byte order mark U+FEFF, as it is written in UTF-8. -/
def byteOrderMark : Bytes := [0xEF, 0xBB, 0xBF]

/-- **C93.** The tree consists of the bytes of the text, but for a byte order mark at its beginning. -/
theorem C93_nothing_else_is_left_out (text : Bytes) (t : Tree) (h : Parses text (.tree t)) :
    (byteOrderMark <+: text ∧ text = byteOrderMark ++ t.yield) ∨ (¬ byteOrderMark <+: text ∧ text = t.yield) := by
  rw [((C93_accepted_texts_follow_the_grammar text _ h).2 t rfl).2]
  by_cases hm : byteOrderMark <+: text
  · obtain ⟨rest, rfl⟩ := hm
    exact .inl ⟨⟨rest, rfl⟩, rfl⟩
  · refine .inr ⟨hm, ?_⟩
    unfold dropMark
    split
    · rename_i rest
      exact absurd ⟨rest, rfl⟩ hm
    · rfl

/-- **C93.** A byte order mark changes nothing. -/
theorem C93_mark_changes_nothing (text : Bytes) (hm : ¬ byteOrderMark <+: text) (o : Outcome) : Parses (byteOrderMark ++ text) o ↔ Parses text o := by
  have : start (byteOrderMark ++ text) = start text := by
    show (⟨[], none, text⟩ : Config) = ⟨[], none, dropMark text⟩
    unfold dropMark
    split
    · rename_i rest
      exact absurd ⟨rest, rfl⟩ hm
    · rfl
  unfold Parses
  rw [this]

/-- **C94.** For every text the parser ends, after a number of rounds proportional to its length, and with one outcome. -/
theorem C94_parsing_ends (text : Bytes) : ∃ o, run (100 * text.length + 100) (start text) = some o ∧ ∀ o', Parses text o' ↔ o' = o := by
  obtain ⟨o, ho⟩ := run_ends (start_good text) (start_look text) (start_pot text)
  refine ⟨o, ho, fun o' => ⟨fun ⟨n, hn⟩ => ?_, fun h => ⟨_, h ▸ ho⟩⟩⟩
  have h1 := run_mono (100 * text.length + 100) hn
  have h2 := run_mono n ho
  rw [Nat.add_comm, h2] at h1
  cases h1
  rfl

/-- `parse` is what the parser does. -/
theorem parse_iff (text : Bytes) (o : Outcome) : Parses text o ↔ parse text = some o := by
  obtain ⟨o', ho, hu⟩ := C94_parsing_ends text
  rw [hu, parse, ho, Option.some.injEq, eq_comm]

/-! Samples. -/

def Outcome.isTree : Outcome → Bool
  | .tree _ => true
  | _ => false

set_option maxRecDepth 100000 in
/-- A small script is accepted. -/
theorem C93_sample : ((parse b!"# build\nlet cc = Cc([\"-O2\"])\ninstall = {cc.compile(src)[0]: \"bin/a\"}\n").map Outcome.isTree) = some true := by decide +kernel

set_option maxRecDepth 100000 in
theorem C93_sample_doc : ((parse b!"## what it does\nfn f(a: int) -> str {\n\treturn a # first\n}\n").map Outcome.isTree) = some true := by decide +kernel

set_option maxRecDepth 100000 in
/-- A last line without a newline is not. -/
theorem C94_sample : ((parse b!"let a = 1").map Outcome.isTree) = some false := by decide +kernel

end Bob.Parse
