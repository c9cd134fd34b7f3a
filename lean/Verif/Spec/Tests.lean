import Verif.Model.Tests
/-!
# What `tests.sh` should do
-/

namespace Bob.Boot
open Bob.Fts

/-- The tests: files in `tests` other than `common.sh`. -/
def wanted (es : List (Bytes × Bool)) : List Bytes := (es.filter fun e => !e.2 && e.1 != b!"common.sh").map (·.1)

/-- Names that the shell takes for one word each, and that are not patterns. -/
def Plain (es : List (Bytes × Bool)) : Prop := ∀ e ∈ es, e.1 ≠ [] ∧ ∀ c ∈ e.1, c ∉ b!" \t\n*?[/"

/-- Tests run one after the other, each with the files that the one before has left, but for `.bob` and `.test-out`. -/
inductive InTurn (h : Host) : FS → List Bytes → List Ran → Prop where
  | nil {fs : FS} : InTurn h fs [] []
  | cons {fs start fs' : FS} {n : Bytes} {ns : List Bytes} {ok : Bool} {rs : List Ran} :
      (∀ p, (b!".bob" = p ∨ b!".bob/" <+: p ∨ b!".test-out" = p ∨ b!".test-out/" <+: p → start p = none) ∧
        (¬ (b!".bob" = p ∨ b!".bob/" <+: p ∨ b!".test-out" = p ∨ b!".test-out/" <+: p) → start p = fs p)) →
      h.test start n = (fs', ok) → InTurn h fs' ns rs → InTurn h fs (n :: ns) (⟨n, start, ok⟩ :: rs)

end Bob.Boot
