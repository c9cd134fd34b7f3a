import Verif.Props.Utf8
import Verif.Props.Tokens
/-!
# C117: sample cases
-/

namespace Bob.Parse

/-- A script with characters of two, three and four bytes. -/
def accented : Bytes := b!"print \"é\" + \"€😀\" # ü\n"

theorem accented_encodes : Encodes ("print \"é\" + \"€😀\" # ü\n".toList.map (·.toNat)) accented := by
  refine ⟨?_, by decide +kernel⟩
  have : ∀ c ∈ "print \"é\" + \"€😀\" # ü\n".toList.map (·.toNat), c < 0xD800 ∨ (0xE000 ≤ c ∧ c < 0x110000) := by decide +kernel
  exact this

/-- It is accepted, and one of its tokens is a string with two of them. -/
theorem accented_parses : ∃ t, ParsesU accented (.tree t) ∧ (T.string, b!" ", b!"\"€😀\"") ∈ t.leaves := by
  have h : (leavesOfText accented).isSome ∧ ∀ ls, leavesOfText accented = some ls → (T.string, b!" ", b!"\"€😀\"") ∈ ls := by decide +kernel
  obtain ⟨ls, hls⟩ := Option.isSome_iff_exists.1 h.1
  obtain ⟨t, h1, h2⟩ := leavesOfText_some hls
  exact ⟨t, (C117_parses _ _).2 h1, h2 ▸ h.2 ls hls⟩

/-- Bytes that are no UTF-8 are read one by one: an overlong form, a surrogate, a character that ends too early. -/
example : nextChar 0xC0 [0x80] = (none, 1) ∧ nextChar 0xED [0xA0, 0x80] = (none, 1) ∧ nextChar 0xF0 [0x9F, 0x98] = (none, 1) ∧ nextChar 0xF0 [0x9F, 0x98, 0x80] = (some 0x1F600, 4) := by decide

end Bob.Parse
