import Verif.Model.Base
/-!
# UTF-8
-/

namespace Bob.Parse

/-- The characters there are: all numbers up to 10FFFF but the surrogates. -/
def Scalar (c : Nat) : Prop := c < 0xD800 ∨ (0xE000 ≤ c ∧ c < 0x110000)

/-- How a character is encoded. -/
def utf8 (c : Nat) : List Nat :=
  if c < 0x80 then [c]
  else if c < 0x800 then [0xC0 + c / 64, 0x80 + c % 64]
  else if c < 0x10000 then [0xE0 + c / 4096, 0x80 + c / 64 % 64, 0x80 + c % 64]
  else [0xF0 + c / 262144, 0x80 + c / 4096 % 64, 0x80 + c / 64 % 64, 0x80 + c % 64]

/-- The bytes are those of these characters. -/
def Encodes (cs : List Nat) (text : List UInt8) : Prop := (∀ c ∈ cs, Scalar c) ∧ text.map (·.toNat) = cs.flatMap utf8

end Bob.Parse
