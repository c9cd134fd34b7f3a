import Verif.Model.Flamingo.Syntax
/-!
# Words of build scripts

What names, numbers and strings look like in a script.
-/

namespace Bob.Fl

def isDigit (c : UInt8) : Bool := Nat.ble 48 c.toNat && Nat.ble c.toNat 57

def isLetter (c : UInt8) : Bool :=
  (Nat.ble 65 c.toNat && Nat.ble c.toNat 90) || (Nat.ble 97 c.toNat && Nat.ble c.toNat 122) || Nat.beq c.toNat 95

/-- Words that are not names.  The last five are names of types, which the grammar takes for names, but not the interpreter. -/
def reserved : List Bytes := [
  b!"import", b!"static", b!"pure", b!"proto", b!"fn", b!"class", b!"print", b!"assert", b!"return", b!"let", b!"vec", b!"map",
  b!"true", b!"false", b!"error", b!"none", b!"any", b!"int", b!"str", b!"bool", b!"void"]

/-- A name: letters, digits and underscores, beginning with no digit. -/
def nameOK : Bytes → Bool
  | [] => false
  | c :: cs => isLetter c && cs.all (fun d => isLetter d || isDigit d) && !reserved.contains (c :: cs)

/-- A number: digits. -/
def numOK : Bytes → Bool
  | [] => false
  | c :: cs => isDigit c && cs.all isDigit

/-- What may stand between quotes: anything but a quote or a zero, which may be escaped except for a zero and a newline. -/
def strOK : Bytes → Bool
  | [] => true
  | c :: cs =>
    if c = 92 then
      match cs with
      | [] => false
      | d :: ds => d != 0 && d != 10 && strOK ds
    else c != 34 && c != 0 && strOK cs

end Bob.Fl
