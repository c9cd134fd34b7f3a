import Verif.Spec.FlGrammar
import Verif.Spec.FlWords
/-!
# Tokens of build scripts

How the tokens of a script are spelled.
-/

namespace Bob.Parse

/-- Keywords, operators and punctuation. -/
def fixedTexts : List (Nat × Bytes) := [
  (T.semi, b!";"), (T.lbrace, b!"{"), (T.rbrace, b!"}"), (T.import_, b!"import"), (T.dot, b!"."), (T.static_, b!"static"), (T.pure_, b!"pure"), (T.proto, b!"proto"),
  (T.lparen, b!"("), (T.rparen, b!")"), (T.arrow, b!"->"), (T.fn, b!"fn"), (T.bar, b!"|"), (T.class_, b!"class"), (T.print, b!"print"), (T.assert_, b!"assert"),
  (T.return_, b!"return"), (T.vec, b!"vec"), (T.map, b!"map"), (T.lt, b!"<"), (T.gt, b!">"), (T.comma, b!","), (T.colon, b!":"), (T.let_, b!"let"),
  (T.assign, b!"="), (T.minus, b!"-"), (T.not_, b!"!"), (T.power, b!"**"), (T.times, b!"*"), (T.over, b!"/"), (T.mod, b!"%"), (T.plus, b!"+"),
  (T.eq, b!"=="), (T.ne, b!"!="), (T.le, b!"<="), (T.ge, b!">="), (T.and_, b!"&&"), (T.or_, b!"||"), (T.xor, b!"^^"), (T.lbracket, b!"["),
  (T.rbracket, b!"]"), (T.concat, b!"++"), (T.same, b!"==="), (T.any, b!"any"), (T.int, b!"int"), (T.str, b!"str"), (T.bool, b!"bool"), (T.void, b!"void"),
  (T.true_, b!"true"), (T.false_, b!"false"), (T.error_, b!"error"), (T.none_, b!"none")]

def isBlank (c : UInt8) : Bool := (Nat.ble 9 c.toNat && Nat.ble c.toNat 13) || Nat.beq c.toNat 32

/-- Blanks within a line. -/
def isSpace (c : UInt8) : Bool := isBlank c && c != 10

/-- What may be in a line: neither its end nor a zero, which ends the text. -/
def inLine (c : UInt8) : Bool := c != 10 && c != 0

/-- The names of types that are keywords. -/
def primitives : List Bytes := [b!"any", b!"int", b!"str", b!"bool", b!"void"]

/-- A name, or a keyword. -/
def isWord : Bytes → Bool
  | [] => false
  | c :: cs => Fl.isLetter c && cs.all fun d => Fl.isLetter d || Fl.isDigit d

/-- From `#` to the end of the line.  Within a `##` comment there may be blanks before it. -/
def isComment (text : Bytes) : Bool :=
  match text.dropWhile isSpace with
  | 35 :: cs => cs.all inLine
  | _ => false

/-- Like `isComment`, but the end of the line after a bare `#` is taken for a character of the comment, which then ends with the next line. -/
def isLooseComment (text : Bytes) : Bool :=
  match text.dropWhile isSpace with
  | 35 :: c :: cs => c != 35 && c != 0 && cs.all inLine
  | _ => false

/-- What is between the quotes of a string. -/
def isString : Bytes → Bool
  | 34 :: cs => cs.getLast? == some 34 && Fl.strOK cs.dropLast
  | _ => false

/-- How tokens are spelled, given what comments are. -/
def spelling (comment : Bytes → Bool) (s : Nat) (text : Bytes) : Bool :=
  match fixedTexts.lookup s with
  | some w => text == w
  | none =>
    if s = T.eof then text.isEmpty
    else if s = T.newline then !text.isEmpty && text.all (· == 10)
    else if s = T.comment then comment text
    else if s = T.hashes then text.dropWhile isSpace == b!"##"
    else if s = T.docCommentContent then text.all inLine
    else if s = T.word then isWord text && !primitives.contains text
    else if s = T.number then Fl.numOK text
    else if s = T.string then isString text
    else false

mutual
/-- The tokens of a tree, with the blanks before them. -/
def Tree.leaves : Tree → List (Nat × Bytes × Bytes)
  | .leaf s pad text _ => [(s, pad, text)]
  | .node _ _ cs _ => leavesOf cs
def leavesOf : List Tree → List (Nat × Bytes × Bytes)
  | [] => []
  | c :: cs => c.leaves ++ leavesOf cs
end

/-- Each token is spelled as it should be, and there are only blanks between them. -/
def spelled (comment : Bytes → Bool) (ls : List (Nat × Bytes × Bytes)) : Bool :=
  ls.all fun (s, pad, text) => pad.all isBlank && spelling comment s text

def wordChar (c : UInt8) : Bool := Fl.isLetter c || Fl.isDigit c

/-- Two tokens of which `which` holds for the first one are not told apart by where words end. -/
def touching (which : Nat → Bool) : List (Nat × Bytes × Bytes) → Bool
  | a :: b :: ls => (which a.1 && a.2.2.getLast?.any wordChar && b.2.1.isEmpty && b.2.2.head?.any wordChar) || touching which (b :: ls)
  | _ => false

end Bob.Parse
