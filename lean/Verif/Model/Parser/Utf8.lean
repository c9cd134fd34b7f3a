import Verif.Model.Parser.Driver
/-!
# Characters

`Model/Parser/Lexer` reads bytes.  The lexer of the runtime decodes them (`src/flamingo/runtime/lexer.c:73-105`): here it is as it is there.

Simplification: there is one chunk, the whole text (`ts_parser_parse_string`), so decoding again with a fresh chunk gives the same.
-/

namespace Bob.Parse

/-- `U8_LEAD3_T1_BITS` and `U8_LEAD4_T1_BITS`, `src/flamingo/runtime/unicode/utf8.h:90,107`. -/
def lead3Bits : List Nat := [0x20, 0x30, 0x30, 0x30, 0x30, 0x30, 0x30, 0x30, 0x30, 0x30, 0x30, 0x30, 0x30, 0x10, 0x30, 0x30]
def lead4Bits : List Nat := [0, 0, 0, 0, 0, 0, 0, 0, 0x1E, 0x0F, 0x0F, 0x0F, 0, 0, 0, 0]

/-- `(__t=(s)[i]-0x80)<=0x3f`, in eight bits. -/
def trail (t : Nat) : Option Nat := let d := (t + 256 - 0x80) % 256; if d ≤ 0x3f then some d else none

/-- `U8_NEXT`, `src/flamingo/runtime/unicode/utf8.h:380-406`, of bytes that begin with `c`: the character and how many bytes it has; `none` is `U_SENTINEL` (-1), for which
`lookahead_size` becomes 1 (`src/flamingo/runtime/lexer.c:102-104`). -/
def u8next (c : Nat) (s : List Nat) : Option Nat × Nat :=
  let r : Option (Nat × Nat) :=
    if c < 0x80 then some (c, 1)
    else if 0xe0 ≤ c then
      if c < 0xf0 then
        match s with
        | t :: u :: _ =>
          if (lead3Bits.getD (c % 16) 0).testBit (t / 32) then (trail u).map fun u => ((c % 16 * 64 + t % 64) * 64 + u, 3) else none
        | _ => none
      else
        match s with
        | t :: u :: v :: _ =>
          if c - 0xf0 ≤ 4 ∧ (lead4Bits.getD (t / 16) 0).testBit (c - 0xf0) then
            (trail u).bind fun u => (trail v).map fun v => ((((c - 0xf0) * 64 + t % 64) * 64 + u) * 64 + v, 4)
          else none
        | _ => none
    else if 0xc2 ≤ c then
      match s with
      | t :: _ => (trail t).map fun t => (c % 32 * 64 + t, 2)
      | [] => none
    else none
  match r with
  | some (x, n) => (some x, n)
  | none => (none, 1)

def nextChar (c : UInt8) (cs : Bytes) : Option Nat × Nat := u8next c.toNat (cs.map (·.toNat))

/-- Whether a character is in one of the ranges.  In the table ranges that end at 255 come from conditions like `lookahead != 0`, which hold for all larger characters and for -1; others come
from comparisons with characters below 128. -/
def inRangesU (c : Option Nat) : List (Nat × Nat) → Bool
  | [] => false
  | (lo, hi) :: rs => (match c with | some c => decide (lo ≤ c ∧ (hi = 255 ∨ c ≤ hi)) | none => decide (hi = 255)) || inRangesU c rs

def nextLexU (c : Option Nat) : List (List (Nat × Nat) × Nat × Bool) → Option (Nat × Bool)
  | [] => none
  | (r, st, skip) :: es => bif inRangesU c r then some (st, skip) else nextLexU c es

/-- `ts_lex` with `ts_lexer__advance`, as `lexGo`, by characters. -/
def lexGoU (st : Nat) (pad tok : Bytes) (best : Option Tok) : Bytes → Option Tok
  | [] =>
    match (lexState st).eof with
    | some st' => mark st' pad tok [] (mark st pad tok [] best)
    | none => mark st pad tok [] best
  | c :: cs =>
    let (x, n) := nextChar c cs
    match nextLexU x (lexState st).edges with
    | some (st', true) => lexGoU st' (pad ++ tok ++ (c :: cs.take (n - 1))) [] (mark st pad tok (c :: cs) best) (cs.drop (n - 1))
    | some (st', false) => lexGoU st' pad (tok ++ (c :: cs.take (n - 1))) (mark st pad tok (c :: cs) best) (cs.drop (n - 1))
    | none => mark st pad tok (c :: cs) best
termination_by text => text.length
decreasing_by all_goals simp only [List.length_drop, List.length_cons]; omega

/-- `ts_parser__lex` by characters, as `lexTok`. -/
def lexTokU (mode : Nat) (text : Bytes) : Option Tok :=
  match lexGoU mode [] [] none text with
  | some t => some t
  | none => lexGoU 0 [] [] none text

/-- `step` with tokens that are read by characters. -/
def stepU (c : Config) : StepRes :=
  match c.look with
  | some t => stepTok c.stack t
  | none =>
    match lexMode c.stack.top with
    | none => stepNull c.stack c.rest
    | some m =>
      match lexTokU m c.rest with
      | none => .stop .error
      | some t => stepTok c.stack t

def runU : Nat → Config → Option Outcome
  | 0, _ => none
  | n + 1, c =>
    match stepU c with
    | .next c' => runU n c'
    | .stop o => some o

/-- `BYTE_ORDER_MARK` as the first character is skipped, `src/flamingo/runtime/lexer.c:24,350-353`. -/
def dropMarkU : Bytes → Bytes
  | [] => []
  | c :: cs => let (x, n) := nextChar c cs; if x = some 0xFEFF then cs.drop (n - 1) else c :: cs

/-- `ts_parser_parse_string`, by characters. -/
def ParsesU (text : Bytes) (o : Outcome) : Prop := ∃ n, runU n ⟨[], none, dropMarkU text⟩ = some o

end Bob.Parse
