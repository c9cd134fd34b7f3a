import Verif.Model.Parser.Tables
/-!
# Lexer

`ts_lex` of `src/flamingo/parser.c` run by `ts_parser__lex` of `src/flamingo/runtime/parser.c`.
-/

namespace Bob.Parse

/-- A token with the blanks before it and the text that follows it. -/
structure Tok where
  sym : Nat
  pad : Bytes
  text : Bytes
  rest : Bytes
deriving DecidableEq, Repr

/-- Whether a character is in one of the ranges. -/
def inRanges (c : Nat) : List (Nat × Nat) → Bool
  | [] => false
  | (lo, hi) :: rs => (Nat.ble lo c && Nat.ble c hi) || inRanges c rs

/-- The first `if` that applies, in one state of `ts_lex`. -/
def nextLex (c : Nat) : List (List (Nat × Nat) × Nat × Bool) → Option (Nat × Bool)
  | [] => none
  | (r, st, skip) :: es => bif inRanges c r then some (st, skip) else nextLex c es

def lexState (st : Nat) : LexState := lexStates.get st

/-- `ACCEPT_TOKEN`, `src/flamingo/tree_sitter/parser.h:161-164`: the token ends here, unless a longer one is found. -/
def mark (st : Nat) (pad tok rest : Bytes) (best : Option Tok) : Option Tok :=
  match (lexState st).accept with
  | some s => some ⟨s, pad, tok, rest⟩
  | none => best

/-- `ts_lex` from state `st` on, `src/flamingo/parser.c:1449-2790`.  `pad` are the characters skipped, `tok` those since `token_start_position`,
`best` is what was accepted so far.  At the end of the text only `if (eof)` applies, which leads to a state without
further jumps.  No character is skipped after something was accepted or advanced over, so it does not matter that the C code takes the token to start
where the last skip ended. -/
def lexGo (st : Nat) (pad tok : Bytes) (best : Option Tok) : Bytes → Option Tok
  | [] =>
    match (lexState st).eof with
    | some st' => mark st' pad tok [] (mark st pad tok [] best)
    | none => mark st pad tok [] best
  | c :: cs =>
    match nextLex c.toNat (lexState st).edges with
    | some (st', true) => lexGo st' (pad ++ tok ++ [c]) [] (mark st pad tok (c :: cs) best) cs
    | some (st', false) => lexGo st' pad (tok ++ [c]) (mark st pad tok (c :: cs) best) cs
    | none => mark st pad tok (c :: cs) best

/-- `ts_lex(lexer, mode)` at the beginning of `text`. -/
def lexFrom (mode : Nat) (text : Bytes) : Option Tok := lexGo mode [] [] none text

/-- `ts_parser__lex`, `src/flamingo/runtime/parser.c:505-694`, for a state whose lex mode is `mode`: if there is no token that the
state knows, one that `ERROR_STATE` knows, whose mode is 0.  After that the C code skips characters, as part of its recovery from
errors, which is not modelled. -/
def lexTok (mode : Nat) (text : Bytes) : Option Tok :=
  match lexFrom mode text with
  | some t => some t
  | none => lexFrom 0 text

end Bob.Parse
