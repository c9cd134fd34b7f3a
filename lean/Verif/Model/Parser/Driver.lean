import Verif.Model.Parser.Lexer
/-!
# Parser

The main loop of the Tree-sitter runtime (`src/flamingo/runtime/parser.c`) with the tables of `src/flamingo/parser.c`.  These have no entry with two actions
other than a reduction and a shift marked as repetition, which is passed over, so there is one version of the stack throughout.  Where the runtime begins to
recover from a syntax error the model stops.
-/

namespace Bob.Parse

/-- `Subtree`, `src/flamingo/runtime/subtree.h`.  A leaf has the blanks before it and its text, of which the C code stores the sizes. -/
inductive Tree where
  | leaf (sym : Nat) (pad text : Bytes) (extra : Bool)
  | node (sym pid : Nat) (children : List Tree) (extra : Bool)
deriving Repr

def Tree.sym : Tree → Nat
  | .leaf s .. => s
  | .node s .. => s

def Tree.extra : Tree → Bool
  | .leaf _ _ _ e => e
  | .node _ _ _ e => e

def Tree.children : Tree → List Tree
  | .leaf .. => []
  | .node _ _ cs _ => cs

/-- Stack of a version, top first: each subtree with the state after it.  The state at the bottom is 1. -/
abbrev Stack := List (Nat × Tree)

def Stack.top : Stack → Nat
  | [] => 1
  | (q, _) :: _ => q

def Act.isRepeat : Act → Bool
  | .shiftRepeat _ => true
  | _ => false

/-- The actions of the set to which token `t` belongs. -/
def findActs (t : Nat) : List (List Act × Nat) → List Act
  | [] => []
  | (as, ts) :: gs => bif Nat.testBit ts t then as else findActs t gs

/-- The next state for nonterminal `A`. -/
def findGoto (A : Nat) : List (Nat × Nat) → Nat
  | [] => 0
  | (B, q) :: gs => bif Nat.beq A B then q else findGoto A gs

/-- The actions of `ts_language_table_entry` (`src/flamingo/runtime/language.c:38-58`) without the shifts that `ts_parser__advance` passes over
(`runtime/parser.c:1592`). -/
def actions (q t : Nat) : List Act := (findActs t (rows.get q).acts).filter (!·.isRepeat)

/-- `ts_language_next_state` for nonterminals, `src/flamingo/runtime/language.c:80-100`. -/
def goto (q A : Nat) : Nat := findGoto A (rows.get q).gotos

def lexMode (q : Nat) : Option Nat := lexModes.get q

/-- `ts_stack_pop_count`, `src/flamingo/runtime/stack.c:528-537`: subtrees are popped until `n` of them are not extra.  They are
collected in the order of the text. -/
def popCount : Nat → Stack → List Tree → Option (List Tree × Stack)
  | 0, st, acc => some (acc, st)
  | _ + 1, [], _ => none
  | n + 1, (_, t) :: st, acc => if t.extra then popCount (n + 1) st (t :: acc) else popCount n st (t :: acc)

/-- `ts_subtree_array_remove_trailing_extras`, `src/flamingo/runtime/subtree.c:113-130`. -/
def splitExtras (cs : List Tree) : List Tree × List Tree :=
  ((cs.reverse.dropWhile Tree.extra).reverse, (cs.reverse.takeWhile Tree.extra).reverse)

def pushAll (q : Nat) : List Tree → Stack → Stack
  | [], st => st
  | t :: ts, st => pushAll q ts ((q, t) :: st)

/-- `ts_parser__reduce`, `src/flamingo/runtime/parser.c:924-1037`. -/
def reduce (sym count pid : Nat) (noLook : Bool) (st : Stack) : Option Stack :=
  match popCount count st [] with
  | none => none
  | some (cs, st') =>
    let q := st'.top
    let q' := goto q sym
    some (pushAll q' (splitExtras cs).2 ((q', .node sym pid (splitExtras cs).1 (noLook && q' == q)) :: st'))

/-- The loop of `ts_parser__accept`, `src/flamingo/runtime/parser.c:1039-1090`, over the subtrees from the last to the first: the last one that
is not extra is the root, and what is around it becomes part of it. -/
def acceptFrom : (before : List Tree) → (after : List Tree) → Option Tree
  | [], _ => none
  | t :: before, after =>
    if t.extra then acceptFrom before (t :: after)
    else match t with
      | .node sym pid cs _ => some (.node sym pid (before.reverse ++ cs ++ after) false)
      | .leaf .. => none

/-- What the parser does with a text. -/
inductive Outcome where
  /-- a tree without errors -/
  | tree (t : Tree)
  /-- recovery from a syntax error begins (`ts_stack_pause`, `runtime/parser.c:1729`) -/
  | error
  /-- several actions apply, or a failed assertion; cannot happen (`C93`) -/
  | stuck
deriving Repr

structure Config where
  stack : Stack
  look : Option Tok
  rest : Bytes

inductive StepRes where
  | next (c : Config)
  | stop (o : Outcome)

/-- One round of the loop in `ts_parser__advance`, `src/flamingo/runtime/parser.c:1546-1731`, with a token. -/
def stepTok (st : Stack) (t : Tok) : StepRes :=
  match actions st.top t.sym with
  | [] => .stop .error
  | [.shift q] => .next ⟨(q, .leaf t.sym t.pad t.text false) :: st, none, t.rest⟩
  | [.shiftExtra] => .next ⟨(st.top, .leaf t.sym t.pad t.text true) :: st, none, t.rest⟩
  | [.reduce A n pid] =>
    match reduce A n pid false st with
    | some st' => .next ⟨st', some t, t.rest⟩
    | none => .stop .stuck
  | [.accept] =>
    match acceptFrom (.leaf t.sym t.pad t.text true :: st.map (·.2)) [] with
    | some root => .stop (.tree root)
    | none => .stop .stuck
  | [.recover] => .stop .error
  | _ => .stop .stuck

/-- One round without a token, at the end of a `doc_comment` (`runtime/parser.c:1553-1571,1651-1653`). -/
def stepNull (st : Stack) (rest : Bytes) : StepRes :=
  match actions st.top 0 with
  | [.reduce A n pid] =>
    match reduce A n pid true st with
    | some st' => .next ⟨st', none, rest⟩
    | none => .stop .stuck
  | _ => .stop .stuck

def step (c : Config) : StepRes :=
  match c.look with
  | some t => stepTok c.stack t
  | none =>
    match lexMode c.stack.top with
    | none => stepNull c.stack c.rest
    | some m =>
      match lexTok m c.rest with
      | none => .stop .error
      | some t => stepTok c.stack t

/-- At most `n` rounds. -/
def run : Nat → Config → Option Outcome
  | 0, _ => none
  | n + 1, c =>
    match step c with
    | .next c' => run n c'
    | .stop o => some o

/-- A byte order mark at the beginning is skipped, `src/flamingo/runtime/lexer.c:287-290`. -/
def dropMark : Bytes → Bytes
  | 0xEF :: 0xBB :: 0xBF :: text => text
  | text => text

def start (text : Bytes) : Config := ⟨[], none, dropMark text⟩

/-- `ts_parser_parse_string`, called at `src/flamingo/flamingo.c:105`. -/
def Parses (text : Bytes) (o : Outcome) : Prop := ∃ n, run n (start text) = some o

/-- The same as a function; `C94` shows that it is. -/
def parse (text : Bytes) : Option Outcome := run (100 * text.length + 100) (start text)

end Bob.Parse
