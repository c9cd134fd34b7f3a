import Verif.Spec.FlWords
/-!
# How to write build scripts down

A text for each syntax tree, with a blank before each word, and which trees can be written like that.  Operands are names, literals and the like,
or in parentheses, so that nothing here depends on which operator binds first.
-/

namespace Bob.Fl

/-- Each word with a blank before it. -/
def spaced (ws : List Bytes) : Bytes := ws.flatMap (32 :: ·)

def Lit.word : Lit → Bytes
  | .none => b!"none"
  | .bool true => b!"true"
  | .bool false => b!"false"
  | .num t => t
  | .str s => 34 :: (s ++ [34])

/-- With commas between them. -/
def listed : List (List Bytes) → List Bytes
  | [] => []
  | [w] => w
  | w :: ws => w ++ [b!","] ++ listed ws

def paramWords (ps : List Bytes) : List Bytes := listed (ps.map fun p => [p])

def dots : List Bytes → List Bytes
  | [] => []
  | [w] => [w]
  | w :: ws => w :: b!"." :: dots ws

def staticWords (isStatic : Bool) : List Bytes := if isStatic then [b!"static"] else []

mutual

def Expr.words : Expr → List Bytes
  | .lit l => [l.word]
  | .ident name => [name]
  | .lambda ps b => [b!"|"] ++ paramWords ps ++ [b!"|"] ++ b.words
  | .vec es => [b!"["] ++ listed (exprsWords es) ++ [b!"]"]
  | .map is => [b!"{"] ++ listed (itemsWords is) ++ [b!"}"]
  | .call f es => f.words ++ [b!"("] ++ listed (exprsWords es) ++ [b!")"]
  | .paren e => [b!"("] ++ e.words ++ [b!")"]
  | .un op e => [op.text] ++ e.words
  | .bin op l r => l.words ++ [op.text] ++ r.words
  | .access e name => e.words ++ [b!".", name]
  | .index e i => e.words ++ [b!"["] ++ i.words ++ [b!"]"]

def exprsWords : List Expr → List (List Bytes)
  | [] => []
  | e :: es => e.words :: exprsWords es

def itemWords : Expr × Expr → List Bytes
  | (k, v) => k.words ++ [b!":"] ++ v.words

def itemsWords : List (Expr × Expr) → List (List Bytes)
  | [] => []
  | i :: is => itemWords i :: itemsWords is

def Body.words : Body → List Bytes
  | .block ss => [b!"{"] ++ stmtsWords ss ++ [b!"}"]
  | .expr e => e.words

def optWords : Option Expr → List Bytes
  | none => []
  | some e => e.words

def Lhs.words : Lhs → List Bytes
  | .ident name => [name]
  | .access e name _ => e.words ++ [b!".", name]
  | .index e i _ => e.words ++ [b!"["] ++ i.words ++ [b!"]"]

def Line.words : Line → List Bytes
  | .print e => [b!"print"] ++ e.words
  | .ret e => [b!"return"] ++ optWords e
  | .assert e _ => [b!"assert"] ++ e.words
  | .decl st name none => staticWords st ++ [b!"let", name]
  | .decl st name (some e) => staticWords st ++ [b!"let", name, b!"="] ++ e.words
  | .assign lhs rhs => lhs.words ++ [b!"="] ++ rhs.words
  | .proto st name ps => staticWords st ++ [b!"proto", name, b!"("] ++ paramWords ps ++ [b!")"]
  | .expr e => e.words
  | .import rel path => [b!"import"] ++ (if rel then [b!"."] else []) ++ dots path

def Stmt.words : Stmt → List Bytes
  | .skip => []
  | .block ss => [b!"{"] ++ stmtsWords ss ++ [b!"}"]
  | .fn st name ps ss => staticWords st ++ [b!"fn", name, b!"("] ++ paramWords ps ++ [b!")", b!"{"] ++ stmtsWords ss ++ [b!"}"]
  | .cls _ name ps ss => [b!"class", name, b!"("] ++ paramWords ps ++ [b!")", b!"{"] ++ stmtsWords ss ++ [b!"}"]
  | .line l => l.words ++ [b!"\n"]

def stmtsWords : List Stmt → List Bytes
  | [] => []
  | s :: ss => s.words ++ stmtsWords ss

end

/-- The text of a script. -/
def scriptText (ss : List Stmt) : Bytes := spaced (stmtsWords ss)

/-- What can be an operand without parentheses. -/
def Expr.isAtom : Expr → Bool
  | .lambda .. | .un .. | .bin .. => false
  | _ => true

/-- Whether the text begins with `{`, which at some places begins a block. -/
def Expr.brace : Expr → Bool
  | .map _ => true
  | .call f _ => f.brace
  | .bin _ l _ => l.brace
  | .access e _ => e.brace
  | .index e _ => e.brace
  | _ => false

def Lit.proper : Lit → Bool
  | .num t => numOK t
  | .str s => strOK s
  | _ => true

mutual

/-- Expressions that can be written down: names are names, operands are in parentheses where necessary, and no block or lambda body is taken for a map
or the other way around (`{}` is a map). -/
def Expr.proper : Expr → Bool
  | .lit l => l.proper
  | .ident name => nameOK name
  | .lambda ps b => ps.all nameOK && b.proper
  | .vec es => exprsProper es
  | .map is => itemsProper is
  | .call f es => f.isAtom && f.proper && exprsProper es
  | .paren e => e.proper
  | .un _ e => e.isAtom && e.proper
  | .bin _ l r => l.isAtom && l.proper && r.isAtom && r.proper
  | .access e name => e.isAtom && e.proper && nameOK name
  | .index e i => e.isAtom && e.proper && i.proper

def exprsProper : List Expr → Bool
  | [] => true
  | e :: es => e.proper && exprsProper es

def itemProper : Expr × Expr → Bool
  | (k, v) => k.proper && v.proper

def itemsProper : List (Expr × Expr) → Bool
  | [] => true
  | i :: is => itemProper i && itemsProper is

def Body.proper : Body → Bool
  | .block ss => !ss.isEmpty && stmtsProper ss
  | .expr e => e.proper && !e.brace

def optProper : Option Expr → Bool
  | none => true
  | some e => e.proper

/-- The text that is kept for messages is the text of the expression. -/
def Lhs.proper : Lhs → Bool
  | .ident name => nameOK name
  | .access e name text => e.isAtom && e.proper && nameOK name && !e.brace && text == (spaced (e.words ++ [b!".", name])).drop 1
  | .index e i text => e.isAtom && e.proper && i.proper && !e.brace && text == (spaced (e.words ++ [b!"["] ++ i.words ++ [b!"]"])).drop 1

def Line.proper : Line → Bool
  | .print e => e.proper
  | .ret e => optProper e
  | .assert e text => e.proper && text == (spaced e.words).drop 1
  | .decl _ name e => nameOK name && optProper e
  | .assign lhs rhs => lhs.proper && rhs.proper
  | .proto _ name ps => nameOK name && ps.all nameOK
  | .expr e => e.proper && !e.brace
  | .import _ path => !path.isEmpty && path.all nameOK

/-- Classes cannot be static. -/
def Stmt.proper : Stmt → Bool
  | .skip => false
  | .block ss => !ss.isEmpty && stmtsProper ss
  | .fn _ name ps ss => nameOK name && ps.all nameOK && stmtsProper ss
  | .cls st name ps ss => !st && nameOK name && ps.all nameOK && stmtsProper ss
  | .line l => l.proper

def stmtsProper : List Stmt → Bool
  | [] => true
  | s :: ss => s.proper && stmtsProper ss

end

/-- The interpreter gets to see the ends of lines, except in blocks. -/
def withEnds : List Stmt → List Stmt
  | [] => []
  | .line l :: ss => .line l :: .skip :: withEnds ss
  | s :: ss => s :: withEnds ss

end Bob.Fl
