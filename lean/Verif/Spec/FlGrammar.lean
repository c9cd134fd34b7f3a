import Verif.Model.Parser.Driver
/-!
# Grammar of build scripts

What a syntactically correct script is, as a grammar: each nonterminal with the ways to make it up.  A way lists for each place the symbols that may be
there.  The repository has no grammar, only the tables generated from one; this one was read off them and is a specification, with which the tables are shown to agree (`C93`).
-/

namespace Bob.Parse

/-- One way to make up `lhs`; `pid` is its number, by which the fields of its parts are found (`fieldMap`). -/
structure Rule where
  lhs : Nat
  pid : Nat
  rhs : List (List Nat)
deriving DecidableEq, Repr

/-! Tokens. -/

namespace T
abbrev eof : Nat := 0
abbrev semi : Nat := 1
abbrev newline : Nat := 2
abbrev comment : Nat := 3
abbrev hashes : Nat := 4
abbrev docCommentContent : Nat := 5
abbrev lbrace : Nat := 6
abbrev rbrace : Nat := 7
abbrev import_ : Nat := 8
abbrev dot : Nat := 9
abbrev static_ : Nat := 10
abbrev pure_ : Nat := 11
abbrev proto : Nat := 12
abbrev lparen : Nat := 13
abbrev rparen : Nat := 14
abbrev arrow : Nat := 15
abbrev fn : Nat := 16
abbrev bar : Nat := 17
abbrev class_ : Nat := 18
abbrev print : Nat := 19
abbrev assert_ : Nat := 20
abbrev return_ : Nat := 21
abbrev vec : Nat := 22
abbrev map : Nat := 23
abbrev lt : Nat := 24
abbrev gt : Nat := 25
abbrev comma : Nat := 26
abbrev colon : Nat := 27
abbrev let_ : Nat := 28
abbrev assign : Nat := 29
abbrev minus : Nat := 30
abbrev not_ : Nat := 31
abbrev power : Nat := 32
abbrev times : Nat := 33
abbrev over : Nat := 34
abbrev mod : Nat := 35
abbrev plus : Nat := 36
abbrev eq : Nat := 37
abbrev ne : Nat := 38
abbrev le : Nat := 39
abbrev ge : Nat := 40
abbrev and_ : Nat := 41
abbrev or_ : Nat := 42
abbrev xor : Nat := 43
abbrev lbracket : Nat := 44
abbrev rbracket : Nat := 45
abbrev concat : Nat := 46
abbrev same : Nat := 47
abbrev any : Nat := 48
abbrev int : Nat := 49
abbrev str : Nat := 50
abbrev bool : Nat := 51
abbrev void : Nat := 52
abbrev word : Nat := 53
abbrev number : Nat := 54
abbrev string : Nat := 55
abbrev true_ : Nat := 56
abbrev false_ : Nat := 57
abbrev error_ : Nat := 58
abbrev none_ : Nat := 59
end T

/-! Nonterminals. -/

namespace N
abbrev sourceFile : Nat := 60
abbrev statementList : Nat := 61
abbrev docComment : Nat := 62
abbrev lineInsensitiveStatement : Nat := 63
abbrev statement : Nat := 64
abbrev block : Nat := 65
abbrev import_ : Nat := 66
abbrev importPath : Nat := 67
abbrev importRelativeDot : Nat := 68
abbrev qualifier : Nat := 69
abbrev qualifierList : Nat := 70
abbrev proto : Nat := 71
abbrev functionDeclaration : Nat := 72
abbrev lambda : Nat := 73
abbrev classDeclaration : Nat := 74
abbrev print : Nat := 75
abbrev assert_ : Nat := 76
abbrev return_ : Nat := 77
abbrev expression : Nat := 78
abbrev parenthesizedExpression : Nat := 79
abbrev access : Nat := 80
abbrev call : Nat := 81
abbrev typeName : Nat := 82
abbrev type : Nat := 83
abbrev param : Nat := 84
abbrev paramList : Nat := 85
abbrev argList : Nat := 86
abbrev literal : Nat := 87
abbrev varDecl : Nat := 88
abbrev assignment : Nat := 89
abbrev unaryOperator : Nat := 90
abbrev unaryExpression : Nat := 91
abbrev multiplicativeOperator : Nat := 92
abbrev additiveOperator : Nat := 93
abbrev comparativeOperator : Nat := 94
abbrev orOperator : Nat := 95
abbrev binaryExpression : Nat := 96
abbrev vec : Nat := 97
abbrev index : Nat := 98
abbrev slice : Nat := 99
abbrev mapItem : Nat := 100
abbrev map : Nat := 101
abbrev overloadableOperator : Nat := 102
abbrev primitiveType : Nat := 103
abbrev identifier : Nat := 104
abbrev bool : Nat := 105
abbrev qualifierListRepeat1 : Nat := 106
abbrev paramListRepeat1 : Nat := 107
abbrev argListRepeat1 : Nat := 108
abbrev mapRepeat1 : Nat := 109
end N

/-- The rules. -/
def grammar : List Rule := [
  ⟨N.sourceFile, 0, []⟩,
  ⟨N.sourceFile, 0, [[N.statementList]]⟩,
  ⟨N.statementList, 0, [[N.statementList], [N.statementList]]⟩,
  ⟨N.statementList, 0, [[N.lineInsensitiveStatement]]⟩,
  ⟨N.statementList, 0, [[N.statement], [T.semi, T.newline, N.lineInsensitiveStatement]]⟩,
  ⟨N.docComment, 0, [[T.hashes], [T.docCommentContent]]⟩,
  ⟨N.lineInsensitiveStatement, 0, [[N.block, N.functionDeclaration, N.classDeclaration]]⟩,
  ⟨N.statement, 0, [[N.import_, N.proto, N.print, N.assert_, N.return_, N.expression, N.varDecl, N.assignment]]⟩,
  ⟨N.block, 0, [[T.lbrace], [T.rbrace]]⟩,
  ⟨N.block, 9, [[T.lbrace], [N.statementList, N.statement], [T.rbrace]]⟩,
  ⟨N.import_, 1, [[T.import_], [N.importPath]]⟩,
  ⟨N.import_, 10, [[T.import_], [N.importRelativeDot], [N.importPath]]⟩,
  ⟨N.importPath, 2, [[N.identifier]]⟩,
  ⟨N.importPath, 20, [[N.identifier], [T.dot], [N.importPath]]⟩,
  ⟨N.importRelativeDot, 0, [[T.dot]]⟩,
  ⟨N.qualifier, 0, [[T.static_, T.pure_]]⟩,
  ⟨N.qualifierList, 0, [[N.qualifierListRepeat1]]⟩,
  ⟨N.proto, 3, [[T.proto], [N.overloadableOperator, N.identifier]]⟩,
  ⟨N.proto, 3, [[T.proto], [N.overloadableOperator, N.identifier], [T.lparen], [T.rparen]]⟩,
  ⟨N.proto, 14, [[N.qualifierList], [T.proto], [N.overloadableOperator, N.identifier]]⟩,
  ⟨N.proto, 14, [[N.qualifierList], [T.proto], [N.overloadableOperator, N.identifier], [T.lparen], [T.rparen]]⟩,
  ⟨N.proto, 21, [[T.proto], [N.overloadableOperator, N.identifier], [T.arrow], [N.type]]⟩,
  ⟨N.proto, 30, [[T.proto], [N.overloadableOperator, N.identifier], [T.lparen], [N.paramList], [T.rparen]]⟩,
  ⟨N.proto, 33, [[N.qualifierList], [T.proto], [N.overloadableOperator, N.identifier], [T.arrow], [N.type]]⟩,
  ⟨N.proto, 38, [[T.proto], [N.overloadableOperator, N.identifier], [T.lparen], [T.rparen], [T.arrow], [N.type]]⟩,
  ⟨N.proto, 41, [[N.qualifierList], [T.proto], [N.overloadableOperator, N.identifier], [T.lparen], [N.paramList], [T.rparen]]⟩,
  ⟨N.proto, 45, [[T.proto], [N.overloadableOperator, N.identifier], [T.lparen], [N.paramList], [T.rparen], [T.arrow], [N.type]]⟩,
  ⟨N.proto, 47, [[N.qualifierList], [T.proto], [N.overloadableOperator, N.identifier], [T.lparen], [T.rparen], [T.arrow], [N.type]]⟩,
  ⟨N.proto, 51, [[N.qualifierList], [T.proto], [N.overloadableOperator, N.identifier], [T.lparen], [N.paramList], [T.rparen], [T.arrow], [N.type]]⟩,
  ⟨N.functionDeclaration, 12, [[T.fn], [N.overloadableOperator, N.identifier], [N.block]]⟩,
  ⟨N.functionDeclaration, 26, [[N.qualifierList], [T.fn], [N.overloadableOperator, N.identifier], [N.block]]⟩,
  ⟨N.functionDeclaration, 31, [[T.fn], [N.overloadableOperator, N.identifier], [T.lparen], [T.rparen], [N.block]]⟩,
  ⟨N.functionDeclaration, 32, [[T.fn], [N.overloadableOperator, N.identifier], [T.arrow], [N.type], [N.block]]⟩,
  ⟨N.functionDeclaration, 39, [[T.fn], [N.overloadableOperator, N.identifier], [T.lparen], [N.paramList], [T.rparen], [N.block]]⟩,
  ⟨N.functionDeclaration, 42, [[N.qualifierList], [T.fn], [N.overloadableOperator, N.identifier], [T.lparen], [T.rparen], [N.block]]⟩,
  ⟨N.functionDeclaration, 43, [[N.qualifierList], [T.fn], [N.overloadableOperator, N.identifier], [T.arrow], [N.type], [N.block]]⟩,
  ⟨N.functionDeclaration, 46, [[T.fn], [N.overloadableOperator, N.identifier], [T.lparen], [T.rparen], [T.arrow], [N.type], [N.block]]⟩,
  ⟨N.functionDeclaration, 48, [[N.qualifierList], [T.fn], [N.overloadableOperator, N.identifier], [T.lparen], [N.paramList], [T.rparen], [N.block]]⟩,
  ⟨N.functionDeclaration, 50, [[T.fn], [N.overloadableOperator, N.identifier], [T.lparen], [N.paramList], [T.rparen], [T.arrow], [N.type], [N.block]]⟩,
  ⟨N.functionDeclaration, 52, [[N.qualifierList], [T.fn], [N.overloadableOperator, N.identifier], [T.lparen], [T.rparen], [T.arrow], [N.type], [N.block]]⟩,
  ⟨N.functionDeclaration, 53, [[N.qualifierList], [T.fn], [N.overloadableOperator, N.identifier], [T.lparen], [N.paramList], [T.rparen], [T.arrow], [N.type], [N.block]]⟩,
  ⟨N.lambda, 13, [[T.bar], [T.bar], [N.block, N.expression]]⟩,
  ⟨N.lambda, 22, [[T.bar], [N.paramList], [T.bar], [N.block, N.expression]]⟩,
  ⟨N.classDeclaration, 12, [[T.class_], [N.identifier], [N.block]]⟩,
  ⟨N.classDeclaration, 31, [[T.class_], [N.identifier], [T.lparen], [T.rparen], [N.block]]⟩,
  ⟨N.classDeclaration, 39, [[T.class_], [N.identifier], [T.lparen], [N.paramList], [T.rparen], [N.block]]⟩,
  ⟨N.print, 5, [[T.print], [N.expression]]⟩,
  ⟨N.assert_, 6, [[T.assert_], [N.expression]]⟩,
  ⟨N.return_, 0, [[T.return_]]⟩,
  ⟨N.return_, 7, [[T.return_], [N.expression]]⟩,
  ⟨N.expression, 0, [[N.lambda, N.parenthesizedExpression, N.access, N.call, N.literal, N.unaryExpression, N.binaryExpression, N.vec, N.index, N.slice, N.map, N.identifier]]⟩,
  ⟨N.parenthesizedExpression, 11, [[T.lparen], [N.expression], [T.rparen]]⟩,
  ⟨N.access, 15, [[N.expression], [T.dot], [N.identifier]]⟩,
  ⟨N.call, 16, [[N.expression], [T.lparen], [T.rparen]]⟩,
  ⟨N.call, 27, [[N.expression], [T.lparen], [N.argList], [T.rparen]]⟩,
  ⟨N.typeName, 0, [[T.vec, T.map, N.identifier]]⟩,
  ⟨N.type, 0, [[T.vec], [T.lt], [N.type], [T.gt]]⟩,
  ⟨N.type, 0, [[T.map], [T.lt], [N.type], [T.comma], [N.type], [T.gt]]⟩,
  ⟨N.type, 0, [[N.typeName]]⟩,
  ⟨N.param, 4, [[N.identifier]]⟩,
  ⟨N.param, 23, [[N.identifier], [T.colon], [N.type]]⟩,
  ⟨N.paramList, 0, [[N.param]]⟩,
  ⟨N.paramList, 0, [[N.param], [T.comma]]⟩,
  ⟨N.paramList, 0, [[N.param], [N.paramListRepeat1]]⟩,
  ⟨N.paramList, 0, [[N.param], [N.paramListRepeat1], [T.comma]]⟩,
  ⟨N.argList, 0, [[N.expression]]⟩,
  ⟨N.argList, 0, [[N.expression], [T.comma]]⟩,
  ⟨N.argList, 0, [[N.expression], [N.argListRepeat1]]⟩,
  ⟨N.argList, 0, [[N.expression], [N.argListRepeat1], [T.comma]]⟩,
  ⟨N.literal, 0, [[T.number, T.string, T.none_, N.bool]]⟩,
  ⟨N.varDecl, 3, [[T.let_], [N.identifier]]⟩,
  ⟨N.varDecl, 14, [[N.qualifierList], [T.let_], [N.identifier]]⟩,
  ⟨N.varDecl, 24, [[T.let_], [N.identifier], [T.colon], [N.type]]⟩,
  ⟨N.varDecl, 25, [[T.let_], [N.identifier], [T.assign], [N.expression]]⟩,
  ⟨N.varDecl, 34, [[N.qualifierList], [T.let_], [N.identifier], [T.colon], [N.type]]⟩,
  ⟨N.varDecl, 35, [[N.qualifierList], [T.let_], [N.identifier], [T.assign], [N.expression]]⟩,
  ⟨N.varDecl, 40, [[T.let_], [N.identifier], [T.colon], [N.type], [T.assign], [N.expression]]⟩,
  ⟨N.varDecl, 49, [[N.qualifierList], [T.let_], [N.identifier], [T.colon], [N.type], [T.assign], [N.expression]]⟩,
  ⟨N.assignment, 18, [[N.access, N.index, N.identifier], [T.assign], [N.expression]]⟩,
  ⟨N.unaryOperator, 0, [[T.minus, T.not_]]⟩,
  ⟨N.unaryExpression, 8, [[N.unaryOperator], [N.expression]]⟩,
  ⟨N.multiplicativeOperator, 0, [[T.times, T.over, T.mod]]⟩,
  ⟨N.additiveOperator, 0, [[T.minus, T.plus]]⟩,
  ⟨N.comparativeOperator, 0, [[T.lt, T.gt, T.eq, T.ne, T.le, T.ge]]⟩,
  ⟨N.orOperator, 0, [[T.or_, T.xor]]⟩,
  ⟨N.binaryExpression, 17, [[N.expression], [T.power, T.and_, N.multiplicativeOperator, N.additiveOperator, N.comparativeOperator, N.orOperator], [N.expression]]⟩,
  ⟨N.vec, 0, [[T.lbracket], [T.rbracket]]⟩,
  ⟨N.vec, 0, [[T.lbracket], [N.expression], [T.comma, N.argListRepeat1], [T.rbracket]]⟩,
  ⟨N.vec, 0, [[T.lbracket], [N.expression], [T.rbracket]]⟩,
  ⟨N.vec, 0, [[T.lbracket], [N.expression], [N.argListRepeat1], [T.comma], [T.rbracket]]⟩,
  ⟨N.index, 29, [[N.expression], [T.lbracket], [N.expression], [T.rbracket]]⟩,
  ⟨N.slice, 28, [[N.expression], [T.lbracket], [T.colon], [T.rbracket]]⟩,
  ⟨N.slice, 36, [[N.expression], [T.lbracket], [T.colon], [N.expression], [T.rbracket]]⟩,
  ⟨N.slice, 37, [[N.expression], [T.lbracket], [N.expression], [T.colon], [T.rbracket]]⟩,
  ⟨N.slice, 44, [[N.expression], [T.lbracket], [N.expression], [T.colon], [N.expression], [T.rbracket]]⟩,
  ⟨N.mapItem, 19, [[N.expression], [T.colon], [N.expression]]⟩,
  ⟨N.map, 0, [[T.lbrace], [T.rbrace]]⟩,
  ⟨N.map, 0, [[T.lbrace], [N.mapItem], [T.rbrace]]⟩,
  ⟨N.map, 0, [[T.lbrace], [N.mapItem], [T.comma, N.mapRepeat1], [T.rbrace]]⟩,
  ⟨N.map, 0, [[T.lbrace], [N.mapItem], [N.mapRepeat1], [T.comma], [T.rbrace]]⟩,
  ⟨N.overloadableOperator, 0, [[T.concat, T.same]]⟩,
  ⟨N.primitiveType, 0, [[T.any, T.int, T.str, T.bool, T.void]]⟩,
  ⟨N.identifier, 0, [[T.word, N.primitiveType]]⟩,
  ⟨N.bool, 0, [[T.true_, T.false_, T.error_]]⟩,
  ⟨N.qualifierListRepeat1, 0, [[N.qualifier]]⟩,
  ⟨N.qualifierListRepeat1, 0, [[N.qualifierListRepeat1], [N.qualifierListRepeat1]]⟩,
  ⟨N.paramListRepeat1, 0, [[T.comma], [N.param]]⟩,
  ⟨N.paramListRepeat1, 0, [[N.paramListRepeat1], [N.paramListRepeat1]]⟩,
  ⟨N.argListRepeat1, 0, [[T.comma], [N.expression]]⟩,
  ⟨N.argListRepeat1, 0, [[N.argListRepeat1], [N.argListRepeat1]]⟩,
  ⟨N.mapRepeat1, 0, [[T.comma], [N.mapItem]]⟩,
  ⟨N.mapRepeat1, 0, [[N.mapRepeat1], [N.mapRepeat1]]⟩]

/-- Symbols, one for each place. -/
def Fills : List Nat → List (List Nat) → Prop
  | [], [] => True
  | x :: xs, c :: cs => x ∈ c ∧ Fills xs cs
  | _, _ => False

/-- The symbols of those that are not comments. -/
def solid (cs : List Tree) : List Nat := (cs.filter (!·.extra)).map Tree.sym

mutual
/-- A tree that follows the grammar.  Comments may be between the parts of a node, not before or after them. -/
inductive Derives : Tree → Prop where
  | tok {s : Nat} {pad text : Bytes} : s < tokenCount → Derives (.leaf s pad text false)
  | rule {r : Rule} {cs : List Tree} : r ∈ grammar → AllDerive cs → Fills (solid cs) r.rhs →
      (∀ c ∈ cs.head?, c.extra = false) → (∀ c ∈ cs.getLast?, c.extra = false) → Derives (.node r.lhs r.pid cs false)
/-- Comments: `#` comments are tokens, `##` comments have two parts. -/
inductive Comment : Tree → Prop where
  | hash {pad text : Bytes} : Comment (.leaf T.comment pad text true)
  | doc {cs : List Tree} : AllDerive cs → Fills (solid cs) [[T.hashes], [T.docCommentContent]] → Comment (.node N.docComment 0 cs true)
inductive AllDerive : List Tree → Prop where
  | nil : AllDerive []
  | cons {c : Tree} {cs : List Tree} : c.extra = false → Derives c → AllDerive cs → AllDerive (c :: cs)
  | comment {c : Tree} {cs : List Tree} : Comment c → AllDerive cs → AllDerive (c :: cs)
end

/-- The tree of a whole script: a `source_file` with comments before and after it, then the end of the text. -/
inductive WholeTree : Tree → Prop where
  | mk {r : Rule} {cs : List Tree} {pad text : Bytes} : r ∈ grammar → r.lhs = N.sourceFile → AllDerive cs → Fills (solid cs) r.rhs →
      WholeTree (.node r.lhs r.pid (cs ++ [.leaf T.eof pad text true]) false)

mutual
/-- The text a tree stands for, with the blanks. -/
def Tree.yield : Tree → Bytes
  | .leaf _ pad text _ => pad ++ text
  | .node _ _ cs _ => yields cs
def yields : List Tree → Bytes
  | [] => []
  | c :: cs => c.yield ++ yields cs
end

end Bob.Parse
