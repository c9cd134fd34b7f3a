import Verif.Model.Parser.Driver
/-!
# Nodes

What the interpreter gets to see of the tree (`src/flamingo/runtime/node.c`): hidden nodes are replaced by their children.  No production of this parser has aliases
(`ts_alias_sequences`, `src/flamingo/parser.c`), and a node is its subtree; where it begins in the text is told by what it is made of.
-/

namespace Bob.Parse

/-- `ts_node__is_relevant`, `src/flamingo/runtime/node.c:103-115`. -/
def relevant (named : Bool) (s : Nat) : Bool :=
  let m := symbolMeta.getD s (false, false)
  m.1 && (!named || m.2)

mutual
/-- What `ts_node_child` (or `ts_node_named_child`) gives for the numbers below `ts_node_child_count` (or `ts_node_named_child_count`),
`src/flamingo/runtime/node.c:117-170`. -/
def Tree.kids (named : Bool) : Tree → List Tree
  | .leaf .. => []
  | .node _ _ cs _ => kidsOf named cs
def kidsOf (named : Bool) : List Tree → List Tree
  | [] => []
  | c :: cs => bif relevant named c.sym then c :: kidsOf named cs else c.kids named ++ kidsOf named cs
end

/-- `ts_node_type`. -/
def Tree.type (t : Tree) : Bytes := symbolNames.getD t.sym []

mutual
/-- The blanks before a tree are those before its first part, `src/flamingo/runtime/subtree.c:405-412`. -/
def Tree.padding : Tree → Bytes
  | .leaf _ pad _ _ => pad
  | .node _ _ cs _ => paddingOf cs
def paddingOf : List Tree → Bytes
  | [] => []
  | c :: _ => c.padding
end

mutual
/-- All of the text of a tree. -/
def Tree.whole : Tree → Bytes
  | .leaf _ pad text _ => pad ++ text
  | .node _ _ cs _ => wholeOf cs
def wholeOf : List Tree → Bytes
  | [] => []
  | c :: cs => c.whole ++ wholeOf cs
end

/-- `flamingo->src + ts_node_start_byte(t)` up to `ts_node_end_byte(t)`. -/
def Tree.text (t : Tree) : Bytes := t.whole.drop t.padding.length

/-- `ts_node_child_by_field_name`, `src/flamingo/runtime/node.c:547-640`: fields count the parts that are not comments; a hidden part stands for the first node in it.  No
field of this parser is inherited, and none belongs to two parts. -/
def Tree.field (name : Bytes) : Tree → Option Tree
  | .leaf .. => none
  | .node _ pid cs _ =>
    match (fieldMap.lookup pid).bind fun fs => fs.lookup name with
    | none => none
    | some (i, _) =>
      match (cs.filter (!·.extra))[i]? with
      | none => none
      | some c => if relevant false c.sym then some c else (c.kids false).head?

end Bob.Parse
