import Verif.Spec.Flamingo
import Mathlib.Data.List.Perm.Subperm
/-!
# Values as trees

What a value means, without addresses: the tree a script writer has in mind.  Functions and instances are left out.
-/

namespace Bob.Fl

/-- Values. -/
inductive Val where
  | none
  | bool (b : Bool)
  | int (i : Int)
  | str (b : Bytes)
  | vec (vs : List Val)
  | map (items : List (Val × Val))

def Val.kind : Val → Kind
  | .none => .none
  | .bool _ => .bool
  | .int _ => .int
  | .str _ => .str
  | .vec _ => .vec
  | .map _ => .map

mutual

/-- The value at address `c` is the tree: all of it is in memory and not released. -/
def St.Shows (s : St) : Val → Nat → Prop
  | .none, c => s.Holds c .none
  | .bool b, c => s.Holds c (.bool b)
  | .int i, c => s.Holds c (.int i)
  | .str b, c => ∃ buf full, s.Holds c (.str buf b.length) ∧ s.bufs[buf]? = some (some full) ∧ b <+: full
  | .vec vs, c => ∃ es, s.Holds c (.vec es) ∧ s.ShowsAll vs es
  | .map items, c => ∃ es, s.Holds c (.map es) ∧ s.ShowsItems items es

def St.ShowsAll (s : St) : List Val → List Nat → Prop
  | [], [] => True
  | v :: vs, e :: es => s.Shows v e ∧ s.ShowsAll vs es
  | _, _ => False

def St.ShowsItems (s : St) : List (Val × Val) → List (Nat × Nat) → Prop
  | [], [] => True
  | (k, v) :: items, e :: es => s.Shows k e.1 ∧ s.Shows v e.2 ∧ s.ShowsItems items es
  | _, _ => False

end

mutual

/-- The same structure, up to the order of the items of maps. -/
inductive Val.Same : Val → Val → Prop
  | none : Same .none .none
  | bool (b : Bool) : Same (.bool b) (.bool b)
  | int (i : Int) : Same (.int i) (.int i)
  | str (b : Bytes) : Same (.str b) (.str b)
  | vec {vs us : List Val} : Sames vs us → Same (.vec vs) (.vec us)
  | map {items others items' : List (Val × Val)} : SameItems items items' → items'.Perm others → Same (.map items) (.map others)

inductive Val.Sames : List Val → List Val → Prop
  | nil : Sames [] []
  | cons {v u : Val} {vs us : List Val} : Same v u → Sames vs us → Sames (v :: vs) (u :: us)

inductive Val.SameItems : List (Val × Val) → List (Val × Val) → Prop
  | nil : SameItems [] []
  | cons {k v k' v' : Val} {items others : List (Val × Val)} :
      Same k k' → Same v v' → SameItems items others → SameItems ((k, v) :: items) ((k', v') :: others)

end

mutual

/-- No map in the tree has two keys that are the same. -/
def Val.Proper : Val → Prop
  | .vec vs => AllProper vs
  | .map items => ItemsProper items ∧ items.Pairwise fun a b => ¬ Val.Same a.1 b.1
  | _ => True

def Val.AllProper : List Val → Prop
  | [] => True
  | v :: vs => v.Proper ∧ AllProper vs

def Val.ItemsProper : List (Val × Val) → Prop
  | [] => True
  | (k, v) :: items => k.Proper ∧ v.Proper ∧ ItemsProper items

end

mutual

/-- How deep containers are nested. -/
def Val.depth : Val → Nat
  | .vec vs => allDepth vs + 1
  | .map items => itemsDepth items + 1
  | _ => 0

def Val.allDepth : List Val → Nat
  | [] => 0
  | v :: vs => max v.depth (allDepth vs)

def Val.itemsDepth : List (Val × Val) → Nat
  | [] => 0
  | (k, v) :: items => max (max k.depth v.depth) (itemsDepth items)

end

mutual

/-- The text of a value inside another one.  Strings end at their first NUL and nothing in them is escaped. -/
def Val.text : Val → Bytes
  | .none => b!"<none>"
  | .bool true => b!"true"
  | .bool false => b!"false"
  | .int i => if i < 0 then b!"-" ++ dec i.natAbs else dec i.natAbs
  | .str b => b!"\"" ++ cstr b ++ b!"\""
  | .vec vs => b!"[" ++ (List.intersperse b!", " (texts vs)).flatten ++ b!"]"
  | .map items => b!"{" ++ (List.intersperse b!", " (itemTexts items)).flatten ++ b!"}"

def Val.texts : List Val → List Bytes
  | [] => []
  | v :: vs => v.text :: texts vs

def Val.itemTexts : List (Val × Val) → List Bytes
  | [] => []
  | (k, v) :: items => (k.text ++ b!": " ++ v.text) :: itemTexts items

end

/-- What `print` writes for a value: its text, without the quotes if it is a string. -/
def Val.line : Val → Bytes
  | .str b => cstr b
  | v => v.text

end Bob.Fl
