import Verif.Model.Base
/-!
# A terminal

Independent of bob: what a terminal makes of the bytes it is sent, as far as bold and the colour of text are concerned (ECMA-48, control
sequences `ESC [ parameters m`).  Other attributes and other kinds of control strings are ignored.
-/

namespace Bob

/-- How text looks. -/
structure Look where
  bold : Bool
  fg : Option Nat
deriving DecidableEq, Repr

def Look.normal : Look := { bold := false, fg := none }

/-- One parameter of a sequence that ends with `m`. -/
def Look.sgr (k : Look) (p : Nat) : Look :=
  if p = 0 then .normal
  else if p = 1 then { k with bold := true }
  else if p = 22 then { k with bold := false }
  else if 30 ≤ p ∧ p ≤ 37 then { k with fg := some (p - 30) }
  else if p = 39 then { k with fg := none }
  else k

/-- Where in a control sequence the terminal is: in none, after `ESC`, or after `ESC [` with the parameters so far. -/
inductive Mode where
  | ground
  | esc
  | csi (ps : List Nat) (cur : Nat)
deriving DecidableEq, Repr

structure Term where
  mode : Mode
  look : Look
deriving DecidableEq, Repr

def Term.normal : Term := { mode := .ground, look := .normal }

/-- One byte. -/
def Term.step (t : Term) (c : UInt8) : Term :=
  if c = 27 then { t with mode := .esc }
  else match t.mode with
    | .ground => t
    | .esc => if c = 91 then { t with mode := .csi [] 0 } else { t with mode := .ground }
    | .csi ps cur =>
      if 48 ≤ c ∧ c ≤ 57 then { t with mode := .csi ps (cur * 10 + (c.toNat - 48)) }
      else if c = 59 then { t with mode := .csi (ps ++ [cur]) 0 }
      else if c = 109 then { mode := .ground, look := (ps ++ [cur]).foldl Look.sgr t.look }
      else if 64 ≤ c ∧ c ≤ 126 then { t with mode := .ground }
      else t

/-- Many bytes. -/
def Term.feed (t : Term) (bs : Bytes) : Term := bs.foldl Term.step t

/-- What is seen: the bytes that are not part of control sequences, each with the look it has. -/
def Term.screen : Term → Bytes → List (UInt8 × Look)
  | _, [] => []
  | t, c :: cs => (if c ≠ 27 ∧ t.mode = .ground then [(c, t.look)] else []) ++ (t.step c).screen cs

/-- Text that leaves a normal terminal normal. -/
def Tidy (bs : Bytes) : Prop := Term.normal.feed bs = .normal

end Bob
