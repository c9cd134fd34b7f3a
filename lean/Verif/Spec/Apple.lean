import Verif.Model.Apple
import Verif.Props.Install
/-!
# What installing libraries on macOS should give
-/

namespace Bob

/-- The file at that place is what `make` gives for the content of the source and the id `@rpath/…`, the place below the prefix. -/
def Identified (make : Bytes → Bytes → Bytes) (t : Tree) (x : Ent) : Prop :=
  ∃ c m m', t x.src = some (.file c m) ∧ t x.dst = some (.file (make c (b!"@rpath/" ++ x.val)) m')

/-- A library is linked and installed again and again, and the tool always works (it does what `make` says).  Linking takes place later than all before it. -/
inductive LibHist (make : Bytes → Bytes → Bytes) (e : InstEnv) (x : Ent) (b : Bool) : Tree → Nat → Prop where
  | first {t : Tree} {c : Bytes} {m : Nat} : t.Wf → t x.src = some (.file c m) → t x.dst = none → LibHist make e x b t m
  | link {t : Tree} {now later : Nat} {c : Bytes} : LibHist make e x b t now → now < later → LibHist make e x b (t.set x.src (.file c later)) later
  | already {t t' : Tree} {now n1 n2 : Nat} {warned : Bool} : LibHist make e x b t now → now ≤ n1 → n1 ≤ n2 →
      installApple (fun c i => some (make c i)) e x.key x.val b n1 n2 t = (.already t', warned) → LibHist make e x b t' n2
  | copied {t t' : Tree} {now n1 n2 : Nat} {warned : Bool} : LibHist make e x b t now → now ≤ n1 → n1 ≤ n2 →
      installApple (fun c i => some (make c i)) e x.key x.val b n1 n2 t = (.copied t', warned) → LibHist make e x b t' n2

end Bob
