import Verif.Spec.Flamingo
/-!
# Going through a vector

What `map` and `where` are to do, one element after the other, and what copies are.
-/

namespace Bob.Fl

/-- Calling `f` with the one argument `e` ends in `o` (however deep the recursion has to go). -/
def Calls1 (w : World) (f e : Nat) (s : St) (o : Out (Option Nat)) : Prop := o ≠ .timeout ∧ ∃ n, (interp w n).call f none .keep [e] s = o

/-- Evaluating an expression for its value ends in `o`. -/
def Evals (w : World) (e : Expr) (s : St) (o : Out Res) : Prop := o ≠ .timeout ∧ ∃ n, (interp w n).eval .keep e s = o

/-- `f` is called on the elements at positions `i`, `i + 1`, … `i + n - 1` of the vector `self`, each once and in this order; `cs` are the results in
order.  (Elements are looked up just before the call, as a call may change the vector.) -/
inductive MapRun (w : World) (self f : Nat) : Nat → Nat → St → List Nat → St → Prop
  | done {i : Nat} {s : St} : MapRun w self f i 0 s [] s
  | next {i n e c : Nat} {es cs : List Nat} {s s1 s2 : St} : s.Holds self (.vec es) → es[i]? = some e → Calls1 w f e s (.ok (some c) s1) →
      MapRun w self f (i + 1) n s1 cs s2 → MapRun w self f i (n + 1) s (c :: cs) s2

/-- `c` is a new value which is like `e`; a string has its own memory, with the bytes before the first NUL, and so has the name.  Nothing else
changes. -/
structure Copied (s : St) (e c : Nat) (s' : St) : Prop where
  fresh : c = s.cells.length
  copy : ∃ (x : Cell) (d : Data) (extra : List (Option Bytes)), s.cells[e]? = some x ∧ s.NameKept x ∧
    s' = { s with cells := s.cells ++ [{ x with data := d, refs := 1, keyIn := none }], bufs := s.bufs ++ extra } ∧
    ((x.data.kind ≠ .str ∧ d = x.data ∧ extra = []) ∨
      ∃ buf size full, x.data = .str buf size ∧ s.bufs[buf]? = some (some full) ∧ (size ≤ full.length ∨ NUL ∈ full) ∧
        d = .str s.bufs.length size ∧ extra = [some (cstr (full.take size) ++ [NUL])])

/-- `f` is called on the elements of `self` from position `i` on, each once and in order, giving booleans; `cs` are copies of those for which it
gave true, in order. -/
inductive WhereRun (w : World) (self f : Nat) : Nat → St → List Nat → St → Prop
  | done {i : Nat} {es : List Nat} {s : St} : s.Holds self (.vec es) → es.length ≤ i → WhereRun w self f i s [] s
  | take {i e k c : Nat} {es cs : List Nat} {s s1 s2 s3 : St} : s.Holds self (.vec es) → es[i]? = some e → Calls1 w f e s (.ok (some k) s1) →
      s1.Holds k (.bool true) → Copied s1 e c s2 → WhereRun w self f (i + 1) s2 cs s3 → WhereRun w self f i s (c :: cs) s3
  | drop {i e k : Nat} {es cs : List Nat} {s s1 s3 : St} : s.Holds self (.vec es) → es[i]? = some e → Calls1 w f e s (.ok (some k) s1) →
      s1.Holds k (.bool false) → WhereRun w self f (i + 1) s1 cs s3 → WhereRun w self f i s cs s3

/-- The beginning of such a run, up to (not including) position `j`, with no result yet. -/
inductive WherePart (w : World) (self f : Nat) : Nat → St → Nat → St → Prop
  | here {i : Nat} {s : St} : WherePart w self f i s i s
  | take {i j e k c : Nat} {es : List Nat} {s s1 s2 s3 : St} : s.Holds self (.vec es) → es[i]? = some e → Calls1 w f e s (.ok (some k) s1) →
      s1.Holds k (.bool true) → Copied s1 e c s2 → WherePart w self f (i + 1) s2 j s3 → WherePart w self f i s j s3
  | drop {i j e k : Nat} {es : List Nat} {s s1 s3 : St} : s.Holds self (.vec es) → es[i]? = some e → Calls1 w f e s (.ok (some k) s1) →
      s1.Holds k (.bool false) → WherePart w self f (i + 1) s1 j s3 → WherePart w self f i s j s3

end Bob.Fl
