import Verif.Props.FlCalls
/-!
# Assignment and kinds (C44)
-/

namespace Bob.Fl

/-- **C44 fails** for variables: the check at `src/flamingo/grammar/assignment.h:100-103` compares the old value with itself. -/
theorem C44_variable_false : (runScript emptyWorld 12 [] [sLet b!"a" (eNum b!"1"), sSet b!"a" (eStr b!"x"), sPrint (eVar b!"a")]).printed = some [b!"x"] := by
  decide +kernel

/-- **C44 fails** for elements too if the element is set to none in between. -/
theorem C44_through_none_false : (runScript emptyWorld 12 [] [sLet b!"v" (.vec [eNum b!"1"]),
    .line (.assign (.index (eVar b!"v") (eNum b!"0") b!"v[0]") (.lit .none)),
    .line (.assign (.index (eVar b!"v") (eNum b!"0") b!"v[0]") (eStr b!"x")), sPrint (eVar b!"v")]).printed = some [b!"[\"x\"]"] := by
  decide +kernel

theorem exec_assign (w : World) (n : Nat) {s : St} (hr : s.eng.rv = .none) (lhs : Lhs) (rhs : Expr) :
    (interp w (n + 1)).exec (.line (.assign lhs rhs)) s = assign (interp w n) lhs rhs s := by
  show (do if ← returning then pure () else execLine w (interp w n) (.assign lhs rhs) : M Unit) s = _
  rw [bind_of_ok (not_returning hr)]
  rfl

/-- The state after an element was overwritten. -/
def St.put (s : St) (c : Nat) (y : Cell) : St := { s with cells := s.cells.set c y }

/-- **C44**, the part which holds.  Assigning to an element of a vector or map a value of another kind is refused, unless one of the two is none; and that is the only
reason to refuse it.  The element has been overwritten by then. -/
theorem C44_element_partial (w : World) (n : Nat) {s s1 s2 : St} {e ie rhs : Expr} {text : Bytes} {v r : Nat} {d : Data} {y : Cell} (hrv : s.eng.rv = .none)
    (hi : (interp w (n + 1)).eval .keep (.index e ie) s = .ok { val := some v } s1) (hv : s1.Holds v d)
    (hr : (interp w n).value rhs s1 = .ok r s2) (hy : s2.cells[r]? = some y) (hlt : v < s2.cells.length) :
    ((d.kind = y.data.kind ∨ d.kind = .none ∨ y.data.kind = .none) → (interp w (n + 1)).exec (.line (.assign (.index e ie text) rhs)) s = .ok () (s2.put v y)) ∧
    ((d.kind ≠ y.data.kind ∧ d.kind ≠ .none ∧ y.data.kind ≠ .none) →
      Refused (b!"cannot assign " ++ typeStr y.data ++ b!" to '" ++ cstr text ++ b!"' (" ++ typeStr d ++ b!")") (s2.put v y)
        ((interp w (n + 1)).exec (.line (.assign (.index e ie text) rhs)) s)) := by
  rw [exec_assign w n hrv]
  have hi' : evalIndex (interp w n) .keep e ie s = .ok (some v) s1 := by
    have hi : (evalIndex (interp w n) .keep e ie >>= fun v => pure { val := v } : M Res) s = .ok { val := some v } s1 := hi
    obtain ⟨a, s3, h1, h2⟩ := (bind_ok_iff ..).1 hi
    cases h2
    exact h1
  obtain ⟨x, hx, rfl⟩ := getCell_holds hv
  have hput : (getCell v) (s2.put v y) = .ok y (s2.put v y) := (getCell_ok_iff ..).2 ⟨List.getElem?_set_self hlt, rfl⟩
  have hst : store (interp w n) none v r s2 = .ok () (s2.put v y) := by
    show (getCell r >>= fun y => setCell v y : M Unit) s2 = _
    rw [bind_of_ok ((getCell_ok_iff ..).2 ⟨hy, rfl⟩)]
    rfl
  have key : assign (interp w n) (.index e ie text) rhs s =
      (if y.data.kind ≠ x.data.kind ∧ x.data.kind ≠ .none ∧ y.data.kind ≠ .none then
        raise (b!"cannot assign " ++ typeStr y.data ++ b!" to '" ++ cstr text ++ b!"' (" ++ typeStr x.data ++ b!")")
      else pure () : M Unit) (s2.put v y) := by
    unfold assign
    simp only
    rw [bind_of_ok hi']
    unfold assignTo
    rw [bind_of_ok ((deref_ok_iff ..).2 ⟨rfl, rfl⟩), bind_of_ok hx, if_neg (by simp), bind_of_ok hr, bind_of_ok hst, bind_of_ok hput]
  rw [key]
  constructor
  · intro h
    rw [if_neg (by rintro ⟨h1, h2, h3⟩; rcases h with h | h | h; exacts [h1 h.symm, h2 h, h3 h])]
    rfl
  · rintro ⟨h1, h2, h3⟩
    rw [if_pos ⟨Ne.symm h1, h2, h3⟩]
    exact refused_raise _ _

/-- Both halves have an instance. -/
example : (runScript emptyWorld 12 [] [sLet b!"v" (.vec [eNum b!"1"]),
    .line (.assign (.index (eVar b!"v") (eNum b!"0") b!"v[0]") (eNum b!"2")), sPrint (eVar b!"v")]).printed = some [b!"[2]"] := by decide +kernel
example : (runScript emptyWorld 12 [] [sLet b!"v" (.vec [eNum b!"1"]),
    .line (.assign (.index (eVar b!"v") (eNum b!"0") b!"v[0]") (eStr b!"x"))]).failed = some (some b!"cannot assign string to 'v[0]' (integer)", []) := by decide +kernel

/-- What assignment does to a variable that is not a function: it is never refused for the kind of the value, which
becomes the value of the variable. -/
theorem C44_variable_takes_any_kind (w : World) (n : Nat) {s s1 s2 : St} {pre post : List Nat} {i k c r : Nat} {x x2 : Scope} {v v2 : Var} {d : Data} {y : Cell} {name : Bytes}
    {rhs : Expr} (hrv : s.eng.rv = .none)
    (hst : s.Stack (pre ++ i :: post)) (hpre : ∀ j ∈ pre, ∃ y, s.Alive j y ∧ ¬ y.Has name) (hx : s.Alive i x) (hv : x.First name k v)
    (hc : v.val = some c) (hd : s.Holds c d) (hf : d.kind ≠ .fn) (hr : (interp w n).value rhs s = .ok r s1) (hd1 : s1.Holds c d)
    (hdec : (interp w n).dec c s1 = .ok () s2) (hx2 : s2.Alive i x2) (hv2 : x2.vars[k]? = some v2) (hy : s2.cells[r]? = some y) :
    (interp w (n + 1)).exec (.line (.assign (.ident name) rhs)) s = .ok () { s2 with
      scopes := s2.scopes.set i { x2 with vars := x2.vars.set k { v2 with val := some r } }
      cells := s2.cells.set r { y with name := v2.key, keyIn := some i } } := by
  rw [exec_assign w n hrv]
  have hg : ∀ {s : St} {x : Scope} {v : Var}, s.Alive i x → x.vars[k]? = some v → getVar (i, k) s = .ok v s := by
    intro s x v hx hv
    unfold getVar
    rw [bind_of_ok (getScope_alive hx)]
    exact (deref_ok_iff ..).2 ⟨hv, rfl⟩
  have hst2 : store (interp w n) (some (i, k)) c r s1 = .ok () { s2 with
      scopes := s2.scopes.set i { x2 with vars := x2.vars.set k { v2 with val := some r } }
      cells := s2.cells.set r { y with name := v2.key, keyIn := some i } } := by
    show (do
      (interp w n).dec c
      let v ← getVar (i, k)
      setVar (i, k) r
      setName r v.key i : M Unit) s1 = _
    rw [bind_of_ok hdec, bind_of_ok (hg hx2 hv2), bind_of_ok (setVar_alive hx2 hv2 r)]
    exact setName_cell (s := { s2 with scopes := s2.scopes.set i { x2 with vars := x2.vars.set k { v2 with val := some r } } }) hy _ _
  have hd2 : s2.Holds c d := ((q_dec w n c).out hdec).holds _ _ hd1
  obtain ⟨z, hz, hzd⟩ : ({ s2 with
      scopes := s2.scopes.set i { x2 with vars := x2.vars.set k { v2 with val := some r } }
      cells := s2.cells.set r { y with name := v2.key, keyIn := some i } } : St).Holds c d :=
    holds_set (s := { s2 with scopes := s2.scopes.set i { x2 with vars := x2.vars.set k { v2 with val := some r } } }) (y := { y with name := v2.key, keyIn := some i }) hy rfl hd2
  obtain ⟨x0, hx0, rfl⟩ := getCell_holds hd
  unfold assign
  simp only
  rw [bind_of_ok (C39_lookup_innermost hst hpre hx hv)]
  simp only
  rw [bind_of_ok (hg hx hv.1)]
  unfold assignTo
  rw [bind_of_ok ((deref_ok_iff ..).2 ⟨hc, rfl⟩), bind_of_ok hx0, if_neg (by simp [hf]), bind_of_ok hr, bind_of_ok hst2,
    bind_of_ok ((getCell_ok_iff ..).2 ⟨hz, rfl⟩), hzd, if_neg (by simp)]
  rfl

end Bob.Fl
