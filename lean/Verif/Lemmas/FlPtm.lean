import Verif.Props.FlCalls
import Verif.Spec.FlVal
/-!
# Calling members of strings and vectors
-/

namespace Bob.Fl

/-- The six members of primitive types, in the order of `src/flamingo/primitive_type_member.h:95-101`. -/
def members : List Ptm := [.strLen, .strEndswith, .strStartswith, .vecLen, .vecMap, .vecWhere]

/-- The members of the engine in use are what they should be. -/
def St.Builtins (s : St) : Prop :=
  ∀ (k : Nat) (p : Ptm), members[k]? = some p → ∃ x, s.cells[s.eng.ptm + k]? = some x ∧ x.data = .fn { kind := .ptm p } ∧ x.refs ≠ 0

theorem builtins_init (paths : List Bytes) : (St.init paths).Builtins := by
  intro k p h
  have hk : k < 6 := (List.getElem?_eq_some_iff.1 h).1
  have : k = 0 ∨ k = 1 ∨ k = 2 ∨ k = 3 ∨ k = 4 ∨ k = 5 := by omega
  rcases this with rfl | rfl | rfl | rfl | rfl | rfl <;> cases h <;> exact ⟨_, rfl, rfl, Nat.one_ne_zero⟩

/-- One more reference to a value. -/
def St.bump (s : St) (c : Nat) : St :=
  { s with cells := match s.cells[c]? with
    | some x => s.cells.set c { x with refs := x.refs + 1 }
    | none => s.cells }

theorem incref_eq {s : St} {c : Nat} {x : Cell} (hx : s.cells[c]? = some x) (hr : x.refs ≠ 0) : incref c s = .ok () (s.bump c) := by
  unfold incref St.bump
  rw [bind_of_ok ((getCell_ok_iff ..).2 ⟨hx, rfl⟩), bind_of_ok ((assert_ok_iff _ _ _ ()).2 ⟨by simpa using hr, rfl⟩), setCell_apply, hx]

/-- Getting a member of a string or vector. -/
theorem access_ptm (w : World) (n : Nat) {e : Expr} {name : Bytes} {s s1 : St} {c k : Nat} {d : Data} (he : (interp w n).value e s = .ok c s1) (hc : s1.Holds c d)
    (hk : ptmIdx d.kind name = some k) (hb : s1.Builtins) :
    (interp w (n + 1)).eval .keep (.access e name) s = .ok { val := some (s1.eng.ptm + k), acc := some c } (s1.bump (s1.eng.ptm + k)) := by
  obtain ⟨p, hp⟩ : ∃ p, members[k]? = some p := by
    unfold ptmIdx at hk
    repeat' split at hk
    all_goals first | (cases hk; done) | (cases hk; exact ⟨_, rfl⟩)
  obtain ⟨x, hx, hxd, hr⟩ := hb k p hp
  obtain ⟨y, hy, rfl⟩ := getCell_holds hc
  show evalAccess (interp w n) .keep e name s = _
  have hfind : accessFind (interp w n) e name s = .ok (none, some (s1.eng.ptm + k), c) s1 := by
    unfold accessFind
    rw [bind_of_ok he, bind_of_ok hy]
    cases hyd : y.data <;> rw [hyd] at hk <;> first | (simp [ptmIdx, Data.kind] at hk; done) | skip
    · show (match ptmIdx (Data.kind (.str _ _)) name with
        | none => raise _
        | some k => (do
          let s ← M.get
          pure (none, some (s.eng.ptm + k), c) : M (Option (Nat × Nat) × Option Nat × Nat))) s1 = _
      rw [hk]
      rfl
    · show (match ptmIdx (Data.kind (.vec _)) name with
        | none => raise _
        | some k => (do
          let s ← M.get
          pure (none, some (s.eng.ptm + k), c) : M (Option (Nat × Nat) × Option Nat × Nat))) s1 = _
      rw [hk]
      rfl
  unfold evalAccess
  rw [bind_of_ok hfind]
  show (do
    checkDest .keep
    let c' ← M.deref (some (s1.eng.ptm + k))
    incref c'
    pure { val := some c', acc := some c } : M Res) s1 = _
  rw [bind_of_ok (show checkDest .keep s1 = .ok () s1 from rfl), bind_of_ok ((deref_ok_iff ..).2 ⟨rfl, rfl⟩), bind_of_ok (incref_eq hx hr)]
  rfl

theorem bump_cells {s : St} {c k : Nat} {x : Cell} (h : s.cells[k]? = some x) : ∃ r, x.refs ≤ r ∧ (s.bump c).cells[k]? = some { x with refs := r } := by
  unfold St.bump
  cases hc : s.cells[c]? with
  | none => exact ⟨x.refs, Nat.le_refl _, h⟩
  | some y =>
    simp only
    by_cases hck : c = k
    · subst hck
      cases hc.symm.trans h
      exact ⟨x.refs + 1, Nat.le_succ _, List.getElem?_set_self (List.getElem?_eq_some_iff.1 h).1⟩
    · exact ⟨x.refs, Nat.le_refl _, by rw [List.getElem?_set_ne hck]; exact h⟩

theorem bump_holds {s : St} {c k : Nat} {d : Data} (h : s.Holds k d) : (s.bump c).Holds k d := by
  obtain ⟨x, hx, rfl⟩ := h
  obtain ⟨r, -, hr⟩ := bump_cells (c := c) hx
  exact ⟨_, hr, rfl⟩

theorem bump_builtins {s : St} {c : Nat} (h : s.Builtins) : (s.bump c).Builtins := by
  intro k p hk
  obtain ⟨x, hx, hxd, hr⟩ := h k p hk
  obtain ⟨r, hle, hr'⟩ := bump_cells (c := c) hx
  exact ⟨_, hr', hxd, by simp only; omega⟩

/-- Entering a member of a primitive type. -/
theorem entered_ptm {f : FnData} {p : Ptm} {s : St} {st : List Nat} {args : List Nat} (h : s.envs[f.env.getD s.eng.env]? = some st)
    (ht : TopAlive s st) (hk : f.kind = .ptm p) (hc : ∀ c ∈ args, c < s.cells.length) :
    ∃ s0, Entered f none st (args.map fun _ => []) args s s0 ∧ enter f none s = .ok s.scopes.length (enterSt f none st s) ∧
      setupArgs s.scopes.length f args (enterSt f none st s) = .ok () s0 := by
  have hlt := (List.getElem?_eq_some_iff.1 h).1
  have hset : setupArgs s.scopes.length f args (enterSt f none st s) = bindArgs s.scopes.length (args.map fun _ => []) args (enterSt f none st s) := by
    unfold setupArgs
    rw [hk]
  refine ⟨_, ?_, enter_eq h ht, hset.trans
    (bindArgs_eq (x := { cls := f.kind == .cls }) (by simp) ⟨by simp [enterSt], rfl⟩ hc)⟩
  obtain ⟨h1, h2⟩ := nameCells_spec (args.map fun _ => []) args s.cells
  exact {
    eng := rfl
    stack := List.getElem?_set_self hlt
    other := fun j hj => List.getElem?_set_ne (Ne.symm hj)
    scopes := by simp [boundVars, enterSt]
    count := h1
    cells := h2
    bufs := rfl
    bodies := rfl
    host := rfl
    out := rfl
    calls := rfl }

/-- Handing over the value to return. -/
theorem finish_val {R : Rec} {c v : Nat} {sc : Option Nat} {args : List Nat} {t : St} {g : FnData} (hg : t.Holds c (.fn g)) (hk : g.kind ≠ .cls) (hv : t.eng.rv = .val v) :
    finish R c sc .keep args t = .ok (some v) { t with eng := { t.eng with rv := .none } } := by
  obtain ⟨z, hz, hzd⟩ := getCell_holds hg
  unfold finish
  rw [bind_of_ok hz, hzd]
  simp only [if_neg hk]
  unfold takeRv
  simp only
  rw [bind_of_ok (getRv_apply _), hv]
  rfl

/-- Calling a member of a primitive type does what its callback does, between entering and leaving a scope. -/
theorem ptm_call (w : World) {c a : Nat} {p : Ptm} {d : Data} {args : List Nat} {s : St} {st : List Nat}
    (hc : s.Holds c (.fn { kind := .ptm p })) (ha : s.Holds a d) (hd : d.kind ≠ .inst) (hst : s.Stack st) (ht : TopAlive s st)
    (hargs : ∀ c ∈ args, c < s.cells.length) (hrv : s.eng.rv = .none) :
    ∃ s0, Entered { kind := .ptm p } none st (args.map fun _ => []) args s s0 ∧ ∀ n,
      (∀ v s1 g, runPtm (interp w n) p (some a) args s0 = .ok v s1 → s1.Holds c (.fn g) → g.kind ≠ .cls →
        (interp w (n + 1)).call c (some a) .keep args s = .ok (some v) (afterBody { kind := .ptm p } st s s1)) ∧
      ((runPtm (interp w n) p (some a) args s0).Bad → SameBad (runPtm (interp w n) p (some a) args s0) ((interp w (n + 1)).call c (some a) .keep args s)) := by
  obtain ⟨s0, h0, h1, h2⟩ := entered_ptm (f := { kind := .ptm p }) hst ht rfl hargs
  have hinst : instScope (some a) s = .ok none s := by
    obtain ⟨y, hy, rfl⟩ := getCell_holds ha
    show (getCell a >>= fun y => match y.data with
      | .inst i => pure (some i.scope)
      | _ => pure none) s = _
    rw [bind_of_ok hy]
    cases hyd : y.data <;> first | rfl | (rw [hyd] at hd; exact absurd rfl hd)
  obtain ⟨y, hy, hyd⟩ := getCell_holds hc
  have hcall : ∀ n, (interp w (n + 1)).call c (some a) .keep args s = (do
      let ran ← runBody w (interp w n) c { kind := .ptm p } (some a) .keep args
      leave s.eng none
      afterCall (interp w n) c (.ptm p) .keep args ran : M (Option Nat)) s0 := by
    intro n
    show stepCall w (interp w n) c (some a) .keep args s = _
    unfold stepCall
    rw [bind_of_ok hy, hyd]
    simp only
    rw [bind_of_ok hinst, bind_of_ok (get_apply s), bind_of_ok h1, bind_of_ok h2]
  have hrun : ∀ n, runBody w (interp w n) c { kind := .ptm p } (some a) .keep args s0 = (do
      let v ← runPtm (interp w n) p (some a) args
      setRv (.val v)
      pure Ran.callback : M Ran) s0 := by
    intro n
    show (do
      let r ← getRv
      M.assert (r == .none)
      let v ← runPtm (interp w n) p (some a) args
      setRv (.val v)
      pure Ran.callback : M Ran) s0 = _
    rw [bind_of_ok (getRv_apply _), bind_of_ok ((assert_ok_iff _ _ _ ()).2 ⟨by rw [h0.eng]; simpa using hrv, rfl⟩)]
  refine ⟨s0, h0, fun n => ⟨fun v s1 g hv hg hgk => ?_, fun hbad => ?_⟩⟩
  · rw [hcall, bind_of_ok (a := Ran.callback) (by rw [hrun, bind_of_ok hv, bind_of_ok (setRv_apply ..)]; rfl)]
    have hfr := (kE_runPtm (recFr w n) p (some a) args).out hv
    have henv : s1.eng.env = s.eng.env := by rw [hfr.env, h0.eng]; rfl
    have hst1 : s1.Stack (s.scopes.length :: st) := by
      have := hfr.envs _ _ h0.stack
      unfold St.Stack
      rw [hfr.env]
      exact this
    rw [bind_of_ok (leave_eq (s := { s1 with eng := { s1.eng with rv := .val v } }) (inst := none) (i := s.scopes.length) (st := st) hst1)]
    show finish (interp w n) c none .keep args _ = _
    refine (finish_val (t := { s1 with envs := s1.envs.set s1.eng.env st, eng := { s1.eng with rv := .val v, body := s.eng.body, env := s.eng.env } }) hg hgk rfl).trans ?_
    rw [henv]
    rfl
  · rw [hcall]
    have h3 : SameBad (runPtm (interp w n) p (some a) args s0) (runBody w (interp w n) c { kind := .ptm p } (some a) .keep args s0) := by
      rw [hrun]
      exact sameBad_bind hbad
    exact h3.trans (sameBad_bind h3.bad)

end Bob.Fl
