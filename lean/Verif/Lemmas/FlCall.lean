import Verif.Lemmas.FlQuiet
import Verif.Props.FlNames
/-!
# Entering and leaving callables
-/

namespace Bob.Fl

theorem topCls_nil {s : St} (h : s.Stack []) : topCls s = .ok false s := by
  unfold topCls
  rw [bind_of_ok ((curStack_ok_iff ..).2 ⟨h, rfl⟩)]
  rfl

theorem topCls_cons {s : St} {p : Nat} {st : List Nat} {x : Scope} (h : s.Stack (p :: st)) (hx : s.Alive p x) : topCls s = .ok x.cls s := by
  unfold topCls
  rw [bind_of_ok ((curStack_ok_iff ..).2 ⟨h, rfl⟩)]
  simp only
  rw [bind_of_ok (getScope_alive hx)]
  rfl

/-- The innermost scope of a stack, if there is one, was not released. -/
def TopAlive (s : St) : List Nat → Prop
  | [] => True
  | p :: _ => ∃ x, s.Alive p x

theorem pushScope_eq {s : St} {st : List Nat} (h : s.Stack st) (ht : TopAlive s st) : ∃ cls,
    pushScope s = .ok s.scopes.length { s with scopes := s.scopes ++ [{ cls := cls }], envs := s.envs.set s.eng.env (s.scopes.length :: st) } ∧
    ∀ p x st', st = p :: st' → s.Alive p x → cls = x.cls := by
  obtain ⟨cls, h1, h2⟩ : ∃ cls, topCls s = .ok cls s ∧ ∀ p x st', st = p :: st' → s.Alive p x → cls = x.cls := by
    cases st with
    | nil => exact ⟨false, topCls_nil h, fun p x st' h => (nomatch h)⟩
    | cons p st =>
      obtain ⟨x, hx⟩ := ht
      refine ⟨x.cls, topCls_cons h hx, fun p' x' st' he hx' => ?_⟩
      cases he
      cases hx.1.symm.trans hx'.1
      rfl
  refine ⟨cls, ?_, h2⟩
  unfold pushScope
  rw [bind_of_ok h1, bind_of_ok (allocScope_apply ..)]
  have : attach s.scopes.length { s with scopes := s.scopes ++ [{ cls := cls }] } =
      .ok () { s with scopes := s.scopes ++ [{ cls := cls }], envs := s.envs.set s.eng.env (s.scopes.length :: st) } :=
    (attach_ok_iff ..).2 ⟨st, h, rfl⟩
  rw [bind_of_ok this]
  rfl

/-- The names values get when bound to parameters in scope `i`. -/
def nameCells (i : Nat) : List Bytes → List Nat → List Cell → List Cell
  | k :: ks, c :: cs, l => nameCells i ks cs (match l[c]? with
    | some y => l.set c { y with name := k, keyIn := some i }
    | none => l)
  | _, _, l => l

theorem nameCells_spec {i : Nat} : ∀ (ks : List Bytes) (cs : List Nat) (l : List Cell),
    (nameCells i ks cs l).length = l.length ∧
      ∀ (c : Nat) (y : Cell), l[c]? = some y → ∃ nm key, (nameCells i ks cs l)[c]? = some { y with name := nm, keyIn := key }
  | [], _, l => ⟨rfl, fun c y h => ⟨y.name, y.keyIn, h⟩⟩
  | _ :: _, [], l => ⟨rfl, fun c y h => ⟨y.name, y.keyIn, h⟩⟩
  | k :: ks, c0 :: cs, l => by
    unfold nameCells
    cases h0 : l[c0]? with
    | none => exact nameCells_spec ks cs l
    | some y0 =>
      obtain ⟨h1, h2⟩ := nameCells_spec (i := i) ks cs (l.set c0 { y0 with name := k, keyIn := some i })
      refine ⟨by simpa using h1, fun c y hy => ?_⟩
      by_cases hc : c = c0
      · subst hc
        cases h0.symm.trans hy
        obtain ⟨nm, key, h⟩ := h2 c _ (List.getElem?_set_self (List.getElem?_eq_some_iff.1 h0).1)
        exact ⟨nm, key, h⟩
      · exact h2 c y (by rw [List.getElem?_set_ne (Ne.symm hc)]; exact hy)

/-- The variables of parameters. -/
def boundVars (ks : List Bytes) (cs : List Nat) : List Var := List.zipWith (fun k c => { key := k, val := some c }) ks cs

theorem bindArgs_eq {i : Nat} : ∀ {ks : List Bytes} {cs : List Nat} {s : St} {x : Scope}, ks.length = cs.length → s.Alive i x →
    (∀ c ∈ cs, c < s.cells.length) →
    bindArgs i ks cs s = .ok () { s with scopes := s.scopes.set i { x with vars := x.vars ++ boundVars ks cs }, cells := nameCells i ks cs s.cells }
  | [], [], s, x, _, hx, _ => by
    obtain ⟨hlt, hx1⟩ := List.getElem?_eq_some_iff.1 hx.1
    unfold bindArgs boundVars nameCells
    have : s.scopes.set i { x with vars := x.vars ++ [] } = s.scopes := by
      rw [List.append_nil]
      subst hx1
      exact List.set_getElem_self hlt
    simp only [List.zipWith_nil_left]
    rw [this]
    rfl
  | [], _ :: _, _, _, h, _, _ => nomatch h
  | _ :: _, [], _, _, h, _, _ => nomatch h
  | k :: ks, c :: cs, s, x, hl, hx, hc => by
    have hlt := (List.getElem?_eq_some_iff.1 hx.1).1
    have hc0 := hc c (List.mem_cons_self ..)
    have hy : s.cells[c]? = some s.cells[c] := List.getElem?_eq_getElem hc0
    unfold bindArgs
    rw [bind_of_ok (addVar_alive hx _)]
    rw [bind_of_ok (setName_cell (by exact hy) k _)]
    have hset : bindArgs.setVar' i c { s with scopes := s.scopes.set i { x with vars := x.vars ++ [{ key := k }] }, cells := s.cells.set c { s.cells[c] with name := k, keyIn := some i } } =
        .ok () { s with scopes := s.scopes.set i { x with vars := x.vars ++ [{ key := k, val := some c }] }, cells := s.cells.set c { s.cells[c] with name := k, keyIn := some i } } := by
      unfold bindArgs.setVar'
      rw [bind_of_ok (getScope_alive (x := { x with vars := x.vars ++ [{ key := k }] }) ⟨List.getElem?_set_self hlt, hx.2⟩)]
      rw [setVar_alive (x := { x with vars := x.vars ++ [{ key := k }] }) (v := { key := k }) ⟨List.getElem?_set_self hlt, hx.2⟩ (by simp)]
      simp
    rw [bind_of_ok hset]
    rw [bindArgs_eq (x := { x with vars := x.vars ++ [{ key := k, val := some c }] }) (by simpa using hl) ⟨List.getElem?_set_self hlt, hx.2⟩
      (fun c' hc' => by simpa using hc c' (List.mem_cons_of_mem _ hc'))]
    simp [boundVars, nameCells, hy]

/-- The state in which the body of a callable `f` starts running when it was called in `s` with `args`, on the instance with scope `inst`, where
`st` is what it closed over: the innermost scope is new and binds the parameters in order, and next is the scope of the instance.  Nothing else is
different (but the names values carry for printing). -/
structure Entered (f : FnData) (inst : Option Nat) (st : List Nat) (params : List Bytes) (args : List Nat) (s s0 : St) : Prop where
  eng : s0.eng = { s.eng with body := f.body, env := f.env.getD s.eng.env }
  stack : s0.Stack (s.scopes.length :: (inst.toList ++ st))
  other : ∀ j, j ≠ s0.eng.env → s0.envs[j]? = s.envs[j]?
  scopes : s0.scopes = s.scopes ++ [{ vars := List.zipWith (fun k c => { key := k, val := some c }) params args, cls := f.kind == .cls }]
  count : s0.cells.length = s.cells.length
  cells : ∀ (c : Nat) (y : Cell), s.cells[c]? = some y → ∃ nm key, s0.cells[c]? = some { y with name := nm, keyIn := key }
  bufs : s0.bufs = s.bufs
  bodies : s0.bodies = s.bodies
  host : s0.host = s.host
  out : s0.out = s.out
  calls : s0.calls = s.calls

theorem attachInst {s : St} {st : List Nat} (inst : Option Nat) (h : s.Stack st) :
    optIter attach inst s = .ok () { s with envs := s.envs.set s.eng.env (inst.toList ++ st) } := by
  have hlt := (List.getElem?_eq_some_iff.1 h)
  cases inst with
  | none =>
    have : s.envs.set s.eng.env st = s.envs := by
      obtain ⟨h1, h2⟩ := hlt
      rw [← h2]
      exact List.set_getElem_self h1
    show Out.ok () s = _
    simp only [Option.toList, List.nil_append]
    rw [this]
  | some i => exact (attach_ok_iff ..).2 ⟨st, h, rfl⟩

/-- The state after `enter`. -/
def enterSt (f : FnData) (inst : Option Nat) (st : List Nat) (s : St) : St where
  cells := s.cells
  bufs := s.bufs
  bodies := s.bodies
  scopes := s.scopes ++ [{ cls := f.kind == .cls }]
  envs := s.envs.set (f.env.getD s.eng.env) (s.scopes.length :: (inst.toList ++ st))
  eng := { s.eng with body := f.body, env := f.env.getD s.eng.env }
  host := s.host
  out := s.out
  calls := s.calls
  cause := s.cause

theorem enter_eq {f : FnData} {inst : Option Nat} {s : St} {st : List Nat} (h : s.envs[f.env.getD s.eng.env]? = some st)
    (ht : TopAlive s (inst.toList ++ st)) :
    enter f inst s = .ok s.scopes.length (enterSt f inst st s) := by
  unfold enter
  rw [bind_of_ok (modify_apply ..)]
  have hs : ({ s with eng := { s.eng with body := f.body, env := f.env.getD s.eng.env } } : St).Stack st := h
  rw [bind_of_ok (attachInst inst hs)]
  have hlt := (List.getElem?_eq_some_iff.1 h).1
  obtain ⟨cls, hp, _⟩ := pushScope_eq (s := { s with eng := { s.eng with body := f.body, env := f.env.getD s.eng.env }, envs := s.envs.set (f.env.getD s.eng.env) (inst.toList ++ st) }) (st := inst.toList ++ st) (by
      exact List.getElem?_set_self hlt) (by
      cases hl : inst.toList ++ st with
      | nil => trivial
      | cons p st' => rw [hl] at ht; exact ht)
  rw [bind_of_ok hp]
  rw [bind_of_ok (getScope_alive (x := { cls := cls }) ⟨by simp, rfl⟩)]
  rw [bind_of_ok (setScope_apply ..)]
  simp [enterSt]

theorem setupArgs_eq {f : FnData} {args : List Nat} (hn : f.params.length = args.length) (hk : ∀ p, f.kind ≠ .ptm p) (i : Nat) (s : St) :
    setupArgs i f args s = bindArgs i f.params args s := by
  unfold setupArgs
  cases h : f.kind with
  | ptm p => exact absurd h (hk p)
  | _ => simp only [if_pos hn.symm]

/-- Entering a callable that is not a primitive type member with the right number of arguments. -/
theorem entered {f : FnData} {inst : Option Nat} {s : St} {st : List Nat} {args : List Nat} (h : s.envs[f.env.getD s.eng.env]? = some st)
    (ht : TopAlive s (inst.toList ++ st)) (hn : f.params.length = args.length) (hk : ∀ p, f.kind ≠ .ptm p) (hc : ∀ c ∈ args, c < s.cells.length) :
    ∃ s0, Entered f inst st f.params args s s0 ∧ enter f inst s = .ok s.scopes.length (enterSt f inst st s) ∧
      setupArgs s.scopes.length f args (enterSt f inst st s) = .ok () s0 := by
  have hlt := (List.getElem?_eq_some_iff.1 h).1
  refine ⟨_, ?_, enter_eq h ht, (setupArgs_eq hn hk _ _).trans (bindArgs_eq (x := { cls := f.kind == .cls }) hn ⟨by simp [enterSt], rfl⟩ hc)⟩
  obtain ⟨h1, h2⟩ := nameCells_spec f.params args s.cells
  exact {
    eng := rfl
    stack := List.getElem?_set_self hlt
    other := fun j hj => List.getElem?_set_ne (Ne.symm hj)
    scopes := by simp [boundVars, enterSt]
    count := h1
    cells := h2
    bufs := rfl
    bodies := rfl
    host := rfl
    out := rfl
    calls := rfl }

theorem Entered.holds {f : FnData} {inst : Option Nat} {st : List Nat} {ps : List Bytes} {args : List Nat} {s s0 : St} (h : Entered f inst st ps args s s0) {c : Nat} {d : Data}
    (hc : s.Holds c d) : s0.Holds c d := by
  obtain ⟨y, hy, rfl⟩ := hc
  obtain ⟨nm, key, h⟩ := h.cells c y hy
  exact ⟨_, h, rfl⟩

theorem Entered.alive {f : FnData} {inst : Option Nat} {st : List Nat} {ps : List Bytes} {args : List Nat} {s s0 : St} (h : Entered f inst st ps args s s0) {j : Nat} {x : Scope}
    (hx : s.Alive j x) : s0.Alive j x := by
  refine ⟨?_, hx.2⟩
  rw [h.scopes, List.getElem?_append_left (List.getElem?_eq_some_iff.1 hx.1).1]
  exact hx.1

/-- Detaching what was attached. -/
theorem leave_eq {prev : Eng} {inst : Option Nat} {s : St} {i : Nat} {st : List Nat} (h : s.Stack (i :: (inst.toList ++ st))) :
    leave prev inst s = .ok () { s with envs := s.envs.set s.eng.env st, eng := { s.eng with body := prev.body, env := prev.env } } := by
  unfold leave
  have hlt := (List.getElem?_eq_some_iff.1 h).1
  rw [bind_of_ok ((detach_ok_iff ..).2 ⟨_, h, rfl⟩)]
  cases inst with
  | none => rfl
  | some j =>
    have : ({ s with envs := s.envs.set s.eng.env ((some j).toList ++ st) } : St).Stack (j :: st) := List.getElem?_set_self hlt
    have h2 := (detach_ok_iff _ _ _).2 ⟨_, this, rfl⟩
    show ((do let _ ← (do let _ ← detach; pure () : M Unit); M.modify fun s => { s with eng := { s.eng with body := prev.body, env := prev.env } } : M Unit) _) = _
    rw [bind_of_ok (a := ()) (by rw [bind_of_ok h2]; rfl)]
    simp

/-- A call, up to running the body. -/
theorem call_eq (w : World) (n : Nat) {c : Nat} {f : FnData} {acc inst : Option Nat} {d : Dest} {args : List Nat} {s : St} {st : List Nat}
    (hc : s.Holds c (.fn f)) (hinst : instScope acc s = .ok inst s) (h : s.envs[f.env.getD s.eng.env]? = some st) (ht : TopAlive s (inst.toList ++ st))
    (hn : f.params.length = args.length) (hk : ∀ p, f.kind ≠ .ptm p) (ha : ∀ c ∈ args, c < s.cells.length) :
    ∃ s0, Entered f inst st f.params args s s0 ∧ (interp w (n + 1)).call c acc d args s = (do
      let ran ← runBody w (interp w n) c f acc d args
      leave s.eng inst
      afterCall (interp w n) c f.kind d args ran : M (Option Nat)) s0 := by
  obtain ⟨s0, h1, h2, h3⟩ := entered h ht hn hk ha
  refine ⟨s0, h1, ?_⟩
  obtain ⟨y, hy, hd⟩ := getCell_holds hc
  show stepCall w (interp w n) c acc d args s = _
  unfold stepCall
  rw [bind_of_ok hy, hd]
  simp only
  rw [bind_of_ok hinst, bind_of_ok (get_apply s), bind_of_ok h2, bind_of_ok h3]

end Bob.Fl
