import Verif.Spec.Flamingo
import Verif.Lemmas.FlFrameRun
/-!
# Names and scopes (C39–C43)
-/

namespace Bob.Fl

theorem raise_short {msg : Bytes} (h : msg.length < 235) (s : St) : (raise msg : M α) s = .err (some msg) s := by
  have hl : (msgPrefix ++ msg).length < 256 := by
    have : (msgPrefix ++ msg).length = 21 + msg.length := by rw [List.length_append]; rfl
    omega
  have : ∀ (c : Prop) [Decidable c], c → (if c then (fun s => .err (some msg) s : M α) else M.abort .message) s = .err (some msg) s := by
    intro c _ hc
    simp [hc]
  exact this _ hl

theorem raise_long {msg : Bytes} (h : 235 ≤ msg.length) (s : St) : (raise msg : M α) s = .abort { s with cause := .message } := by
  have hl : ¬ (msgPrefix ++ msg).length < 256 := by
    have : (msgPrefix ++ msg).length = 21 + msg.length := by rw [List.length_append]; rfl
    omega
  have : ∀ (c : Prop) [Decidable c], ¬ c → (if c then (fun s => .err (some msg) s : M α) else M.abort .message) s = .abort { s with cause := .message } := by
    intro c _ hc
    simp [hc]
  exact this _ hl

theorem refused_raise (msg : Bytes) (s : St) : Refused msg s ((raise msg : M α) s) := by
  by_cases h : msg.length < 235
  · exact Or.inl ⟨raise_short h s, h⟩
  · exact Or.inr ⟨raise_long (by omega) s, by omega⟩

theorem Refused.bad {msg : Bytes} {s : St} {o : Out α} (h : Refused msg s o) : o.Bad := by
  rcases h with ⟨rfl, _⟩ | ⟨rfl, _⟩ <;> trivial

theorem findKeyIdx_none {name : Bytes} : ∀ {vs : List Var}, findKeyIdx name vs = none ↔ ∀ v ∈ vs, v.key ≠ name
  | [] => by simp [findKeyIdx]
  | v :: vs => by
    unfold findKeyIdx
    by_cases h : v.key = name
    · simp [h]
    · simp [h, findKeyIdx_none (vs := vs)]

theorem findKeyIdx_some {name : Bytes} : ∀ {vs : List Var} {k : Nat}, findKeyIdx name vs = some k →
    ∃ v, vs[k]? = some v ∧ v.key = name ∧ ∀ (k' : Nat) (v' : Var), k' < k → vs[k']? = some v' → v'.key ≠ name
  | [], _, h => by simp [findKeyIdx] at h
  | v :: vs, k, h => by
    unfold findKeyIdx at h
    by_cases hv : v.key = name
    · rw [if_pos hv] at h
      cases h
      exact ⟨v, rfl, hv, fun _ _ h => absurd h (Nat.not_lt_zero _)⟩
    · rw [if_neg hv] at h
      cases hk : findKeyIdx name vs with
      | none => rw [hk] at h; cases h
      | some k0 =>
        rw [hk] at h
        cases h
        obtain ⟨v0, h1, h2, h3⟩ := findKeyIdx_some hk
        refine ⟨v0, by simpa using h1, h2, fun k' v' hlt hk' => ?_⟩
        cases k' with
        | zero => simp at hk'; rw [← hk']; exact hv
        | succ k' => exact h3 k' v' (Nat.lt_of_succ_lt_succ hlt) (by simpa using hk')

theorem first_unique {x : Scope} {name : Bytes} {k k' : Nat} {v v' : Var} (h : x.First name k v) (h' : x.First name k' v') : k = k' ∧ v = v' := by
  have : k = k' := by
    rcases Nat.lt_trichotomy k k' with hl | he | hg
    · exact absurd h.2.1 (h'.2.2 k v hl h.1)
    · exact he
    · exact absurd h'.2.1 (h.2.2 k' v' hg h'.1)
  subst this
  exact ⟨rfl, Option.some.inj (h.1.symm.trans h'.1)⟩

theorem findKeyIdx_of_first {x : Scope} {name : Bytes} {k : Nat} {v : Var} (h : x.First name k v) : findKeyIdx name x.vars = some k := by
  cases hk : findKeyIdx name x.vars with
  | none => exact absurd h.2.1 (findKeyIdx_none.1 hk v (List.mem_of_getElem? h.1))
  | some k' =>
    obtain ⟨v', h'⟩ := findKeyIdx_some hk
    rw [(first_unique h h').1]

theorem getScope_alive {s : St} {i : Nat} {x : Scope} (h : s.Alive i x) : getScope i s = .ok x s := (getScope_ok_iff ..).2 ⟨h.1, h.2, rfl⟩

theorem shallowFind_alive {s : St} {i : Nat} {x : Scope} (h : s.Alive i x) (name : Bytes) :
    shallowFind i name s = .ok (findKeyIdx name x.vars) s := by
  unfold shallowFind
  rw [bind_of_ok (getScope_alive h)]
  rfl

/-- Going outwards over scopes which do not have the name. -/
theorem findIn_skip {s : St} {name : Bytes} {st : List Nat} : ∀ {pre : List Nat}, (∀ j ∈ pre, ∃ x, s.Alive j x ∧ ¬ x.Has name) →
    findIn name (pre ++ st) s = findIn name st s
  | [], _ => rfl
  | j :: pre, h => by
    obtain ⟨x, hx, hn⟩ := h j (List.mem_cons_self ..)
    have : findKeyIdx name x.vars = none := findKeyIdx_none.2 fun v hv hk => hn ⟨v, hv, hk⟩
    have h0 : findIn name (j :: (pre ++ st)) s = findIn name (pre ++ st) s := by
      rw [findIn, bind_of_ok (shallowFind_alive hx name), this]
    exact h0.trans <| findIn_skip fun j hj => h j (List.mem_cons_of_mem _ hj)

theorem findIn_ok {s s' : St} {name : Bytes} : ∀ {st : List Nat} {r : Option (Nat × Nat)}, findIn name st s = .ok r s' →
    s' = s ∧ match r with
      | none => ∀ j ∈ st, ∃ x, s.Alive j x ∧ ¬ x.Has name
      | some (i, k) => ∃ pre post x v, st = pre ++ i :: post ∧ (∀ j ∈ pre, ∃ x, s.Alive j x ∧ ¬ x.Has name) ∧ s.Alive i x ∧ x.First name k v
  | [], r, h => by
    cases h
    exact ⟨rfl, fun j hj => (nomatch hj)⟩
  | i :: st, r, h => by
    unfold findIn at h
    obtain ⟨o, s1, h1, h2⟩ := (bind_ok_iff ..).1 h
    unfold shallowFind at h1
    obtain ⟨x, s2, h3, h4⟩ := (bind_ok_iff ..).1 h1
    obtain ⟨hx, hf, rfl⟩ := (getScope_ok_iff ..).1 h3
    cases h4
    cases hk : findKeyIdx name x.vars with
    | some k =>
      rw [hk] at h2
      cases h2
      obtain ⟨v, hv⟩ := findKeyIdx_some hk
      exact ⟨rfl, [], st, x, v, rfl, fun j hj => (nomatch hj), ⟨hx, hf⟩, hv⟩
    | none =>
      rw [hk] at h2
      have hn : ¬ x.Has name := fun ⟨v, hv, hvk⟩ => findKeyIdx_none.1 hk v hv hvk
      obtain ⟨rfl, h5⟩ := findIn_ok h2
      refine ⟨rfl, ?_⟩
      cases r with
      | none =>
        intro j hj
        rcases List.mem_cons.1 hj with rfl | hj
        · exact ⟨x, ⟨hx, hf⟩, hn⟩
        · exact h5 j hj
      | some p =>
        obtain ⟨i', k⟩ := p
        obtain ⟨pre, post, x', v, rfl, h6, h7⟩ := h5
        refine ⟨i :: pre, post, x', v, rfl, fun j hj => ?_, h7⟩
        rcases List.mem_cons.1 hj with rfl | hj
        · exact ⟨x, ⟨hx, hf⟩, hn⟩
        · exact h6 j hj

theorem findVar_stack {s : St} {st : List Nat} (h : s.Stack st) (name : Bytes) : findVar name s = findIn name st s := by
  unfold findVar
  rw [bind_of_ok ((curStack_ok_iff ..).2 ⟨h, rfl⟩)]

/-! ## C39 -/

/-- C39.  If going outwards from the innermost scope the first with the name is `i`, the name means the first variable of that name in
`i`. -/
theorem C39_lookup_innermost {s : St} {pre post : List Nat} {i k : Nat} {x : Scope} {v : Var} {name : Bytes} (hst : s.Stack (pre ++ i :: post))
    (hpre : ∀ j ∈ pre, ∃ y, s.Alive j y ∧ ¬ y.Has name) (hx : s.Alive i x) (hv : x.First name k v) :
    findVar name s = .ok (some (i, k)) s := by
  rw [findVar_stack hst, findIn_skip hpre]
  unfold findIn
  rw [bind_of_ok (shallowFind_alive hx name), findKeyIdx_of_first hv]
  rfl

/-- C39.  A name found is one found that way, and looking up has no effect. -/
theorem C39_lookup_only_innermost {s s' : St} {st : List Nat} {i k : Nat} {name : Bytes} (hst : s.Stack st)
    (h : findVar name s = .ok (some (i, k)) s') :
    s' = s ∧ ∃ pre post x v, st = pre ++ i :: post ∧ (∀ j ∈ pre, ∃ y, s.Alive j y ∧ ¬ y.Has name) ∧ s.Alive i x ∧ x.First name k v := by
  rw [findVar_stack hst] at h
  exact findIn_ok h

/-- C39.  A name is not found exactly if no scope on the stack has it. -/
theorem C39_lookup_none {s : St} {st : List Nat} {name : Bytes} (hst : s.Stack st) :
    findVar name s = .ok none s ↔ ∀ j ∈ st, ∃ y, s.Alive j y ∧ ¬ y.Has name := by
  rw [findVar_stack hst]
  constructor
  · intro h
    exact (findIn_ok h).2
  · intro h
    have := findIn_skip (st := []) h
    rw [List.append_nil] at this
    rw [this]
    rfl

/-- C39.  An identifier that no scope on the stack declares is an error. -/
theorem C39_unknown_identifier (w : World) (n : Nat) {s : St} {st : List Nat} {name : Bytes} (hst : s.Stack st)
    (h : ∀ j ∈ st, ∃ y, s.Alive j y ∧ ¬ y.Has name) {d : Dest} (hd : d ≠ .discard) :
    Refused (b!"could not find identifier: " ++ name) s ((interp w (n + 1)).eval d (.ident name) s) := by
  show Refused _ s (stepEval w (interp w n) d (.ident name) s)
  unfold stepEval
  simp only [hd, if_false]
  have h1 := (C39_lookup_none hst).2 h
  have : evalIdent name s = raise (b!"could not find identifier: " ++ name) s := by
    unfold evalIdent
    rw [bind_of_ok h1]
  rw [bind_apply, this]
  rcases refused_raise (α := Nat) (b!"could not find identifier: " ++ name) s with ⟨h2, h3⟩ | ⟨h2, h3⟩
  · rw [h2]
    exact Or.inl ⟨rfl, h3⟩
  · rw [h2]
    exact Or.inr ⟨rfl, h3⟩

/-- C39.  An identifier which means a variable with a value is that value, itself and not a copy; only its count changes. -/
theorem C39_identifier_value (w : World) (n : Nat) {s : St} {pre post : List Nat} {i k c : Nat} {x : Scope} {v : Var} {y : Cell} {name : Bytes}
    (hst : s.Stack (pre ++ i :: post)) (hpre : ∀ j ∈ pre, ∃ y, s.Alive j y ∧ ¬ y.Has name) (hx : s.Alive i x) (hv : x.First name k v)
    (hc : v.val = some c) (hy : s.cells[c]? = some y) (hr : y.refs ≠ 0) {d : Dest} (hd : d ≠ .discard) :
    (interp w (n + 1)).eval d (.ident name) s =
      .ok { val := some c } { s with cells := s.cells.set c { y with refs := y.refs + 1 } } := by
  show stepEval w (interp w n) d (.ident name) s = _
  unfold stepEval
  simp only [hd, if_false]
  have h1 := C39_lookup_innermost hst hpre hx hv
  have hg : getVar (i, k) s = .ok v s := by
    unfold getVar
    rw [bind_of_ok (getScope_alive hx)]
    exact (deref_ok_iff ..).2 ⟨hv.1, rfl⟩
  have hi : incref c s = .ok () { s with cells := s.cells.set c { y with refs := y.refs + 1 } } := by
    unfold incref
    rw [bind_of_ok ((getCell_ok_iff ..).2 ⟨hy, rfl⟩), bind_of_ok (a := ()) ((assert_ok_iff ..).2 ⟨by simpa using hr, rfl⟩)]
    rfl
  have : evalIdent name s = .ok c { s with cells := s.cells.set c { y with refs := y.refs + 1 } } := by
    unfold evalIdent
    rw [bind_of_ok h1]
    show (getVar (i, k) >>= _) s = _
    rw [bind_of_ok hg, bind_of_ok ((deref_ok_iff ..).2 ⟨hc, rfl⟩), bind_of_ok hi]
    rfl
  rw [bind_of_ok this]
  rfl

/-- Shadowing: the inner `x` is seen in the block and the outer one again after it; other names are seen through the block. -/
example : (runScript emptyWorld 10 [] [sLet b!"x" (eNum b!"1"), sLet b!"y" (eNum b!"7"),
    .block [sLet b!"x" (eNum b!"2"), sPrint (eVar b!"x"), sPrint (eVar b!"y")], sPrint (eVar b!"x")]).printed = some [b!"2", b!"7", b!"1"] := by
  decide +kernel

example : (runScript emptyWorld 10 [] [.block [sLet b!"x" (eNum b!"2")], sPrint (eVar b!"x")]).failed =
    some (some b!"could not find identifier: x", []) := by
  decide +kernel

/-! ## C40 -/

theorem curScope_stack {s : St} {i : Nat} {st : List Nat} (h : s.Stack (i :: st)) : curScope s = .ok i s := (curScope_ok_iff ..).2 ⟨⟨st, h⟩, rfl⟩

/-- The innermost scope has the name, whose variable has a value. -/
structure Declared (s : St) (name : Bytes) (d : Data) : Prop where
  out : ∃ i st x k v c, s.Stack (i :: st) ∧ s.Alive i x ∧ x.First name k v ∧ v.val = some c ∧ s.Holds c d

theorem refused_bind {m : M α} {f : α → M β} {s : St} {msg : Bytes} (h : Refused msg s (m s)) : Refused msg s ((m >>= f) s) := by
  rw [bind_apply]
  rcases h with ⟨h, hl⟩ | ⟨h, hl⟩ <;> rw [h]
  · exact Or.inl ⟨rfl, hl⟩
  · exact Or.inr ⟨rfl, hl⟩

theorem not_returning {s : St} (h : s.eng.rv = .none) : returning s = .ok false s := by
  unfold returning
  rw [bind_of_ok (get_apply s)]
  cases hb : s.eng.body <;> simp [h]

/-- C40.  Declaring a variable whose name the innermost scope already has is rejected, and changes nothing. -/
theorem C40_redeclared_variable (w : World) (n : Nat) {s : St} {name : Bytes} {d : Data} (h : Declared s name d) (hr : s.eng.rv = .none)
    (st : Bool) (init : Option Expr) :
    Refused (roleStr d ++ b!" '" ++ name ++ b!"' already declared in this scope") s ((interp w (n + 1)).exec (.line (.decl st name init)) s) := by
  obtain ⟨i, stk, x, k, v, c, h1, h2, h3, h4, y, h5, rfl⟩ := h
  show Refused _ s (stepExec w (interp w n) (.line (.decl st name init)) s)
  unfold stepExec
  simp only
  rw [bind_of_ok (not_returning hr)]
  show Refused _ s (declVar _ _ _ _ s)
  unfold declVar
  rw [bind_of_ok (curScope_stack h1), bind_of_ok (getScope_alive h2), findKeyIdx_of_first h3]
  simp only
  rw [bind_of_ok ((deref_ok_iff ..).2 ⟨h3.1, rfl⟩), bind_of_ok ((deref_ok_iff ..).2 ⟨h4, rfl⟩), bind_of_ok ((getCell_ok_iff ..).2 ⟨h5, rfl⟩)]
  exact refused_raise _ _

theorem refused_declFn {R : Rec} {s : St} {name : Bytes} {d : Data} (h : Declared s name d)
    (kind : FnKind) (st : Bool) (ps : List Bytes) (body : Option (List Stmt)) :
    Refused (b!"the " ++ roleStr d ++ b!" '" ++ name ++ b!"' has already been declared in this scope") s (declFn R kind st name ps body s) := by
  obtain ⟨i, stk, x, k, v, c, h1, h2, h3, h4, y, h5, rfl⟩ := h
  unfold declFn
  rw [bind_of_ok (curScope_stack h1), bind_of_ok (getScope_alive h2), findKeyIdx_of_first h3]
  simp only
  rw [bind_of_ok ((deref_ok_iff ..).2 ⟨h3.1, rfl⟩), bind_of_ok ((deref_ok_iff ..).2 ⟨h4, rfl⟩), bind_of_ok ((getCell_ok_iff ..).2 ⟨h5, rfl⟩)]
  exact refused_raise _ _

/-- C40.  The same for functions, classes and external functions. -/
theorem C40_redeclared_function (w : World) (n : Nat) {s : St} {name : Bytes} {d : Data} (h : Declared s name d)
    (st : Bool) (ps : List Bytes) (body : List Stmt) :
    Refused (b!"the " ++ roleStr d ++ b!" '" ++ name ++ b!"' has already been declared in this scope") s
        ((interp w (n + 1)).exec (.fn st name ps body) s) ∧
      Refused (b!"the " ++ roleStr d ++ b!" '" ++ name ++ b!"' has already been declared in this scope") s
        ((interp w (n + 1)).exec (.cls st name ps body) s) ∧
      (s.eng.rv = .none → Refused (b!"the " ++ roleStr d ++ b!" '" ++ name ++ b!"' has already been declared in this scope") s
        ((interp w (n + 1)).exec (.line (.proto st name ps)) s)) := by
  refine ⟨refused_declFn h _ _ _ _, refused_declFn h _ _ _ _, fun hr => ?_⟩
  show Refused _ s (stepExec w (interp w n) (.line (.proto st name ps)) s)
  unfold stepExec
  simp only
  rw [bind_of_ok (not_returning hr)]
  exact refused_declFn h _ _ _ _

/-- Statements that declare a name. -/
inductive DeclOf (name : Bytes) (st : Bool) : Stmt → Prop where
  | var (init : Option Expr) : DeclOf name st (.line (.decl st name init))
  | proto (ps : List Bytes) : DeclOf name st (.line (.proto st name ps))
  | fn (ps : List Bytes) (b : List Stmt) : DeclOf name st (.fn st name ps b)
  | cls (ps : List Bytes) (b : List Stmt) : DeclOf name st (.cls st name ps b)

/-- After a declaration: `i` is still innermost and has got one more name, every other scope has the names it had. -/
structure Added (i : Nat) (x : Scope) (name : Bytes) (st : Bool) (s s' : St) : Prop where
  fresh : ¬ x.Has name
  mine : ∃ x', s'.scopes[i]? = some x' ∧ x'.names = x.names ++ [(name, st)]
  others : ∀ (j : Nat) (y : Scope), j ≠ i → s.scopes[j]? = some y → ∃ y', s'.scopes[j]? = some y' ∧ y'.names = y.names
  stack : ∀ t, s.Stack t → s'.Stack t

theorem added_of {i : Nat} {x : Scope} {v : Var} {s s1 s' : St} (hx : s.Alive i x) (hn : findKeyIdx v.key x.vars = none)
    (h1 : addVar i v s = .ok () s1) (h2 : FrE s1 s') : Added i x v.key v.isStatic s s' := by
  simp only [addVar, bind_ok_iff, getScope_ok_iff, setScope_apply, Out.ok.injEq] at h1
  obtain ⟨x0, s0, ⟨hx0, _, rfl⟩, _, rfl⟩ := h1
  cases hx0.symm.trans hx.1
  refine ⟨fun ⟨v', hv', hk⟩ => findKeyIdx_none.1 hn v' hv' hk, ?_, fun j y hj hy => ?_, fun t ht => ?_⟩
  · obtain ⟨x', hx', _, hk⟩ := h2.scopes i { x with vars := x.vars ++ [v] } (List.getElem?_set_self (List.getElem?_eq_some_iff.1 hx.1).1)
    refine ⟨x', hx', ?_⟩
    have := hk not_false
    show x'.keys = x.keys ++ _
    rw [this]
    simp [Scope.keys]
  · obtain ⟨y', hy', _, hk⟩ := h2.scopes j y (by
      show (s0.scopes.set i _)[j]? = some y
      rw [List.getElem?_set_ne (Ne.symm hj)]; exact hy)
    exact ⟨y', hy', hk not_false⟩
  · have h3 := h2.envs _ _ ht
    unfold St.Stack
    rw [h2.env]
    exact h3

theorem declVar_added {R : Rec} (hR : RecFr R) {s s' : St} {i : Nat} {stk : List Nat} {x : Scope} {name : Bytes} {st : Bool} {init : Option Expr}
    (hst : s.Stack (i :: stk)) (hx : s.Alive i x) (h : declVar R st name init s = .ok () s') : Added i x name st s s' := by
  unfold declVar at h
  rw [bind_of_ok (curScope_stack hst), bind_of_ok (getScope_alive hx)] at h
  cases hk : findKeyIdx name x.vars with
  | some k =>
    rw [hk] at h
    obtain ⟨_, _, _, h⟩ := (bind_ok_iff ..).1 h
    obtain ⟨_, _, _, h⟩ := (bind_ok_iff ..).1 h
    obtain ⟨_, _, _, h⟩ := (bind_ok_iff ..).1 h
    exact ((raise_not_ok ..).1 h).elim
  | none =>
    rw [hk] at h
    obtain ⟨_, s1, h1, h⟩ := (bind_ok_iff ..).1 h
    have hf : Keeps FrE (do
        let c ← initVal R init
        setVar (i, x.vars.length) c
        setOwnerOf c i) :=
      keeps_bind trnE (kE_initVal hR _) fun _ => keeps_bind trnE (kE_setVar _ _) fun _ => kE_setOwnerOf _ _
    exact added_of hx hk h1 (hf.out h)

theorem declFn_added {R : Rec} (hR : RecFr R) {s s' : St} {i : Nat} {stk : List Nat} {x : Scope} {name : Bytes} {st : Bool} {kind : FnKind} {ps : List Bytes}
    {body : Option (List Stmt)} (hst : s.Stack (i :: stk)) (hx : s.Alive i x) (h : declFn R kind st name ps body s = .ok () s') :
    Added i x name st s s' := by
  unfold declFn at h
  rw [bind_of_ok (curScope_stack hst), bind_of_ok (getScope_alive hx)] at h
  cases hk : findKeyIdx name x.vars with
  | some k =>
    rw [hk] at h
    obtain ⟨_, _, _, h⟩ := (bind_ok_iff ..).1 h
    obtain ⟨_, _, _, h⟩ := (bind_ok_iff ..).1 h
    obtain ⟨_, _, _, h⟩ := (bind_ok_iff ..).1 h
    exact ((raise_not_ok ..).1 h).elim
  | none =>
    rw [hk] at h
    obtain ⟨_, s1, h1, h⟩ := (bind_ok_iff ..).1 h
    refine added_of (v := { key := name, isStatic := st }) hx hk h1 ?_
    refine (show Keeps FrE _ from ?_).out h
    refine keeps_bind trnE (kE_alloc _) fun _ => keeps_bind trnE (kE_setVar _ _) fun _ =>
      keeps_bind trnE (kE_setName _ _ _) fun _ => keeps_bind trnE (kE_setOwnerOf _ _) fun _ => keeps_bind trnE kE_closeOver fun _ =>
      keeps_bind trnE (kE_allocBlock _) fun _ => keeps_bind trnE (keeps_getCell trnE _) fun _ => keeps_bind trnE (kE_setCell _ _) fun _ => ?_
    exact keeps_ite (kE_classBody hR _ _ _ _) (keeps_pure trnE _)

/-- C40.  A declaration that goes through was of a name the innermost scope did not have (whatever outer scopes have), and has added that name
there and no name anywhere else. -/
theorem C40_declares (w : World) (n : Nat) {s s' : St} {i : Nat} {stk : List Nat} {x : Scope} {name : Bytes} {st : Bool} {p : Stmt}
    (hp : DeclOf name st p) (hr : s.eng.rv = .none) (hst : s.Stack (i :: stk)) (hx : s.Alive i x)
    (h : (interp w n).exec p s = .ok () s') : Added i x name st s s' := by
  cases n with
  | zero => cases h
  | succ n =>
    have hR := recFr w n
    cases hp with
    | var init =>
      have h : (do if ← returning then pure () else execLine w (interp w n) (.decl st name init) : M Unit) s = .ok () s' := h
      rw [bind_of_ok (not_returning hr)] at h
      exact declVar_added hR hst hx h
    | proto ps =>
      have h : (do if ← returning then pure () else execLine w (interp w n) (.proto st name ps) : M Unit) s = .ok () s' := h
      rw [bind_of_ok (not_returning hr)] at h
      exact declFn_added hR hst hx h
    | fn ps b => exact declFn_added hR hst hx h
    | cls ps b => exact declFn_added hR hst hx h

theorem addVar_alive {s : St} {i : Nat} {x : Scope} (h : s.Alive i x) (v : Var) :
    addVar i v s = .ok () { s with scopes := s.scopes.set i { x with vars := x.vars ++ [v] } } := by
  unfold addVar
  rw [bind_of_ok (getScope_alive h)]
  rfl

theorem setVar_alive {s : St} {i k : Nat} {x : Scope} {v : Var} (h : s.Alive i x) (hv : x.vars[k]? = some v) (c : Nat) :
    setVar (i, k) c s = .ok () { s with scopes := s.scopes.set i { x with vars := x.vars.set k { v with val := some c } } } := by
  unfold setVar
  rw [bind_of_ok (getScope_alive h), bind_of_ok ((deref_ok_iff ..).2 ⟨hv, rfl⟩)]
  rfl

theorem setName_cell {s : St} {c : Nat} {y : Cell} (h : s.cells[c]? = some y) (name : Bytes)
    (i : Nat) : setName c name i s = .ok () { s with cells := s.cells.set c { y with name := name, keyIn := some i } } := by
  unfold setName
  rw [bind_of_ok ((getCell_ok_iff ..).2 ⟨h, rfl⟩)]
  rfl

theorem setOwnerOf_cell {s : St} {c : Nat} {y : Cell} (h : s.cells[c]? = some y) (i : Nat) :
    setOwnerOf c i s = .ok () { s with cells := s.cells.set c { y with owner := some i } } := by
  unfold setOwnerOf
  rw [bind_of_ok ((getCell_ok_iff ..).2 ⟨h, rfl⟩)]
  rfl

theorem closeOver_stack {s : St} {st : List Nat} (h : s.Stack st) : closeOver s = .ok s.envs.length { s with envs := s.envs ++ [st] } := by
  exact bind_of_ok (m := curStack) ((curStack_ok_iff ..).2 ⟨h, rfl⟩)

/-- C40.  Declaring a function whose name the innermost scope does not have always goes through. -/
theorem C40_function_declared (w : World) (n : Nat) {s : St} {i : Nat} {stk : List Nat} {x : Scope} {name : Bytes} (hst : s.Stack (i :: stk))
    (hx : s.Alive i x) (hn : ¬ x.Has name) (st : Bool) (ps : List Bytes) (body : List Stmt) :
    ∃ s', (interp w (n + 1)).exec (.fn st name ps body) s = .ok () s' ∧ Added i x name st s s' := by
  have key : ∃ s', declFn (interp w n) .function st name ps (some body) s = .ok () s' := by
    unfold declFn
    rw [bind_of_ok (curScope_stack hst), bind_of_ok (getScope_alive hx), findKeyIdx_none.2 fun v hv hk => hn ⟨v, hv, hk⟩]
    have hlt := (List.getElem?_eq_some_iff.1 hx.1).1
    simp only
    rw [bind_of_ok (addVar_alive hx _)]
    rw [bind_of_ok (alloc_apply ..)]
    rw [bind_of_ok (setVar_alive (x := { x with vars := x.vars ++ [{ key := name, isStatic := st }] })
      ⟨List.getElem?_set_self hlt, hx.2⟩ (List.getElem?_concat_length ..) _)]
    rw [bind_of_ok (setName_cell (List.getElem?_concat_length ..) _ _)]
    rw [bind_of_ok (setOwnerOf_cell (List.getElem?_set_self (by simp)) _)]
    rw [bind_of_ok (closeOver_stack (st := i :: stk) ?hs)]
    case hs => exact hst
    rw [bind_of_ok (show allocBlock (some body) _ = .ok _ _ from rfl)]
    rw [bind_of_ok ((getCell_ok_iff ..).2 ⟨List.getElem?_set_self (by simp), rfl⟩)]
    exact ⟨_, rfl⟩
  obtain ⟨s', h⟩ := key
  exact ⟨s', h, declFn_added (recFr w n) hst hx h⟩

/-- C40.  Declaring a variable without a value whose name the innermost scope does not have always goes through; with one, it goes through if
evaluating the value, with the name already there, gives one. -/
theorem C40_variable_declared (w : World) (n : Nat) {s : St} {i : Nat} {stk : List Nat} {x : Scope} {name : Bytes} (hst : s.Stack (i :: stk))
    (hx : s.Alive i x) (hn : ¬ x.Has name) (hr : s.eng.rv = .none) (st : Bool) :
    (∃ s', (interp w (n + 1)).exec (.line (.decl st name none)) s = .ok () s' ∧ Added i x name st s s') ∧
    ∀ (e : Expr) (r : Res) (c : Nat) (s1 : St) (y : Cell),
      (interp w n).eval .keep e { s with scopes := s.scopes.set i { x with vars := x.vars ++ [{ key := name, isStatic := st }] } } = .ok r s1 →
      r.val = some c → s1.cells[c]? = some y → (∀ x', s1.scopes[i]? = some x' → x'.freed = false) →
      ∃ s', (interp w (n + 1)).exec (.line (.decl st name (some e))) s = .ok () s' ∧ Added i x name st s s' := by
  have hlt := (List.getElem?_eq_some_iff.1 hx.1).1
  have hline : ∀ init, (interp w (n + 1)).exec (.line (.decl st name init)) s = declVar (interp w n) st name init s := by
    intro init
    show (do if ← returning then pure () else execLine w (interp w n) (.decl st name init) : M Unit) s = _
    rw [bind_of_ok (not_returning hr)]
    rfl
  have hR := recFr w n
  have hd : ∀ init, declVar (interp w n) st name init s = (do
        let c ← initVal (interp w n) init
        setVar (i, x.vars.length) c
        setOwnerOf c i : M Unit) ({ s with scopes := s.scopes.set i { x with vars := x.vars ++ [{ key := name, isStatic := st }] } } : St) := by
    intro init
    rw [declVar, bind_of_ok (curScope_stack hst), bind_of_ok (getScope_alive hx), findKeyIdx_none.2 fun v hv hk => hn ⟨v, hv, hk⟩]
    simp only
    rw [bind_of_ok (addVar_alive hx _)]
  refine ⟨?_, fun e r c s1 y he hrv hy hfr => ?_⟩
  · have key : ∃ s', declVar (interp w n) st name none s = .ok () s' := by
      rw [hd]
      rw [bind_of_ok (show initVal _ none _ = .ok _ _ from rfl)]
      rw [bind_of_ok (setVar_alive (x := { x with vars := x.vars ++ [{ key := name, isStatic := st }] })
        ⟨List.getElem?_set_self hlt, hx.2⟩ (List.getElem?_concat_length ..) _)]
      exact ⟨_, setOwnerOf_cell (List.getElem?_concat_length ..) _⟩
    obtain ⟨s', h⟩ := key
    exact ⟨s', (hline _).trans h, declVar_added hR hst hx h⟩
  · have key : ∃ s', declVar (interp w n) st name (some e) s = .ok () s' := by
      rw [hd]
      have hf := (hR.eval _ _).out he
      obtain ⟨x', hx', _, hk⟩ := hf.scopes i _ (List.getElem?_set_self hlt)
      have hk : x'.keys = x.keys ++ [(name, st)] := by
        rw [hk not_false]; simp [Scope.keys]
      have hv : ∃ v, x'.vars[x.vars.length]? = some v := by
        have h1 : x'.vars.length = x.vars.length + 1 := by
          have := congrArg List.length hk
          simpa [Scope.keys] using this
        exact ⟨_, List.getElem?_eq_getElem (by omega)⟩
      obtain ⟨v, hv⟩ := hv
      rw [bind_of_ok (show initVal _ (some e) _ = .ok c s1 from (bind_of_ok he).trans ((deref_ok_iff ..).2 ⟨hrv, rfl⟩))]
      rw [bind_of_ok (setVar_alive ⟨hx', hfr x' hx'⟩ hv _)]
      exact ⟨_, setOwnerOf_cell (y := y) (by exact hy) _⟩
    obtain ⟨s', h⟩ := key
    exact ⟨s', (hline _).trans h, declVar_added hR hst hx h⟩

/-- C40.  A variable declared without a value is none. -/
theorem C40_variable_none (w : World) (n : Nat) {s : St} {i : Nat} {stk : List Nat} {x : Scope} {name : Bytes} (hst : s.Stack (i :: stk))
    (hx : s.Alive i x) (hn : ¬ x.Has name) (hr : s.eng.rv = .none) (st : Bool) :
    ∃ s' x' v c, (interp w (n + 1)).exec (.line (.decl st name none)) s = .ok () s' ∧ s'.scopes[i]? = some x' ∧ x'.vars[x.vars.length]? = some v ∧
      v.key = name ∧ v.val = some c ∧ s'.Holds c .none := by
  have hlt := (List.getElem?_eq_some_iff.1 hx.1).1
  have hline : (interp w (n + 1)).exec (.line (.decl st name none)) s = declVar (interp w n) st name none s := by
    show (do if ← returning then pure () else execLine w (interp w n) (.decl st name none) : M Unit) s = _
    rw [bind_of_ok (not_returning hr)]
    rfl
  rw [hline, declVar, bind_of_ok (curScope_stack hst), bind_of_ok (getScope_alive hx), findKeyIdx_none.2 fun v hv hk => hn ⟨v, hv, hk⟩]
  simp only
  rw [bind_of_ok (addVar_alive hx _), bind_of_ok (show initVal _ none _ = .ok _ _ from rfl)]
  rw [bind_of_ok (setVar_alive (x := { x with vars := x.vars ++ [{ key := name, isStatic := st }] })
    ⟨List.getElem?_set_self hlt, hx.2⟩ (List.getElem?_concat_length ..) _)]
  rw [setOwnerOf_cell (List.getElem?_concat_length ..)]
  refine ⟨_, _, _, _, rfl, List.getElem?_set_self (by simpa using hlt), List.getElem?_set_self (by simp), rfl, rfl, ?_⟩
  exact ⟨_, List.getElem?_set_self (by simp), rfl⟩


example : (runScript emptyWorld 10 [] [sLet b!"x" (eNum b!"1"), .block [sLet b!"x" (eNum b!"2")], sLet b!"x" (eNum b!"3")]).failed =
    some (some b!"variable 'x' already declared in this scope", []) := by
  decide +kernel

example : (runScript emptyWorld 10 [] [sFn b!"f" [] [], .cls false b!"f" [] []]).failed =
    some (some b!"the function 'f' has already been declared in this scope", []) := by
  decide +kernel

/-! ## C41, C42 -/

/-- What is left as it was: the engine's environment, every scope stack (also those functions have closed over) and every declared name.
A scope may only have got new names at its end, and only if it is the innermost one and `grow` is set. -/
structure Kept (grow : Bool) (s s' : St) : Prop where
  env : s'.eng.env = s.eng.env
  stacks : ∀ (j : Nat) (st : List Nat), s.envs[j]? = some st → s'.envs[j]? = some st
  names : ∀ (i : Nat) (x : Scope), s.scopes[i]? = some x → ∃ x', s'.scopes[i]? = some x' ∧ x.names <+: x'.names
  rest : ∀ (i : Nat) (x x' : Scope), s.scopes[i]? = some x → s'.scopes[i]? = some x' → x'.names ≠ x.names → grow = true ∧ ∃ st, s.Stack (i :: st)

theorem FrE.kept {s s' : St} (h : FrE s s') (g : Bool) : Kept g s s' where
  env := h.env
  stacks := h.envs
  names := fun i x hx => by
    obtain ⟨x', h1, h2, _⟩ := h.scopes i x hx
    exact ⟨x', h1, h2⟩
  rest := fun i x x' hx hx' hne => by
    obtain ⟨x0, h1, _, h3⟩ := h.scopes i x hx
    cases h1.symm.trans hx'
    exact absurd (h3 not_false) hne

theorem FrX.kept {s s' : St} (h : FrX s s') (hv : ∃ st, s.Stack st) : Kept true s s' := by
  have h := h hv
  refine ⟨h.env, h.envs, fun i x hx => ?_, fun i x x' hx hx' hne => ⟨rfl, ?_⟩⟩
  · obtain ⟨x', h1, h2, _⟩ := h.scopes i x hx
    exact ⟨x', h1, h2⟩
  · obtain ⟨x0, h1, _, h3⟩ := h.scopes i x hx
    cases h1.symm.trans hx'
    exact Classical.byContradiction fun hc => hne (h3 hc)

/-- C41, C42.  Evaluating an expression, of whatever kind and in whatever state, leaves the stacks as they were and adds no name to any scope
there was. -/
theorem C42_expression_adds_no_name (w : World) (n : Nat) (d : Dest) (e : Expr) {s s' : St} {r : Res} (h : (interp w n).eval d e s = .ok r s') :
    Kept false s s' := (((recFr w n).eval d e).out h).kept _

/-- C41, C42.  So does a call. -/
theorem C42_call_adds_no_name (w : World) (n : Nat) (c : Nat) (acc : Option Nat) (d : Dest) (args : List Nat) {s s' : St} {r : Option Nat}
    (h : (interp w n).call c acc d args s = .ok r s') : Kept false s s' := (((recFr w n).call c acc d args).out h).kept _

/-- C41.  A statement leaves the stacks as they were, and adds names to the innermost scope only. -/
theorem C41_statement_keeps_stack (w : World) (n : Nat) (p : Stmt) {s s' : St} (hv : ∃ st, s.Stack st) (h : (interp w n).exec p s = .ok () s') :
    Kept true s s' := (((recFr w n).exec p).out h).kept hv

/-- C41.  So does a list of statements. -/
theorem C41_statements_keep_stack (w : World) (n : Nat) (ps : List Stmt) {s s' : St} (hv : ∃ st, s.Stack st)
    (h : forEach (interp w n).exec ps s = .ok () s') : Kept true s s' := ((keeps_forEach trnX (recFr w n).exec ps).out h).kept hv

/-- C41.  A block adds no name to any scope there was, not even the innermost. -/
theorem C41_block_adds_no_name (w : World) (n : Nat) (ps : List Stmt) {s s' : St} (h : (interp w n).exec (.block ps) s = .ok () s') :
    Kept false s s' := by
  cases n with
  | zero => cases h
  | succ n => exact ((keeps_bind trnE (kE_execBlock (recFr w n) ps) fun _ => keeps_pure trnE _).out h).kept _

/-- C41.  A script that ends leaves the stack it began with. -/
theorem C41_script_keeps_stack (w : World) (n : Nat) (paths : List Bytes) (p : List Stmt) {s : St} (h : runScript w n paths p = .ok () s) : s.Stack [0] := by
  have := C41_statements_keep_stack w n p ⟨[0], by exact rfl⟩ h
  have h1 := this.stacks 0 [0] rfl
  unfold St.Stack
  rw [this.env]
  exact h1

/-- A script with classes, closures and nested calls, ending normally. -/
example : (runScript emptyWorld 20 [] [sFn b!"f" [b!"a"] [sLet b!"g" (.lambda [b!"b"] (.expr (.bin .add (eVar b!"a") (eVar b!"b")))), sRet (eVar b!"g")],
    .cls false b!"C" [b!"p"] [sLet b!"m" (eVar b!"p"), sFn b!"get" [] [sRet (eVar b!"m")]], sLet b!"c" (eCall (eVar b!"C") [eNum b!"5"]),
    sPrint (eCall (eCall (eVar b!"f") [eNum b!"1"]) [eNum b!"2"]), sPrint (eCall (.access (eVar b!"c") b!"get") [])]).printed =
    some [b!"3", b!"5"] := by
  decide +kernel

/-! ## C43 -/

/-- C43.  Assigning to a name which means a function or class is refused whatever the right-hand side, which is not even evaluated, and nothing
changes. -/
theorem C43_function_not_assignable (w : World) (n : Nat) {s : St} {pre post : List Nat} {i k c : Nat} {x : Scope} {v : Var} {f : FnData} {name : Bytes}
    (hst : s.Stack (pre ++ i :: post)) (hpre : ∀ j ∈ pre, ∃ y, s.Alive j y ∧ ¬ y.Has name) (hx : s.Alive i x) (hv : x.First name k v)
    (hc : v.val = some c) (hf : s.Holds c (.fn f)) (hr : s.eng.rv = .none) (rhs : Expr) :
    Refused (b!"cannot assign to " ++ typeStr (.fn f) ++ b!" '" ++ name ++ b!"'") s ((interp w (n + 1)).exec (.line (.assign (.ident name) rhs)) s) := by
  show Refused _ s ((do if ← returning then pure () else execLine w (interp w n) (.assign (.ident name) rhs) : M Unit) s)
  rw [bind_of_ok (not_returning hr)]
  show Refused _ s (assign (interp w n) (.ident name) rhs s)
  obtain ⟨y, hy, hd⟩ := hf
  unfold assign
  simp only
  rw [bind_of_ok (C39_lookup_innermost hst hpre hx hv)]
  simp only
  have hg : getVar (i, k) s = .ok v s := by
    unfold getVar
    rw [bind_of_ok (getScope_alive hx)]
    exact (deref_ok_iff ..).2 ⟨hv.1, rfl⟩
  rw [bind_of_ok hg]
  unfold assignTo
  rw [bind_of_ok ((deref_ok_iff ..).2 ⟨hc, rfl⟩), bind_of_ok ((getCell_ok_iff ..).2 ⟨hy, rfl⟩), hd]
  simp only [Data.kind, Option.isSome_some, and_self]
  exact refused_raise _ _

/-- C43.  The same for a member of an instance or class, once it has been found. -/
theorem C43_member_not_assignable (w : World) (n : Nat) {s s1 : St} {e : Expr} {p : Nat × Nat} {a c : Nat} {f : FnData} {name text : Bytes}
    (ha : accessFind (interp w n) e name s = .ok (some p, some c, a) s1) (hf : s1.Holds c (.fn f)) (hr : s.eng.rv = .none) (rhs : Expr) :
    Refused (b!"cannot assign to " ++ typeStr (.fn f) ++ b!" '" ++ cstr text ++ b!"'") s1
      ((interp w (n + 1)).exec (.line (.assign (.access e name text) rhs)) s) := by
  show Refused _ s1 ((do if ← returning then pure () else execLine w (interp w n) (.assign (.access e name text) rhs) : M Unit) s)
  rw [bind_of_ok (not_returning hr)]
  show Refused _ s1 (assign (interp w n) (.access e name text) rhs s)
  obtain ⟨y, hy, hd⟩ := hf
  unfold assign
  simp only
  rw [bind_of_ok ha]
  simp only
  unfold assignTo
  rw [bind_of_ok ((deref_ok_iff ..).2 ⟨rfl, rfl⟩), bind_of_ok ((getCell_ok_iff ..).2 ⟨hy, rfl⟩), hd]
  simp only [Data.kind, Option.isSome_some, and_self]
  exact refused_raise _ _

example : (runScript emptyWorld 10 [] [sFn b!"f" [] [], sSet b!"f" (eNum b!"1")]).failed = some (some b!"cannot assign to function 'f'", []) := by
  decide +kernel

/-- The check is by name only.  A function is a value shared by all its holders, so assigning to a vector element that is the function
replaces the function itself: here `f` becomes `g`. -/
theorem C43_through_vector_false :
    ∃ p, (runScript emptyWorld 12 [] p).printed = some [b!"2"] ∧ p =
      [sFn b!"f" [] [sRet (eNum b!"1")], sFn b!"g" [] [sRet (eNum b!"2")], sLet b!"v" (.vec [eVar b!"f"]),
        .line (.assign (.index (eVar b!"v") (eNum b!"0") b!"v[0]") (eVar b!"g")), sPrint (eCall (eVar b!"f") [])] :=
  ⟨_, by decide +kernel, rfl⟩

end Bob.Fl
