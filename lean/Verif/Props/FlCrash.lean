import Verif.Props.FlImport
/-!
# Crashes (C59) and released values (C65)
-/

namespace Bob.Fl

/-! ## C59 -/

theorem eval_undeclared (w : World) (n : Nat) {s : St} (hst : s.Stack [0]) {x : Scope} (hx : s.Alive 0 x) {name : Bytes} (hno : ¬ x.Has name) :
    Refused (b!"could not find identifier: " ++ name) s ((interp w (n + 1)).eval .keep (.ident name) s) := by
  show Refused _ _ ((evalIdent name >>= fun c => pure { val := some c } : M Res) s)
  refine refused_bind ?_
  unfold evalIdent
  have : findVar name s = .ok none s := by
    unfold findVar curStack
    rw [bind_apply, bind_of_ok (get_apply s), (deref_ok_iff ..).2 ⟨hst, rfl⟩]
    show findIn name [0] s = _
    unfold findIn
    rw [bind_of_ok (shallowFind_alive hx name), findKeyIdx_none.2 fun v hv hk => hno ⟨v, hv, hk⟩]
    rfl
  rw [bind_of_ok this]
  exact refused_raise _ _

/-- **C59.**  Using a name that was never declared: a message, if the name has less than 208 bytes.  Longer names make bob abort. -/
theorem C59_unknown_name (w : World) (n : Nat) (paths : List Bytes) (name : Bytes) :
    runScript w (n + 2) paths [sPrint (eVar name)] =
      if name.length < 208 then .err (some (b!"could not find identifier: " ++ name)) (St.init paths) else .abort { St.init paths with cause := .message } := by
  have h : Refused (b!"could not find identifier: " ++ name) (St.init paths) (runScript w (n + 2) paths [sPrint (eVar name)]) := by
    unfold runScript
    show Refused _ _ (((interp w (n + 2)).exec _ >>= fun _ => forEach _ _) _)
    refine refused_bind ?_
    rw [show sPrint (eVar name) = .line (.print (.ident name)) from rfl, exec_line w (n + 1) rfl]
    show Refused _ _ (doPrint (interp w (n + 1)) (.ident name) _)
    unfold doPrint Rec.value
    exact refused_bind (refused_bind (eval_undeclared w n (s := St.init paths) (x := {}) rfl ⟨rfl, rfl⟩ (by rintro ⟨v, hv, _⟩; cases hv)))
  have hlen : (b!"could not find identifier: " ++ name).length = 27 + name.length := List.length_append
  rcases h with ⟨h, hl⟩ | ⟨h, hl⟩ <;> rw [h]
  · rw [if_pos (by omega)]
  · rw [if_neg (by omega)]

/-- **C59.**  Every message can be too long: what would be refused with a message of 235 bytes or more aborts instead. -/
theorem C59_long_message_false {α : Type} (msg : Bytes) (s : St) (h : 235 ≤ msg.length) : (raise msg : M α) s = .abort { s with cause := .message } := by
  rcases refused_raise (α := α) msg s with ⟨_, hl⟩ | ⟨h', _⟩
  · omega
  · exact h'

/-- **C59.**  A variable whose initialiser is itself (and which is new) makes bob dereference NULL, whatever its name. -/
theorem C59_own_initialiser_false (w : World) (n : Nat) {s : St} {i : Nat} {stk : List Nat} {x : Scope} {name : Bytes} {st : Bool} (hr : s.eng.rv = .none) (hst : s.Stack (i :: stk))
    (hx : s.Alive i x) (hno : ¬ x.Has name) : ((interp w (n + 2)).exec (.line (.decl st name (some (.ident name)))) s).isUb = true := by
  rw [exec_line w (n + 1) hr]
  show (declVar (interp w (n + 1)) st name (some (.ident name)) s).isUb = true
  unfold declVar
  rw [bind_of_ok (curScope_stack hst), bind_of_ok (getScope_alive hx), findKeyIdx_none.2 fun v hv hk => hno ⟨v, hv, hk⟩]
  simp only
  rw [bind_of_ok (addVar_alive hx _)]
  have hlt := (List.getElem?_eq_some_iff.1 hx.1).1
  have hal : St.Alive { s with scopes := s.scopes.set i { x with vars := x.vars ++ [{ key := name, isStatic := st }] } } i { x with vars := x.vars ++ [{ key := name, isStatic := st }] } :=
    ⟨List.getElem?_set_self hlt, hx.2⟩
  generalize hs1 : ({ s with scopes := s.scopes.set i { x with vars := x.vars ++ [{ key := name, isStatic := st }] } } : St) = s1 at hal ⊢
  have hst1 : s1.Stack (i :: stk) := by subst hs1; exact hst
  have hfirst : Scope.First { x with vars := x.vars ++ [{ key := name, isStatic := st }] } name x.vars.length { key := name, isStatic := st } := by
    refine ⟨List.getElem?_concat_length .., rfl, fun k' v' hk hv he => ?_⟩
    rw [List.getElem?_append_left hk] at hv
    exact hno ⟨v', List.mem_of_getElem? hv, he⟩
  have hub : evalIdent name s1 = .ub { s1 with cause := .uninit } := by
    unfold evalIdent
    have : findVar name s1 = .ok (some (i, x.vars.length)) s1 := by
      unfold findVar curStack
      rw [bind_apply, bind_of_ok (get_apply s1), (deref_ok_iff ..).2 ⟨hst1, rfl⟩]
      show findIn name (i :: stk) s1 = _
      unfold findIn
      rw [bind_of_ok (shallowFind_alive hal name), findKeyIdx_of_first hfirst]
      rfl
    rw [bind_of_ok this]
    show (getVar _ >>= _) s1 = _
    rw [bind_of_ok (getVar_first hal hfirst)]
    rfl
  have : initVal (interp w (n + 1)) (some (.ident name)) s1 = .ub { s1 with cause := .uninit } := by
    show ((evalIdent name >>= fun c => pure { val := some c } : M Res) >>= fun r => M.deref r.val) s1 = _
    rw [bind_apply, bind_apply, hub]
  rw [bind_apply, this]
  rfl

/-- **C59.**  Also undefined: integers too large. -/
theorem C59_overflow_false : (runScript emptyWorld 10 [] [sPrint (.bin .add (eNum b!"9223372036854775807") (eNum b!"1"))]).isUb = true ∧
    (runScript emptyWorld 10 [] [sPrint (eNum b!"9223372036854775808")]).isUb = true := by
  constructor <;> decide +kernel

/-! ## C65 -/

/-- Values that are part of a value. -/
inductive St.Part (s : St) : Nat → Nat → Prop where
  | self {c : Nat} : Part s c c
  | elem {c e p : Nat} {es : List Nat} : s.Holds c (.vec es) → e ∈ es → Part s e p → Part s c p
  | key {c p : Nat} {e : Nat × Nat} {es : List (Nat × Nat)} : s.Holds c (.map es) → e ∈ es → Part s e.1 p → Part s c p
  | value {c p : Nat} {e : Nat × Nat} {es : List (Nat × Nat)} : s.Holds c (.map es) → e ∈ es → Part s e.2 p → Part s c p

/-- The memory of a string or a function was released. -/
def St.Lost (s : St) (c : Nat) : Prop :=
  (∃ buf size, s.Holds c (.str buf size) ∧ s.bufs[buf]? = some none) ∨ ∃ f b, s.Holds c (.fn f) ∧ f.body = some b ∧ s.bodies[b]? = some none

/-- No variable of a scope in use has a value with a lost part. -/
def St.NoneLost (s : St) : Prop := ∀ i x v c p, s.Alive i x → v ∈ x.vars → v.val = some c → s.Part c p → ¬ s.Lost p

/-- The address of the string of a variable of scope 0, and that of its buffer if it was released; for examples. -/
def Out.lostAt (k : Nat) : Out Unit → Option (Nat × Nat × Nat)
  | .ok _ s =>
    match s.scopes[0]? with
    | some x =>
      match x.freed, x.vars[k]? with
      | false, some v =>
        match v.val with
        | some c =>
          match s.cells[c]? with
          | some y =>
            match y.data with
            | .str buf size => if s.bufs[buf]? = some none then some (c, buf, size) else none
            | _ => none
          | none => none
        | none => none
      | _, _ => none
    | none => none
  | _ => none

theorem lost_of_lostAt {k : Nat} {o : Out Unit} (h : (o.lostAt k).isSome = true) : ∃ s, o = .ok () s ∧ ¬ s.NoneLost := by
  unfold Out.lostAt at h
  split at h
  · rename_i u s
    split at h
    · rename_i x hx
      split at h
      · rename_i v hf hv
        split at h
        · rename_i c hc
          split at h
          · rename_i y hy
            split at h
            · rename_i buf size hd
              split at h
              · rename_i hb
                exact ⟨s, rfl, fun hn => hn 0 x v c c ⟨hx, hf⟩ (List.mem_of_getElem? hv) hc .self (Or.inl ⟨buf, size, ⟨y, hy, hd⟩, hb⟩)⟩
              · cases h
            · cases h
          · cases h
        · cases h
      · cases h
    · cases h
  · cases h

/-- `let a = "a"`, `let v = [a]`, a function assigning to its parameter, and `v.map` with it. -/
def mapFrees : List Stmt := [sLet b!"v" (.vec [eStr b!"a"]), sLet b!"a" (.index (eVar b!"v") (eNum b!"0")), sFn b!"f" [b!"x"] [sSet b!"x" (eStr b!"b"), sRet (eVar b!"x")],
  sDo (eCall (.access (eVar b!"v") b!"map") [eVar b!"f"]), sDo (eCall (.access (eVar b!"v") b!"map") [eVar b!"f"])]

/-- **C65.**  Assigning to the parameter of a callback of `map` releases an element that a variable still has. -/
theorem C65_map_false : ∃ s, runScript emptyWorld 20 [] mapFrees = .ok () s ∧ ¬ s.NoneLost := lost_of_lostAt (k := 1) (by decide +kernel)

/-- Using it afterwards is undefined. -/
example : (runScript emptyWorld 20 [] (mapFrees ++ [sPrint (eVar b!"a")])).isUb = true ∨ (runScript emptyWorld 20 [] (mapFrees ++ [sPrint (eVar b!"a")])).isAbort = true := by decide +kernel

/-- A function that assigns to a variable, called for the value to be assigned to that variable. -/
def callFrees : List Stmt := [sLet b!"x" (eStr b!"a"), sLet b!"y" (eVar b!"x"), sFn b!"f" [] [sSet b!"x" (eStr b!"b"), sRet (eStr b!"c")], sSet b!"x" (eCall (eVar b!"f") [])]

/-- **C65.**  So does an assignment whose right side assigns to the same variable: the old value is released twice. -/
theorem C65_twice_false : ∃ s, runScript emptyWorld 20 [] callFrees = .ok () s ∧ ¬ s.NoneLost := lost_of_lostAt (k := 1) (by decide +kernel)

/-- An element assigned to, of which a variable has the previous value (which is the same one, see C44). -/
def elemFrees : List Stmt := [sLet b!"v" (.vec [eStr b!"a"]), sLet b!"a" (.index (eVar b!"v") (eNum b!"0")), sLet b!"b" (.index (eVar b!"v") (eNum b!"0")),
  .line (.assign (.index (eVar b!"v") (eNum b!"0") b!"v[0]") (eStr b!"c")), sSet b!"a" (eStr b!"d")]

/-- **C65.**  So does an assignment to an element, which also overwrites the number of references to it. -/
theorem C65_element_false : ∃ s, runScript emptyWorld 20 [] elemFrees = .ok () s ∧ ¬ s.NoneLost := lost_of_lostAt (k := 2) (by decide +kernel)

/-- A function kept from a constructor, and the instance replaced. -/
def instFrees : List Stmt := [sLet b!"k" (.lit .none), .cls false b!"C" [] [sLet b!"x" (eStr b!"a"), sSet b!"k" (.lambda [] (.expr (eVar b!"x")))], sLet b!"c" (eCall (eVar b!"C") []),
  sSet b!"c" (.lit .none), sPrint (eCall (eVar b!"k") [])]

/-- **C65.**  And replacing an instance releases its scope, which functions made by the constructor may still use. -/
theorem C65_closure_false : (runScript emptyWorld 20 [] instFrees).isUb = true := by decide +kernel

/-- A function declared by a constructor and kept, and the instance replaced. -/
def nameFrees : List Stmt := [sLet b!"k" (.lit .none), .cls false b!"C" [] [sFn b!"f" [] [sRet (eNum b!"1")], sSet b!"k" (.vec [eVar b!"f"])], sLet b!"c" (eCall (eVar b!"C") []),
  sSet b!"c" (.lit .none)]

/-- **C65.**  The names of functions go with that scope too, so that such a function can no longer be printed. -/
theorem C65_name_false : (runScript emptyWorld 20 [] (nameFrees ++ [sPrint (eVar b!"k")])).isUb = true ∧
    (runScript emptyWorld 20 [] (nameFrees.take 3 ++ [sPrint (eVar b!"k")])).printed = some [b!"[<function f>]"] := by
  decide +kernel

end Bob.Fl
