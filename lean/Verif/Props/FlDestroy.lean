import Verif.Lemmas.FlTear
import Verif.Lemmas.FlCalm
import Verif.Props.FlSafe
/-!
# C77: tearing the interpreter down after a failed script
-/

namespace Bob.Fl

/-! ## A scope can be freed only once -/

/-- There is no such scope (any more). -/
def St.Gone (s : St) (i : Nat) : Prop := s.open i = false

theorem gone_scopes {s s' : St} (h : s'.scopes = s.scopes) {i : Nat} (hi : s.Gone i) : s'.Gone i := by
  unfold St.Gone St.open at *
  rw [h]
  exact hi

theorem gone_ok {s : St} {i : Nat} (h : s.Gone i) {x : Scope} {s' : St} : getScope i s ≠ .ok x s' := by
  intro he
  obtain ⟨hx, hf, _⟩ := (getScope_ok_iff ..).1 he
  unfold St.Gone St.open at h
  rw [hx] at h
  simp only [Option.any_some, hf] at h
  cases h

theorem gone_set {s : St} {i : Nat} (h : s.Gone i) {k : Nat} {x : Scope} :
    St.Gone { s with scopes := s.scopes.set k { x with freed := true } } i := by
  unfold St.Gone St.open at *
  simp only [List.getElem?_set]
  by_cases hk : k = i
  · rw [if_pos hk]
    by_cases hl : k < s.scopes.length
    · rw [if_pos hl]; rfl
    · rw [if_neg hl]; rfl
  · rw [if_neg hk]; exact h

section
variable {i : Nat}

/-- What is gone stays gone. -/
def StayGone (i : Nat) (s s' : St) : Prop := s.Gone i → s'.Gone i

theorem trnGone : Trn (StayGone i) := ⟨fun _ h => h, fun h1 h2 h => h2 (h1 h)⟩

theorem gone_decVars {dec : Nat → M Unit} (hd : ∀ c, Keeps (StayGone i) (dec c)) : ∀ vs, Keeps (StayGone i) (decVars dec vs)
  | [] => keeps_pure trnGone _
  | v :: vs => keeps_bind trnGone (keeps_optIter trnGone hd v.val) fun _ => gone_decVars hd vs

theorem gone_freeScope {dec : Nat → M Unit} (hd : ∀ c, Keeps (StayGone i) (dec c)) (k : Nat) : Keeps (StayGone i) (freeScope dec k) := by
  refine keeps_bind trnGone (keeps_getScope trnGone k) fun x => keeps_bind trnGone (gone_decVars hd _) fun _ => ⟨fun {s a s'} h => ?_⟩
  simp only [bind_ok_iff, getScope_ok_iff, setScope_apply, Out.ok.injEq] at h
  obtain ⟨x, s1, ⟨hx, _, rfl⟩, _, rfl⟩ := h
  exact fun h => gone_set h

theorem gone_modify {f : St → St} (h : ∀ s, (f s).scopes = s.scopes) : Keeps (StayGone i) (M.modify f) :=
  ⟨fun {s _ _} he => by cases he; exact fun hg => gone_scopes (h s) hg⟩

theorem gone_freeVal {dec : Nat → M Unit} (hd : ∀ c, Keeps (StayGone i) (dec c)) (c : Nat) : Keeps (StayGone i) (freeVal dec c) := by
  unfold freeVal
  refine keeps_bind trnGone (keeps_getCell trnGone _) fun x => ?_
  split
  · unfold freeBuf
    refine keeps_bind trnGone (keeps_get trnGone) fun s0 => ?_
    split
    · exact gone_modify fun _ => rfl
    · exact keeps_ub
  · unfold freeBody
    split
    · exact keeps_pure trnGone _
    · refine keeps_bind trnGone (keeps_get trnGone) fun s0 => ?_
      split
      · exact gone_modify fun _ => rfl
      · exact keeps_ub
  · refine keeps_bind trnGone (gone_freeScope hd _) fun _ => ?_
    unfold freeState
    split
    · exact keeps_pure trnGone _
    · refine keeps_bind trnGone (keeps_get trnGone) fun s0 => ?_
      split
      · split
        · exact keeps_ub
        · exact gone_modify fun _ => rfl
      · exact keeps_ub
  · exact keeps_pure trnGone _

theorem gone_dec (w : World) : ∀ n c, Keeps (StayGone i) ((interp w n).dec c)
  | 0, _ => ⟨fun h => (nomatch h)⟩
  | n + 1, c => by
    refine keeps_bind trnGone (keeps_getCell trnGone _) fun x => keeps_bind trnGone (gone_modify fun _ => rfl) fun _ => ?_
    generalize (if x.refs = 0 then 18446744073709551615 else x.refs - 1) = r
    by_cases hr : r = 0
    · rw [if_pos hr]
      exact gone_freeVal (gone_dec w n) c
    · rw [if_neg hr]
      exact keeps_pure trnGone _

/-- Once it is gone a loop that frees it does not get to its end. -/
theorem forEach_gone {w : World} {m : Nat} (st : List Nat) {s s' : St} (hg : s.Gone i) (hi : i ∈ st) (h : forEach (freeScope (interp w m).dec) st s = .ok () s') : False := by
  induction st generalizing s with
  | nil => cases hi
  | cons k st ih =>
    unfold forEach at h
    obtain ⟨_, s1, h1, h2⟩ := (bind_ok_iff ..).1 h
    by_cases hk : k = i
    · subst hk
      unfold freeScope at h1
      obtain ⟨x, s0, h0, _⟩ := (bind_ok_iff ..).1 h1
      exact gone_ok hg h0
    · exact ih ((gone_freeScope (gone_dec w m) k).out h1 hg) ((List.mem_cons.1 hi).resolve_left (Ne.symm hk)) h2

theorem forEach_twice {w : World} {m : Nat} (st : List Nat) {s s' : St} (hi : 2 ≤ st.count i) (h : forEach (freeScope (interp w m).dec) st s = .ok () s') : False := by
  induction st generalizing s with
  | nil => simp at hi
  | cons k st ih =>
    unfold forEach at h
    obtain ⟨_, s1, h1, h2⟩ := (bind_ok_iff ..).1 h
    by_cases hk : k = i
    · subst hk
      rw [List.count_cons_self] at hi
      refine forEach_gone st ?_ (List.count_pos_iff.1 (Nat.le_of_succ_le_succ hi)) h2
      simp only [freeScope, bind_ok_iff, getScope_ok_iff, setScope_apply, Out.ok.injEq] at h1
      obtain ⟨_, _, _, _, _, _, x, s3, ⟨hx, _, rfl⟩, _, rfl⟩ := h1
      unfold St.Gone St.open
      simp only [List.getElem?_set, if_pos (List.getElem?_eq_some_iff.1 hx).1]
      rfl
    · rw [List.count_cons_of_ne hk] at hi
      exact ih hi h2

end

/-- **C77**, part: an environment with a scope in it twice cannot be torn down, whatever else the memory holds. -/
theorem C77_scope_twice {w : World} {m : Nat} {s : St} {st : List Nat} (hs : s.envs[s.eng.env]? = some st) {i : Nat} (hi : 2 ≤ st.count i) (s' : St) :
    destroy (interp w m).dec s ≠ .ok () s' := by
  intro h
  obtain ⟨st', s1, h1, h2⟩ := (bind_ok_iff ..).1 h
  obtain ⟨h1, rfl⟩ := (curStack_ok_iff ..).1 h1
  rw [hs] at h1
  cases h1
  exact forEach_twice st.reverse (by rw [List.count_reverse]; exact hi) h2

/-- **C77**, part: whenever one of bob's functions, called on an instance, returns an error — for whatever reason — the interpreter cannot be torn
down: the scope of the instance is in the environment twice, once from where the function was declared and once from the call. -/
theorem C77_failed_method {w : World} {n m : Nat} {s s' : St} {callable a : Nat} {x y : Cell} {f : FnData} {i : InstData} {e : Nat} {st : List Nat} {d : Dest} {args : List Nat} {msg : Option Bytes}
    (hx : s.cells[callable]? = some x) (hf : x.data = .fn f) (hk : f.kind = .extern) (he : f.env = some e) (hst : s.envs[e]? = some st)
    (hy : s.cells[a]? = some y) (hi : y.data = .inst i) (hin : i.scope ∈ st)
    (h : (interp w (n + 1)).call callable (some a) d args s = .err msg s') (s2 : St) :
    destroy (interp w m).dec s' ≠ .ok () s2 := by
  suffices hs' : s'.envs[s'.eng.env]? = some (s.scopes.length :: i.scope :: st) by
    refine C77_scope_twice hs' (i := i.scope) ?_ s2
    have := List.count_pos_iff.2 hin
    rw [List.count_cons, List.count_cons_self]
    omega
  have h : stepCall w (interp w n) callable (some a) d args s = .err msg s' := h
  unfold stepCall at h
  rw [bind_of_ok ((getCell_ok_iff ..).2 ⟨hx, rfl⟩), hf] at h
  simp only at h
  have hsc : instScope (some a) s = .ok (some i.scope) s := by
    simp only [instScope]
    rw [bind_of_ok ((getCell_ok_iff ..).2 ⟨hy, rfl⟩), hi]
    rfl
  rw [bind_of_ok hsc, bind_of_ok (get_apply s), bind_apply] at h
  cases hen : enter f (some i.scope) s with
  | err msg' s1 => exact absurd hen ((noErr_enter _ _).out s msg' s1)
  | abort s1 => rw [hen] at h; cases h
  | ub s1 => rw [hen] at h; cases h
  | timeout => rw [hen] at h; cases h
  | ok j s1 =>
    rw [hen] at h
    simp only at h
    obtain ⟨st', hst', rfl, rfl⟩ := enter_ok hen
    rw [he] at hst' h
    simp only [Option.getD_some] at hst' h
    rw [hst] at hst'
    cases hst'
    have hlt := (List.getElem?_eq_some_iff.1 hst).1
    suffices hh : s'.envs = s.envs.set e (s.scopes.length :: i.scope :: st) ∧ s'.eng.env = e by
      rw [hh.1, hh.2, List.getElem?_set_self hlt]
    rw [bind_apply] at h
    split at h
    · rename_i u s1 hsa
      obtain ⟨hc1, hc2⟩ := ((calm_setupArgs _ f args).out _).1 _ _ hsa
      have hrun : ∀ msg s', runBody w (interp w n) callable f (some a) d args s1 = .err msg s' → s'.envs = s1.envs ∧ s'.eng.env = s1.eng.env := by
        refine fun msg s' => ((?_ : Calm (runBody w (interp w n) callable f (some a) d args)).out s1).2 msg s'
        unfold runBody
        rw [hk]
        simp only
        exact calm_bind calm_getRv fun _ => calm_bind (calm_assert _) fun _ => calm_bind (calm_externFn w callable args) fun _ =>
          calm_bind (calm_modify fun _ => ⟨rfl, rfl⟩) fun _ => calm_bind (calm_setRv _) fun _ => calm_pure _
      rw [bind_apply] at h
      cases hr : runBody w (interp w n) callable f (some a) d args s1 with
      | err msg' s3 =>
        rw [hr] at h
        cases h
        obtain ⟨h3, h4⟩ := hrun _ _ hr
        exact ⟨h3.trans hc1, h4.trans hc2⟩
      | abort s1 => rw [hr] at h; cases h
      | ub s1 => rw [hr] at h; cases h
      | timeout => rw [hr] at h; cases h
      | ok ran s3 =>
        rw [hr] at h
        simp only at h
        have hran : ran = .callback := by
          unfold runBody at hr
          rw [hk] at hr
          simp only [bind_ok_iff, pure_apply, Out.ok.injEq] at hr
          obtain ⟨_, _, _, _, _, _, _, _, _, _, _, _, _, _, _, hr, _⟩ := hr
          exact hr.symm
        subst hran
        refine absurd h ((noErr_bind (noErr_leave _ _) fun _ => ?_).out s3 msg s')
        exact noErr_finish (noErr_dec w n) callable d args
    · rename_i msg' s1 hsa
      cases h
      exact ((calm_setupArgs _ f args).out _).2 _ _ hsa
    all_goals cases h

/-! ## When it ends well -/

/-- Values to which only the scopes `al` refer have all their parts: buffers, bodies, host states, scopes among `al`. -/
def St.Whole (s : St) (al : List Nat) : Prop := ∀ c < s.cells.length, s.Due al [] c → ∀ p ∈ (s.dataOf c).owned, s.Live al p

instance (s : St) (al : List Nat) : Decidable (s.Whole al) := by unfold St.Whole; infer_instance

/-- Two values have no part in common. -/
def St.NoShare (s : St) (c c' : Nat) : Prop := ∀ p ∈ (s.dataOf c).owned, p ∉ (s.dataOf c').owned

instance (s : St) (c c' : Nat) : Decidable (s.NoShare c c') := by unfold St.NoShare; infer_instance

/-- They do not share them. -/
def St.Unshared (s : St) (al : List Nat) : Prop :=
  ∀ c < s.cells.length, s.Due al [] c → ∀ c' < s.cells.length, s.Due al [] c' → c ≠ c' → s.NoShare c c'

instance (s : St) (al : List Nat) : Decidable (s.Unshared al) := by unfold St.Unshared; infer_instance

/-- The references of the scopes `al` are in order: the scopes exist, and so do the values in them; no value is held by more of their variables than it
has references; and the values to which nothing else refers have parts of their own. -/
def St.InOrder (s : St) (al : List Nat) : Prop :=
  al.Nodup ∧ (∀ i ∈ al, s.open i = true) ∧ (∀ i ∈ al, ∀ c ∈ s.heldAt i, c < s.cells.length) ∧
  (∀ c < s.cells.length, s.claims al [] c ≤ s.refsOf c) ∧ s.Whole al ∧ s.Unshared al

instance (s : St) (al : List Nat) : Decidable (s.InOrder al) := by unfold St.InOrder; infer_instance

/-- Besides, the environment in force consists of different scopes among them, none of which belongs to an instance that will be freed. -/
def St.TearOk (s : St) (al : List Nat) : Prop :=
  s.InOrder al ∧
  match s.envs[s.eng.env]? with
  | some st => st.Nodup ∧ (∀ i ∈ st, i ∈ al) ∧ ∀ c < s.cells.length, s.Due al [] c → ∀ i ∈ st, Piece.scope i ∉ (s.dataOf c).owned
  | none => False

instance (s : St) (al : List Nat) : Decidable (s.TearOk al) := by
  unfold St.TearOk
  cases s.envs[s.eng.env]? <;> infer_instance

theorem due_lt {s : St} {al T : List Nat} {c : Nat} (h : s.Due al T c) : c < s.cells.length := by
  have := h.1
  unfold St.refsOf at this
  cases hx : s.cells[c]? with
  | none => rw [hx] at this; exact absurd rfl this
  | some x => exact (List.getElem?_eq_some_iff.1 hx).1

theorem St.TearOk.destroy {w : World} {m : Nat} {s : St} {al : List Nat} (h : s.TearOk al) (hm : al.length ≤ m) :
    ∃ s', Bob.Fl.destroy (interp w m).dec s = .ok () s' := by
  obtain ⟨⟨h1, h2, h3, h4, h5, h6⟩, h7⟩ := h
  cases hst : s.envs[s.eng.env]? with
  | none => rw [hst] at h7; exact h7.elim
  | some st =>
    rw [hst] at h7
    obtain ⟨h7, h8, h9⟩ := h7
    unfold Bob.Fl.destroy
    rw [bind_of_ok ((curStack_ok_iff ..).2 ⟨hst, rfl⟩)]
    refine fine_forEach (K := (· ∈ st)) (O := []) (R := []) (T := []) (fine_dec w m) st.reverse al s hm ((List.reverse_perm st).symm.nodup h7)
      (fun i hi => ⟨h8 i (List.mem_reverse.1 hi), List.mem_reverse.1 hi⟩) ?_
    exact {
      nodup := h1
      nodupO := List.nodup_nil
      nodupR := List.nodup_nil
      disj := fun _ _ => List.not_mem_nil
      isOpen := h2
      openO := fun _ h => (nomatch h)
      liveR := fun _ h => (nomatch h)
      inT := fun _ h => (nomatch h)
      inAl := h3
      counts := h4
      live := fun c hc => h5 c (due_lt hc) hc
      keep := fun c hc i hp hi => h9 c (due_lt hc) hc i hi hp
      reserved := fun _ _ _ h => (nomatch h)
      apart := fun c c' hc hc' => h6 c (due_lt hc) hc c' (due_lt hc') hc' }

/-- Whether an outcome is a normal end. -/
def Out.ended : Out α → Bool
  | .ok _ _ => true
  | _ => false

/-- The property: a script that keeps to the rules of C69 but fails is torn down without a crash, given enough recursion depth. -/
def TeardownSafe : Prop := ∀ (L : Discipline) (w : World) (p : List Stmt), w.Ok L → okStmts L .top p = true → ∀ n paths msg s,
  runScript w n paths p = .err msg s → ∃ m, (teardown (interp w m).dec (.err msg s)).ended = true

/-- **C77** (partial): the interpreter is torn down without a crash after every failed script, and after every script that did not import `bob.fl`, that leaves the references of
its scopes in order.  Missing: that scripts do, as long as they do not fail
in a method of an instance or in functions called by `map` or `where`. -/
theorem C77_teardown_safe_partial {w : World} {n m : Nat} {paths : List Bytes} {p : List Stmt} {s : St} {al : List Nat}
    (h : runScript w n paths p = .ok () s ∨ ∃ msg, runScript w n paths p = .err msg s) (hs : s.TearOk al) (hm : al.length ≤ m) :
    (teardown (interp w m).dec (runScript w n paths p)).ended = true := by
  obtain ⟨s', hd⟩ := hs.destroy (w := w) hm
  rcases h with h | ⟨msg, h⟩ <;> rw [h] <;> unfold teardown <;> simp only
  · split
    · rfl
    · rw [hd]; rfl
  · rw [hd]; rfl

/-! ## Scripts that fail -/

/-- Using a name that does not exist. -/
def sBad : Stmt := sPrint (eVar b!"nope")

/-- Failing at the top, in a function, in a function passed to `map`, with an instance around and passed along, and at an import. -/
def failingScripts : List (List Stmt) := [
  [sBad],
  [sBob, sLet b!"x" (eStr b!"a"), sLet b!"y" (eVar b!"x"), sBad],
  [sBob, sLet b!"cc" (eNew b!"Cc" []), sLet b!"dd" (eVar b!"cc"), sBad],
  [sBob, sFn b!"f" [b!"x"] [sBad], sLet b!"cc" (eNew b!"Cc" []), sDo (eCall (eVar b!"f") [eVar b!"cc"])],
  [sBob, sFn b!"f" [] [sFn b!"g" [] [sBad], sRet (eVar b!"g")], sLet b!"h" (eCall (eVar b!"f") []), sDo (eCall (eVar b!"h") [])],
  [sBob, sLet b!"v" (.vec [eStr b!"a"]), sFn b!"f" [b!"x"] [sBad], sDo (eMeth (eVar b!"v") b!"map" [eVar b!"f"])],
  [sBob, .line (.import false [b!"nix"])],
  ownBuild ++ [sBad]]

/-- It fails and leaves all references in order. -/
def failsInOrder (p : List Stmt) : Bool :=
  match runScript bobWorld 40 bobPaths p with
  | .err _ s => decide (s.TearOk (List.range s.scopes.length))
  | _ => false

/-- Scripts to which the theorem applies. -/
theorem failing_in_order : ∀ p ∈ failingScripts, failsInOrder p = true := by decide +kernel

theorem failing_torn_down : ∀ p ∈ failingScripts, ∃ m, (teardown (interp bobWorld m).dec (runScript bobWorld 40 bobPaths p)).ended = true := by
  intro p hp
  have h := failing_in_order p hp
  unfold failsInOrder at h
  split at h
  · rename_i msg s he
    exact ⟨_, C77_teardown_safe_partial (.inr ⟨msg, he⟩) (of_decide_eq_true h) (Nat.le_refl _)⟩
  · cases h

/-- `cc = Cc([])` and `cc.compile(1)`: a method that fails. -/
def badMethod : List Stmt := [sBob, sLet b!"cc" (eNew b!"Cc" []), sDo (eMeth (eVar b!"cc") b!"compile" [eNum b!"1"])]

theorem badMethod_stack : (match runScript bobWorld 40 bobPaths badMethod with
    | .err _ s => s.envs[s.eng.env]?
    | _ => none) = some [6, 5, 5, 4, 0] := by decide +kernel

/-- **C77** as stated is false: when a compiler is given something other than a vector of strings, bob does not only say so, it frees memory twice. -/
theorem C77_teardown_safe_false : ¬ TeardownSafe := by
  intro hall
  have hs := badMethod_stack
  split at hs
  · rename_i msg s he
    obtain ⟨m, h⟩ := hall bobDiscipline bobWorld badMethod bobWorld_only.ok (by decide +kernel) 40 bobPaths msg s he
    unfold teardown at h
    simp only at h
    cases hd : destroy (interp bobWorld m).dec s with
    | ok u s' => exact C77_scope_twice hs (i := 5) (by decide) s' hd
    | _ => rw [hd] at h; cases h
  · cases hs

/-- What happens is undefined behaviour. -/
theorem C77_badMethod_ub : (match teardown (interp bobWorld 40).dec (runScript bobWorld 40 bobPaths badMethod) with
    | .ub _ => true
    | _ => false) = true := by decide +kernel

/-- The state before the failing call. -/
def madeCc : St :=
  match runScript bobWorld 40 bobPaths (badMethod.take 2) with
  | .ok _ s => s
  | _ => St.init []

/-- A case `C77_failed_method` applies to: the function `compile` (cell 20) of the compiler (cell 21). -/
example : (∃ x f e st, madeCc.cells[20]? = some x ∧ x.data = .fn f ∧ f.kind = .extern ∧ f.env = some e ∧ madeCc.envs[e]? = some st ∧ 5 ∈ st) ∧
    (∃ y i, madeCc.cells[21]? = some y ∧ y.data = .inst i ∧ i.scope = 5) ∧
    (match (interp bobWorld 40).call 20 (some 21) .discard [12] madeCc with
      | .err _ _ => true
      | _ => false) = true := by
  have h1 : (madeCc.cells[20]?.map fun x => x.data) = some (.fn { kind := .extern, params := [b!"src"], env := some 5 }) := by decide +kernel
  have h2 : (madeCc.cells[21]?.map fun x => x.data) = some (.inst { cls := 15, scope := 5, data := some 0 }) := by decide +kernel
  have h3 : madeCc.envs[5]? = some [5, 4, 0] := by decide +kernel
  obtain ⟨x, hx, hd⟩ := Option.map_eq_some_iff.1 h1
  obtain ⟨y, hy, hi⟩ := Option.map_eq_some_iff.1 h2
  exact ⟨⟨x, _, 5, _, hx, hd, rfl, rfl, h3, by decide⟩, ⟨y, _, hy, hi, rfl⟩, by decide +kernel⟩

/-- `let v = [|z| z]`, `let u = v + []` and `u.map(|x| v.map(|y| nope))`: the copies in `u` share the bodies of the functions in `v`, and functions called by
`map` do not hold what they are given. -/
def sharedCopies : List Stmt := [sBob, sLet b!"v" (.vec [.lambda [b!"z"] (.expr (eVar b!"z"))]), sLet b!"u" (.bin .add (eVar b!"v") (.vec [])),
  sDo (eMeth (eVar b!"u") b!"map" [.lambda [b!"x"] (.expr (eMeth (eVar b!"v") b!"map" [.lambda [b!"y"] (.expr (eVar b!"nope"))]))])]

/-- **C77** fails in another way, without any method of an instance: the body of the function is freed twice. -/
theorem C77_copies_false : okStmts bobDiscipline .top sharedCopies = true ∧
    (match runScript bobWorld 40 bobPaths sharedCopies with
    | .err _ s => s.envs[s.eng.env]?.map fun st => decide st.Nodup
    | _ => none) = some true ∧
    (match teardown (interp bobWorld 40).dec (runScript bobWorld 40 bobPaths sharedCopies) with
    | .ub _ => true
    | _ => false) = true := by decide +kernel

end Bob.Fl
