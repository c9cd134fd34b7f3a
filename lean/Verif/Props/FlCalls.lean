import Verif.Lemmas.FlCall
import Verif.Props.FlOps
/-!
# Calls (C45, C46, C47, C60)
-/

namespace Bob.Fl

/-! ## C60 -/

/-- The expressions are evaluated one after the other, each from the state the one before left. -/
inductive EvalArgs (w : World) (n : Nat) : List Expr → St → List Nat → St → Prop where
  | nil {s : St} : EvalArgs w n [] s [] s
  | cons {e : Expr} {es : List Expr} {s s1 s2 : St} {r : Res} {c : Nat} {cs : List Nat} : (interp w n).eval .keep e s = .ok r s1 → r.val = some c →
      EvalArgs w n es s1 cs s2 → EvalArgs w n (e :: es) s (c :: cs) s2

theorem each_value_of {w : World} {n : Nat} {es : List Expr} {s s2 : St} {cs : List Nat} (h : EvalArgs w n es s cs s2) :
    each (interp w n).value es s = .ok cs s2 := by
  induction h with
  | nil => rfl
  | cons h1 h2 _ ih =>
    unfold each
    rw [bind_of_ok (value_ok h1 h2), bind_of_ok ih]
    rfl

theorem of_each_value {w : World} {n : Nat} : ∀ {es : List Expr} {s s2 : St} {cs : List Nat}, each (interp w n).value es s = .ok cs s2 → EvalArgs w n es s cs s2
  | [], s, s2, cs, h => by
    cases h
    exact .nil
  | e :: es, s, s2, cs, h => by
    unfold each at h
    obtain ⟨c, s1, h1, h⟩ := (bind_ok_iff ..).1 h
    obtain ⟨cs', s3, h2, h⟩ := (bind_ok_iff ..).1 h
    cases h
    obtain ⟨r, s4, h3, h4⟩ := (bind_ok_iff ..).1 h1
    obtain ⟨h5, rfl⟩ := (deref_ok_iff ..).1 h4
    exact .cons h3 h5 (of_each_value h2)

/-- The same outcome with another value. -/
def Out.mapVal (f : α → β) : Out α → Out β
  | .ok a s => .ok (f a) s
  | .err m s => .err m s
  | .abort s => .abort s
  | .ub s => .ub s
  | .timeout => .timeout

theorem bind_pure_map (m : M α) (f : α → β) (s : St) : (m >>= fun a => pure (f a) : M β) s = (m s).mapVal f := by
  rw [bind_apply]
  cases m s <;> rfl

/-- The same failure, as an outcome of another type. -/
def SameBad : Out α → Out β → Prop
  | .ok _ _, _ => False
  | .err m s, o => o = .err m s
  | .abort s, o => o = .abort s
  | .ub s, o => o = .ub s
  | .timeout, o => o = .timeout

theorem sameBad_bind {m : M α} {f : α → M β} {s : St} (h : (m s).Bad) : SameBad (m s) ((m >>= f) s) := by
  rw [bind_apply]
  cases hm : m s with
  | ok => rw [hm] at h; exact h.elim
  | _ => rfl

theorem SameBad.trans {o : Out α} {o' : Out β} {o'' : Out γ} (h : SameBad o o') (h' : SameBad o' o'') : SameBad o o'' := by
  cases o with
  | ok => exact h.elim
  | _ => cases h; exact h'

theorem SameBad.bad {o : Out α} {o' : Out β} (h : SameBad o o') : o'.Bad := by
  cases o with
  | ok => exact h.elim
  | _ => cases h; trivial

theorem sameBad_map {o : Out α} (h : o.Bad) (f : α → β) : SameBad o (o.mapVal f) := by
  cases o with
  | ok => exact h.elim
  | _ => rfl

/-- C60.  First what is called is evaluated, then the arguments from left to right, then the call takes place with their values in that
order. -/
theorem C60_left_to_right (w : World) (n : Nat) {f : Expr} {args : List Expr} {s s1 s2 : St} {r : Res} {c : Nat} {g : FnData} {vs : List Nat}
    (hf : (interp w n).eval .keep f s = .ok r s1) (hc : r.val = some c) (hg : s1.Holds c (.fn g)) (ha : EvalArgs w n args s1 vs s2) (d : Dest) :
    (interp w (n + 1)).eval d (.call f args) s = ((interp w n).call c r.acc d vs s2).mapVal fun v => { val := v } := by
  show evalCall (interp w n) d f args s = _
  unfold evalCall
  obtain ⟨y, hy, hd⟩ := getCell_holds hg
  rw [bind_of_ok hf, bind_of_ok ((deref_ok_iff ..).2 ⟨hc, rfl⟩), bind_of_ok hy, hd]
  simp only
  rw [bind_of_ok (each_value_of ha), bind_pure_map]

/-- C60.  Conversely, a call expression that succeeds went that way. -/
theorem C60_only_left_to_right (w : World) (n : Nat) {f : Expr} {args : List Expr} {s s' : St} {r' : Res} {d : Dest}
    (h : (interp w (n + 1)).eval d (.call f args) s = .ok r' s') :
    ∃ r s1 c g vs s2 v, (interp w n).eval .keep f s = .ok r s1 ∧ r.val = some c ∧ s1.Holds c (.fn g) ∧ EvalArgs w n args s1 vs s2 ∧
      (interp w n).call c r.acc d vs s2 = .ok v s' ∧ r' = { val := v } := by
  have h : evalCall (interp w n) d f args s = .ok r' s' := h
  unfold evalCall at h
  obtain ⟨r, s1, h1, h6⟩ := (bind_ok_iff ..).1 h
  obtain ⟨c, s1', h2, h7⟩ := (bind_ok_iff ..).1 h6
  obtain ⟨h2', rfl⟩ := (deref_ok_iff ..).1 h2
  obtain ⟨x, s1'', h3, h⟩ := (bind_ok_iff ..).1 h7
  obtain ⟨h3', rfl⟩ := (getCell_ok_iff ..).1 h3
  cases hx : x.data with
  | fn g =>
    rw [hx] at h
    obtain ⟨vs, s2, h4, h⟩ := (bind_ok_iff ..).1 h
    obtain ⟨v, s3, h5, h⟩ := (bind_ok_iff ..).1 h
    cases h
    exact ⟨r, _, c, g, vs, s2, v, h1, h2', ⟨x, h3', hx⟩, of_each_value h4, h5, rfl⟩
  | _ =>
    rw [hx] at h
    exact ((raise_not_ok ..).1 h).elim

/-- C60.  If an argument fails, those after it are not evaluated and the call does not take place. -/
theorem C60_argument_fails (w : World) (n : Nat) {f e : Expr} {pre post : List Expr} {s s1 s2 : St} {r : Res} {c : Nat} {g : FnData} {vs : List Nat}
    (hf : (interp w n).eval .keep f s = .ok r s1) (hc : r.val = some c) (hg : s1.Holds c (.fn g)) (ha : EvalArgs w n pre s1 vs s2)
    (he : ((interp w n).eval .keep e s2).Bad) (d : Dest) :
    SameBad ((interp w n).eval .keep e s2) ((interp w (n + 1)).eval d (.call f (pre ++ e :: post)) s) := by
  have key : ∀ {pre : List Expr} {s1 s2 : St} {vs : List Nat}, EvalArgs w n pre s1 vs s2 → ((interp w n).eval .keep e s2).Bad →
      SameBad ((interp w n).eval .keep e s2) (each (interp w n).value (pre ++ e :: post) s1) := by
    intro pre s1 s2 vs h he
    have hv : SameBad ((interp w n).eval .keep e s2) ((interp w n).value e s2) := sameBad_bind he
    clear ha hf hg
    induction h with
    | nil => exact hv.trans (sameBad_bind (m := (interp w n).value e) hv.bad)
    | cons h1 h2 _ ih =>
      have ih := ih he hv
      rw [List.cons_append]
      show SameBad _ (((interp w n).value _ >>= fun b => each (interp w n).value _ >>= fun bs => pure (b :: bs) : M _) _)
      rw [bind_of_ok (value_ok h1 h2)]
      exact ih.trans (sameBad_bind ih.bad)
  show SameBad _ (evalCall (interp w n) d f (pre ++ e :: post) s)
  unfold evalCall
  obtain ⟨y, hy, hd⟩ := getCell_holds hg
  rw [bind_of_ok hf, bind_of_ok ((deref_ok_iff ..).2 ⟨hc, rfl⟩), bind_of_ok hy, hd]
  have h := key ha he
  exact h.trans (sameBad_bind h.bad)

/-- C60.  Only functions, classes and the like can be called. -/
theorem C60_not_callable (w : World) (n : Nat) {f : Expr} {args : List Expr} {s s1 : St} {r : Res} {c : Nat} {dc : Data}
    (hf : (interp w n).eval .keep f s = .ok r s1) (hc : r.val = some c) (hg : s1.Holds c dc) (hk : dc.kind ≠ .fn) (d : Dest) :
    Refused (b!"callable expression is of type " ++ typeStr dc ++ b!", which is not callable") s1 ((interp w (n + 1)).eval d (.call f args) s) := by
  show Refused _ _ (evalCall (interp w n) d f args s)
  unfold evalCall
  obtain ⟨y, hy, hd⟩ := getCell_holds hg
  rw [bind_of_ok hf, bind_of_ok ((deref_ok_iff ..).2 ⟨hc, rfl⟩), bind_of_ok hy, hd]
  cases dc with
  | fn => exact absurd rfl hk
  | _ => exact refused_raise _ _

/-- What a call needs: `c` is the callable `f`, accessed on the value `acc`, which is an instance with scope `inst` or none; `f` closed over `st`; scope
and arguments exist. -/
structure Callable (s : St) (c : Nat) (f : FnData) (acc inst : Option Nat) (st : List Nat) (args : List Nat) : Prop where
  holds : s.Holds c (.fn f)
  self : (acc = none ∧ inst = none) ∨ ∃ a d, acc = some a ∧ s.Holds a d ∧
    ((∃ i, d = .inst i ∧ inst = some i.scope) ∨ (d.kind ≠ .inst ∧ inst = none))
  env : s.envs[f.env.getD s.eng.env]? = some st
  alive : ∀ p rest, inst.toList ++ st = p :: rest → ∃ x, s.Alive p x
  args : ∀ a ∈ args, a < s.cells.length

theorem Callable.inst_eq {s : St} {c : Nat} {f : FnData} {acc inst : Option Nat} {st args : List Nat} (h : Callable s c f acc inst st args) :
    instScope acc s = .ok inst s := by
  rcases h.self with ⟨rfl, rfl⟩ | ⟨a, d, rfl, ha, hd⟩
  · rfl
  · obtain ⟨y, hy, rfl⟩ := getCell_holds ha
    unfold instScope
    simp only
    rw [bind_of_ok hy]
    rcases hd with ⟨i, h1, rfl⟩ | ⟨h1, rfl⟩
    · rw [h1]
      rfl
    · cases hk : y.data with
      | inst => rw [hk] at h1; exact absurd rfl h1
      | _ => rfl

theorem Callable.top {s : St} {c : Nat} {f : FnData} {acc inst : Option Nat} {st args : List Nat} (h : Callable s c f acc inst st args) :
    TopAlive s (inst.toList ++ st) := by
  cases hl : inst.toList ++ st with
  | nil => trivial
  | cons p rest => exact h.alive p rest hl

/-- C60.  A call with the wrong number of arguments is refused before anything of the callable runs. -/
theorem C60_arity (w : World) (n : Nat) {c : Nat} {f : FnData} {acc inst : Option Nat} {st : List Nat} {args : List Nat} {s : St} (hc : Callable s c f acc inst st args)
    (hk : ∀ p, f.kind ≠ .ptm p) (hn : args.length ≠ f.params.length) (d : Dest) :
    ∃ s', s'.out = s.out ∧ s'.host = s.host ∧ s'.cells = s.cells ∧ Refused (b!"callable expected " ++ Bob.dec f.params.length ++ b!" arguments, got " ++
      Bob.dec args.length ++ b!" instead") s' ((interp w (n + 1)).call c acc d args s) := by
  refine ⟨enterSt f inst st s, rfl, rfl, rfl, ?_⟩
  obtain ⟨y, hy, hd⟩ := getCell_holds hc.holds
  show Refused _ _ (stepCall w (interp w n) c acc d args s)
  unfold stepCall
  rw [bind_of_ok hy, hd]
  simp only
  rw [bind_of_ok hc.inst_eq, bind_of_ok (get_apply s), bind_of_ok (enter_eq hc.env hc.top)]
  refine refused_bind ?_
  unfold setupArgs
  cases h : f.kind with
  | ptm p => exact absurd h (hk p)
  | _ =>
    simp only [if_neg hn]
    exact refused_raise _ _

/-- The state after a call whose body left `s1`: environment and position of the caller, and nothing to return. -/
def afterBody (f : FnData) (st : List Nat) (s s1 : St) : St :=
  { s1 with envs := s1.envs.set (f.env.getD s.eng.env) st, eng := { s1.eng with body := s.eng.body, env := s.eng.env, rv := .none } }

/-- C60.  A function whose body is an expression: the body is evaluated where the parameters are bound to the arguments by position; its value is the
value of the call and its failure the call's failure. -/
theorem C60_expression_body (w : World) (n : Nat) {c b : Nat} {f : FnData} {e : Expr} {acc inst : Option Nat} {st : List Nat} {args : List Nat} {s : St}
    (hc : Callable s c f acc inst st args) (hk : f.kind = .function) (hb : f.body = some b) (he : s.bodies[b]? = some (some (.expr e)))
    (hn : f.params.length = args.length) :
    ∃ s0, Entered f inst st f.params args s s0 ∧
      (∀ r s1, (interp w n).eval .keep e s0 = .ok r s1 → (interp w (n + 1)).call c acc .keep args s = .ok r.val (afterBody f st s s1)) ∧
      (((interp w n).eval .keep e s0).Bad → SameBad ((interp w n).eval .keep e s0) ((interp w (n + 1)).call c acc .keep args s)) := by
  obtain ⟨s0, h0, hcall⟩ := call_eq w n (d := .keep) hc.holds hc.inst_eq hc.env hc.top hn (by rw [hk]; intro p; simp) hc.args
  refine ⟨s0, h0, fun r s1 hr => ?_, fun hbad => ?_⟩ <;> rw [hcall]
  all_goals
    have hbody : getBody f.body s0 = .ok (.expr e) s0 := by
      unfold getBody
      rw [hb, bind_of_ok ((deref_ok_iff ..).2 ⟨rfl, rfl⟩), bind_of_ok (get_apply _), h0.bodies, he]
      rfl
    have hrun : runBody w (interp w n) c f acc .keep args s0 = ((interp w n).eval .keep e s0).mapVal fun r => .value r.val := by
      unfold runBody
      rw [hk]
      simp only
      rw [bind_of_ok hbody]
      simp only
      rw [bind_of_ok (show M.assert (FnKind.function == FnKind.function) s0 = .ok () s0 from rfl), bind_pure_map]
  · rw [bind_of_ok (a := Ran.value r.val) (s1 := s1) (by rw [hrun, hr]; rfl)]
    have hfr := ((recFr w n).eval .keep e).out hr
    have henv : s1.eng.env = f.env.getD s.eng.env := by rw [hfr.env, h0.eng]
    have hst : s1.Stack (s.scopes.length :: (inst.toList ++ st)) := by
      have := hfr.envs _ _ h0.stack
      unfold St.Stack
      rw [hfr.env]
      exact this
    rw [bind_of_ok (leave_eq hst)]
    unfold afterCall
    simp only
    rw [bind_of_ok (setRv_apply ..)]
    unfold afterBody
    rw [← henv]
    rfl
  · have h1 : SameBad ((interp w n).eval .keep e s0) (runBody w (interp w n) c f acc .keep args s0) := by
      rw [hrun]
      exact sameBad_map hbad _
    exact h1.trans (sameBad_bind h1.bad)

/-- A block was entered: there is a new scope with no names. -/
structure BlockEntered (s s0 : St) (st : List Nat) : Prop where
  stack : s0.Stack (s.scopes.length :: st)
  scopes : ∃ cls, s0.scopes = s.scopes ++ [{ cls := cls }] ∧ ∀ p x rest, st = p :: rest → s.Alive p x → cls = x.cls
  other : ∀ j, j ≠ s.eng.env → s0.envs[j]? = s.envs[j]?
  eng : s0.eng = s.eng
  cells : s0.cells = s.cells
  bufs : s0.bufs = s.bufs
  bodies : s0.bodies = s.bodies
  host : s0.host = s.host
  out : s0.out = s.out
  calls : s0.calls = s.calls

theorem blockEntered {s : St} {st : List Nat} (h : s.Stack st) (ht : TopAlive s st) : ∃ s0, pushScope s = .ok s.scopes.length s0 ∧ BlockEntered s s0 st := by
  obtain ⟨cls, h1, h2⟩ := pushScope_eq h ht
  exact ⟨_, h1, List.getElem?_set_self (List.getElem?_eq_some_iff.1 h).1, ⟨cls, rfl, h2⟩, fun j hj => List.getElem?_set_ne (Ne.symm hj), rfl, rfl, rfl, rfl, rfl, rfl, rfl⟩

/-- C60.  A function whose body is a block: the statements run where the parameters are bound to the arguments by position, in a scope of their
own; their failure is the call's failure.  If they end with a value to return, that is the value of the call; if they end without, it is `none`. -/
theorem C60_block_body (w : World) (n : Nat) {c b : Nat} {f : FnData} {ss : List Stmt} {acc inst : Option Nat} {st : List Nat} {args : List Nat} {s : St}
    (hc : Callable s c f acc inst st args) (hk : f.kind = .function) (hb : f.body = some b) (he : s.bodies[b]? = some (some (.block ss)))
    (hn : f.params.length = args.length) :
    ∃ sa s0, Entered f inst st f.params args s sa ∧ BlockEntered sa s0 (s.scopes.length :: (inst.toList ++ st)) ∧
      (∀ s1 v g, forEach (interp w n).exec ss s0 = .ok () s1 → s1.eng.rv = .val v → s1.Holds c (.fn g) → g.kind = .function →
        (interp w (n + 1)).call c acc .keep args s = .ok (some v) (afterBody f st s s1)) ∧
      (∀ s1 g, forEach (interp w n).exec ss s0 = .ok () s1 → s1.eng.rv = .none → s1.Holds c (.fn g) → g.kind = .function →
        (interp w (n + 1)).call c acc .keep args s =
          .ok (some s1.cells.length) { afterBody f st s s1 with cells := s1.cells ++ [{ data := .none }] }) ∧
      ((forEach (interp w n).exec ss s0).Bad → SameBad (forEach (interp w n).exec ss s0) ((interp w (n + 1)).call c acc .keep args s)) := by
  obtain ⟨sa, ha, hcall⟩ := call_eq w n (d := .keep) hc.holds hc.inst_eq hc.env hc.top hn (by rw [hk]; intro p; simp) hc.args
  obtain ⟨s0, hp, hbe⟩ := blockEntered ha.stack ⟨_, show sa.Alive s.scopes.length _ from ⟨by rw [ha.scopes]; simp; rfl, rfl⟩⟩
  have hbody : getBody f.body sa = .ok (.block ss) sa := by
    unfold getBody
    rw [hb, bind_of_ok ((deref_ok_iff ..).2 ⟨rfl, rfl⟩), bind_of_ok (get_apply _), ha.bodies, he]
    rfl
  have hrun : runBody w (interp w n) c f acc .keep args sa = (do
      forEach (interp w n).exec ss
      let i ← detach
      pure (Ran.block i) : M Ran) s0 := by
    unfold runBody
    rw [hk]
    simp only
    rw [bind_of_ok hbody]
    simp only
    unfold execBlock
    rw [bind_apply, bind_of_ok hp, bind_apply, bind_apply]
    cases forEach (interp w n).exec ss s0 <;> rfl
  -- everything up to the return value
  have hmain : ∀ s1, forEach (interp w n).exec ss s0 = .ok () s1 → (do
      let ran ← runBody w (interp w n) c f acc .keep args
      leave s.eng inst
      afterCall (interp w n) c f.kind .keep args ran : M (Option Nat)) sa = (do
        let x ← getCell c
        match x.data with
        | .fn g => if g.kind = .cls then M.ub else takeRv (interp w n) .keep
        | _ => M.ub : M (Option Nat)) { s1 with envs := s1.envs.set (f.env.getD s.eng.env) st, eng := { s1.eng with body := s.eng.body, env := s.eng.env } } := by
    intro s1 h1
    have hfr := ((keeps_forEach trnX (recFr w n).exec ss).out h1) ⟨_, hbe.stack⟩
    have henv : s1.eng.env = f.env.getD s.eng.env := by rw [hfr.env, hbe.eng, ha.eng]
    have hst : s1.Stack (sa.scopes.length :: s.scopes.length :: (inst.toList ++ st)) := by
      have := hfr.envs _ _ hbe.stack
      unfold St.Stack
      rw [hfr.env]
      exact this
    have hlt := (List.getElem?_eq_some_iff.1 hst).1
    have hdet := (detach_ok_iff _ _ _).2 ⟨_, hst, rfl⟩
    rw [bind_of_ok (a := Ran.block sa.scopes.length) (by rw [hrun, bind_of_ok h1, bind_of_ok hdet]; rfl)]
    rw [bind_of_ok (leave_eq (i := s.scopes.length) (by exact List.getElem?_set_self hlt))]
    unfold afterCall
    simp only [hk]
    unfold finish
    simp only [henv, List.set_set]
    refine congrFun (congrArg _ (funext fun x => ?_)) _
    cases x.data with
    | fn g =>
      simp only
      by_cases hg : g.kind = .cls
      · rw [if_pos hg, if_pos hg]
        rfl
      · rw [if_neg hg, if_neg hg]
    | _ => rfl
  refine ⟨sa, s0, ha, hbe, fun s1 v g h1 hrv hg hgk => ?_, fun s1 g h1 hrv hg hgk => ?_, fun hbad => ?_⟩ <;> rw [hcall]
  · rw [hmain s1 h1]
    obtain ⟨y, hy, hyd⟩ := hg
    rw [bind_of_ok ((getCell_ok_iff ..).2 ⟨by exact hy, rfl⟩), hyd]
    simp only
    rw [if_neg (by rw [hgk]; simp)]
    unfold takeRv
    simp only
    rw [bind_of_ok (getRv_apply _)]
    simp only [hrv]
    rfl
  · rw [hmain s1 h1]
    obtain ⟨y, hy, hyd⟩ := hg
    rw [bind_of_ok ((getCell_ok_iff ..).2 ⟨by exact hy, rfl⟩), hyd]
    simp only
    rw [if_neg (by rw [hgk]; simp)]
    unfold takeRv
    simp only
    rw [bind_of_ok (getRv_apply _)]
    simp only [hrv]
    rfl
  · have h1 : SameBad (forEach (interp w n).exec ss s0) (runBody w (interp w n) c f acc .keep args sa) := by
      rw [hrun]
      exact sameBad_bind hbad
    exact h1.trans (sameBad_bind h1.bad)

/-- C60.  In the body, a parameter means the argument at its position (the first of parameters with the same name). -/
theorem C60_parameter (w : World) (n : Nat) {f : FnData} {inst : Option Nat} {st : List Nat} {args : List Nat} {s s0 : St} (h : Entered f inst st f.params args s s0)
    {k c : Nat} {name : Bytes} {y : Cell} (hp : f.params[k]? = some name) (hfirst : ∀ (k' : Nat), k' < k → f.params[k']? ≠ some name) (hc : args[k]? = some c)
    (hy : s.cells[c]? = some y) (hr : y.refs ≠ 0) {d : Dest} (hd : d ≠ .discard) :
    ∃ s1, (interp w (n + 1)).eval d (.ident name) s0 = .ok { val := some c } s1 := by
  obtain ⟨nm, _, hy0⟩ := h.cells c y hy
  refine ⟨_, C39_identifier_value w n (pre := []) (i := s.scopes.length) (k := k) (v := { key := name, val := some c }) (c := c) h.stack (fun j hj => (nomatch hj))
    (x := { vars := List.zipWith (fun k c => { key := k, val := some c }) f.params args, cls := f.kind == .cls }) ⟨by rw [h.scopes]; simp, rfl⟩ ⟨?_, rfl, ?_⟩ rfl hy0 (by exact hr) hd⟩
  · show (List.zipWith _ f.params args)[k]? = _
    rw [List.getElem?_zipWith, hp, hc]
  · intro k' v' hk' hv' hkey
    have hv' : (List.zipWith (fun k c => ({ key := k, val := some c } : Var)) f.params args)[k']? = some v' := hv'
    rw [List.getElem?_zipWith] at hv'
    cases hp' : f.params[k']? with
    | none => rw [hp'] at hv'; simp at hv'
    | some p' =>
      cases hc' : args[k']? with
      | none => rw [hp', hc'] at hv'; simp at hv'
      | some c' =>
        rw [hp', hc'] at hv'
        simp only [Option.some.injEq] at hv'
        rw [← hv'] at hkey
        have hkey : p' = name := hkey
        exact hfirst k' hk' (by rw [hp', hkey])

/-- C60.  The same if the body is a block, as long as the block does not declare that name itself. -/
theorem C60_parameter_in_block (w : World) (n : Nat) {f : FnData} {inst : Option Nat} {st : List Nat} {args : List Nat} {s sa s0 : St}
    (h : Entered f inst st f.params args s sa) (hb : BlockEntered sa s0 (s.scopes.length :: (inst.toList ++ st)))
    {k c : Nat} {name : Bytes} {y : Cell} (hp : f.params[k]? = some name) (hfirst : ∀ (k' : Nat), k' < k → f.params[k']? ≠ some name) (hc : args[k]? = some c)
    (hy : s.cells[c]? = some y) (hr : y.refs ≠ 0) {d : Dest} (hd : d ≠ .discard) :
    ∃ s1, (interp w (n + 1)).eval d (.ident name) s0 = .ok { val := some c } s1 := by
  obtain ⟨nm, _, hy0⟩ := h.cells c y hy
  obtain ⟨cls, hsc, _⟩ := hb.scopes
  refine ⟨_, C39_identifier_value w n (pre := [sa.scopes.length]) (i := s.scopes.length) (k := k) (v := { key := name, val := some c }) (c := c) hb.stack ?_
    (x := { vars := List.zipWith (fun k c => { key := k, val := some c }) f.params args, cls := f.kind == .cls })
    ⟨by rw [hsc, h.scopes]; simp, rfl⟩ ⟨?_, rfl, ?_⟩ rfl (by rw [hb.cells]; exact hy0) (by exact hr) hd⟩
  · intro j hj
    rw [List.mem_singleton] at hj
    subst hj
    exact ⟨{ cls := cls }, ⟨by rw [hsc]; simp, rfl⟩, fun ⟨v, hv, _⟩ => (nomatch hv)⟩
  · show (List.zipWith _ f.params args)[k]? = _
    rw [List.getElem?_zipWith, hp, hc]
  · intro k' v' hk' hv' hkey
    have hv' : (List.zipWith (fun k c => ({ key := k, val := some c } : Var)) f.params args)[k']? = some v' := hv'
    rw [List.getElem?_zipWith] at hv'
    cases hp' : f.params[k']? with
    | none => rw [hp'] at hv'; simp at hv'
    | some p' =>
      cases hc' : args[k']? with
      | none => rw [hp', hc'] at hv'; simp at hv'
      | some c' =>
        rw [hp', hc'] at hv'
        simp only [Option.some.injEq] at hv'
        rw [← hv'] at hkey
        have hkey : p' = name := hkey
        exact hfirst k' hk' (by rw [hp', hkey])

example : (runScript emptyWorld 20 [] [sFn b!"f" [b!"a", b!"b"] [sRet (.bin .sub (eVar b!"a") (eVar b!"b"))],
    sPrint (eCall (eVar b!"f") [eNum b!"7", eNum b!"3"]), sPrint (eCall (.lambda [b!"a", b!"b"] (.expr (.vec [eVar b!"b", eVar b!"a"]))) [eNum b!"7", eNum b!"3"]),
    sDo (eCall (eVar b!"f") [eNum b!"7"])]).failed =
    some (some b!"callable expected 2 arguments, got 1 instead", [b!"4", b!"[3, 7]"]) := by
  decide +kernel

/-! ## C45 -/

/-- Lines (and the separators between them). -/
def Stmt.IsLine : Stmt → Prop
  | .skip => True
  | .line _ => True
  | _ => False

theorem returning_yes {s : St} {b : Nat} {x : Body} {c : Nat} (hb : s.eng.body = some b) (hx : s.bodies[b]? = some (some x)) (hr : s.eng.rv = .val c) :
    returning s = .ok true s := by
  have hg : getBody (some b) s = .ok x s := by
    unfold getBody
    rw [bind_of_ok ((deref_ok_iff ..).2 ⟨rfl, rfl⟩), bind_of_ok (get_apply _), hx]
    rfl
  unfold returning
  rw [bind_of_ok (get_apply s)]
  simp only [hb, hr]
  rw [if_neg (by simp), bind_of_ok hg]
  rfl

/-- C45.  Once there is a value to return, lines of the running body have no effect. -/
theorem C45_lines_skipped (w : World) (n : Nat) {s : St} {b c : Nat} {x : Body} (hb : s.eng.body = some b) (hx : s.bodies[b]? = some (some x))
    (hr : s.eng.rv = .val c) : ∀ post : List Stmt, (∀ p ∈ post, p.IsLine) → forEach (interp w (n + 1)).exec post s = .ok () s
  | [], _ => rfl
  | p :: post, h => by
    have hp := h p (List.mem_cons_self ..)
    have h1 : (interp w (n + 1)).exec p s = .ok () s := by
      cases p with
      | skip => rfl
      | line l =>
        show (do if ← returning then pure () else execLine w (interp w n) l : M Unit) s = _
        rw [bind_of_ok (returning_yes hb hx hr)]
        rfl
      | _ => exact hp.elim
    unfold forEach
    rw [bind_of_ok h1]
    exact C45_lines_skipped w n hb hx hr post fun p hp => h p (List.mem_cons_of_mem _ hp)

/-- C45.  `return e` in a function makes the value of `e` the value to return. -/
theorem C45_return_sets (w : World) (n : Nat) {s s1 : St} {i : Nat} {st : List Nat} {x : Scope} {e : Expr} {r : Res} {c : Nat} (hr : s.eng.rv = .none)
    (hst : s.Stack (i :: st)) (hne : st ≠ []) (hx : s.Alive i x) (hcls : x.cls = false) (he : (interp w n).eval .ret e s = .ok r s1) (hc : r.val = some c) :
    (interp w (n + 1)).exec (.line (.ret (some e))) s = .ok () { s1 with eng := { s1.eng with rv := .val c } } := by
  show (do if ← returning then pure () else execLine w (interp w n) (.ret (some e)) : M Unit) s = _
  rw [bind_of_ok (not_returning hr)]
  show doReturn (interp w n) (some e) s = _
  unfold doReturn
  rw [bind_of_ok ((curStack_ok_iff ..).2 ⟨hst, rfl⟩)]
  have hlen : ¬ (i :: st).length < 2 := by
    cases st with
    | nil => exact absurd rfl hne
    | cons => simp
  rw [if_neg hlen, bind_of_ok (curScope_stack hst), bind_of_ok (getScope_alive hx), if_neg (by simp [hcls]), bind_of_ok (getRv_apply _),
    bind_of_ok (a := ()) ((assert_ok_iff ..).2 ⟨by rw [hr]; rfl, rfl⟩), if_neg (by simp [hcls])]
  simp only
  rw [bind_of_ok he, hc]
  rfl

/-- Running a list of statements after another. -/
theorem forEach_append {f : α → M Unit} : ∀ (as bs : List α) (s s1 : St), forEach f as s = .ok () s1 → forEach f (as ++ bs) s = forEach f bs s1
  | [], _, s, s1, h => by cases h; rfl
  | a :: as, bs, s, s1, h => by
    unfold forEach at h
    obtain ⟨⟨⟩, s2, h1, h2⟩ := (bind_ok_iff ..).1 h
    show (f a >>= fun _ => forEach f (as ++ bs)) s = _
    rw [bind_of_ok h1]
    exact forEach_append as bs s2 s1 h2

/-- C45.  A call of a function whose body gets to `return e`, where evaluating `e` leaves a value: the call yields that value, and the lines after
the `return` have no effect at all.

Missing for the full statement, which is false: if `e` is itself a call, evaluating it for a `return` aborts or leaves no value
(`C45_call_aborts_false`, `C45_value_lost_false`), and declarations of functions and classes after the `return` are still executed
(`C45_declarations_false`). -/
theorem C45_return_partial (w : World) (n : Nat) {c b : Nat} {f : FnData} {pre post : List Stmt} {e : Expr} {acc inst : Option Nat} {st : List Nat} {args : List Nat} {s : St}
    (hc : Callable s c f acc inst st args) (hk : f.kind = .function) (hb : f.body = some b)
    (he : s.bodies[b]? = some (some (.block (pre ++ .line (.ret (some e)) :: post)))) (hn : f.params.length = args.length) (hpost : ∀ p ∈ post, p.IsLine) :
    ∃ sa s0, Entered f inst st f.params args s sa ∧ BlockEntered sa s0 (s.scopes.length :: (inst.toList ++ st)) ∧
      ∀ s1 s2 r v x g body, forEach (interp w (n + 1)).exec pre s0 = .ok () s1 → s1.eng.rv = .none → s1.Alive sa.scopes.length x → x.cls = false →
        (interp w n).eval .ret e s1 = .ok r s2 → r.val = some v → s2.Holds c (.fn g) → g.kind = .function → s2.bodies[b]? = some (some body) →
        (interp w (n + 2)).call c acc .keep args s = .ok (some v) (afterBody f st s s2) := by
  obtain ⟨sa, s0, h1, h2, h3, _⟩ := C60_block_body w (n + 1) hc hk hb he hn
  refine ⟨sa, s0, h1, h2, fun s1 s2 r v x g body hpre hrv hx hcls hev hrval hg hgk hbody => ?_⟩
  have hfr := ((keeps_forEach trnX (recFr w (n + 1)).exec pre).out hpre) ⟨_, h2.stack⟩
  have hst : s1.Stack (sa.scopes.length :: s.scopes.length :: (inst.toList ++ st)) := by
    have := hfr.envs _ _ h2.stack
    unfold St.Stack
    rw [hfr.env]
    exact this
  have hfr2 := ((recFr w n).eval .ret e).out hev
  have hret := C45_return_sets w n hrv hst (by simp) hx hcls hev hrval
  have hb2 : s2.eng.body = some b := by rw [hfr2.body, hfr.body, h2.eng, h1.eng]; exact hb
  have hskip := C45_lines_skipped w n (s := { s2 with eng := { s2.eng with rv := .val v } }) (b := b) (c := v) (x := body) (by exact hb2) (by exact hbody) rfl post hpost
  have hall : forEach (interp w (n + 1)).exec (pre ++ .line (.ret (some e)) :: post) s0 = .ok () { s2 with eng := { s2.eng with rv := .val v } } := by
    rw [forEach_append _ _ _ _ hpre]
    unfold forEach
    rw [bind_of_ok hret]
    exact hskip
  exact h3 { s2 with eng := { s2.eng with rv := .val v } } v g hall rfl (by exact hg) hgk

/-- The theorem applies to this one: the print after the return is not executed. -/
example : (runScript emptyWorld 20 [] [sFn b!"f" [b!"a"] [sPrint (eVar b!"a"), sRet (.bin .mul (eVar b!"a") (eNum b!"2")), sPrint (eNum b!"9")],
    sPrint (eCall (eVar b!"f") [eNum b!"7"])]).printed = some [b!"7", b!"14"] := by
  decide +kernel

/-- C45.  Returning the value of a call of a function with a block as its body is a failed assertion. -/
theorem C45_call_aborts_false : (runScript emptyWorld 20 [] [sFn b!"g" [] [sRet (eNum b!"1")], sFn b!"f" [] [sRet (eCall (eVar b!"g") [])],
    sPrint (eCall (eVar b!"f") [])]).isAbort = true := by
  decide +kernel

/-- C45.  Returning the value of a call of a lambda returns `none` instead. -/
theorem C45_value_lost_false : (runScript emptyWorld 20 [] [sLet b!"g" (.lambda [] (.expr (eNum b!"1"))), sFn b!"f" [] [sRet (eCall (eVar b!"g") [])],
    sPrint (eCall (eVar b!"f") [])]).printed = some [b!"<none>"] := by
  decide +kernel

/-- C45.  Declarations after the `return` still happen. -/
theorem C45_declarations_false : (runScript emptyWorld 20 [] [sFn b!"f" [] [sRet (eNum b!"1"), sFn b!"g" [] [], sFn b!"g" [] []],
    sPrint (eCall (eVar b!"f") [])]).failed = some (some b!"the function 'g' has already been declared in this scope", []) := by
  decide +kernel

/-! ## C46 -/

/-- C46.  `return` directly in the outermost scope is refused.

Missing for the full statement, which is false (`C46_block_false`): blocks outside functions. -/
theorem C46_top_level_partial (w : World) (n : Nat) {s : St} {i : Nat} (hr : s.eng.rv = .none) (hst : s.Stack [i]) (e : Option Expr) :
    Refused b!"Return can't be used in top-level scope" s ((interp w (n + 1)).exec (.line (.ret e)) s) := by
  show Refused _ s ((do if ← returning then pure () else execLine w (interp w n) (.ret e) : M Unit) s)
  rw [bind_of_ok (not_returning hr)]
  show Refused _ s (doReturn (interp w n) e s)
  unfold doReturn
  rw [bind_of_ok ((curStack_ok_iff ..).2 ⟨hst, rfl⟩), if_pos (by simp)]
  exact refused_raise _ _

example : (runScript emptyWorld 20 [] [sRet (eNum b!"3")]).failed = some (some b!"Return can't be used in top-level scope", []) := by decide +kernel

/-- C46.  `{ return 3 }` outside any function is accepted, and `f` then returns 3 without running. -/
theorem C46_block_false : (runScript emptyWorld 20 [] [sFn b!"f" [] [sPrint (eNum b!"1"), sRet (eNum b!"2")], .block [sRet (eNum b!"3")],
    sPrint (eCall (eVar b!"f") [])]).printed = some [b!"3"] := by
  decide +kernel

/-! ## C47 -/

theorem allocBlock_some (ss : List Stmt) (s : St) :
    allocBlock (some ss) s = .ok (some s.bodies.length) { s with bodies := s.bodies ++ [some (.block ss)] } := rfl

/-- C47.  A function declaration keeps the stack of scopes of the place where it stands. -/
theorem C47_definition (w : World) (n : Nat) {s s' : St} {i : Nat} {stk : List Nat} {x : Scope} {name : Bytes} {static : Bool} {ps : List Bytes} {body : List Stmt}
    (hst : s.Stack (i :: stk)) (hx : s.Alive i x) (h : (interp w (n + 1)).exec (.fn static name ps body) s = .ok () s') :
    ∃ c b e x', s'.Alive i x' ∧ x'.vars = x.vars ++ [{ key := name, val := some c, isStatic := static }] ∧
      s'.Holds c (.fn { kind := .function, body := some b, params := ps, env := some e }) ∧ s'.envs[e]? = some (i :: stk) ∧
      s'.bodies[b]? = some (some (.block body)) := by
  have h : declFn (interp w n) .function static name ps (some body) s = .ok () s' := h
  unfold declFn at h
  rw [bind_of_ok (curScope_stack hst), bind_of_ok (getScope_alive hx)] at h
  have hlt := (List.getElem?_eq_some_iff.1 hx.1).1
  cases hk : findKeyIdx name x.vars with
  | some k =>
    rw [hk] at h
    obtain ⟨_, _, _, h1⟩ := (bind_ok_iff ..).1 h
    obtain ⟨_, _, _, h2⟩ := (bind_ok_iff ..).1 h1
    obtain ⟨_, _, _, h3⟩ := (bind_ok_iff ..).1 h2
    exact ((raise_not_ok ..).1 h3).elim
  | none =>
    rw [hk] at h
    simp only at h
    rw [bind_of_ok (addVar_alive hx _), bind_of_ok (alloc_apply ..)] at h
    rw [bind_of_ok (setVar_alive (x := { x with vars := x.vars ++ [{ key := name, isStatic := static }] }) (v := { key := name, isStatic := static })
      ⟨List.getElem?_set_self hlt, hx.2⟩ (List.getElem?_concat_length ..) _)] at h
    rw [bind_of_ok (setName_cell (y := { data := .none }) (List.getElem?_concat_length ..) _ _)] at h
    rw [bind_of_ok (setOwnerOf_cell (y := { data := .none, name := name, keyIn := some i }) (by simp) _)] at h
    rw [bind_of_ok (closeOver_stack (st := i :: stk) (by exact hst))] at h
    rw [bind_of_ok (allocBlock_some ..)] at h
    rw [bind_of_ok ((getCell_ok_iff ..).2 ⟨List.getElem?_set_self (by simp), rfl⟩)] at h
    have h := (Out.ok.inj (show Out.ok () _ = Out.ok () s' from h)).2
    subst h
    exact ⟨s.cells.length, s.bodies.length, s.envs.length, { x with vars := x.vars ++ [{ key := name, val := some s.cells.length, isStatic := static }] },
      ⟨by simp [hlt], hx.2⟩, rfl, ⟨_, List.getElem?_set_self (by simp), rfl⟩, by simp, by simp⟩

/-- C47.  After any statements that end normally, a call of a function that closed over `st` runs in `st` with one new scope, for the parameters, on
top: it sees the scopes of the place of definition, as they are now, and its own variables.

Missing for the full statement, which is false (`C47_recursion_false`): calls made while another call of the same function is running (`s'` is
not the end of some statements then, but their middle). -/
theorem C47_own_variables_partial (w : World) (n m : Nat) {ss : List Stmt} {s s' : St} {c e : Nat} {f : FnData} {st : List Nat} {args : List Nat}
    (hv : ∃ stk, s.Stack stk) (henv : s.envs[e]? = some st) (hrun : forEach (interp w n).exec ss s = .ok () s')
    (hc : s'.Holds c (.fn f)) (hf : f.env = some e) (hk : f.kind = .function) (hn : f.params.length = args.length) (ha : ∀ a ∈ args, a < s'.cells.length)
    (htop : ∀ p rest, st = p :: rest → ∃ x, s'.Alive p x) :
    ∃ s0, Entered f none st f.params args s' s0 ∧ s0.Stack (s'.scopes.length :: st) ∧
      ∀ d, (interp w (m + 1)).call c none d args s' = (do
        let ran ← runBody w (interp w m) c f none d args
        leave s'.eng none
        afterCall (interp w m) c f.kind d args ran : M (Option Nat)) s0 := by
  have henv' := (C41_statements_keep_stack w n ss hv hrun).stacks e st henv
  have hst : s'.envs[f.env.getD s'.eng.env]? = some st := by rw [hf]; exact henv'
  have ht : TopAlive s' ((none : Option Nat).toList ++ st) := by
    cases st with
    | nil => trivial
    | cons p rest => exact htop p rest rfl
  obtain ⟨s0, h1, h2, h3⟩ := entered (inst := none) hst ht hn (by rw [hk]; intro p; simp) ha
  refine ⟨s0, h1, h1.stack, fun d => ?_⟩
  obtain ⟨y, hy, hd⟩ := getCell_holds hc
  show stepCall w (interp w m) c none d args s' = _
  unfold stepCall
  rw [bind_of_ok hy, hd]
  simp only
  rw [bind_of_ok (show instScope none s' = .ok none s' from rfl), bind_of_ok (get_apply s'), bind_of_ok h2, bind_of_ok h3]

/-- C47.  `let y = 0; fn f(v) { print y; let y = 1; v.map(f) }; f([[]])`: the inner call of `f` sees the `y` of the outer one. -/
theorem C47_recursion_false : (runScript emptyWorld 30 [] [sLet b!"y" (eNum b!"0"),
    sFn b!"f" [b!"v"] [sPrint (eVar b!"y"), sLet b!"y" (eNum b!"1"), sDo (eCall (.access (eVar b!"v") b!"map") [eVar b!"f"])],
    sDo (eCall (eVar b!"f") [.vec [.vec []]])]).printed = some [b!"0", b!"1"] := by
  decide +kernel

end Bob.Fl
