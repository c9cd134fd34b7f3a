import Verif.Lemmas.FlInvariants
import Verif.Props.FlAssign
/-!
# Classes and instances (C61)
-/

namespace Bob.Fl

mutual

/-- Neither returns nor imports anything. -/
def Stmt.plain : Stmt → Bool
  | .block ss => plainAll ss
  | .line (.ret _) => false
  | .line (.import _ _) => false
  | _ => true

def plainAll : List Stmt → Bool
  | [] => true
  | p :: ps => p.plain && plainAll ps

end

/-- The name a statement declares, with its `static`. -/
def Stmt.adds : Stmt → List (Bytes × Bool)
  | .fn st name _ _ => [(name, st)]
  | .cls st name _ _ => [(name, st)]
  | .line (.decl st name _) => [(name, st)]
  | .line (.proto st name _) => [(name, st)]
  | _ => []

theorem exec_line (w : World) (n : Nat) {s : St} (hr : s.eng.rv = .none) (l : Line) : (interp w (n + 1)).exec (.line l) s = execLine w (interp w n) l s := by
  show (do if ← returning then pure () else execLine w (interp w n) l : M Unit) s = _
  rw [bind_of_ok (not_returning hr)]
  rfl

/-- A plain statement leaves nothing to return. -/
theorem plain_rv (w : World) : ∀ n, (∀ {p : Stmt} {s s' : St}, p.plain = true → s.eng.rv = .none → (interp w n).exec p s = .ok () s' → s'.eng.rv = .none) ∧
    ∀ {ps : List Stmt} {s s' : St}, plainAll ps = true → s.eng.rv = .none → forEach (interp w n).exec ps s = .ok () s' → s'.eng.rv = .none := by
  intro n
  have all : (∀ {p : Stmt} {s s' : St}, p.plain = true → s.eng.rv = .none → (interp w n).exec p s = .ok () s' → s'.eng.rv = .none) →
      ∀ {ps : List Stmt} {s s' : St}, plainAll ps = true → s.eng.rv = .none → forEach (interp w n).exec ps s = .ok () s' → s'.eng.rv = .none := by
    intro one ps
    induction ps with
    | nil =>
      intro s s' _ hr h
      cases h
      exact hr
    | cons p ps ih =>
      intro s s' hp hr h
      simp only [plainAll, Bool.and_eq_true] at hp
      obtain ⟨_, s1, h1, h⟩ := (bind_ok_iff ..).1 h
      exact ih hp.2 (one hp.1 hr h1) h
  suffices hs : ∀ {p : Stmt} {s s' : St}, p.plain = true → s.eng.rv = .none → (interp w n).exec p s = .ok () s' → s'.eng.rv = .none from ⟨hs, all hs⟩
  clear all
  induction n with
  | zero => intro p s s' _ _ h; cases h
  | succ n ih =>
    have all : ∀ {ps : List Stmt} {s s' : St}, plainAll ps = true → s.eng.rv = .none → forEach (interp w n).exec ps s = .ok () s' → s'.eng.rv = .none := by
      intro ps
      induction ps with
      | nil =>
        intro s s' _ hr h
        cases h
        exact hr
      | cons p ps ih2 =>
        intro s s' hp hr h
        simp only [plainAll, Bool.and_eq_true] at hp
        obtain ⟨_, s1, h1, h⟩ := (bind_ok_iff ..).1 h
        exact ih2 hp.2 (ih hp.1 hr h1) h
    intro p s s' hp hr h
    have hR := recRvN w n
    cases p with
    | skip => cases h; exact hr
    | block ss =>
      have h : (execBlock (interp w n) ss >>= fun _ => pure () : M Unit) s = .ok () s' := h
      obtain ⟨i, s1, h1, h⟩ := (bind_ok_iff ..).1 h
      cases h
      unfold execBlock at h1
      obtain ⟨_, s2, h2, h1⟩ := (bind_ok_iff ..).1 h1
      obtain ⟨_, s3, h3, h1⟩ := (bind_ok_iff ..).1 h1
      exact (p_detach lyRvN).out h1 (all hp ((p_pushScope lyRvN).out h2 hr) h3)
    | fn st name ps b => exact (p_declFn lyRvN hR .function st name ps (some b)).out h hr
    | cls st name ps b => exact (p_declFn lyRvN hR .cls st name ps (some b)).out h hr
    | line l =>
      rw [exec_line w n hr] at h
      cases l with
      | print e => exact (p_doPrint lyRvN hR e).out h hr
      | ret e => cases hp
      | assert e t => exact (p_doAssert lyRvN hR e t).out h hr
      | decl st name e => exact (p_declVar lyRvN hR st name e).out h hr
      | assign l e => exact (p_assign lyRvN hR l e).out h hr
      | proto st name ps => exact (p_declFn lyRvN hR .extern st name ps none).out h hr
      | expr e => exact (keeps_bind trnR (hR.eval .discard e) fun _ => keeps_pure trnR _).out h hr
      | «import» r b => cases hp

theorem declVar_alive {R : Rec} {s s' : St} {i : Nat} {stk : List Nat} {name : Bytes} {st : Bool} {init : Option Expr} (hst : s.Stack (i :: stk))
    (h : declVar R st name init s = .ok () s') : ∃ x, s.Alive i x := by
  unfold declVar at h
  rw [bind_of_ok (curScope_stack hst)] at h
  obtain ⟨x, s1, h1, _⟩ := (bind_ok_iff ..).1 h
  obtain ⟨h2, h3, _⟩ := (getScope_ok_iff ..).1 h1
  exact ⟨x, h2, h3⟩

theorem declFn_alive {R : Rec} {s s' : St} {i : Nat} {stk : List Nat} {kind : FnKind} {name : Bytes} {st : Bool} {ps : List Bytes} {body : Option (List Stmt)}
    (hst : s.Stack (i :: stk)) (h : declFn R kind st name ps body s = .ok () s') : ∃ x, s.Alive i x := by
  unfold declFn at h
  rw [bind_of_ok (curScope_stack hst)] at h
  obtain ⟨x, s1, h1, _⟩ := (bind_ok_iff ..).1 h
  obtain ⟨h2, h3, _⟩ := (getScope_ok_iff ..).1 h1
  exact ⟨x, h2, h3⟩

theorem names_of_added {i : Nat} {x x0 : Scope} {name : Bytes} {st : Bool} {s s' : St} (hx : s.scopes[i]? = some x) (h0 : s.Alive i x0) (h : Added i x0 name st s s') :
    ∃ x', s'.scopes[i]? = some x' ∧ x'.names = x.names ++ [(name, st)] := by
  cases hx.symm.trans h0.1
  exact h.mine

theorem names_of_frE {i : Nat} {x : Scope} {s s' : St} (hx : s.scopes[i]? = some x) (h : FrE s s') : ∃ x', s'.scopes[i]? = some x' ∧ x'.names = x.names ++ [] := by
  obtain ⟨x', h1, _, h2⟩ := h.scopes i x hx
  exact ⟨x', h1, by rw [List.append_nil]; exact h2 not_false⟩

/-- A plain statement adds to the innermost scope the name it declares. -/
theorem plain_names (w : World) (n : Nat) {p : Stmt} {s s' : St} {i : Nat} {stk : List Nat} {x : Scope} (hp : p.plain = true) (hr : s.eng.rv = .none)
    (hst : s.Stack (i :: stk)) (hx : s.scopes[i]? = some x) (h : (interp w n).exec p s = .ok () s') : ∃ x', s'.scopes[i]? = some x' ∧ x'.names = x.names ++ p.adds := by
  cases n with
  | zero => cases h
  | succ n =>
    have hR := recFr w n
    cases p with
    | skip => cases h; exact ⟨x, hx, by simp [Stmt.adds]⟩
    | block ss => exact names_of_frE hx ((keeps_bind trnE (kE_execBlock hR ss) fun _ => keeps_pure trnE _).out h)
    | fn st name ps b =>
      obtain ⟨x0, h0⟩ := declFn_alive hst h
      exact names_of_added hx h0 (declFn_added hR hst h0 h)
    | cls st name ps b =>
      obtain ⟨x0, h0⟩ := declFn_alive hst h
      exact names_of_added hx h0 (declFn_added hR hst h0 h)
    | line l =>
      rw [exec_line w n hr] at h
      cases l with
      | print e => exact names_of_frE hx ((kE_doPrint hR e).out h)
      | ret e => cases hp
      | assert e t => exact names_of_frE hx ((kE_doAssert hR e t).out h)
      | decl st name e =>
        obtain ⟨x0, h0⟩ := declVar_alive hst h
        exact names_of_added hx h0 (declVar_added hR hst h0 h)
      | assign l e => exact names_of_frE hx ((kE_assign hR l e).out h)
      | proto st name ps =>
        obtain ⟨x0, h0⟩ := declFn_alive hst h
        exact names_of_added hx h0 (declFn_added hR hst h0 h)
      | expr e => exact names_of_frE hx ((keeps_bind trnE (hR.eval .discard e) fun _ => keeps_pure trnE _).out h)
      | «import» r b => cases hp

theorem FrX.stack {s s' : St} (h : FrX s s') {st : List Nat} (hs : s.Stack st) : s'.Stack st := by
  have h := h ⟨st, hs⟩
  unfold St.Stack
  rw [h.env]
  exact h.envs _ _ hs

/-- Plain statements add to the innermost scope the names they declare, in order. -/
theorem plainAll_names (w : World) (n : Nat) : ∀ {ps : List Stmt} {s s' : St} {i : Nat} {stk : List Nat} {x : Scope}, plainAll ps = true → s.eng.rv = .none →
    s.Stack (i :: stk) → s.scopes[i]? = some x → forEach (interp w n).exec ps s = .ok () s' →
    ∃ x', s'.scopes[i]? = some x' ∧ x'.names = x.names ++ ps.flatMap Stmt.adds
  | [], s, s', i, stk, x, _, _, _, hx, h => by
    cases h
    exact ⟨x, hx, by simp⟩
  | p :: ps, s, s', i, stk, x, hp, hr, hst, hx, h => by
    simp only [plainAll, Bool.and_eq_true] at hp
    obtain ⟨_, s1, h1, h⟩ := (bind_ok_iff ..).1 h
    obtain ⟨x1, hx1, hn1⟩ := plain_names w n hp.1 hr hst hx h1
    obtain ⟨x', hx', hn'⟩ := plainAll_names w n hp.2 ((plain_rv w n).1 hp.1 hr h1) (FrX.stack (((recFr w n).exec p).out h1) hst) hx1 h
    exact ⟨x', hx', by rw [hn', hn1, List.flatMap_cons, List.append_assoc]⟩

theorem trn_eq : Trn (fun s s' : St => s' = s) := ⟨fun _ => rfl, fun h1 h2 => h2.trans h1⟩

/-- What making an instance does. -/
theorem makeInst_ok {c i : Nat} {args : List Nat} {t t' : St} {r : Option Nat} (h : makeInst c i .keep args t = .ok r t') :
    ∃ d x, r = some t.cells.length ∧ t'.Holds t.cells.length (.inst { cls := c, scope := i, data := d }) ∧ t.Alive i x ∧
      t'.scopes = t.scopes.set i { x with owner := some t.cells.length } ∧ ∀ (k : Nat), k ≠ t.cells.length → t'.cells[k]? = t.cells[k]? := by
  unfold makeInst at h
  rw [bind_of_ok (show checkDest .keep t = .ok () t from rfl), bind_of_ok (alloc_apply ..)] at h
  obtain ⟨x, s3, h3, h4⟩ := (bind_ok_iff ..).1 h
  clear h
  obtain ⟨hx, hf, rfl⟩ := (getScope_ok_iff ..).1 h3
  clear h3
  rw [bind_of_ok (setScope_apply ..)] at h4
  obtain ⟨_, s4, h5, h6⟩ := (bind_ok_iff ..).1 h4
  cases h6
  refine (fun (hh : ∃ d, s4.Holds t.cells.length (.inst { cls := c, scope := i, data := d }) ∧ s4.scopes = t.scopes.set i { x with owner := some t.cells.length } ∧
    ∀ (k : Nat), k ≠ t.cells.length → s4.cells[k]? = t.cells[k]?) => ?_) ?_
  · obtain ⟨d, h1, h2, h3⟩ := hh
    exact ⟨d, x, rfl, h1, ⟨hx, hf⟩, h2, h3⟩
  have hnew : ∀ (k : Nat), k ≠ t.cells.length → (t.cells ++ [({ data := .inst { cls := c, scope := i } } : Cell)])[k]? = t.cells[k]? := by
    intro k hk
    by_cases hlt : k < t.cells.length
    · exact List.getElem?_append_left hlt
    · rw [List.getElem?_eq_none (by simp; omega), List.getElem?_eq_none (by omega)]
  unfold classInst at h5
  rw [bind_of_ok ((getCell_ok_iff ..).2 ⟨List.getElem?_concat_length .., rfl⟩)] at h5
  simp only at h5
  obtain ⟨k, s5, h7, h8⟩ := (bind_ok_iff ..).1 h5
  obtain ⟨_, rfl⟩ := (getCell_ok_iff ..).1 h7
  have hinst : ∀ {u : Unit} {s'' : St}, instantiate t.cells.length args
      { t with cells := t.cells ++ [{ data := .inst { cls := c, scope := i } }], scopes := t.scopes.set i { x with owner := some t.cells.length } } = .ok u s'' →
      ∃ d, s''.Holds t.cells.length (.inst { cls := c, scope := i, data := d }) ∧ s''.scopes = t.scopes.set i { x with owner := some t.cells.length } ∧
        ∀ (k : Nat), k ≠ t.cells.length → s''.cells[k]? = t.cells[k]? := by
    intro u s'' h8
    unfold instantiate at h8
    split at h8
    · obtain ⟨_, s6, h9, h8⟩ := (bind_ok_iff ..).1 h8
      obtain rfl := (keeps_checkFlags trn_eq _).out h9
      rw [bind_of_ok (get_apply _)] at h8
      have h8 := (bind_of_ok (show modHost _ _ = .ok () _ from rfl)).symm.trans h8
      rw [bind_of_ok ((getCell_ok_iff ..).2 ⟨List.getElem?_concat_length .., rfl⟩)] at h8
      cases h8
      refine ⟨_, ⟨_, List.getElem?_set_self (by simp), rfl⟩, rfl, fun k hk => ?_⟩
      show ((t.cells ++ _).set _ _)[k]? = _
      rw [List.getElem?_set_ne (Ne.symm hk)]
      exact hnew k hk
    · cases h8
  obtain ⟨b1, s6, h9, h10⟩ := (bind_ok_iff ..).1 h8
  obtain rfl := (keeps_nameIs trn_eq _ _).out h9
  split at h10
  · exact hinst h10
  · obtain ⟨b2, s7, h11, h12⟩ := (bind_ok_iff ..).1 h10
    obtain rfl := (keeps_nameIs trn_eq _ _).out h11
    split at h12
    · exact hinst h12
    · cases h12
      exact ⟨_, ⟨_, List.getElem?_concat_length .., rfl⟩, rfl, hnew⟩

/-- **C61.**  Calling a class (which is still a class afterwards) gives a new instance of it.  Its scope is new too, and belongs to it.  If the body of the class neither returns
nor imports anything, the names in that scope are just those which the body declares, in order. -/
theorem C61_instance (w : World) (n : Nat) {c b : Nat} {f : FnData} {ss : List Stmt} {acc inst : Option Nat} {st : List Nat} {args : List Nat} {s s' : St} {r : Option Nat}
    (hc : Callable s c f acc inst st args) (hk : f.kind = .cls) (hb : f.body = some b) (he : s.bodies[b]? = some (some (.block ss)))
    (hn : f.params.length = args.length) (h : (interp w (n + 1)).call c acc .keep args s = .ok r s') (hcls : ∃ g, s'.Holds c (.fn g) ∧ g.kind = .cls) :
    ∃ v d x, r = some v ∧ s.cells.length ≤ v ∧ s'.Holds v (.inst { cls := c, scope := s.scopes.length + 1, data := d }) ∧
      s'.Alive (s.scopes.length + 1) x ∧ x.owner = some v ∧ (s.eng.rv = .none → plainAll ss = true → x.names = ss.flatMap Stmt.adds) := by
  obtain ⟨sa, ha, hcall⟩ := call_eq w n (d := .keep) hc.holds hc.inst_eq hc.env hc.top hn (by rw [hk]; intro p; simp) hc.args
  rw [hcall] at h
  obtain ⟨s0, hp, hbe⟩ := blockEntered ha.stack ⟨_, show sa.Alive s.scopes.length _ from ⟨by rw [ha.scopes]; simp; rfl, rfl⟩⟩
  have hlen : sa.scopes.length = s.scopes.length + 1 := by rw [ha.scopes]; simp
  have hbody : getBody f.body sa = .ok (.block ss) sa := by
    unfold getBody
    rw [hb, bind_of_ok ((deref_ok_iff ..).2 ⟨rfl, rfl⟩), bind_of_ok (get_apply _), ha.bodies, he]
    rfl
  obtain ⟨ran, s2, h1, h2⟩ := (bind_ok_iff ..).1 h
  clear h
  unfold runBody at h1
  rw [hk] at h1
  simp only at h1
  rw [bind_of_ok hbody] at h1
  simp only at h1
  unfold execBlock at h1
  rw [bind_apply, bind_of_ok hp] at h1
  have h1 : ((do forEach (interp w n).exec ss; detach : M Nat) >>= fun i => pure (Ran.block i) : M Ran) s0 = .ok ran s2 := by rw [bind_apply]; exact h1
  obtain ⟨i, s3, h3, h4⟩ := (bind_ok_iff ..).1 h1
  cases h4
  obtain ⟨_, s1, h5, h6⟩ := (bind_ok_iff ..).1 h3
  clear h1 h3
  have hfr := ((keeps_forEach trnX (recFr w n).exec ss).out h5) ⟨_, hbe.stack⟩
  have hst : s1.Stack (sa.scopes.length :: s.scopes.length :: (inst.toList ++ st)) := by
    have := hfr.envs _ _ hbe.stack
    unfold St.Stack
    rw [hfr.env]
    exact this
  obtain ⟨st', hst', rfl⟩ := (detach_ok_iff ..).1 h6
  have := hst.symm.trans hst'
  simp only [Option.some.injEq, List.cons.injEq] at this
  obtain ⟨rfl, rfl⟩ := this
  have hlt := (List.getElem?_eq_some_iff.1 hst).1
  rw [bind_of_ok (leave_eq (i := s.scopes.length) (by exact List.getElem?_set_self hlt))] at h2
  unfold afterCall at h2
  simp only [hk] at h2
  unfold finish at h2
  obtain ⟨y, s4, h7, h8⟩ := (bind_ok_iff ..).1 h2
  clear h2
  obtain ⟨hy, rfl⟩ := (getCell_ok_iff ..).1 h7
  clear h7
  have hy : s1.cells[c]? = some y := hy
  have hgrow := (keeps_forEach trnI (recAll (lxInst w) n).exec ss).out h5
  have hgrow2 : s.cells.length ≤ s1.cells.length := by
    have := hgrow.2.1
    rw [hbe.cells, ha.count] at this
    exact this
  cases hd : y.data <;> rw [hd] at h8 <;> try (cases h8)
  rename_i g
  by_cases hg : g.kind = .cls
  · simp only [if_pos hg, if_true] at h8
    rw [if_neg (by simp), bind_of_ok ((deref_ok_iff ..).2 ⟨rfl, rfl⟩)] at h8
    obtain ⟨d, x, hr, hh, hx, hsc, _⟩ := makeInst_ok h8
    rw [hlen] at hh hx hsc
    refine ⟨_, d, { x with owner := some s1.cells.length }, hr, hgrow2, hh, ⟨by rw [hsc]; exact List.getElem?_set_self (List.getElem?_eq_some_iff.1 hx.1).1, hx.2⟩, rfl, fun hrv hpl => ?_⟩
    have hrv0 : s0.eng.rv = .none := by rw [hbe.eng, ha.eng]; exact hrv
    obtain ⟨cls, hs0, _⟩ := hbe.scopes
    obtain ⟨x', hx', hn'⟩ := plainAll_names w n hpl hrv0 hbe.stack (x := { cls := cls }) (by rw [hs0]; simp) h5
    rw [hlen] at hx'
    have := hx'.symm.trans hx.1
    cases this
    exact hn'
  · -- not a class any more
    exfalso
    simp only [if_neg hg] at h8
    obtain ⟨g', ⟨z, hz, hzd⟩, hg'⟩ := hcls
    unfold takeRv at h8
    simp only at h8
    rw [bind_of_ok (getRv_apply _)] at h8
    have hc' : s'.cells[c]? = s1.cells[c]? := by
      have hclt : c < s1.cells.length := (List.getElem?_eq_some_iff.1 hy).1
      cases hrv : s1.eng.rv <;> rw [hrv] at h8
      · cases h8
        exact List.getElem?_append_left hclt
      · cases h8
        rfl
      · cases h8
    rw [hc', hy] at hz
    cases hz
    rw [hd] at hzd
    cases hzd
    exact hg hg'

/-- **C61.**  The scope of a new instance is not that of any instance there is (in states scripts get to, where all instances have scopes). -/
theorem C61_own_scope {s : St} (hs : s.InstScopes) {c : Nat} {i : InstData} (h : s.Holds c (.inst i)) : i.scope ≠ s.scopes.length + 1 := by
  have := hs c i h
  omega

/-- **C61.**  In every state a script gets to, instances have scopes: whatever is run next, as well. -/
theorem C61_instances_have_scopes (w : World) (n : Nat) (paths : List Bytes) (p : List Stmt) {s : St} (h : runScript w n paths p = .ok () s) :
    s.InstScopes ∧ (∀ d e r s', (interp w n).eval d e s = .ok r s' → s'.InstScopes) ∧ (∀ q s', (interp w n).exec q s = .ok () s' → s'.InstScopes) ∧
      ∀ c acc d args r s', (interp w n).call c acc d args s = .ok r s' → s'.InstScopes := by
  have h0 := script_instScopes w n paths p h
  have hR := recAll (lxInst w) n
  exact ⟨h0, fun d e r s' h => ((hR.eval d e).out h).2.2 h0, fun q s' h => ((hR.exec q).out h).2.2 h0, fun c acc d args r s' h => ((hR.call c acc d args).out h).2.2 h0⟩

theorem access_inst {R : Rec} {e : Expr} {name : Bytes} {s s1 : St} {a : Nat} {i : InstData} (he : R.value e s = .ok a s1) (ha : s1.Holds a (.inst i)) :
    accessFind R e name s = (do
      match ← shallowFind i.scope name with
      | none => raise (b!"member '" ++ name ++ b!"' was never declared")
      | some k => do
        let v ← getVar (i.scope, k)
        if v.isStatic then raise (b!"member '" ++ name ++ b!"' is static and can't be accessed through an instance")
        else pure (some (i.scope, k), v.val, a) : M _) s1 := by
  obtain ⟨x, hx, hd⟩ := getCell_holds ha
  unfold accessFind
  rw [bind_of_ok he, bind_of_ok hx, hd]
  rfl

theorem refused_bind_at {m : M α} {g : α → M β} {s s1 : St} {msg : Bytes} (h : Refused msg s1 (m s)) : Refused msg s1 ((m >>= g) s) := by
  rw [bind_apply]
  rcases h with ⟨h1, h2⟩ | ⟨h1, h2⟩ <;> rw [h1]
  · exact Or.inl ⟨rfl, h2⟩
  · exact Or.inr ⟨rfl, h2⟩

theorem access_cls {R : Rec} {e : Expr} {name : Bytes} {s s1 : St} {a i : Nat} {f : FnData} (he : R.value e s = .ok a s1) (ha : s1.Holds a (.fn f)) (hk : f.kind = .cls)
    (hi : f.scope = some i) :
    accessFind R e name s = (do
      match ← shallowFind i name with
      | none => raise (b!"static member '" ++ name ++ b!"' was never declared")
      | some k => do
        let v ← getVar (i, k)
        pure (some (i, k), v.val, a) : M _) s1 := by
  obtain ⟨x, hx, hd⟩ := getCell_holds ha
  unfold accessFind
  rw [bind_of_ok he, bind_of_ok hx, hd]
  simp only [hk, beq_self_eq_true, if_true]
  rw [bind_of_ok ((deref_ok_iff ..).2 ⟨hi, rfl⟩)]
  rfl

theorem getVar_first {s : St} {i k : Nat} {x : Scope} {v : Var} {name : Bytes} (hx : s.Alive i x) (hv : x.First name k v) : getVar (i, k) s = .ok v s := by
  unfold getVar
  rw [bind_of_ok (getScope_alive hx)]
  exact (deref_ok_iff ..).2 ⟨hv.1, rfl⟩

theorem shallow_first {s : St} {i k : Nat} {x : Scope} {v : Var} {name : Bytes} (hx : s.Alive i x) (hv : x.First name k v) : shallowFind i name s = .ok (some k) s := by
  rw [shallowFind_alive hx, findKeyIdx_of_first hv]

theorem shallow_none {s : St} {i : Nat} {x : Scope} {name : Bytes} (hx : s.Alive i x) (hv : ¬ x.Has name) : shallowFind i name s = .ok none s := by
  rw [shallowFind_alive hx, findKeyIdx_none.2 fun v h1 h2 => hv ⟨v, h1, h2⟩]

/-- **C61.**  What can be reached through an instance: a member of its scope that is not static has the value it has there; one that is static, and one that is not there, is refused. -/
theorem C61_through_instance (w : World) (n : Nat) {e : Expr} {name : Bytes} {s s1 : St} {a : Nat} {i : InstData} {x : Scope}
    (he : (interp w n).value e s = .ok a s1) (ha : s1.Holds a (.inst i)) (hx : s1.Alive i.scope x) :
    (∀ k v c y, x.First name k v → v.isStatic = false → v.val = some c → s1.cells[c]? = some y → y.refs ≠ 0 →
      (interp w (n + 1)).eval .keep (.access e name) s = .ok { val := some c, acc := some a } { s1 with cells := s1.cells.set c { y with refs := y.refs + 1 } }) ∧
    (∀ k v, x.First name k v → v.isStatic = true →
      ∀ d, Refused (b!"member '" ++ name ++ b!"' is static and can't be accessed through an instance") s1 ((interp w (n + 1)).eval d (.access e name) s)) ∧
    (¬ x.Has name → ∀ d, Refused (b!"member '" ++ name ++ b!"' was never declared") s1 ((interp w (n + 1)).eval d (.access e name) s)) := by
  refine ⟨fun k v c y hv hs hc hy hr => ?_, fun k v hv hs d => ?_, fun hv d => ?_⟩
  · show evalAccess (interp w n) .keep e name s = _
    have : accessFind (interp w n) e name s = .ok (some (i.scope, k), v.val, a) s1 := by
      rw [access_inst he ha, bind_of_ok (shallow_first hx hv)]
      simp only
      rw [bind_of_ok (getVar_first hx hv), hs]
      rfl
    unfold evalAccess
    rw [bind_of_ok this]
    simp only
    rw [if_neg (by simp), bind_of_ok (show checkDest .keep s1 = .ok () s1 from rfl), bind_of_ok ((deref_ok_iff ..).2 ⟨hc, rfl⟩)]
    unfold incref
    rw [bind_apply, bind_of_ok ((getCell_ok_iff ..).2 ⟨hy, rfl⟩), bind_of_ok ((assert_ok_iff _ _ _ ()).2 ⟨by simpa using hr, rfl⟩)]
    rfl
  · show Refused _ _ (evalAccess (interp w n) d e name s)
    unfold evalAccess
    refine refused_bind_at ?_
    rw [access_inst he ha, bind_of_ok (shallow_first hx hv)]
    simp only
    rw [bind_of_ok (getVar_first hx hv), hs]
    exact refused_raise _ _
  · show Refused _ _ (evalAccess (interp w n) d e name s)
    unfold evalAccess
    refine refused_bind_at ?_
    rw [access_inst he ha, bind_of_ok (shallow_none hx hv)]
    exact refused_raise _ _

/-- **C61.**  What can be reached through a class: the names of its static scope, and no others. -/
theorem C61_through_class (w : World) (n : Nat) {e : Expr} {name : Bytes} {s s1 : St} {a i : Nat} {f : FnData} {x : Scope}
    (he : (interp w n).value e s = .ok a s1) (ha : s1.Holds a (.fn f)) (hk : f.kind = .cls) (hi : f.scope = some i) (hx : s1.Alive i x) :
    (∀ k v c y, x.First name k v → v.val = some c → s1.cells[c]? = some y → y.refs ≠ 0 →
      (interp w (n + 1)).eval .keep (.access e name) s = .ok { val := some c, acc := some a } { s1 with cells := s1.cells.set c { y with refs := y.refs + 1 } }) ∧
    (¬ x.Has name → ∀ d, Refused (b!"static member '" ++ name ++ b!"' was never declared") s1 ((interp w (n + 1)).eval d (.access e name) s)) := by
  refine ⟨fun k v c y hv hc hy hr => ?_, fun hv d => ?_⟩
  · show evalAccess (interp w n) .keep e name s = _
    have : accessFind (interp w n) e name s = .ok (some (i, k), v.val, a) s1 := by
      rw [access_cls he ha hk hi, bind_of_ok (shallow_first hx hv)]
      simp only
      rw [bind_of_ok (getVar_first hx hv)]
      rfl
    unfold evalAccess
    rw [bind_of_ok this]
    simp only
    rw [if_neg (by simp), bind_of_ok (show checkDest .keep s1 = .ok () s1 from rfl), bind_of_ok ((deref_ok_iff ..).2 ⟨hc, rfl⟩)]
    unfold incref
    rw [bind_apply, bind_of_ok ((getCell_ok_iff ..).2 ⟨hy, rfl⟩), bind_of_ok ((assert_ok_iff _ _ _ ()).2 ⟨by simpa using hr, rfl⟩)]
    rfl
  · show Refused _ _ (evalAccess (interp w n) d e name s)
    unfold evalAccess
    refine refused_bind_at ?_
    rw [access_cls he ha hk hi, bind_of_ok (shallow_none hx hv)]
    exact refused_raise _ _

/-- The static name a statement declares. -/
def Stmt.statics (p : Stmt) : List (Bytes × Bool) := p.adds.filter fun a => a.2

theorem member_names (w : World) (n : Nat) {p : Stmt} {s s' : St} {i : Nat} {stk : List Nat} {x : Scope}
    (hst : s.Stack (i :: stk)) (hx : s.scopes[i]? = some x) (h : (interp w n).member p s = .ok () s') : ∃ x', s'.scopes[i]? = some x' ∧ x'.names = x.names ++ p.statics := by
  cases n with
  | zero => cases h
  | succ n =>
    have hR := recFr w n
    have h : stepMember (interp w n) p s = .ok () s' := h
    have hno : ∀ {s' : St}, (pure () : M Unit) s = .ok () s' → ∃ x', s'.scopes[i]? = some x' ∧ x'.names = x.names ++ [] := by
      intro s' h
      cases h
      exact ⟨x, hx, by simp⟩
    cases p with
    | skip => exact hno h
    | block ss => exact hno h
    | fn st name ps b =>
      cases st with
      | false => exact hno h
      | true =>
        obtain ⟨x0, h0⟩ := declFn_alive hst h
        exact names_of_added hx h0 (declFn_added hR hst h0 h)
    | cls st name ps b =>
      cases st with
      | false => exact hno h
      | true =>
        obtain ⟨x0, h0⟩ := declFn_alive hst h
        exact names_of_added hx h0 (declFn_added hR hst h0 h)
    | line l =>
      cases l with
      | decl st name e =>
        cases st with
        | false => exact hno h
        | true =>
          obtain ⟨x0, h0⟩ := declVar_alive hst h
          exact names_of_added hx h0 (declVar_added hR hst h0 h)
      | proto st name ps =>
        cases st with
        | false => exact hno h
        | true =>
          obtain ⟨x0, h0⟩ := declFn_alive hst h
          exact names_of_added hx h0 (declFn_added hR hst h0 h)
      | _ => exact hno h

theorem members_names (w : World) (n : Nat) : ∀ {ps : List Stmt} {s s' : St} {i : Nat} {stk : List Nat} {x : Scope},
    s.Stack (i :: stk) → s.scopes[i]? = some x → forEach (interp w n).member ps s = .ok () s' →
    ∃ x', s'.scopes[i]? = some x' ∧ x'.names = x.names ++ ps.flatMap Stmt.statics
  | [], s, s', i, stk, x, _, hx, h => by
    cases h
    exact ⟨x, hx, by simp⟩
  | p :: ps, s, s', i, stk, x, hst, hx, h => by
    obtain ⟨_, s1, h1, h⟩ := (bind_ok_iff ..).1 h
    obtain ⟨x1, hx1, hn1⟩ := member_names w n hst hx h1
    obtain ⟨x', hx', hn'⟩ := members_names w n (FrX.stack (((recFr w n).member p).out h1) hst) hx1 h
    exact ⟨x', hx', by rw [hn', hn1, List.flatMap_cons, List.append_assoc]⟩

/-- **C61.**  Declaring a class makes a class with a scope of its own, in which the static declarations of its body are carried out.  Afterwards the names in that scope are just those
which the body declares static, in order. -/
theorem C61_static_scope (w : World) (n : Nat) {s s' : St} {i : Nat} {stk : List Nat} {st : Bool} {name : Bytes} {ps : List Bytes} {body : List Stmt}
    (hst : s.Stack (i :: stk)) (h : (interp w (n + 1)).exec (.cls st name ps body) s = .ok () s') :
    ∃ f s1 s2 x, s1.Holds s.cells.length (.fn f) ∧ f.kind = .cls ∧ f.scope = some s.scopes.length ∧ f.params = ps ∧
      forEach (interp w n).member body s1 = .ok () s2 ∧ s'.cells = s2.cells ∧
      s'.scopes[s.scopes.length]? = some x ∧ x.names = body.flatMap Stmt.statics := by
  have h : declFn (interp w n) .cls st name ps (some body) s = .ok () s' := h
  obtain ⟨x, hx⟩ := declFn_alive hst h
  have hlt := (List.getElem?_eq_some_iff.1 hx.1).1
  have hni : i ≠ s.scopes.length := by omega
  unfold declFn at h
  rw [bind_of_ok (curScope_stack hst), bind_of_ok (getScope_alive hx)] at h
  cases hk : findKeyIdx name x.vars with
  | some k =>
    rw [hk] at h
    obtain ⟨_, _, _, h⟩ := (bind_ok_iff ..).1 h
    obtain ⟨_, _, _, h⟩ := (bind_ok_iff ..).1 h
    obtain ⟨_, _, _, h⟩ := (bind_ok_iff ..).1 h
    exact ((raise_not_ok ..).1 h).elim
  | none =>
    rw [hk] at h
    simp only at h
    rw [bind_of_ok (addVar_alive hx _)] at h
    rw [bind_of_ok (alloc_apply ..)] at h
    rw [bind_of_ok (setVar_alive (x := { x with vars := x.vars ++ [{ key := name, isStatic := st }] })
      ⟨List.getElem?_set_self hlt, hx.2⟩ (List.getElem?_concat_length ..) _)] at h
    rw [bind_of_ok (setName_cell (List.getElem?_concat_length ..) _ _)] at h
    rw [bind_of_ok (setOwnerOf_cell (List.getElem?_set_self (by simp)) _)] at h
    rw [bind_of_ok (closeOver_stack (st := i :: stk) (by exact hst))] at h
    rw [bind_of_ok (show allocBlock (some body) _ = .ok _ _ from rfl)] at h
    rw [bind_of_ok ((getCell_ok_iff ..).2 ⟨List.getElem?_set_self (by simp), rfl⟩)] at h
    rw [bind_of_ok (setCell_apply ..)] at h
    simp only [if_true] at h
    rw [bind_of_ok (allocScope_apply ..)] at h
    rw [bind_of_ok (setCell_apply ..)] at h
    obtain ⟨_, s1, h1, h⟩ := (bind_ok_iff ..).1 h
    obtain ⟨st0, hst0, rfl⟩ := (attach_ok_iff ..).1 h1
    obtain ⟨_, s2, h2, h⟩ := (bind_ok_iff ..).1 h
    obtain ⟨_, s3, h3, h4⟩ := (bind_ok_iff ..).1 h
    obtain ⟨st3, hst3, rfl⟩ := (detach_ok_iff ..).1 h3
    have hlt0 := (List.getElem?_eq_some_iff.1 hst0).1
    obtain ⟨x', hx', hn'⟩ := members_names w n (i := s.scopes.length) (stk := st0) (x := { owner := some s.cells.length })
      (by
        have := List.getElem?_set_self (a := s.scopes.length :: st0) hlt0
        unfold St.Stack
        simpa using this)
      (by simp) h2
    have hcd : s'.cells = s2.cells ∧ s'.scopes = s2.scopes := by
      have : Keeps (fun a b : St => b.cells = a.cells ∧ b.scopes = a.scopes) (classDecl s.cells.length) := by
        have tr : Trn (fun a b : St => b.cells = a.cells ∧ b.scopes = a.scopes) := ⟨fun _ => ⟨rfl, rfl⟩, fun h1 h2 => ⟨h2.1.trans h1.1, h2.2.trans h1.2⟩⟩
        have hm : ∀ f, Keeps (fun a b : St => b.cells = a.cells ∧ b.scopes = a.scopes) (modHost f) := fun f => ⟨fun h => by cases h; exact ⟨rfl, rfl⟩⟩
        unfold classDecl
        refine keeps_bind tr (keeps_getCell tr _) fun y => ?_
        split
        · exact keeps_bind tr (keeps_deref tr _) fun _ => keeps_bind tr (keeps_getScope tr _) fun _ =>
            keeps_ite (hm _) (keeps_ite (hm _) (keeps_ite (hm _) (keeps_pure tr _)))
        · exact keeps_ub
      have := this.out h4
      exact this
    refine ⟨_, _, s2, x', ⟨_, List.getElem?_set_self (by simp), rfl⟩, rfl, by simp, rfl, h2, hcd.1, ?_, ?_⟩
    · rw [hcd.2]
      exact hx'
    · rw [hn']
      rfl

/-- **C61.**  Members are separate: assigning to a member of an instance changes no scope but that of the instance.  (`s2` is the state once the right-hand side was evaluated and the previous
value given up.) -/
theorem C61_assignment_is_local (w : World) (n : Nat) {e rhs : Expr} {name text : Bytes} {s s1 s' : St} {a : Nat} {i : InstData} (hrv : s.eng.rv = .none)
    (he : (interp w n).value e s = .ok a s1) (ha : s1.Holds a (.inst i))
    (h : (interp w (n + 1)).exec (.line (.assign (.access e name text) rhs)) s = .ok () s') :
    ∃ x k v c r sr s2, s1.Alive i.scope x ∧ x.First name k v ∧ v.isStatic = false ∧ v.val = some c ∧ (interp w n).value rhs s1 = .ok r sr ∧
      (interp w n).dec c sr = .ok () s2 ∧ (∀ j, j ≠ i.scope → s'.scopes[j]? = s2.scopes[j]?) ∧
      ∃ x2 v2, s2.Alive i.scope x2 ∧ x2.vars[k]? = some v2 ∧ s'.Alive i.scope { x2 with vars := x2.vars.set k { v2 with val := some r } } := by
  rw [exec_assign w n hrv] at h
  unfold assign at h
  simp only at h
  obtain ⟨⟨p, v0, a'⟩, s3, h1, h2⟩ := (bind_ok_iff ..).1 h
  clear h
  rw [access_inst he ha] at h1
  obtain ⟨o, s4, h3, h4⟩ := (bind_ok_iff ..).1 h1
  clear h1
  unfold shallowFind at h3
  obtain ⟨x, s5, h5, h6⟩ := (bind_ok_iff ..).1 h3
  clear h3
  obtain ⟨hx, hfr, rfl⟩ := (getScope_ok_iff ..).1 h5
  cases h6
  cases hk : findKeyIdx name x.vars with
  | none =>
    rw [hk] at h4
    exact ((raise_not_ok ..).1 h4).elim
  | some k =>
    rw [hk] at h4
    obtain ⟨v, hv⟩ := findKeyIdx_some hk
    have hv : x.First name k v := hv
    simp only at h4
    rw [bind_of_ok (getVar_first ⟨hx, hfr⟩ hv)] at h4
    cases hs : v.isStatic with
    | true =>
      rw [hs] at h4
      exact ((raise_not_ok ..).1 h4).elim
    | false =>
      rw [hs] at h4
      cases h4
      simp only at h2
      unfold assignTo at h2
      obtain ⟨c, s6, h7, h8⟩ := (bind_ok_iff ..).1 h2
      clear h2
      obtain ⟨hc, rfl⟩ := (deref_ok_iff ..).1 h7
      obtain ⟨y, s7, h9, h10⟩ := (bind_ok_iff ..).1 h8
      clear h8
      obtain ⟨hy, rfl⟩ := (getCell_ok_iff ..).1 h9
      by_cases hfn : y.data.kind = .fn ∧ (some (i.scope, k)).isSome = true
      · rw [if_pos hfn] at h10
        exact ((raise_not_ok ..).1 h10).elim
      · rw [if_neg hfn] at h10
        obtain ⟨r, sr, h11, h12⟩ := (bind_ok_iff ..).1 h10
        clear h10
        obtain ⟨_, st, h13, h14⟩ := (bind_ok_iff ..).1 h12
        clear h12
        have h14 : st = s' := by
          obtain ⟨z, s8, h15, h16⟩ := (bind_ok_iff ..).1 h14
          obtain ⟨_, rfl⟩ := (getCell_ok_iff ..).1 h15
          split at h16
          · exact ((raise_not_ok ..).1 h16).elim
          · cases h16
            rfl
        subst h14
        have h13 : (do
          (interp w n).dec c
          let v ← getVar (i.scope, k)
          setVar (i.scope, k) r
          setName r v.key i.scope : M Unit) sr = .ok () st := h13
        obtain ⟨_, s2, h17, h18⟩ := (bind_ok_iff ..).1 h13
        obtain ⟨v2, s9, h19, h20⟩ := (bind_ok_iff ..).1 h18
        clear h18 h13
        unfold getVar at h19
        obtain ⟨x2, s10, h21, h22⟩ := (bind_ok_iff ..).1 h19
        clear h19
        obtain ⟨hx2, hfr2, rfl⟩ := (getScope_ok_iff ..).1 h21
        obtain ⟨hv2, rfl⟩ := (deref_ok_iff ..).1 h22
        rw [bind_of_ok (setVar_alive ⟨hx2, hfr2⟩ hv2 r)] at h20
        unfold setName at h20
        obtain ⟨z, s11, h23, h24⟩ := (bind_ok_iff ..).1 h20
        obtain ⟨_, rfl⟩ := (getCell_ok_iff ..).1 h23
        cases h24
        refine ⟨x, k, v, c, r, sr, s9, ⟨hx, hfr⟩, hv, hs, hc, h11, h17, fun j hj => ?_, x2, v2, ⟨hx2, hfr2⟩, hv2, ?_, hfr2⟩
        · exact List.getElem?_set_ne (Ne.symm hj)
        · exact List.getElem?_set_self (List.getElem?_eq_some_iff.1 hx2).1

/-- Two instances with a member each, and a static member. -/
def pointScript : List Stmt := [
  .cls false b!"P" [b!"a"] [sLet b!"x" (eVar b!"a"), .line (.decl true b!"count" (some (eNum b!"7"))), sFn b!"get" [] [sRet (eVar b!"x")]],
  sLet b!"p" (eCall (eVar b!"P") [eNum b!"1"]), sLet b!"q" (eCall (eVar b!"P") [eNum b!"2"]),
  .line (.assign (.access (eVar b!"p") b!"x" b!"p.x") (eNum b!"5")),
  sPrint (.access (eVar b!"p") b!"x"), sPrint (.access (eVar b!"q") b!"x"), sPrint (eCall (.access (eVar b!"p") b!"get") []), sPrint (.access (eVar b!"P") b!"count")]

example : (runScript emptyWorld 20 [] pointScript).printed = some [b!"5", b!"2", b!"5", b!"7"] := by decide +kernel
example : (runScript emptyWorld 20 [] (pointScript ++ [sPrint (.access (eVar b!"p") b!"count")])).failed =
    some (some b!"member 'count' is static and can't be accessed through an instance", [b!"5", b!"2", b!"5", b!"7"]) := by decide +kernel
example : (runScript emptyWorld 20 [] (pointScript ++ [sPrint (.access (eVar b!"P") b!"x")])).failed =
    some (some b!"static member 'x' was never declared", [b!"5", b!"2", b!"5", b!"7"]) := by decide +kernel
example : (runScript emptyWorld 20 [] (pointScript ++ [sPrint (.access (eVar b!"p") b!"y")])).failed =
    some (some b!"member 'y' was never declared", [b!"5", b!"2", b!"5", b!"7"]) := by decide +kernel

/-- Names come after one another in the instance's scope, with their `static`. -/
example : ([sLet b!"x" (eVar b!"a"), .line (.decl true b!"count" (some (eNum b!"7"))), sFn b!"get" [] [sRet (eVar b!"x")]] : List Stmt).flatMap Stmt.adds =
    [(b!"x", false), (b!"count", true), (b!"get", false)] := rfl

/-- Returning early from the body of a class leaves out the rest of its variables (though not its functions). -/
example : (runScript emptyWorld 20 [] [.cls false b!"P" [] [.line (.ret none), sLet b!"x" (eNum b!"1"), sFn b!"f" [] [sRet (eNum b!"2")]],
    sLet b!"p" (eCall (eVar b!"P") []), sPrint (eCall (.access (eVar b!"p") b!"f") []), sPrint (.access (eVar b!"p") b!"x")]).failed =
    some (some b!"member 'x' was never declared", [b!"2"]) := by decide +kernel

end Bob.Fl
