import Verif.Lemmas.FlMeanBase
/-!
# Names, bob's classes and requests while a build script runs
-/

namespace Bob.Fl

/-! ## Names -/

/-- In this scope, the name stands for the cell. -/
def FindsIn (x : Scope) (name : Bytes) (c : Nat) : Prop := ∃ k v, findKeyIdx name x.vars = some k ∧ x.vars[k]? = some v ∧ v.val = some c

/-- Going outwards, the name stands for the cell. -/
def Finds (scopes : List Scope) (name : Bytes) : List Nat → Nat → Prop
  | [], _ => False
  | i :: st, c => ∃ x, scopes[i]? = some x ∧ (FindsIn x name c ∨ findKeyIdx name x.vars = none ∧ Finds scopes name st c)

theorem findKeyIdx_keys {name : Bytes} : ∀ {vs vs' : List Var}, (vs'.map fun v => (v.key, v.isStatic)) = vs.map (fun v => (v.key, v.isStatic)) → findKeyIdx name vs' = findKeyIdx name vs
  | [], [], _ => rfl
  | [], _ :: _, h => nomatch h
  | _ :: _, [], h => nomatch h
  | v :: vs, v' :: vs', h => by
    simp only [List.map_cons, List.cons.injEq, Prod.mk.injEq] at h
    unfold findKeyIdx
    rw [h.1.1, findKeyIdx_keys h.2]

theorem FindsIn.kept {x x' : Scope} {name : Bytes} {c : Nat} (h : FindsIn x name c) (hk : x'.keys = x.keys)
    (hv : ∀ (k : Nat) (v : Var) (c : Option Nat), x.vars[k]? = some v → v.val = c → ∃ v', x'.vars[k]? = some v' ∧ v'.val = c) : FindsIn x' name c := by
  obtain ⟨k, v, h1, h2, h3⟩ := h
  obtain ⟨v', h4, h5⟩ := hv k v c h2 h3
  exact ⟨k, v', (findKeyIdx_keys hk).trans h1, h4, h5⟩

theorem Finds.kept {l l' : List Scope} (h : ScopesKept l l') {name : Bytes} : ∀ {st : List Nat} {c : Nat}, Finds l name st c → Finds l' name st c
  | [], _, hf => hf
  | i :: st, c, ⟨x, hx, hf⟩ => by
    obtain ⟨x', hx', hk, hv, _⟩ := h i x hx
    refine ⟨x', hx', ?_⟩
    rcases hf with hf | ⟨h1, h2⟩
    · exact .inl (hf.kept hk hv)
    · exact .inr ⟨(findKeyIdx_keys hk).trans h1, Finds.kept h h2⟩

theorem FindsIn.has {x : Scope} {name : Bytes} {c : Nat} (h : FindsIn x name c) : ∃ k v, x.vars[k]? = some v ∧ v.key = name ∧ v.val = some c ∧ findKeyIdx name x.vars = some k := by
  obtain ⟨k, v, h1, h2, h3⟩ := h
  obtain ⟨v', h4, h5, _⟩ := findKeyIdx_some h1
  cases h2.symm.trans h4
  exact ⟨k, v, h2, h5, h3, h1⟩

section
variable {L : Discipline} {C P T : List Nat} {s s' : St}

theorem Finds.isVar (h : Wf L C P T s) {name : Bytes} : ∀ {st : List Nat} {c : Nat}, Finds s.scopes name st c → ∃ p v, findIn name st s = .ok (some p) s ∧ IsVar s name p v ∧ v.val = some c
  | [], _, hf => hf.elim
  | i :: st, c, ⟨x, hx, hf⟩ => by
    have hal : s.Alive i x := ⟨hx, (h.shape.scopes i x hx).freed⟩
    unfold findIn
    rw [bind_of_ok (shallowFind_alive hal name)]
    rcases hf with hf | ⟨h1, h2⟩
    · obtain ⟨k, v, h2, h3, h4, h5⟩ := hf.has
      rw [h5]
      exact ⟨(i, k), v, rfl, ⟨x, hx, h2, h3⟩, h4⟩
    · rw [h1]
      exact Finds.isVar h h2

/-- The names stand for these values. -/
def Sees (s : St) (st : List Nat) (ρ : Names) : Prop := ∀ x v, ρ.lookup x = some v → ∃ c, Finds s.scopes x st c ∧ s.Was v c

theorem Sees.kept {st : List Nat} {ρ : Names} (h : Sees s st ρ) (hp : Stays s s') : Sees s' st ρ := by
  intro x v hv
  obtain ⟨c, h1, h2⟩ := h x v hv
  exact ⟨c, h1.kept hp.scopes, hp.toPast.was h2⟩

/-! ## bob's classes -/

/-- One of bob's classes that have instances. -/
structure ClassIs (s : St) (c : Nat) (name : Bytes) (body : List Stmt) : Prop where
  cell : ∃ x f b, s.cells[c]? = some x ∧ x.name = name ∧ x.data = .fn f ∧ f.kind = .cls ∧ f.params.length = 1 ∧ f.body = some b ∧
    (s.bodies[b]? = some (some (.block body)) ∨ s.bodies[b]? = some none)

theorem ClassIs.kept {c : Nat} {name : Bytes} {body : List Stmt} (h : ClassIs s c name body) (hp : Past s s') : ClassIs s' c name body := by
  obtain ⟨x, f, b, h1, h2, h3, h4, h5, h6, h7⟩ := h.cell
  obtain ⟨x', h1', hd, hn⟩ := hp.cells c x h1
  refine ⟨x', f, b, h1', (hn ?_).1.trans h2, hd.trans h3, h4, h5, h6, ?_⟩
  · rw [h3]
    exact .inl h4
  · rcases h7 with h7 | h7
    · exact hp.bodies b _ h7
    · rcases hp.bodies b _ h7 with h | h <;> exact .inr h

/-- `Fs` and its function. -/
structure FsIs (s : St) (c : Nat) : Prop where
  cls : s.host.fsCls = some c
  parts : ∃ sc l, s.host.fsList = some l ∧ (∃ f, s.Holds c (.fn f) ∧ f.kind = .cls ∧ f.scope = some sc) ∧ (∃ x, s.scopes[sc]? = some x ∧ x.owner = some c ∧ FindsIn x b!"list" l) ∧
    ∃ y g, s.cells[l]? = some y ∧ y.owner = some sc ∧ y.data = .fn g ∧ g.kind = .extern ∧ g.params.length = 1

theorem FsIs.kept {c : Nat} (h : FsIs s c) (hp : Past s s') (hs : ScopesKept s.scopes s'.scopes) : FsIs s' c := by
  obtain ⟨hc, sc, l, h1, ⟨f, h2, h3, h4⟩, ⟨x, h5, h6, h7⟩, y, g, h8, h9, h10, h11, h12⟩ := h
  refine ⟨hp.fsCls.trans hc, sc, l, hp.fsList.trans h1, ⟨f, hp.holds h2, h3, h4⟩, ?_, ?_⟩
  · obtain ⟨x', hx', hk, hv, ho⟩ := hs sc x h5
    exact ⟨x', hx', ho c h6, h7.kept hk hv⟩
  · obtain ⟨y', hy', hd, hn⟩ := hp.cells l y h8
    exact ⟨y', g, hy', (hn (by rw [h10]; exact .inr h11)).2.trans h9, hd.trans h10, h11, h12⟩

def ccBody : List Stmt := [.line (.proto false b!"compile" [b!"src"])]

def linkerBody : List Stmt := [.line (.proto false b!"link" [b!"obj"]), .line (.proto false b!"archive" [b!"obj"])]

/-- bob was imported. -/
structure BobIs (s : St) (fs cc lk : Nat) : Prop where
  isFs : FsIs s fs
  ccCls : s.host.ccCls = some cc
  lkCls : s.host.linkerCls = some lk
  isCc : ClassIs s cc b!"Cc" ccBody
  isLk : ClassIs s lk b!"Linker" linkerBody
  ne1 : cc ≠ fs
  ne2 : lk ≠ fs
  ne3 : lk ≠ cc

theorem BobIs.kept {fs cc lk : Nat} (h : BobIs s fs cc lk) (hp : Past s s') (hs : ScopesKept s.scopes s'.scopes) : BobIs s' fs cc lk :=
  ⟨h.isFs.kept hp hs, hp.ccCls.trans h.ccCls, hp.linkerCls.trans h.lkCls, h.isCc.kept hp, h.isLk.kept hp, h.ne1, h.ne2, h.ne3⟩

/-- bob's classes can be used. -/
def BobIn (s : St) (st : List Nat) : Prop := ∃ fs cc lk, BobIs s fs cc lk ∧ Finds s.scopes b!"Fs" st fs ∧ Finds s.scopes b!"Cc" st cc ∧ Finds s.scopes b!"Linker" st lk

theorem BobIn.kept {st : List Nat} (h : BobIn s st) (hp : Stays s s') : BobIn s' st := by
  obtain ⟨fs, cc, lk, h1, h2, h3, h4⟩ := h
  exact ⟨fs, cc, lk, h1.kept hp.toPast hp.scopes, h2.kept hp.scopes, h3.kept hp.scopes, h4.kept hp.scopes⟩

/-! ## Requests -/

/-- Kept for good, or in `X`. -/
def Lasts (L : Discipline) (X : List Nat) (s : St) (c : Nat) : Prop := c ∈ X ∨ Elem s.cells c ∨ Soft L s.scopes c

/-- The build step is what was asked for. -/
def StepFor (w : World) (L : Discipline) (X : List Nat) (s : St) (st : BuildStep Uniq StepKind ReqData) : Ask → Prop
  | .compile fl srcs => ∃ k h sc out, st = { unique := .state (some k), kind := .compile, data := [{ state := some k, srcs := sc, out := out }] } ∧
      s.host.states[k]? = some h ∧ s.Was (.strs fl) h.flags ∧ s.Was (.strs srcs) sc ∧ s.Was (.strs (srcs.map w.object)) out
  | .link ar fl srcs => ∃ n k h sc out, st = { unique := .bss n, kind := if ar then .archive else .link, data := [{ state := some k, srcs := sc, out := out }] } ∧
      s.host.states[k]? = some h ∧ s.Was (.strs fl) h.flags ∧ s.Was (.strs srcs) sc ∧ s.Was (.str (linkCookie w.signed w.outPath ar srcs)) out ∧ Lasts L X s out

theorem StepFor.state {w : World} {X : List Nat} {st : BuildStep Uniq StepKind ReqData} {a : Ask} (h : StepFor w L X s st a) {k : Nat} (hk : st.unique = .state (some k)) : k < s.host.states.length := by
  cases a with
  | compile fl srcs =>
    obtain ⟨k', h', _, _, rfl, h2, _⟩ := h
    cases hk
    exact lt_of_get h2
  | link ar fl srcs =>
    obtain ⟨_, _, _, _, _, rfl, _⟩ := h
    cases hk

theorem StepFor.past {w : World} {X X' : List Nat} {st : BuildStep Uniq StepKind ReqData} {a : Ask} (h : StepFor w L X s st a) (hp : Past s s') (hk : ∀ c, Lasts L X s c → Lasts L X' s' c) : StepFor w L X' s' st a := by
  cases a with
  | compile fl srcs =>
    obtain ⟨k, h, sc, out, h1, h2, h3, h4, h5⟩ := h
    obtain ⟨h', h2', hf⟩ := hp.states k h h2
    exact ⟨k, h', sc, out, h1, h2', by rw [hf]; exact hp.was h3, hp.was h4, hp.was h5⟩
  | link ar fl srcs =>
    obtain ⟨n, k, h, sc, out, h1, h2, h3, h4, h5, h6⟩ := h
    obtain ⟨h', h2', hf⟩ := hp.states k h h2
    exact ⟨n, k, h', sc, out, h1, h2', by rw [hf]; exact hp.was h3, hp.was h4, hp.was h5, hk out h6⟩

/-- What was asked for so far. -/
def Amb (w : World) (L : Discipline) (X : List Nat) (r : List Ask) (s : St) : Prop := List.Forall₂ (StepFor w L X s) s.host.steps r

theorem Elem.past (hp : Past s s') {c : Nat} (h : Elem s.cells c) : Elem s'.cells c := by
  obtain ⟨k, y, hy, hc⟩ := h
  obtain ⟨y', hy', hd, _⟩ := hp.cells k y hy
  exact ⟨k, y', hy', by rw [hd]; exact hc⟩

theorem Soft.kept (hs : ScopesKept s.scopes s'.scopes) {c : Nat} (h : Soft L s.scopes c) : Soft L s'.scopes c := by
  obtain ⟨i, x, v, hx, hv, hc, hk⟩ := h
  obtain ⟨x', hx', hks, hvs, _⟩ := hs i x hx
  obtain ⟨k, hk'⟩ := List.getElem?_of_mem hv
  obtain ⟨v', hv', hc'⟩ := hvs k v c hk' hc
  refine ⟨i, x', v', hx', List.mem_of_getElem? hv', hc', ?_⟩
  have h1 : x'.keys[k]? = some (v'.key, v'.isStatic) := by
    unfold Scope.keys
    rw [List.getElem?_map, hv']
    rfl
  have h2 : x.keys[k]? = some (v.key, v.isStatic) := by
    unfold Scope.keys
    rw [List.getElem?_map, hk']
    rfl
  rw [hks, h2] at h1
  rw [← show v.key = v'.key from congrArg Prod.fst (Option.some.inj h1)]
  exact hk

theorem Lasts.past {X : List Nat} (hp : Past s s') (hs : ScopesKept s.scopes s'.scopes) {c : Nat} (h : Lasts L X s c) : Lasts L X s' c := by
  rcases h with h | h | h
  · exact .inl h
  · exact .inr (.inl (h.past hp))
  · exact .inr (.inr (Soft.kept hs h))

theorem Amb.past {w : World} {X X' : List Nat} {r : List Ask} (h : Amb w L X r s) (hp : Past s s') (he : s'.host.steps = s.host.steps) (hk : ∀ c, Lasts L X s c → Lasts L X' s' c) : Amb w L X' r s' := by
  unfold Amb
  rw [he]
  exact List.Forall₂.imp (fun _ _ h => h.past hp hk) h

theorem Amb.idle {w : World} {X : List Nat} {r : List Ask} (h : Amb w L X r s) (hi : Idle s s') : Amb w L X r s' := h.past hi.toPast hi.steps fun _ hc => hc.past hi.toPast hi.scopes

theorem Amb.sub {w : World} {X X' : List Nat} {r : List Ask} (h : Amb w L X r s) (hx : ∀ c ∈ X, Lasts L X' s c) : Amb w L X' r s :=
  h.past (Past.refl s) rfl fun c hc => hc.elim (hx c) .inr

/-! ## All of it -/

/-- What surrounds an expression, where `st` is what it sees. -/
structure Scene (w : World) (L : Discipline) (C P T X : List Nat) (r : List Ask) (st : List Nat) (ρ : Names) (s : St) : Prop where
  wf : Wf L C P T s
  rv : s.eng.rv = .none
  sees : Sees s st ρ
  bob : BobIn s st
  amb : Amb w L X r s

variable {w : World} {X : List Nat} {r : List Ask} {st : List Nat} {ρ : Names}

theorem Scene.stays (h : Scene w L C P T X r st ρ s) {C' P' T' X' : List Nat} {r' : List Ask} (hs : Stays s s') (hw : Wf L C' P' T' s') (hr : s'.eng.rv = .none) (ha : Amb w L X' r' s') :
    Scene w L C' P' T' X' r' st ρ s' := ⟨hw, hr, h.sees.kept hs, h.bob.kept hs, ha⟩

theorem Scene.idle (h : Scene w L C P T X r st ρ s) {C' P' T' : List Nat} (hs : Idle s s') (hw : Wf L C' P' T' s') (hr : s'.eng.rv = .none) :
    Scene w L C' P' T' X r st ρ s' := h.stays hs.toStays hw hr (h.amb.idle hs)

theorem Scene.wfs (h : Scene w L C P T X r st ρ s) {C' P' T' : List Nat} (hw : Wf L C' P' T' s) : Scene w L C' P' T' X r st ρ s := ⟨hw, h.rv, h.sees, h.bob, h.amb⟩

theorem Scene.ambs (h : Scene w L C P T X r st ρ s) {X' : List Nat} (hx : ∀ c ∈ X, Lasts L X' s c) : Scene w L C P T X' r st ρ s := ⟨h.wf, h.rv, h.sees, h.bob, h.amb.sub hx⟩

theorem Quit.stack (h : Quit s s') (hst : s.Stack st) : s'.Stack st := by
  unfold St.Stack
  rw [h.1.env]
  exact h.1.envs _ _ hst

end

end Bob.Fl
