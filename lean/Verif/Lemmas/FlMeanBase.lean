import Verif.Props.FlSafe
import Verif.Spec.FlMean
/-!
# Pieces of the interpreter that do come to an end
-/

namespace Bob.Fl

/-- With enough fuel, `m` always ends in the same way, as `Q` says. -/
def Conv (m : Nat → M α) (s : St) (Q : α → St → Prop) : Prop := ∃ N a s', (∀ n, N ≤ n → m n s = .ok a s') ∧ Q a s'

section
variable {α β : Type} {s s1 : St}

theorem Conv.bind {m : Nat → M α} {f : Nat → α → M β} {Q : β → St → Prop} (h : Conv m s fun a s1 => Conv (fun n => f n a) s1 Q) : Conv (fun n => m n >>= f n) s Q := by
  obtain ⟨N, a, s1, h1, N', b, s2, h2, hq⟩ := h
  exact ⟨max N N', b, s2, fun n hn => (bind_of_ok (h1 n (by omega))).trans (h2 n (by omega)), hq⟩

theorem Conv.ok {m : Nat → M α} {Q : α → St → Prop} {a : α} (h : ∀ n, m n s = .ok a s1) (hq : Q a s1) : Conv m s Q := ⟨0, a, s1, fun n _ => h n, hq⟩

theorem Conv.bind_ok {m : Nat → M α} {f : Nat → α → M β} {Q : β → St → Prop} {a : α} (h : ∀ n, m n s = .ok a s1) (hf : Conv (fun n => f n a) s1 Q) : Conv (fun n => m n >>= f n) s Q :=
  Conv.bind (Conv.ok h hf)

theorem Conv.pure {Q : α → St → Prop} {a : α} (hq : Q a s) : Conv (fun _ => pure a) s Q := Conv.ok (fun _ => rfl) hq

theorem Conv.succ {m m' : Nat → M α} {Q : α → St → Prop} (h : ∀ n, m (n + 1) = m' n) (hm : Conv m' s Q) : Conv m s Q := by
  obtain ⟨N, a, s1, h1, hq⟩ := hm
  refine ⟨N + 1, a, s1, fun n hn => ?_, hq⟩
  obtain ⟨k, rfl⟩ : ∃ k, n = k + 1 := ⟨n - 1, by omega⟩
  rw [h]
  exact h1 k (by omega)

theorem Conv.mono {m : Nat → M α} {Q Q' : α → St → Prop} (h : Conv m s Q) (hq : ∀ a s', Q a s' → Q' a s') : Conv m s Q' := by
  obtain ⟨N, a, s1, h1, h2⟩ := h
  exact ⟨N, a, s1, h1, hq a s1 h2⟩

theorem Conv.of_eq {m m' : Nat → M α} {Q : α → St → Prop} (h : ∀ n, m n s = m' n s1) (hm : Conv m' s1 Q) : Conv m s Q := by
  obtain ⟨N, a, s2, h1, h2⟩ := hm
  exact ⟨N, a, s2, fun n hn => (h n).trans (h1 n hn), h2⟩

theorem Conv.safe {m : Nat → M α} {Q Q' : α → St → Prop} (h : Conv m s Q) (hs : ∀ n, Safe (m n) s Q') : Conv m s fun a s' => Q a s' ∧ Q' a s' := by
  obtain ⟨N, a, s1, h1, h2⟩ := h
  exact ⟨N, a, s1, h1, h2, (hs N).get_ok (h1 N (Nat.le_refl _))⟩

theorem Conv.else {c : Prop} [Decidable c] {m m' : Nat → M α} {Q : α → St → Prop} (hc : ¬ c) (h : Conv m' s Q) : Conv (fun n => if c then m n else m' n) s Q :=
  h.of_eq fun n => by simp only [if_neg hc]

theorem Conv.then {c : Prop} [Decidable c] {m m' : Nat → M α} {Q : α → St → Prop} (hc : c) (h : Conv m s Q) : Conv (fun n => if c then m n else m' n) s Q :=
  h.of_eq fun n => by simp only [if_pos hc]

theorem Conv.keeps {m : Nat → M α} {Q : α → St → Prop} {T : St → St → Prop} (h : Conv m s Q) (hk : ∀ n, Keeps T (m n)) : Conv m s fun a s' => Q a s' ∧ T s s' := by
  obtain ⟨N, a, s1, h1, h2⟩ := h
  exact ⟨N, a, s1, h1, h2, (hk N).out (h1 N (Nat.le_refl _))⟩

/-- What does not depend on the fuel. -/
theorem Conv.of_safe {m : M α} {Q Q' : α → St → Prop} (h : Conv (fun _ => m) s Q) (hs : Safe m s Q') : Conv (fun _ => m) s fun a s' => Q a s' ∧ Q' a s' := h.safe fun _ => hs

end

/-! ## What stays as it was -/

/-- Functions which bob recognises by name or owner. -/
def Data.Named : Data → Prop
  | .fn f => f.kind = .cls ∨ f.kind = .extern
  | _ => False

def CellsKept (cells cells' : List Cell) : Prop :=
  ∀ (c : Nat) (x : Cell), cells[c]? = some x → ∃ x', cells'[c]? = some x' ∧ x'.data = x.data ∧ (x.data.Named → x'.name = x.name ∧ x'.owner = x.owner)

/-- The same, or released. -/
def SlotsKept {α : Type} (l l' : List (Option α)) : Prop := ∀ (b : Nat) (t : Option α), l[b]? = some t → l'[b]? = some t ∨ l'[b]? = some none

def ScopesKept (l l' : List Scope) : Prop :=
  ∀ (i : Nat) (x : Scope), l[i]? = some x → ∃ x', l'[i]? = some x' ∧ x'.keys = x.keys ∧
    (∀ (k : Nat) (v : Var) (c : Option Nat), x.vars[k]? = some v → v.val = c → ∃ v', x'.vars[k]? = some v' ∧ v'.val = c) ∧ ∀ c, x.owner = some c → x'.owner = some c

/-- Values are what they were (unless released), and so is what bob's classes are. -/
structure Past (s s' : St) : Prop where
  cells : CellsKept s.cells s'.cells
  bufs : SlotsKept s.bufs s'.bufs
  bodies : SlotsKept s.bodies s'.bodies
  states : ∀ (k : Nat) (h : HostState), s.host.states[k]? = some h → ∃ h', s'.host.states[k]? = some h' ∧ h'.flags = h.flags
  fsCls : s'.host.fsCls = s.host.fsCls
  ccCls : s'.host.ccCls = s.host.ccCls
  linkerCls : s'.host.linkerCls = s.host.linkerCls
  fsList : s'.host.fsList = s.host.fsList

/-- Also, variables are what they were, nothing was printed, and what was asked for is not on behalf of instances made before. -/
structure Stays (s s' : St) : Prop extends Past s s' where
  scopes : ScopesKept s.scopes s'.scopes
  out : s'.out = s.out
  fresh : ∀ st ∈ s'.host.steps, st ∈ s.host.steps ∨ ∀ k, st.unique = .state (some k) → s.host.states.length ≤ k

/-- Also, nothing was asked for. -/
structure Idle (s s' : St) : Prop extends Stays s s' where
  steps : s'.host.steps = s.host.steps

theorem CellsKept.refl (l : List Cell) : CellsKept l l := fun _ x h => ⟨x, h, rfl, fun _ => ⟨rfl, rfl⟩⟩

theorem CellsKept.trans {l l1 l2 : List Cell} (h1 : CellsKept l l1) (h2 : CellsKept l1 l2) : CellsKept l l2 := by
  intro c x hx
  obtain ⟨x1, e1, d1, n1⟩ := h1 c x hx
  obtain ⟨x2, e2, d2, n2⟩ := h2 c x1 e1
  refine ⟨x2, e2, d2.trans d1, fun hn => ?_⟩
  obtain ⟨a1, a2⟩ := n1 hn
  obtain ⟨b1, b2⟩ := n2 (d1 ▸ hn)
  exact ⟨b1.trans a1, b2.trans a2⟩

theorem CellsKept.push (l m : List Cell) : CellsKept l (l ++ m) := fun _ x h => ⟨x, getElem?_pushed h, rfl, fun _ => ⟨rfl, rfl⟩⟩

theorem CellsKept.set {l : List Cell} {c : Nat} {x y : Cell} (hx : l[c]? = some x) (hd : y.data = x.data) (hn : x.data.Named → y.name = x.name ∧ y.owner = x.owner) : CellsKept l (l.set c y) := by
  intro k z hz
  by_cases hk : k = c
  · subst hk
    cases hx.symm.trans hz
    exact ⟨y, List.getElem?_set_self (lt_of_get hx), hd, hn⟩
  · exact ⟨z, by rw [List.getElem?_set_ne (Ne.symm hk)]; exact hz, rfl, fun _ => ⟨rfl, rfl⟩⟩

theorem SlotsKept.refl {α : Type} (l : List (Option α)) : SlotsKept l l := fun _ _ h => .inl h

theorem SlotsKept.trans {α : Type} {l l1 l2 : List (Option α)} (h1 : SlotsKept l l1) (h2 : SlotsKept l1 l2) : SlotsKept l l2 := by
  intro b t ht
  rcases h1 b t ht with h | h
  · exact h2 b t h
  · rcases h2 b _ h with h | h <;> exact .inr h

theorem SlotsKept.push {α : Type} (l m : List (Option α)) : SlotsKept l (l ++ m) := fun _ _ h => .inl (getElem?_pushed h)

theorem SlotsKept.free {α : Type} (l : List (Option α)) (b : Nat) : SlotsKept l (l.set b none) := by
  intro k t ht
  by_cases hk : k = b
  · subst hk
    exact .inr (List.getElem?_set_self (lt_of_get ht))
  · exact .inl (by rw [List.getElem?_set_ne (Ne.symm hk)]; exact ht)

theorem ScopesKept.refl (l : List Scope) : ScopesKept l l := fun _ x h => ⟨x, h, rfl, fun _ v _ hv hc => ⟨v, hv, hc⟩, fun _ h => h⟩

theorem ScopesKept.trans {l l1 l2 : List Scope} (h1 : ScopesKept l l1) (h2 : ScopesKept l1 l2) : ScopesKept l l2 := by
  intro i x hx
  obtain ⟨x1, e1, k1, v1, o1⟩ := h1 i x hx
  obtain ⟨x2, e2, k2, v2, o2⟩ := h2 i x1 e1
  refine ⟨x2, e2, k2.trans k1, fun k v c hv hc => ?_, fun c hc => o2 c (o1 c hc)⟩
  obtain ⟨v', hv', hc'⟩ := v1 k v c hv hc
  exact v2 k v' c hv' hc'

theorem ScopesKept.push (l m : List Scope) : ScopesKept l (l ++ m) := fun _ x h => ⟨x, getElem?_pushed h, rfl, fun _ v _ hv hc => ⟨v, hv, hc⟩, fun _ h => h⟩

theorem ScopesKept.set {l : List Scope} {i : Nat} {x y : Scope} (hx : l[i]? = some x) (hv : y.vars = x.vars) (ho : ∀ c, x.owner = some c → y.owner = some c) : ScopesKept l (l.set i y) := by
  intro k z hz
  by_cases hk : k = i
  · subst hk
    cases hx.symm.trans hz
    exact ⟨y, List.getElem?_set_self (lt_of_get hx), by unfold Scope.keys; rw [hv], fun k v c h1 h2 => ⟨v, by rw [hv]; exact h1, h2⟩, ho⟩
  · exact ⟨z, by rw [List.getElem?_set_ne (Ne.symm hk)]; exact hz, rfl, fun _ v _ hv hc => ⟨v, hv, hc⟩, fun _ h => h⟩

theorem Past.refl (s : St) : Past s s := ⟨CellsKept.refl _, SlotsKept.refl _, SlotsKept.refl _, fun _ h hk => ⟨h, hk, rfl⟩, rfl, rfl, rfl, rfl⟩

theorem Past.trans {s s1 s2 : St} (h1 : Past s s1) (h2 : Past s1 s2) : Past s s2 := by
  refine ⟨h1.cells.trans h2.cells, h1.bufs.trans h2.bufs, h1.bodies.trans h2.bodies, fun k h hk => ?_, h2.fsCls.trans h1.fsCls, h2.ccCls.trans h1.ccCls, h2.linkerCls.trans h1.linkerCls, h2.fsList.trans h1.fsList⟩
  obtain ⟨a, ha, e⟩ := h1.states k h hk
  obtain ⟨b, hb, e'⟩ := h2.states k a ha
  exact ⟨b, hb, e'.trans e⟩

theorem Past.count {s s' : St} (h : Past s s') : s.host.states.length ≤ s'.host.states.length := by
  refine Nat.le_of_not_lt fun hlt => ?_
  obtain ⟨_, ha, _⟩ := h.states _ _ (List.getElem?_eq_getElem hlt)
  exact absurd (lt_of_get ha) (Nat.lt_irrefl _)

theorem Stays.refl (s : St) : Stays s s := ⟨Past.refl s, ScopesKept.refl _, rfl, fun _ h => .inl h⟩

theorem Stays.trans {s s1 s2 : St} (h1 : Stays s s1) (h2 : Stays s1 s2) : Stays s s2 := by
  refine ⟨h1.toPast.trans h2.toPast, h1.scopes.trans h2.scopes, h2.out.trans h1.out, fun st hst => ?_⟩
  rcases h2.fresh st hst with h | h
  · exact h1.fresh st h
  · exact .inr fun k hk => h1.toPast.count.trans (h k hk)

theorem Idle.refl (s : St) : Idle s s := ⟨Stays.refl s, rfl⟩

theorem Idle.trans {s s1 s2 : St} (h1 : Idle s s1) (h2 : Idle s1 s2) : Idle s s2 := ⟨h1.toStays.trans h2.toStays, h2.steps.trans h1.steps⟩

theorem trnIdle : Trn Idle := ⟨Idle.refl, Idle.trans⟩

/-- Changes to memory only. -/
theorem Idle.of {s s' : St} (hc : CellsKept s.cells s'.cells) (hb : SlotsKept s.bufs s'.bufs) (hd : SlotsKept s.bodies s'.bodies) (hs : ScopesKept s.scopes s'.scopes) (hh : s'.host = s.host) (ho : s'.out = s.out) :
    Idle s s' :=
  ⟨⟨⟨hc, hb, hd, fun k h hk => ⟨h, by rw [hh]; exact hk, rfl⟩, by rw [hh], by rw [hh], by rw [hh], by rw [hh]⟩, hs, ho, fun st h => .inl (by rw [hh] at h; exact h)⟩, by rw [hh]⟩

theorem Idle.ctx {s s' : St} (hc : s'.cells = s.cells) (hb : s'.bufs = s.bufs) (hd : s'.bodies = s.bodies) (hs : s'.scopes = s.scopes) (hh : s'.host = s.host) (ho : s'.out = s.out) : Idle s s' :=
  Idle.of (hc ▸ CellsKept.refl _) (hb ▸ SlotsKept.refl _) (hd ▸ SlotsKept.refl _) (hs ▸ ScopesKept.refl _) hh ho

theorem Idle.touch {s : St} {c : Nat} {x y : Cell} (hx : s.cells[c]? = some x) (hd : y.data = x.data) (hn : x.data.Named → y.name = x.name ∧ y.owner = x.owner) :
    Idle s { s with cells := s.cells.set c y } :=
  Idle.of (CellsKept.set hx hd hn) (SlotsKept.refl _) (SlotsKept.refl _) (ScopesKept.refl _) rfl rfl

theorem i_alloc (d : Data) : Keeps Idle (alloc d) := by
  refine ⟨fun {s a s'} h => ?_⟩
  cases h
  exact Idle.of (CellsKept.push _ _) (SlotsKept.refl _) (SlotsKept.refl _) (ScopesKept.refl _) rfl rfl

theorem i_allocBuf (d : Bytes) : Keeps Idle (allocBuf d) := by
  refine ⟨fun {s a s'} h => ?_⟩
  cases h
  exact Idle.of (CellsKept.refl _) (SlotsKept.push _ _) (SlotsKept.refl _) (ScopesKept.refl _) rfl rfl

theorem i_allocStr (d : Bytes) : Keeps Idle (allocStr d) := keeps_bind trnIdle (i_allocBuf _) fun _ => i_alloc _

theorem i_allocBody (d : Body) : Keeps Idle (allocBody d) := by
  refine ⟨fun {s a s'} h => ?_⟩
  cases h
  exact Idle.of (CellsKept.refl _) (SlotsKept.refl _) (SlotsKept.push _ _) (ScopesKept.refl _) rfl rfl

theorem i_closeOver : Keeps Idle closeOver := by
  unfold closeOver
  refine keeps_bind trnIdle (keeps_curStack trnIdle) fun st => ⟨fun {s a s'} h => ?_⟩
  cases h
  exact Idle.ctx rfl rfl rfl rfl rfl rfl

theorem i_setRv (r : Rv) : Keeps Idle (setRv r) := by
  refine ⟨fun {s a s'} h => ?_⟩
  cases h
  exact Idle.ctx rfl rfl rfl rfl rfl rfl

theorem i_incref (c : Nat) : Keeps Idle (incref c) := by
  refine ⟨fun {s a s'} h => ?_⟩
  simp only [incref, bind_ok_iff, getCell_ok_iff, assert_ok_iff, setCell_apply, Out.ok.injEq] at h
  obtain ⟨x, s1, ⟨hx, rfl⟩, _, _, ⟨_, rfl⟩, _, rfl⟩ := h
  exact Idle.touch hx rfl fun _ => ⟨rfl, rfl⟩

theorem i_evalLambda (ps : List Bytes) (b : Body) : Keeps Idle (evalLambda ps b) :=
  keeps_bind trnIdle i_closeOver fun _ => keeps_bind trnIdle (i_allocBody _) fun _ => i_alloc _

theorem i_valCopy (c : Nat) : Keeps Idle (valCopy c) := by
  unfold valCopy
  refine keeps_bind trnIdle (keeps_getCell trnIdle _) fun x => keeps_bind trnIdle (keeps_readName trnIdle _) fun _ => keeps_bind trnIdle ?_ fun d => ⟨fun h => ?_⟩
  · unfold copyData
    split
    · exact keeps_bind trnIdle (keeps_bind trnIdle (keeps_readStr trnIdle _ _) fun _ => i_allocBuf _) fun _ => keeps_pure trnIdle _
    · exact keeps_pure trnIdle _
  · cases h
    exact Idle.of (CellsKept.push _ _) (SlotsKept.refl _) (SlotsKept.refl _) (ScopesKept.refl _) rfl rfl

theorem i_freeVal {dec : Nat → M Unit} (hd : ∀ c, Keeps Idle (dec c)) (c : Nat) : Keeps Idle (freeVal dec c) := by
  have hbuf : ∀ b, Keeps Idle (freeBuf b) := by
    intro b
    unfold freeBuf
    refine keeps_bind trnIdle (keeps_get trnIdle) fun _ => ?_
    split
    · refine ⟨fun h => ?_⟩
      cases h
      exact Idle.of (CellsKept.refl _) (SlotsKept.free _ _) (SlotsKept.refl _) (ScopesKept.refl _) rfl rfl
    · exact keeps_ub
  have hbody : ∀ b, Keeps Idle (freeBody b) := by
    intro b
    unfold freeBody
    split
    · exact keeps_pure trnIdle _
    · refine keeps_bind trnIdle (keeps_get trnIdle) fun _ => ?_
      split
      · refine ⟨fun h => ?_⟩
        cases h
        exact Idle.of (CellsKept.refl _) (SlotsKept.refl _) (SlotsKept.free _ _) (ScopesKept.refl _) rfl rfl
      · exact keeps_ub
  have hst : ∀ b, Keeps Idle (freeState b) := by
    intro b
    unfold freeState
    split
    · exact keeps_pure trnIdle _
    · rename_i i
      refine ⟨fun {s a s'} h => ?_⟩
      rw [bind_of_ok (get_apply s)] at h
      cases hst : s.host.states[i]? with
      | none => simp only [hst] at h; cases h
      | some st =>
        simp only [hst] at h
        by_cases hf : st.freed = true
        · rw [if_pos hf] at h; cases h
        · rw [if_neg hf] at h
          cases h
          refine ⟨⟨⟨CellsKept.refl _, SlotsKept.refl _, SlotsKept.refl _, fun k h hk => ?_, rfl, rfl, rfl, rfl⟩, ScopesKept.refl _, rfl, fun _ h => .inl h⟩, rfl⟩
          by_cases hki : k = i
          · subst hki
            cases hst.symm.trans hk
            exact ⟨_, List.getElem?_set_self (lt_of_get hst), rfl⟩
          · exact ⟨h, by show (s.host.states.set i _)[k]? = _; rw [List.getElem?_set_ne (Ne.symm hki)]; exact hk, rfl⟩
  have hvars : ∀ vs, Keeps Idle (decVars dec vs) := by
    intro vs
    induction vs with
    | nil => exact keeps_pure trnIdle _
    | cons v vs ih => exact keeps_bind trnIdle (keeps_optIter trnIdle hd _) fun _ => ih
  have hscope : ∀ i, Keeps Idle (do let x ← getScope i; setScope i { x with freed := true } : M Unit) := by
    intro i
    refine ⟨fun {s a s'} h => ?_⟩
    simp only [bind_ok_iff, getScope_ok_iff, setScope_apply, Out.ok.injEq] at h
    obtain ⟨x, s1, ⟨hx, _, rfl⟩, _, rfl⟩ := h
    exact Idle.of (CellsKept.refl _) (SlotsKept.refl _) (SlotsKept.refl _) (ScopesKept.set hx rfl fun _ h => h) rfl rfl
  unfold freeVal
  refine keeps_bind trnIdle (keeps_getCell trnIdle _) fun x => ?_
  split
  · exact hbuf _
  · exact hbody _
  · exact keeps_bind trnIdle (keeps_bind trnIdle (keeps_getScope trnIdle _) fun _ => keeps_bind trnIdle (hvars _) fun _ => hscope _) fun _ => hst _
  · exact keeps_pure trnIdle _

theorem i_dec (w : World) : ∀ (n c : Nat), Keeps Idle ((interp w n).dec c)
  | 0, _ => keeps_timeout
  | n + 1, c => by
    have hf := i_freeVal (i_dec w n) c
    show Keeps Idle (stepDec (interp w n).dec c)
    unfold stepDec
    refine ⟨fun {s a s'} h => ?_⟩
    simp only [bind_ok_iff, getCell_ok_iff, setCell_apply, Out.ok.injEq] at h
    obtain ⟨x, s1, ⟨hx, rfl⟩, _, _, ⟨_, rfl⟩, h⟩ := h
    refine Idle.trans (Idle.touch hx (y := { x with refs := if x.refs = 0 then 18446744073709551615 else x.refs - 1 }) rfl fun _ => ⟨rfl, rfl⟩) ?_
    exact (keeps_ite hf (keeps_pure trnIdle _)).out h

/-! ## Values -/

theorem Past.holds {s s' : St} (h : Past s s') {c : Nat} {d : Data} (hc : s.Holds c d) : s'.Holds c d := by
  obtain ⟨x, hx, rfl⟩ := hc
  obtain ⟨x', hx', hd, _⟩ := h.cells c x hx
  exact ⟨x', hx', hd⟩

mutual

/-- As `St.Shows`, but strings may have been released. -/
def St.Was (s : St) : Val → Nat → Prop
  | .none, c => s.Holds c .none
  | .bool b, c => s.Holds c (.bool b)
  | .int i, c => s.Holds c (.int i)
  | .str b, c => ∃ buf, s.Holds c (.str buf b.length) ∧ (s.bufs[buf]? = some none ∨ ∃ full, s.bufs[buf]? = some (some full) ∧ b <+: full)
  | .vec vs, c => ∃ es, s.Holds c (.vec es) ∧ s.WasAll vs es
  | .map items, c => ∃ es, s.Holds c (.map es) ∧ s.WasItems items es

def St.WasAll (s : St) : List Val → List Nat → Prop
  | [], [] => True
  | v :: vs, e :: es => s.Was v e ∧ s.WasAll vs es
  | _, _ => False

def St.WasItems (s : St) : List (Val × Val) → List (Nat × Nat) → Prop
  | [], [] => True
  | (k, v) :: items, e :: es => s.Was k e.1 ∧ s.Was v e.2 ∧ s.WasItems items es
  | _, _ => False

end

mutual

theorem Past.was {s s' : St} (h : Past s s') : ∀ {v : Val} {c : Nat}, s.Was v c → s'.Was v c
  | .none, _, hs => h.holds hs
  | .bool _, _, hs => h.holds hs
  | .int _, _, hs => h.holds hs
  | .str b, c, hs => by
    obtain ⟨buf, hb, hf⟩ := hs
    refine ⟨buf, h.holds hb, ?_⟩
    rcases hf with hf | ⟨full, hf, hp⟩
    · rcases h.bufs buf _ hf with h | h <;> exact .inl h
    · rcases h.bufs buf _ hf with h | h
      · exact .inr ⟨full, h, hp⟩
      · exact .inl h
  | .vec vs, c, hs => by
    obtain ⟨es, he, ha⟩ := hs
    exact ⟨es, h.holds he, Past.wasAll h ha⟩
  | .map items, c, hs => by
    obtain ⟨es, he, ha⟩ := hs
    exact ⟨es, h.holds he, Past.wasItems h ha⟩

theorem Past.wasAll {s s' : St} (h : Past s s') : ∀ {vs : List Val} {es : List Nat}, s.WasAll vs es → s'.WasAll vs es
  | [], [], _ => trivial
  | [], _ :: _, hs => hs
  | _ :: _, [], hs => hs
  | _ :: _, _ :: _, hs => ⟨Past.was h hs.1, Past.wasAll h hs.2⟩

theorem Past.wasItems {s s' : St} (h : Past s s') : ∀ {vs : List (Val × Val)} {es : List (Nat × Nat)}, s.WasItems vs es → s'.WasItems vs es
  | [], [], _ => trivial
  | [], _ :: _, hs => hs
  | _ :: _, [], hs => hs
  | (_, _) :: _, _ :: _, hs => ⟨Past.was h hs.1, Past.was h hs.2.1, Past.wasItems h hs.2.2⟩

end

mutual

theorem Shows.was {s : St} : ∀ {v : Val} {c : Nat}, s.Shows v c → s.Was v c
  | .none, _, hs => hs
  | .bool _, _, hs => hs
  | .int _, _, hs => hs
  | .str b, c, hs => by
    obtain ⟨buf, full, hb, hf, hp⟩ := hs
    exact ⟨buf, hb, .inr ⟨full, hf, hp⟩⟩
  | .vec vs, c, hs => by
    obtain ⟨es, he, ha⟩ := hs
    exact ⟨es, he, ShowsAll.was ha⟩
  | .map items, c, hs => by
    obtain ⟨es, he, ha⟩ := hs
    exact ⟨es, he, ShowsItems.was ha⟩

theorem ShowsAll.was {s : St} : ∀ {vs : List Val} {es : List Nat}, s.ShowsAll vs es → s.WasAll vs es
  | [], [], _ => trivial
  | [], _ :: _, hs => hs
  | _ :: _, [], hs => hs
  | _ :: _, _ :: _, hs => ⟨Shows.was hs.1, ShowsAll.was hs.2⟩

theorem ShowsItems.was {s : St} : ∀ {vs : List (Val × Val)} {es : List (Nat × Nat)}, s.ShowsItems vs es → s.WasItems vs es
  | [], [], _ => trivial
  | [], _ :: _, hs => hs
  | _ :: _, [], hs => hs
  | (_, _) :: _, _ :: _, hs => ⟨Shows.was hs.1, Shows.was hs.2.1, ShowsItems.was hs.2.2⟩

end

section
variable {L : Discipline} {C P T : List Nat} {s : St}

theorem Wf.live_parts (h : Wf L C P T s) {c : Nat} {d : Data} (hc : s.Holds c d) {e : Nat} (he : e ∈ d.parts) : Live s e := by
  obtain ⟨x, hx, rfl⟩ := hc
  exact h.live_elem ⟨c, x, hx, he⟩

mutual

/-- What was not released is still there. -/
theorem Wf.shows (h : Wf L C P T s) : ∀ {v : Val} {c : Nat}, s.Was v c → ((∃ b, v = .str b) → Live s c) → s.Shows v c
  | .none, _, hs, _ => hs
  | .bool _, _, hs, _ => hs
  | .int _, _, hs, _ => hs
  | .str b, c, hs, hl => by
    obtain ⟨buf, hb, hf⟩ := hs
    obtain ⟨x, hx, hr⟩ := hl ⟨b, rfl⟩
    obtain ⟨y, hy, hd⟩ := hb
    cases hx.symm.trans hy
    obtain ⟨t, ht, _⟩ := h.str hx hd hr
    rcases hf with hf | ⟨full, hf, hp⟩
    · rw [hf] at ht
      cases ht
    · exact ⟨buf, full, ⟨x, hx, hd⟩, hf, hp⟩
  | .vec vs, c, hs, _ => by
    obtain ⟨es, he, ha⟩ := hs
    exact ⟨es, he, Wf.showsAll h ha fun e hm => h.live_parts he hm⟩
  | .map items, c, hs, _ => by
    obtain ⟨es, he, ha⟩ := hs
    exact ⟨es, he, Wf.showsItems h ha fun e hm => ⟨h.live_parts he (mem_parts_map hm).1, h.live_parts he (mem_parts_map hm).2⟩⟩

theorem Wf.showsAll (h : Wf L C P T s) : ∀ {vs : List Val} {es : List Nat}, s.WasAll vs es → (∀ e ∈ es, Live s e) → s.ShowsAll vs es
  | [], [], _, _ => trivial
  | [], _ :: _, hs, _ => hs
  | _ :: _, [], hs, _ => hs
  | _ :: _, _ :: _, hs, hl => ⟨Wf.shows h hs.1 fun _ => hl _ List.mem_cons_self, Wf.showsAll h hs.2 fun e he => hl e (List.mem_cons_of_mem _ he)⟩

theorem Wf.showsItems (h : Wf L C P T s) : ∀ {vs : List (Val × Val)} {es : List (Nat × Nat)}, s.WasItems vs es → (∀ e ∈ es, Live s e.1 ∧ Live s e.2) → s.ShowsItems vs es
  | [], [], _, _ => trivial
  | [], _ :: _, hs, _ => hs
  | _ :: _, [], hs, _ => hs
  | (_, _) :: _, _ :: _, hs, hl => ⟨Wf.shows h hs.1 fun _ => (hl _ List.mem_cons_self).1, Wf.shows h hs.2.1 fun _ => (hl _ List.mem_cons_self).2,
      Wf.showsItems h hs.2.2 fun e he => hl e (List.mem_cons_of_mem _ he)⟩

end

/-- What values are like. -/
theorem Was.data {v : Val} {c : Nat} (h : s.Was v c) : ∃ x, s.cells[c]? = some x ∧ x.data.kind = v.kind ∧ x.data.Plain ∧ ¬ x.data.Named := by
  have hh : ∀ {d : Data}, s.Holds c d → d.kind = v.kind → d.Plain → ¬ d.Named → ∃ x, s.cells[c]? = some x ∧ x.data.kind = v.kind ∧ x.data.Plain ∧ ¬ x.data.Named := by
    rintro d ⟨x, hx, rfl⟩ h1 h2 h3
    exact ⟨x, hx, h1, h2, h3⟩
  cases v with
  | str b =>
    obtain ⟨buf, hb, _⟩ := h
    exact hh hb rfl trivial id
  | vec vs =>
    obtain ⟨es, hb, _⟩ := h
    exact hh hb rfl trivial id
  | map vs =>
    obtain ⟨es, hb, _⟩ := h
    exact hh hb rfl trivial id
  | _ => exact hh h rfl trivial id

end

end Bob.Fl
