import Verif.Model.Flamingo.Destroy
import Verif.Lemmas.FlBasic
/-!
# Freeing scopes

What must hold of the memory for freeing scopes to end well, and why it does.
-/

namespace Bob.Fl

/-- The values a scope's variables hold. -/
def Scope.held (x : Scope) : List Nat := x.vars.filterMap (·.val)

def St.heldAt (s : St) (i : Nat) : List Nat :=
  match s.scopes[i]? with
  | some x => x.held
  | none => []

/-- How often a value will be given up if the values `T` and the scopes `al` are. -/
def St.claims (s : St) (al T : List Nat) (c : Nat) : Nat := T.count c + (al.map fun i => (s.heldAt i).count c).sum

/-- Reference count. -/
def St.refsOf (s : St) (c : Nat) : Nat :=
  match s.cells[c]? with
  | some x => x.refs
  | none => 0

def St.dataOf (s : St) (c : Nat) : Data :=
  match s.cells[c]? with
  | some x => x.data
  | none => .none

/-- The last reference to the value will be given up. -/
def St.Due (s : St) (al T : List Nat) (c : Nat) : Prop := s.refsOf c ≠ 0 ∧ s.refsOf c = s.claims al T c

instance (s : St) (al T : List Nat) (c : Nat) : Decidable (s.Due al T c) := inferInstanceAs (Decidable (_ ∧ _))

/-- What freeing a value frees: a buffer, a function's body, an instance's scope, the host's state. -/
inductive Piece where
  | buf (b : Nat) | body (b : Nat) | scope (i : Nat) | state (i : Nat)
deriving DecidableEq, Repr

def Data.owned : Data → List Piece
  | .str b _ => [.buf b]
  | .fn f => f.body.toList.map .body
  | .inst i => .scope i.scope :: i.data.toList.map .state
  | _ => []

/-- It has not been freed yet (and, for a scope, is one of `al`). -/
def St.Live (s : St) (al : List Nat) : Piece → Prop
  | .buf b => s.bufs[b]?.join.isSome = true
  | .body b => s.bodies[b]?.join.isSome = true
  | .scope i => i ∈ al
  | .state i => (s.host.states[i]?.any fun h => !h.freed) = true

instance (s : St) (al : List Nat) (p : Piece) : Decidable (s.Live al p) := by
  cases p <;> unfold St.Live <;> infer_instance

def St.open (s : St) (i : Nat) : Bool := s.scopes[i]?.any fun x => !x.freed

/-- `al` are scopes which may be given up, `O` scopes and `R` host states being freed, `T` values being given up; `K` are scopes which only
`flamingo_destroy` itself may free. -/
structure Tear (K : Nat → Prop) (al O R T : List Nat) (s : St) : Prop where
  nodup : al.Nodup
  nodupO : O.Nodup
  nodupR : R.Nodup
  disj : ∀ i ∈ al, i ∉ O
  isOpen : ∀ i ∈ al, s.open i = true
  openO : ∀ i ∈ O, s.open i = true
  liveR : ∀ i ∈ R, s.Live al (.state i)
  inT : ∀ c ∈ T, c < s.cells.length
  inAl : ∀ i ∈ al, ∀ c ∈ s.heldAt i, c < s.cells.length
  counts : ∀ c, c < s.cells.length → s.claims al T c ≤ s.refsOf c
  live : ∀ c, s.Due al T c → ∀ p ∈ (s.dataOf c).owned, s.Live al p
  keep : ∀ c, s.Due al T c → ∀ i, Piece.scope i ∈ (s.dataOf c).owned → ¬ K i
  reserved : ∀ c, s.Due al T c → ∀ i ∈ R, Piece.state i ∉ (s.dataOf c).owned
  apart : ∀ c c', s.Due al T c → s.Due al T c' → c ≠ c' → ∀ p ∈ (s.dataOf c).owned, p ∉ (s.dataOf c').owned

/-- It ends well, and no scope of `K` was freed. -/
def Fine (K : Nat → Prop) (al O R T : List Nat) (o : Out Unit) : Prop :=
  ∃ s' al', o = .ok () s' ∧ Tear K al' O R T s' ∧ al'.length ≤ al.length ∧ ∀ i ∈ al, K i → i ∈ al'

/-- What is shown of `val_decref`, if there are fewer than `n` scopes to be given up. -/
def DecFine (n : Nat) (dec : Nat → M Unit) : Prop :=
  ∀ K al O R T c s, al.length < n → Tear K al O R (c :: T) s → Fine K al O R T (dec c s)

variable {K : Nat → Prop} {al O R T : List Nat} {s : St} {n : Nat} {dec : Nat → M Unit}

theorem fine_bind {m : M Unit} {f : Unit → M Unit} {T' : List Nat} (h : Fine K al O R T' (m s))
    (h2 : ∀ s' al', Tear K al' O R T' s' → al'.length ≤ al.length → (∀ i ∈ al, K i → i ∈ al') → Fine K al' O R T (f () s')) :
    Fine K al O R T ((m >>= f) s) := by
  obtain ⟨s', al', h, ht, hs, hk⟩ := h
  rw [bind_of_ok h]
  obtain ⟨s2, al2, h, ht2, hs2, hk2⟩ := h2 s' al' ht hs hk
  exact ⟨s2, al2, h, ht2, Nat.le_trans hs2 hs, fun i hi hK => hk2 i (hk i hi hK) hK⟩

theorem Tear.fine (h : Tear K al O R T s) : Fine K al O R T (.ok () s) := ⟨s, al, rfl, h, Nat.le_refl _, fun _ h _ => h⟩

theorem fine_decVars (hd : DecFine n dec) : ∀ (vs : List Var) (al : List Nat) (s : St), al.length < n → Tear K al O R (vs.filterMap (·.val) ++ T) s →
    Fine K al O R T (decVars dec vs s)
  | [], _, _, _, h => h.fine
  | v :: vs, al, s, hl, h => by
    unfold decVars
    cases hv : v.val with
    | none =>
      rw [List.filterMap_cons, hv] at h
      exact fine_decVars hd vs al s hl h
    | some c =>
      rw [List.filterMap_cons, hv] at h
      exact fine_bind (hd K al O R _ c s hl h) fun s' al' h' hl' _ => fine_decVars hd vs al' s' (Nat.lt_of_le_of_lt hl' hl) h'

theorem claims_erase {i : Nat} (hi : i ∈ al) (c : Nat) : s.claims (al.erase i) (s.heldAt i ++ T) c = s.claims al T c := by
  unfold St.claims
  have h : (al.map fun i => (s.heldAt i).count c).sum = (s.heldAt i).count c + ((al.erase i).map fun i => (s.heldAt i).count c).sum := by
    have := ((List.perm_cons_erase hi).map fun i => (s.heldAt i).count c).sum_nat
    rw [this, List.map_cons, List.sum_cons]
  rw [h, List.count_append]
  omega

theorem due_erase {i : Nat} (hi : i ∈ al) (c : Nat) : s.Due (al.erase i) (s.heldAt i ++ T) c ↔ s.Due al T c := by
  unfold St.Due
  rw [claims_erase hi]

/-- Beginning to free a scope. -/
theorem Tear.begin (h : Tear K al O R T s) {i : Nat} (hi : i ∈ al) (hn : ∀ c, s.Due al T c → Piece.scope i ∉ (s.dataOf c).owned) :
    Tear K (al.erase i) (i :: O) R (s.heldAt i ++ T) s where
  nodup := h.nodup.erase i
  nodupO := List.nodup_cons.2 ⟨h.disj i hi, h.nodupO⟩
  nodupR := h.nodupR
  disj j hj := by
    rw [h.nodup.mem_erase_iff] at hj
    exact fun hm => (List.mem_cons.1 hm).elim hj.1 (h.disj j hj.2)
  isOpen j hj := h.isOpen j (List.mem_of_mem_erase hj)
  openO j hj := (List.mem_cons.1 hj).elim (fun e => e ▸ h.isOpen i hi) (h.openO j)
  liveR := h.liveR
  inT c hc := (List.mem_append.1 hc).elim (h.inAl i hi c) (h.inT c)
  inAl j hj := h.inAl j (List.mem_of_mem_erase hj)
  counts c hc := by rw [claims_erase hi]; exact h.counts c hc
  live c hc p hp := by
    rw [due_erase hi] at hc
    have hl := h.live c hc p hp
    cases p with
    | scope j =>
      refine h.nodup.mem_erase_iff.2 ⟨fun e => ?_, hl⟩
      subst e
      exact hn c hc hp
    | _ => exact hl
  keep c hc := h.keep c ((due_erase hi c).1 hc)
  reserved c hc := h.reserved c ((due_erase hi c).1 hc)
  apart c c' hc hc' := h.apart c c' ((due_erase hi c).1 hc) ((due_erase hi c').1 hc')

theorem set_freed_open {x : Scope} {i j : Nat} (hj : j ≠ i) :
    St.open { s with scopes := s.scopes.set i { x with freed := true } } j = s.open j := by
  simp only [St.open, List.getElem?_set, if_neg (Ne.symm hj)]

theorem set_freed_held {x : Scope} {i : Nat} (hx : s.scopes[i]? = some x) (j : Nat) :
    St.heldAt { s with scopes := s.scopes.set i { x with freed := true } } j = s.heldAt j := by
  simp only [St.heldAt, List.getElem?_set]
  by_cases hj : i = j
  · subst hj
    rw [if_pos rfl, if_pos (List.getElem?_eq_some_iff.1 hx).1, hx]
    rfl
  · rw [if_neg hj]

/-- The end of freeing a scope. -/
theorem Tear.finish {i : Nat} (h : Tear K al (i :: O) R T s) {x : Scope} (hx : s.scopes[i]? = some x) :
    Tear K al O R T { s with scopes := s.scopes.set i { x with freed := true } } := by
  have hal : ∀ j ∈ al, j ≠ i := fun j hj e => h.disj j hj (e ▸ List.mem_cons_self)
  have hO : ∀ j ∈ O, j ≠ i := fun j hj e => (List.nodup_cons.1 h.nodupO).1 (e ▸ hj)
  have hc : ∀ c, St.claims { s with scopes := s.scopes.set i { x with freed := true } } al T c = s.claims al T c := by
    intro c
    unfold St.claims
    rw [show (fun j => (St.heldAt { s with scopes := s.scopes.set i { x with freed := true } } j).count c) = fun j => (s.heldAt j).count c from
      funext fun j => by rw [set_freed_held hx]]
  have hdue : ∀ c, St.Due { s with scopes := s.scopes.set i { x with freed := true } } al T c ↔ s.Due al T c := by
    intro c
    unfold St.Due
    rw [hc]
    exact Iff.rfl
  have hlive : ∀ p, St.Live { s with scopes := s.scopes.set i { x with freed := true } } al p ↔ s.Live al p := by
    intro p; cases p <;> exact Iff.rfl
  exact {
    nodup := h.nodup
    nodupO := (List.nodup_cons.1 h.nodupO).2
    nodupR := h.nodupR
    disj := fun j hj hm => h.disj j hj (List.mem_cons_of_mem _ hm)
    isOpen := fun j hj => by rw [set_freed_open (hal j hj)]; exact h.isOpen j hj
    openO := fun j hj => by rw [set_freed_open (hO j hj)]; exact h.openO j (List.mem_cons_of_mem _ hj)
    liveR := h.liveR
    inT := h.inT
    inAl := fun j hj c hm => by rw [set_freed_held hx] at hm; exact h.inAl j hj c hm
    counts := fun c hl => by rw [hc]; exact h.counts c hl
    live := fun c hd p hp => (hlive p).2 (h.live c ((hdue c).1 hd) p hp)
    keep := fun c hd => h.keep c ((hdue c).1 hd)
    reserved := fun c hd => h.reserved c ((hdue c).1 hd)
    apart := fun c c' hd hd' => h.apart c c' ((hdue c).1 hd) ((hdue c').1 hd') }

theorem open_some {i : Nat} (h : s.open i = true) : ∃ x, s.scopes[i]? = some x ∧ x.freed = false := by
  unfold St.open at h
  cases hx : s.scopes[i]? with
  | none => rw [hx] at h; exact (nomatch h)
  | some x =>
    rw [hx] at h
    exact ⟨x, rfl, by simpa using h⟩

/-- Freeing a scope that no value due to be freed owns. -/
theorem fine_freeScope (hd : DecFine n dec) (hl : al.length ≤ n) (h : Tear K al O R T s) {i : Nat} (hi : i ∈ al)
    (hn : ∀ c, s.Due al T c → Piece.scope i ∉ (s.dataOf c).owned) :
    ∃ s' al', freeScope dec i s = .ok () s' ∧ Tear K al' O R T s' ∧ al'.length ≤ al.length ∧ ∀ j ∈ al, K j → j ≠ i → j ∈ al' := by
  obtain ⟨x, hx, hf⟩ := open_some (h.isOpen i hi)
  have hb := h.begin hi hn
  rw [show s.heldAt i = x.vars.filterMap (·.val) by unfold St.heldAt; rw [hx]; rfl] at hb
  unfold freeScope
  rw [bind_of_ok ((getScope_ok_iff i s s x).2 ⟨hx, hf, rfl⟩)]
  have hlen := List.length_erase_of_mem hi
  have hpos := List.length_pos_of_mem hi
  obtain ⟨s', al', he, ht, hs, hk⟩ := fine_decVars hd x.vars _ s (by omega) hb
  rw [bind_of_ok he]
  obtain ⟨y, hy, hfy⟩ := open_some (ht.openO i List.mem_cons_self)
  rw [bind_of_ok ((getScope_ok_iff i s' s' y).2 ⟨hy, hfy, rfl⟩)]
  refine ⟨_, al', rfl, ht.finish hy, by omega, fun j hj hK hne => hk j ?_ hK⟩
  exact h.nodup.mem_erase_iff.2 ⟨hne, hj⟩

/-- Giving up one reference. -/
theorem Tear.drop {c : Nat} (h : Tear K al O R (c :: T) s) {x : Cell} (hx : s.cells[c]? = some x) :
    x.refs ≠ 0 ∧ Tear K al O R T { s with cells := s.cells.set c { x with refs := x.refs - 1 } } := by
  have hlt : c < s.cells.length := (List.getElem?_eq_some_iff.1 hx).1
  have hr : s.refsOf c = x.refs := by unfold St.refsOf; rw [hx]
  have h1 : ∀ d, s.claims al (c :: T) d = s.claims al T d + if d = c then 1 else 0 := by
    intro d
    unfold St.claims
    rw [List.count_cons]
    by_cases hd : d = c
    · subst hd; simp; omega
    · simp [hd, Ne.symm hd]
  have hcnt := h.counts c hlt
  rw [h1, if_pos rfl, hr] at hcnt
  have hcl : ∀ d, St.claims { s with cells := s.cells.set c { x with refs := x.refs - 1 } } al T d = s.claims al T d := fun _ => rfl
  have hrefs : ∀ d, d ≠ c → St.refsOf { s with cells := s.cells.set c { x with refs := x.refs - 1 } } d = s.refsOf d := by
    intro d hd
    simp only [St.refsOf, List.getElem?_set, if_neg (Ne.symm hd)]
  have hrefc : St.refsOf { s with cells := s.cells.set c { x with refs := x.refs - 1 } } c = x.refs - 1 := by
    simp only [St.refsOf, List.getElem?_set, if_pos hlt]
    rfl
  have hdata : ∀ d, St.dataOf { s with cells := s.cells.set c { x with refs := x.refs - 1 } } d = s.dataOf d := by
    intro d
    simp only [St.dataOf, List.getElem?_set]
    by_cases hd : c = d
    · subst hd
      rw [if_pos rfl, if_pos hlt, hx]
    · rw [if_neg hd]
  have hdue : ∀ d, St.Due { s with cells := s.cells.set c { x with refs := x.refs - 1 } } al T d → s.Due al (c :: T) d := by
    intro d hd
    unfold St.Due at hd ⊢
    rw [hcl] at hd
    rw [h1]
    by_cases he : d = c
    · subst he
      rw [hrefc] at hd
      rw [hr, if_pos rfl]
      omega
    · rw [hrefs d he] at hd
      rw [if_neg he]
      exact hd
  refine ⟨by omega, ?_⟩
  exact {
    nodup := h.nodup
    nodupO := h.nodupO
    nodupR := h.nodupR
    disj := h.disj
    isOpen := h.isOpen
    openO := h.openO
    liveR := h.liveR
    inT := fun d hd => by rw [List.length_set]; exact h.inT d (List.mem_cons_of_mem _ hd)
    inAl := fun i hi d hd => by rw [List.length_set]; exact h.inAl i hi d hd
    counts := fun d hd => by
      rw [List.length_set] at hd
      rw [hcl]
      by_cases he : d = c
      · subst he
        rw [hrefc]
        omega
      · rw [hrefs d he]
        have := h.counts d hd
        rw [h1, if_neg he] at this
        exact this
    live := fun d hd p hp => by
      rw [hdata] at hp
      have := h.live d (hdue d hd) p hp
      cases p <;> exact this
    keep := fun d hd i hp => by
      rw [hdata] at hp
      exact h.keep d (hdue d hd) i hp
    reserved := fun d hd i hi hp => by
      rw [hdata] at hp
      exact h.reserved d (hdue d hd) i hi hp
    apart := fun d d' hd hd' hne p hp hp' => by
      rw [hdata] at hp hp'
      exact h.apart d d' (hdue d hd) (hdue d' hd') hne p hp hp' }

/-- Freeing something that belongs to no value due to be freed. -/
theorem Tear.release (h : Tear K al O R T s) {s' : St} (hc : s'.cells = s.cells) (hs : s'.scopes = s.scopes) {q : Piece}
    (hl : ∀ p, p ≠ q → s.Live al p → s'.Live al p) (hq : ∀ c, s.Due al T c → q ∉ (s.dataOf c).owned)
    (hr : ∀ i ∈ R, Piece.state i ≠ q) : Tear K al O R T s' := by
  have ho : ∀ i, s'.open i = s.open i := fun i => by unfold St.open; rw [hs]
  have hh : ∀ i, s'.heldAt i = s.heldAt i := fun i => by unfold St.heldAt; rw [hs]
  have hcl : ∀ c, s'.claims al T c = s.claims al T c := fun c => by
    unfold St.claims
    rw [show s'.heldAt = s.heldAt from funext hh]
  have hrf : ∀ c, s'.refsOf c = s.refsOf c := fun c => by unfold St.refsOf; rw [hc]
  have hdt : ∀ c, s'.dataOf c = s.dataOf c := fun c => by unfold St.dataOf; rw [hc]
  have hdue : ∀ c, s'.Due al T c → s.Due al T c := fun c hd => by
    unfold St.Due at hd ⊢
    rw [hcl, hrf] at hd
    exact hd
  exact {
    nodup := h.nodup
    nodupO := h.nodupO
    nodupR := h.nodupR
    disj := h.disj
    isOpen := fun i hi => by rw [ho]; exact h.isOpen i hi
    openO := fun i hi => by rw [ho]; exact h.openO i hi
    liveR := fun i hi => hl _ (hr i hi) (h.liveR i hi)
    inT := fun c hm => by rw [hc]; exact h.inT c hm
    inAl := fun i hi c hm => by rw [hh] at hm; rw [hc]; exact h.inAl i hi c hm
    counts := fun c hm => by rw [hcl, hrf]; rw [hc] at hm; exact h.counts c hm
    live := fun c hd p hp => by
      rw [hdt] at hp
      refine hl p (fun e => ?_) (h.live c (hdue c hd) p hp)
      subst e
      exact hq c (hdue c hd) hp
    keep := fun c hd i hp => by
      rw [hdt] at hp
      exact h.keep c (hdue c hd) i hp
    reserved := fun c hd i hi hp => by
      rw [hdt] at hp
      exact h.reserved c (hdue c hd) i hi hp
    apart := fun c c' hd hd' hne p hp hp' => by
      rw [hdt] at hp hp'
      exact h.apart c c' (hdue c hd) (hdue c' hd') hne p hp hp' }

theorem Tear.reserve (h : Tear K al O R T s) {j : Nat} (hl : s.Live al (.state j)) (hj : j ∉ R)
    (hn : ∀ c, s.Due al T c → Piece.state j ∉ (s.dataOf c).owned) : Tear K al O (j :: R) T s :=
  { h with
    nodupR := List.nodup_cons.2 ⟨hj, h.nodupR⟩
    liveR := fun i hi => (List.mem_cons.1 hi).elim (fun e => e ▸ hl) (h.liveR i)
    reserved := fun c hc i hi => (List.mem_cons.1 hi).elim (fun e => e ▸ hn c hc) (h.reserved c hc i) }

theorem Tear.unreserve {j : Nat} (h : Tear K al O (j :: R) T s) : Tear K al O R T s :=
  { h with
    nodupR := (List.nodup_cons.1 h.nodupR).2
    liveR := fun i hi => h.liveR i (List.mem_cons_of_mem _ hi)
    reserved := fun c hc i hi => h.reserved c hc i (List.mem_cons_of_mem _ hi) }

theorem live_buf {b : Nat} (h : s.Live al (.buf b)) : ∃ t, s.bufs[b]? = some (some t) := by
  simp only [St.Live] at h
  rcases hb : s.bufs[b]? with _ | _ | t
  · rw [hb] at h; exact (nomatch h)
  · rw [hb] at h; exact (nomatch h)
  · exact ⟨t, rfl⟩

theorem live_body {b : Nat} (h : s.Live al (.body b)) : ∃ t, s.bodies[b]? = some (some t) := by
  simp only [St.Live] at h
  rcases hb : s.bodies[b]? with _ | _ | t
  · rw [hb] at h; exact (nomatch h)
  · rw [hb] at h; exact (nomatch h)
  · exact ⟨t, rfl⟩

theorem live_state {i : Nat} (h : s.Live al (.state i)) : ∃ t, s.host.states[i]? = some t ∧ t.freed = false := by
  simp only [St.Live] at h
  cases hb : s.host.states[i]? with
  | none => rw [hb] at h; exact (nomatch h)
  | some t =>
    rw [hb] at h
    exact ⟨t, rfl, by simpa using h⟩

theorem fine_freeBuf (h : Tear K al O R T s) {b : Nat} (hl : s.Live al (.buf b)) (hq : ∀ c, s.Due al T c → Piece.buf b ∉ (s.dataOf c).owned) :
    Fine K al O R T (freeBuf b s) := by
  obtain ⟨t, ht⟩ := live_buf hl
  have : freeBuf b s = .ok () { s with bufs := s.bufs.set b none } := by
    unfold freeBuf
    rw [bind_of_ok (get_apply s)]
    simp only [ht]
    rfl
  rw [this]
  refine (h.release (s' := { s with bufs := s.bufs.set b none }) rfl rfl (q := .buf b) (fun p hp hL => ?_) hq fun i _ => nofun).fine
  cases p with
  | buf b' =>
    have : b ≠ b' := fun e => hp (e ▸ rfl)
    simp only [St.Live, List.getElem?_set, if_neg this] at hL ⊢
    exact hL
  | _ => exact hL

theorem fine_freeBody (h : Tear K al O R T s) {o : Option Nat} (hl : ∀ b, o = some b → s.Live al (.body b))
    (hq : ∀ b, o = some b → ∀ c, s.Due al T c → Piece.body b ∉ (s.dataOf c).owned) : Fine K al O R T (freeBody o s) := by
  cases o with
  | none => exact h.fine
  | some b =>
    obtain ⟨t, ht⟩ := live_body (hl b rfl)
    have : freeBody (some b) s = .ok () { s with bodies := s.bodies.set b none } := by
      unfold freeBody
      simp only
      rw [bind_of_ok (get_apply s)]
      simp only [ht]
      rfl
    rw [this]
    refine (h.release (s' := { s with bodies := s.bodies.set b none }) rfl rfl (q := .body b) (fun p hp hL => ?_) (hq b rfl) fun i _ => nofun).fine
    cases p with
    | body b' =>
      have : b ≠ b' := fun e => hp (e ▸ rfl)
      simp only [St.Live, List.getElem?_set, if_neg this] at hL ⊢
      exact hL
    | _ => exact hL

theorem fine_freeState {j : Nat} (h : Tear K al O (j :: R) T s) : Fine K al O R T (freeState (some j) s) := by
  obtain ⟨t, ht, hf⟩ := live_state (h.liveR j List.mem_cons_self)
  have : freeState (some j) s = .ok () { s with host := { s.host with states := s.host.states.set j { t with freed := true } } } := by
    unfold freeState
    simp only
    rw [bind_of_ok (get_apply s)]
    simp only [ht, hf]
    rfl
  rw [this]
  have hj := (List.nodup_cons.1 h.nodupR).1
  refine (h.unreserve.release (s' := { s with host := { s.host with states := s.host.states.set j { t with freed := true } } }) rfl rfl
    (q := .state j) (fun p hp hL => ?_) (fun c hc => h.reserved c hc j List.mem_cons_self) fun i hi e => ?_).fine
  · cases p with
    | state j' =>
      have : j ≠ j' := fun e => hp (e ▸ rfl)
      simp only [St.Live, List.getElem?_set, if_neg this] at hL ⊢
      exact hL
    | _ => exact hL
  · cases e
    exact hj hi

theorem fine_stepDec (hd : DecFine n dec) : DecFine (n + 1) (stepDec dec) := by
  intro K al O R T c s hln h
  have hlt := h.inT c List.mem_cons_self
  obtain ⟨x, hx⟩ : ∃ x, s.cells[c]? = some x := ⟨_, List.getElem?_eq_getElem hlt⟩
  obtain ⟨hr, ht⟩ := h.drop hx
  unfold stepDec
  rw [bind_of_ok ((getCell_ok_iff c s s x).2 ⟨hx, rfl⟩), bind_of_ok (setCell_apply ..)]
  simp only [if_neg hr]
  generalize hs1 : ({ s with cells := s.cells.set c { x with refs := x.refs - 1 } } : St) = s1 at ht
  by_cases h0 : x.refs - 1 = 0
  · rw [if_pos h0]
    have hdata : s.dataOf c = x.data := by unfold St.dataOf; rw [hx]
    have hdata1 : ∀ d, s1.dataOf d = s.dataOf d := by
      intro d
      subst hs1
      simp only [St.dataOf, List.getElem?_set]
      by_cases he : c = d
      · subst he
        rw [if_pos rfl, if_pos hlt, hx]
      · rw [if_neg he]
    have hdue : s.Due al (c :: T) c := by
      have h1 := h.counts c hlt
      have h2 : 1 ≤ s.claims al (c :: T) c := by
        unfold St.claims
        rw [List.count_cons_self]
        omega
      have h3 : s.refsOf c = x.refs := by unfold St.refsOf; rw [hx]
      unfold St.Due
      omega
    have hx1 : s1.cells[c]? = some { x with refs := x.refs - 1 } := by
      subst hs1
      simp only [List.getElem?_set, if_pos hlt]
      rfl
    have hoth : ∀ d, s1.Due al T d → ∀ p ∈ x.data.owned, p ∉ (s1.dataOf d).owned := by
      intro d hdd p hp
      have hne : d ≠ c := by
        intro e
        subst e
        refine hdd.1 ?_
        unfold St.refsOf
        rw [hx1]
        exact h0
      have hds : s.Due al (c :: T) d := by
        unfold St.Due at hdd ⊢
        have e1 : s1.refsOf d = s.refsOf d := by
          subst hs1
          simp only [St.refsOf, List.getElem?_set, if_neg (Ne.symm hne)]
        have e2 : s1.claims al T d = s.claims al (c :: T) d := by
          subst hs1
          unfold St.claims
          rw [List.count_cons_of_ne (Ne.symm hne)]
          rfl
        rw [e1, e2] at hdd
        exact hdd
      rw [hdata1]
      exact h.apart c d hdue hds (Ne.symm hne) p (by rw [hdata]; exact hp)
    have hlive : ∀ p ∈ x.data.owned, s1.Live al p := by
      intro p hp
      have := h.live c hdue p (by rw [hdata]; exact hp)
      subst hs1
      cases p <;> exact this
    unfold freeVal
    rw [bind_of_ok ((getCell_ok_iff c s1 s1 _).2 ⟨hx1, rfl⟩)]
    simp only
    cases hdx : x.data with
    | str b n =>
      rw [hdx] at hoth hlive
      exact fine_freeBuf ht (hlive _ List.mem_cons_self) fun d hdd => hoth d hdd _ List.mem_cons_self
    | fn f =>
      rw [hdx] at hoth hlive
      refine fine_freeBody ht (fun b hb => hlive _ ?_) fun b hb d hdd => hoth d hdd _ ?_
      · simp only [Data.owned, hb, Option.toList_some, List.map_cons, List.map_nil, List.mem_singleton]
      · simp only [Data.owned, hb, Option.toList_some, List.map_cons, List.map_nil, List.mem_singleton]
    | inst i =>
      rw [hdx] at hoth hlive
      simp only
      cases hid : i.data with
      | none =>
        obtain ⟨s', al', he, ht', hs', hk'⟩ := fine_freeScope hd (Nat.le_of_lt_succ hln) ht (hlive (.scope i.scope) List.mem_cons_self)
          fun d hdd => hoth d hdd _ List.mem_cons_self
        rw [bind_of_ok he]
        refine ⟨s', al', rfl, ht', hs', fun j hj hK => hk' j hj hK fun e => ?_⟩
        subst e
        refine h.keep c hdue _ ?_ hK
        rw [hdata, hdx]
        exact List.mem_cons_self
      | some j =>
        have hm : Piece.state j ∈ (Data.inst i).owned := by
          simp [Data.owned, hid]
        have hjR : j ∉ R := fun hj => h.reserved c hdue j hj (by rw [hdata, hdx]; exact hm)
        have hres := ht.reserve (hlive _ hm) hjR fun d hdd => hoth d hdd _ hm
        obtain ⟨s', al', he, ht', hs', hk'⟩ := fine_freeScope hd (Nat.le_of_lt_succ hln) hres (hlive (.scope i.scope) List.mem_cons_self)
          fun d hdd => hoth d hdd _ List.mem_cons_self
        rw [bind_of_ok he]
        obtain ⟨s2, al2, he2, ht2, hs2, hk2⟩ := fine_freeState ht'
        refine ⟨s2, al2, he2, ht2, Nat.le_trans hs2 hs', fun k hk hK => hk2 k (hk' k hk hK fun e => ?_) hK⟩
        subst e
        refine h.keep c hdue _ ?_ hK
        rw [hdata, hdx]
        exact List.mem_cons_self
    | _ => exact ht.fine
  · rw [if_neg h0]
    exact ht.fine

theorem fine_dec (w : World) : ∀ n, DecFine n (interp w n).dec
  | 0 => fun _ _ _ _ _ _ _ h => (nomatch h)
  | n + 1 => fine_stepDec (fine_dec w n)

/-- Freeing the scopes of a stack. -/
theorem fine_forEach (hd : DecFine n dec) : ∀ (st al : List Nat) (s : St), al.length ≤ n → st.Nodup → (∀ i ∈ st, i ∈ al ∧ K i) → Tear K al O R T s →
    ∃ s', forEach (freeScope dec) st s = .ok () s'
  | [], _, s, _, _, _, _ => ⟨s, rfl⟩
  | i :: st, al, s, hl, hn, hK, h => by
    obtain ⟨hi, hn⟩ := List.nodup_cons.1 hn
    unfold forEach
    obtain ⟨s', al', he, ht, hl', hk⟩ := fine_freeScope hd hl h (hK i List.mem_cons_self).1 fun c hc hp => h.keep c hc i hp (hK i List.mem_cons_self).2
    rw [bind_of_ok he]
    refine fine_forEach hd st al' s' (Nat.le_trans hl' hl) hn (fun j hj => ?_) ht
    have := hK j (List.mem_cons_of_mem _ hj)
    exact ⟨hk j this.1 this.2 fun e => hi (e ▸ hj), this.2⟩

end Bob.Fl
