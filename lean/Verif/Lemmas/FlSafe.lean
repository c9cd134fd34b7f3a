import Verif.Lemmas.FlWfScopes
import Verif.Lemmas.FlFrameRun
import Verif.Lemmas.FlInvariants
import Verif.Lemmas.FlCall
/-!
# Pieces of the interpreter that do not go wrong
-/

namespace Bob.Fl

/-- Started in `s`, `m` ends with a result and a state as `Q` says, returns an error, runs out of fuel, or crashes for a reason that is
accounted for. -/
def Safe (m : M α) (s : St) (Q : α → St → Prop) : Prop :=
  match m s with
  | .ok a s' => Q a s'
  | .abort s' => s'.cause ≠ .other
  | .ub s' => s'.cause ≠ .other
  | _ => True

section
variable {α β : Type} {s s1 : St} {Q : α → St → Prop}

theorem Safe.of_ok {m : M α} {a : α} (h : m s = .ok a s1) (hq : Q a s1) : Safe m s Q := by
  unfold Safe
  rw [h]
  exact hq

theorem Safe.pure {a : α} (hq : Q a s) : Safe (pure a) s Q := hq

theorem Safe.get_ok {m : M α} {a : α} (hm : Safe m s Q) (h : m s = .ok a s1) : Q a s1 := by
  unfold Safe at hm
  rw [h] at hm
  exact hm

theorem Safe.of_eq {m m' : M α} (h : m s = m' s1) (hm : Safe m' s1 Q) : Safe m s Q := by
  unfold Safe
  rw [h]
  exact hm

theorem Safe.of_timeout {m : M α} (h : m s = .timeout) : Safe m s Q := by
  unfold Safe
  rw [h]
  trivial

theorem Safe.bind {m : M α} {f : α → M β} {Q : β → St → Prop} (h : Safe m s fun a s' => Safe (f a) s' Q) : Safe (m >>= f) s Q := by
  unfold Safe at h ⊢
  rw [bind_apply]
  cases hm : m s <;> rw [hm] at h <;> exact h

theorem Safe.bind_ok {m : M α} {f : α → M β} {Q : β → St → Prop} {a : α} (h : m s = .ok a s1) (hf : Safe (f a) s1 Q) : Safe (m >>= f) s Q :=
  Safe.bind (Safe.of_ok h hf)

theorem Safe.mono {m : M α} {Q' : α → St → Prop} (h : Safe m s Q) (hq : ∀ a s', Q a s' → Q' a s') : Safe m s Q' := by
  unfold Safe at h ⊢
  cases hm : m s <;> rw [hm] at h
  · exact hq _ _ h
  all_goals exact h

theorem Safe.keeps {T : St → St → Prop} {m : M α} (hk : Keeps T m) (h : Safe m s Q) : Safe m s fun a s' => Q a s' ∧ T s s' := by
  unfold Safe at h ⊢
  cases hm : m s <;> rw [hm] at h
  · exact ⟨h, hk.out hm⟩
  all_goals exact h

theorem Safe.ite {p : Prop} [Decidable p] {m m' : M α} (h : Safe m s Q) (h' : Safe m' s Q) : Safe (if p then m else m') s Q := by
  split
  · exact h
  · exact h'

theorem Safe.raise {msg : Bytes} : Safe (raise msg : M α) s Q := by
  unfold Bob.Fl.raise
  exact Safe.ite trivial fun h => nomatch h

theorem Safe.fail : Safe (M.fail : M α) s Q := trivial

theorem Safe.unknownOp {t : Bytes} {d : Data} : Safe (unknownOp t d : M α) s Q := Safe.raise

theorem Safe.ub {c : Cause} (hc : c ≠ .other) : Safe (M.ub c : M α) s Q := hc

theorem Safe.abort {c : Cause} (hc : c ≠ .other) : Safe (M.abort c : M α) s Q := hc

theorem Safe.getCell {c : Nat} {x : Cell} {f : Cell → M α} (hx : s.cells[c]? = some x) (hf : Safe (f x) s Q) : Safe (getCell c >>= f) s Q :=
  Safe.bind_ok ((getCell_ok_iff ..).2 ⟨hx, rfl⟩) hf

theorem Safe.getScope {i : Nat} {x : Scope} {f : Scope → M α} (hx : s.scopes[i]? = some x) (h0 : x.freed = false) (hf : Safe (f x) s Q) : Safe (getScope i >>= f) s Q :=
  Safe.bind_ok ((getScope_ok_iff ..).2 ⟨hx, h0, rfl⟩) hf

theorem Safe.deref {o : Option β} {c : Cause} {f : β → M α} (hc : o = none → c ≠ .other) (hf : ∀ b, o = some b → Safe (f b) s Q) : Safe (M.deref o c >>= f) s Q := by
  cases o with
  | none => exact hc rfl
  | some b => exact Safe.bind_ok rfl (hf b rfl)

theorem Safe.get {f : St → M α} (hf : Safe (f s) s Q) : Safe (M.get >>= f) s Q := Safe.bind_ok rfl hf

theorem Safe.checkDest {d : Dest} {f : Unit → M α} (hr : s.eng.rv = .none) (hf : Safe (f ()) s Q) : Safe (checkDest d >>= f) s Q := by
  refine Safe.bind_ok (s1 := s) (a := ()) ?_ hf
  cases d
  · rfl
  · rfl
  · show (getRv >>= fun r => M.assert (r == .none)) s = _
    rw [bind_of_ok (getRv_apply s), hr]
    rfl

end

section
variable {L : Discipline} {C P T : List Nat} {s : St}

/-! ## Reading values -/

/-- A value that was not released. -/
def Live (s : St) (c : Nat) : Prop := ∃ x, s.cells[c]? = some x ∧ x.refs ≠ 0

theorem Wf.live_pin (h : Wf L C P T s) {c : Nat} (hc : Pinned L C P s c) : Live s c :=
  have hx := List.getElem?_eq_getElem (h.pinned_lt hc)
  ⟨_, hx, h.live hx (.inl hc)⟩

theorem Wf.live_P (h : Wf L C P T s) {c : Nat} (hc : c ∈ P) : Live s c := h.live_pin (.inr (.inl hc))

theorem Wf.live_T (h : Wf L C P T s) {c : Nat} (hc : c ∈ T) : Live s c :=
  have hx := List.getElem?_eq_getElem (h.inT c hc)
  ⟨_, hx, h.live hx (.inr (held_of_mem hc))⟩

theorem Wf.live_elem (h : Wf L C P T s) {c : Nat} (hc : Elem s.cells c) : Live s c := h.live_pin (.inl (.inr (.inl hc)))

theorem Wf.read (h : Wf L C P T s) {c : Nat} {x : Cell} {b n : Nat} (hx : s.cells[c]? = some x) (hd : x.data = .str b n) (hr : x.refs ≠ 0) :
    ∃ t : Bytes, readBuf b n s = .ok t s ∧ NUL ∉ t := by
  obtain ⟨t, ht, hn, h0⟩ := h.str hx hd hr
  exact ⟨_, readBuf_str ht hn, h0⟩

theorem mem_parts_map {es : List (Nat × Nat)} {e : Nat × Nat} (he : e ∈ es) : e.1 ∈ (Data.map es).parts ∧ e.2 ∈ (Data.map es).parts :=
  ⟨List.mem_flatMap.2 ⟨e, he, List.mem_cons_self⟩, List.mem_flatMap.2 ⟨e, he, List.mem_cons_of_mem _ List.mem_cons_self⟩⟩

/-- Nothing is changed. -/
abbrev Still (s : St) : α → St → Prop := fun _ s' => s' = s

theorem Safe.still_bind {m : M α} {f : α → M β} {Q : β → St → Prop} (h : Safe m s (Still s)) (hf : ∀ a, m s = .ok a s → Safe (f a) s Q) : Safe (m >>= f) s Q := by
  refine Safe.bind ?_
  unfold Safe at h ⊢
  cases hm : m s <;> rw [hm] at h
  · cases h
    exact hf _ hm
  all_goals exact h

theorem safe_eqVec {eq : Nat → Nat → M Bool} : ∀ {xs ys : List Nat}, (∀ x ∈ xs, ∀ y ∈ ys, Safe (eq x y) s (Still s)) → Safe (eqVec eq xs ys) s (Still s)
  | [], _, _ => rfl
  | _ :: _, [], _ => rfl
  | x :: xs, y :: ys, h => by
    unfold eqVec
    refine Safe.still_bind (h x List.mem_cons_self y List.mem_cons_self) fun b _ => ?_
    split
    · exact safe_eqVec fun x hx y hy => h x (List.mem_cons_of_mem _ hx) y (List.mem_cons_of_mem _ hy)
    · exact Safe.pure rfl

theorem safe_findKey {eq : Nat → Nat → M Bool} {k : Nat} : ∀ {es : List (Nat × Nat)}, (∀ e ∈ es, Safe (eq k e.1) s (Still s)) →
    Safe (findKey eq k es) s fun o s' => s' = s ∧ ∀ v, o = some v → ∃ e ∈ es, e.2 = v
  | [], _ => ⟨rfl, fun v h => (nomatch h)⟩
  | (k', v) :: es, h => by
    unfold findKey
    refine Safe.still_bind (h _ List.mem_cons_self) fun b _ => ?_
    split
    · exact ⟨rfl, fun v' hv => by cases hv; exact ⟨_, List.mem_cons_self, rfl⟩⟩
    · refine (safe_findKey fun e he => h e (List.mem_cons_of_mem _ he)).mono fun o s' ⟨h1, h2⟩ => ⟨h1, fun v hv => ?_⟩
      obtain ⟨e, he, hev⟩ := h2 v hv
      exact ⟨e, List.mem_cons_of_mem _ he, hev⟩

theorem safe_eqMap {eq : Nat → Nat → M Bool} {ys : List (Nat × Nat)} : ∀ {xs : List (Nat × Nat)},
    (∀ x ∈ xs, ∀ y ∈ ys, Safe (eq x.1 y.1) s (Still s) ∧ Safe (eq x.2 y.2) s (Still s)) → Safe (eqMap eq ys xs) s (Still s)
  | [], _ => rfl
  | (k, v) :: xs, h => by
    unfold eqMap
    refine Safe.bind ((safe_findKey fun e he => (h _ List.mem_cons_self e he).1).mono fun o s' ⟨h1, h2⟩ => ?_)
    rw [h1]
    split
    · exact Safe.pure rfl
    · obtain ⟨e, he, rfl⟩ := h2 _ rfl
      refine Safe.still_bind (h _ List.mem_cons_self e he).2 fun b _ => ?_
      split
      · exact safe_eqMap fun x hx y hy => h x (List.mem_cons_of_mem _ hx) y hy
      · exact Safe.pure rfl

/-- Comparing values that were not released. -/
theorem safe_eq (w : World) (h : Wf L C P T s) : ∀ (n : Nat) {x y : Nat}, Live s x → Live s y → Safe ((interp w n).eq x y) s (Still s)
  | 0, _, _, _, _ => trivial
  | n + 1, x, y, hx, hy => by
    have ih := fun {x y : Nat} => safe_eq w h n (x := x) (y := y)
    obtain ⟨cx, hcx, hrx⟩ := hx
    obtain ⟨cy, hcy, hry⟩ := hy
    show Safe (stepEq _ x y) s _
    unfold stepEq
    refine Safe.getCell hcx (Safe.getCell hcy ?_)
    split
    · exact Safe.pure rfl
    · exact Safe.pure rfl
    · exact Safe.pure rfl
    · rename_i hdx hdy
      split
      · obtain ⟨t, ht, _⟩ := h.read hcx hdx hrx
        obtain ⟨u, hu, _⟩ := h.read hcy hdy hry
        exact Safe.bind_ok ht (Safe.bind_ok hu (Safe.pure rfl))
      · exact Safe.pure rfl
    · rename_i xs ys hdx hdy
      split
      · exact safe_eqVec fun a ha b hb => ih (h.live_elem ⟨x, cx, hcx, by rw [hdx]; exact ha⟩) (h.live_elem ⟨y, cy, hcy, by rw [hdy]; exact hb⟩)
      · exact Safe.pure rfl
    · rename_i xs ys hdx hdy
      split
      · refine safe_eqMap fun a ha b hb => ⟨ih (h.live_elem ⟨x, cx, hcx, ?_⟩) (h.live_elem ⟨y, cy, hcy, ?_⟩), ih (h.live_elem ⟨x, cx, hcx, ?_⟩) (h.live_elem ⟨y, cy, hcy, ?_⟩)⟩
        · rw [hdx]; exact (mem_parts_map ha).1
        · rw [hdy]; exact (mem_parts_map hb).1
        · rw [hdx]; exact (mem_parts_map ha).2
        · rw [hdy]; exact (mem_parts_map hb).2
      · exact Safe.pure rfl
    all_goals exact Safe.pure rfl

theorem safe_anyKey {eq : Nat → Nat → M Bool} {k : Nat} : ∀ {es : List (Nat × Nat)}, (∀ e ∈ es, Safe (eq e.1 k) s (Still s)) → Safe (anyKey eq k es) s (Still s)
  | [], _ => rfl
  | (k', v) :: es, h => by
    unfold anyKey
    refine Safe.still_bind (h _ List.mem_cons_self) fun b _ => ?_
    split
    · exact Safe.pure rfl
    · exact safe_anyKey fun e he => h e (List.mem_cons_of_mem _ he)

theorem safe_lookupKey {eq : Nat → Nat → M Bool} {k : Nat} : ∀ {es : List (Nat × Nat)}, (∀ e ∈ es, Safe (eq e.1 k) s (Still s)) →
    Safe (lookupKey eq k es) s fun o s' => s' = s ∧ ∀ v, o = some v → ∃ e ∈ es, e.2 = v
  | [], _ => ⟨rfl, fun v h => (nomatch h)⟩
  | (k', v) :: es, h => by
    unfold lookupKey
    refine Safe.still_bind (h _ List.mem_cons_self) fun b _ => ?_
    split
    · exact ⟨rfl, fun v' hv => by cases hv; exact ⟨_, List.mem_cons_self, rfl⟩⟩
    · refine (safe_lookupKey fun e he => h e (List.mem_cons_of_mem _ he)).mono fun o s' ⟨h1, h2⟩ => ⟨h1, fun v hv => ?_⟩
      obtain ⟨e, he, hev⟩ := h2 v hv
      exact ⟨e, List.mem_cons_of_mem _ he, hev⟩

theorem safe_each_still {f : α → M β} : ∀ {as : List α}, (∀ a ∈ as, Safe (f a) s (Still s)) → Safe (each f as) s (Still s)
  | [], _ => rfl
  | a :: as, h => by
    unfold each
    exact Safe.still_bind (h a List.mem_cons_self) fun b _ => Safe.still_bind (safe_each_still fun a ha => h a (List.mem_cons_of_mem _ ha)) fun bs _ => Safe.pure rfl

theorem safe_stepRepr {rep : Nat → M Bytes} (h : Wf L C P T s) (ih : ∀ {c : Nat}, Live s c → Safe (rep c) s (Still s)) (inner : Bool) {c : Nat} (hc : Live s c) :
    Safe (stepRepr rep inner c) s (Still s) := by
  obtain ⟨x, hx, hr⟩ := hc
  unfold stepRepr
  refine Safe.getCell hx ?_
  split
  · exact Safe.pure rfl
  · exact Safe.pure rfl
  · exact Safe.pure rfl
  · rename_i hd
    obtain ⟨t, ht, hn, h0⟩ := h.str hx hd hr
    exact Safe.bind_ok (readStr_str ht hn h0) (Safe.pure rfl)
  · rename_i es hd
    exact Safe.still_bind (safe_each_still fun e he => ih (h.live_elem ⟨c, x, hx, by rw [hd]; exact he⟩)) fun _ _ => Safe.pure rfl
  · rename_i es hd
    refine Safe.still_bind (safe_each_still fun e he => ?_) fun _ _ => Safe.pure rfl
    refine Safe.still_bind (ih (h.live_elem ⟨c, x, hx, ?_⟩)) fun _ _ => Safe.still_bind (ih (h.live_elem ⟨c, x, hx, ?_⟩)) fun _ _ => Safe.pure rfl
    · rw [hd]; exact (mem_parts_map he).1
    · rw [hd]; exact (mem_parts_map he).2
  · split
    · exact Safe.pure rfl
    · exact Safe.bind_ok (readName_kept (h.nameKept x)) (Safe.pure rfl)
  · rename_i i hd
    have hok := (h.shape.data c x hx).2
    rw [hd] at hok
    exact Safe.getCell (List.getElem?_eq_getElem hok.1) (Safe.bind_ok (readName_kept (h.nameKept _)) (Safe.pure rfl))

/-- Printing a value that was not released. -/
theorem safe_repr (w : World) (h : Wf L C P T s) : ∀ (n : Nat) {c : Nat}, Live s c → Safe ((interp w n).repr c) s (Still s)
  | 0, _, _ => trivial
  | n + 1, _, hc => safe_stepRepr h (fun hc => safe_repr w h n hc) true hc

end

end Bob.Fl
