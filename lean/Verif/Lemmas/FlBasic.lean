import Verif.Model.Flamingo.Interp
/-!
# Reasoning about pieces of the interpreter
-/

namespace Bob.Fl

@[simp] theorem pure_apply (a : α) (s : St) : (pure a : M α) s = .ok a s := rfl

theorem bind_apply (m : M α) (f : α → M β) (s : St) :
    (m >>= f) s = match m s with
      | .ok a s' => f a s'
      | .err msg s' => .err msg s'
      | .abort s' => .abort s'
      | .ub s' => .ub s'
      | .timeout => .timeout := rfl

theorem bind_ok_iff (m : M α) (f : α → M β) (s s' : St) (b : β) :
    (m >>= f) s = .ok b s' ↔ ∃ a s1, m s = .ok a s1 ∧ f a s1 = .ok b s' := by
  rw [bind_apply]
  cases h : m s with
  | ok a s1 => exact ⟨fun h' => ⟨a, s1, rfl, h'⟩, fun ⟨_, _, h1, h2⟩ => by cases h1; exact h2⟩
  | _ => simp

theorem bind_of_ok {m : M α} {f : α → M β} {s s1 : St} {a : α} (h : m s = .ok a s1) : (m >>= f) s = f a s1 := by
  rw [bind_apply, h]

@[simp] theorem get_apply (s : St) : M.get s = .ok s s := rfl
@[simp] theorem modify_apply (f : St → St) (s : St) : M.modify f s = .ok () (f s) := rfl
@[simp] theorem abort_apply (c : Cause) (s : St) : (M.abort c : M α) s = .abort { s with cause := c } := rfl
@[simp] theorem ub_apply (c : Cause) (s : St) : (M.ub c : M α) s = .ub { s with cause := c } := rfl
@[simp] theorem timeout_apply (s : St) : (M.timeout : M α) s = .timeout := rfl
@[simp] theorem fail_apply (s : St) : (M.fail : M α) s = .err none s := rfl

theorem assert_ok_iff (b : Bool) (s s' : St) (u : Unit) : M.assert b s = .ok u s' ↔ b = true ∧ s' = s := by
  cases b
  · exact ⟨fun h => (nomatch h), fun h => (nomatch h.1)⟩
  · exact ⟨fun h => by cases h; exact ⟨rfl, rfl⟩, fun h => by rw [h.2]; rfl⟩

theorem deref_ok_iff (o : Option α) (s s' : St) (a : α) {c : Cause} : M.deref o c s = .ok a s' ↔ o = some a ∧ s' = s := by
  cases o
  · exact ⟨fun h => (nomatch h), fun h => (nomatch h.1)⟩
  · exact ⟨fun h => by cases h; exact ⟨rfl, rfl⟩, fun h => by cases h.1; rw [h.2]; rfl⟩

@[simp] theorem raise_not_ok (msg : Bytes) (s s' : St) (a : α) : (raise msg : M α) s = .ok a s' ↔ False := by
  have : ∀ (c : Prop) [Decidable c], (if c then (fun s => .err (some msg) s : M α) else M.abort .message) s = .ok a s' ↔ False := by
    intro c _
    by_cases h : c <;> simp [h]
  exact this _

theorem getCell_ok_iff (c : Nat) (s s' : St) (x : Cell) : getCell c s = .ok x s' ↔ s.cells[c]? = some x ∧ s' = s := by
  unfold getCell
  cases h : s.cells[c]? with
  | none => simp
  | some y => exact ⟨fun h => by cases h; exact ⟨rfl, rfl⟩, fun h => by cases h.1; rw [h.2]⟩

theorem getScope_ok_iff (i : Nat) (s s' : St) (x : Scope) :
    getScope i s = .ok x s' ↔ s.scopes[i]? = some x ∧ x.freed = false ∧ s' = s := by
  unfold getScope
  split
  · rename_i y h
    rw [h]
    split
    · rename_i hf
      constructor
      · simp
      · rintro ⟨h1, h2, _⟩
        cases h1
        simp_all
    · rename_i hf
      constructor
      · intro h1
        cases h1
        simp_all
      · rintro ⟨h1, _, h3⟩
        cases h1
        rw [h3]
  · simp_all

@[simp] theorem setCell_apply (c : Nat) (x : Cell) (s : St) : setCell c x s = .ok () { s with cells := s.cells.set c x } := rfl
@[simp] theorem setScope_apply (i : Nat) (x : Scope) (s : St) : setScope i x s = .ok () { s with scopes := s.scopes.set i x } := rfl
@[simp] theorem setRv_apply (r : Rv) (s : St) : setRv r s = .ok () { s with eng := { s.eng with rv := r } } := rfl
@[simp] theorem getRv_apply (s : St) : getRv s = .ok s.eng.rv s := rfl
@[simp] theorem alloc_apply (d : Data) (s : St) : alloc d s = .ok s.cells.length { s with cells := s.cells ++ [{ data := d }] } := rfl
@[simp] theorem allocBuf_apply (b : Bytes) (s : St) : allocBuf b s = .ok s.bufs.length { s with bufs := s.bufs ++ [some b] } := rfl
@[simp] theorem allocBody_apply (b : Body) (s : St) :
    allocBody b s = .ok s.bodies.length { s with bodies := s.bodies ++ [some b] } := rfl
@[simp] theorem allocScope_apply (x : Scope) (s : St) :
    allocScope x s = .ok s.scopes.length { s with scopes := s.scopes ++ [x] } := rfl
@[simp] theorem setStack_apply (st : List Nat) (s : St) :
    setStack st s = .ok () { s with envs := s.envs.set s.eng.env st } := rfl

theorem curStack_ok_iff (s s' : St) (st : List Nat) : curStack s = .ok st s' ↔ s.envs[s.eng.env]? = some st ∧ s' = s := by
  show (M.get >>= fun s => M.deref s.envs[s.eng.env]?) s = _ ↔ _
  rw [bind_of_ok (get_apply s), deref_ok_iff]

theorem curScope_ok_iff (s s' : St) (i : Nat) :
    curScope s = .ok i s' ↔ (∃ st, s.envs[s.eng.env]? = some (i :: st)) ∧ s' = s := by
  unfold curScope
  rw [bind_ok_iff]
  constructor
  · rintro ⟨st, s1, h1, h2⟩
    obtain ⟨h1, rfl⟩ := (curStack_ok_iff ..).1 h1
    match st, h1, h2 with
    | [], _, h2 => simp at h2
    | j :: st, h1, h2 =>
      simp only [pure_apply, Out.ok.injEq] at h2
      obtain ⟨rfl, rfl⟩ := h2
      exact ⟨⟨st, h1⟩, rfl⟩
  · rintro ⟨⟨st, h⟩, rfl⟩
    exact ⟨i :: st, s', (curStack_ok_iff ..).2 ⟨h, rfl⟩, rfl⟩

theorem attach_ok_iff (i : Nat) (s s' : St) (u : Unit) :
    attach i s = .ok u s' ↔ ∃ st, s.envs[s.eng.env]? = some st ∧ s' = { s with envs := s.envs.set s.eng.env (i :: st) } := by
  unfold attach
  rw [bind_ok_iff]
  constructor
  · rintro ⟨st, s1, h1, h2⟩
    obtain ⟨h1, rfl⟩ := (curStack_ok_iff ..).1 h1
    simp only [setStack_apply, Out.ok.injEq] at h2
    exact ⟨st, h1, h2.2.symm⟩
  · rintro ⟨st, h, rfl⟩
    exact ⟨st, s, (curStack_ok_iff ..).2 ⟨h, rfl⟩, rfl⟩

theorem detach_ok_iff (s s' : St) (i : Nat) :
    detach s = .ok i s' ↔ ∃ st, s.envs[s.eng.env]? = some (i :: st) ∧ s' = { s with envs := s.envs.set s.eng.env st } := by
  unfold detach
  rw [bind_ok_iff]
  constructor
  · rintro ⟨st, s1, h1, h2⟩
    obtain ⟨h1, rfl⟩ := (curStack_ok_iff ..).1 h1
    match st, h1, h2 with
    | [], _, h2 => simp at h2
    | j :: st, h1, h2 =>
      simp only [bind_ok_iff, setStack_apply, pure_apply, Out.ok.injEq] at h2
      obtain ⟨_, _, ⟨_, rfl⟩, rfl, rfl⟩ := h2
      exact ⟨st, h1, rfl⟩
  · rintro ⟨st, h, rfl⟩
    exact ⟨i :: st, s, (curStack_ok_iff ..).2 ⟨h, rfl⟩, rfl⟩

/-! ## Things that hold between the state before and the state after -/

/-- Whenever `m` finishes normally, its states before and after are related by `T`. -/
structure Keeps (T : St → St → Prop) (m : M α) : Prop where
  out : ∀ {s : St} {a : α} {s' : St}, m s = .ok a s' → T s s'

structure Trn (T : St → St → Prop) : Prop where
  refl : ∀ s, T s s
  trans : ∀ {s1 s2 s3}, T s1 s2 → T s2 s3 → T s1 s3

section
variable {T : St → St → Prop} (tT : Trn T)
include tT

theorem keeps_pure (a : α) : Keeps T (pure a : M α) := by
  refine ⟨fun {s b s'} h => ?_⟩
  cases h
  exact tT.refl s

theorem keeps_bind {m : M α} {f : α → M β} (hm : Keeps T m) (hf : ∀ a, Keeps T (f a)) : Keeps T (m >>= f) := by
  refine ⟨fun {s b s'} h => ?_⟩
  obtain ⟨a, s1, h1, h2⟩ := (bind_ok_iff ..).1 h
  exact tT.trans (hm.out h1) ((hf _).out h2)

theorem keeps_get : Keeps T M.get := by
  refine ⟨fun {s b s'} h => ?_⟩
  cases h
  exact tT.refl s

theorem keeps_assert (b : Bool) : Keeps T (M.assert b) := by
  refine ⟨fun {s a s'} h => ?_⟩
  rw [assert_ok_iff] at h
  rw [h.2]
  exact tT.refl s

theorem keeps_deref (o : Option α) {c : Cause} : Keeps T (M.deref o c) := by
  refine ⟨fun {s a s'} h => ?_⟩
  rw [deref_ok_iff] at h
  rw [h.2]
  exact tT.refl s

theorem keeps_getCell (c : Nat) : Keeps T (getCell c) := by
  refine ⟨fun {s a s'} h => ?_⟩
  rw [getCell_ok_iff] at h
  rw [h.2]
  exact tT.refl s

theorem keeps_getScope (c : Nat) : Keeps T (getScope c) := by
  refine ⟨fun {s a s'} h => ?_⟩
  rw [getScope_ok_iff] at h
  rw [h.2.2]
  exact tT.refl s

theorem keeps_getRv : Keeps T getRv := by
  refine ⟨fun {s a s'} h => ?_⟩
  cases h
  exact tT.refl s

theorem keeps_curStack : Keeps T curStack := by
  refine ⟨fun {s a s'} h => ?_⟩
  rw [curStack_ok_iff] at h
  rw [h.2]
  exact tT.refl s

theorem keeps_curScope : Keeps T curScope := by
  refine ⟨fun {s a s'} h => ?_⟩
  rw [curScope_ok_iff] at h
  rw [h.2]
  exact tT.refl s

omit tT in
theorem keeps_abort {c : Cause} : Keeps T (M.abort c : M α) := by
  refine ⟨fun {s a s'} h => ?_⟩
  simp at h

omit tT in
theorem keeps_ub {c : Cause} : Keeps T (M.ub c : M α) := by
  refine ⟨fun {s a s'} h => ?_⟩
  simp at h

omit tT in
theorem keeps_blame {c : Cause} {m : M α} (h : Keeps T m) : Keeps T (M.blame c m) := by
  refine ⟨fun {s a s'} hm => ?_⟩
  unfold M.blame at hm
  cases h' : m s <;> rw [h'] at hm <;> cases hm
  exact h.out h'

omit tT in
theorem keeps_fail : Keeps T (M.fail : M α) := by
  refine ⟨fun {s a s'} h => ?_⟩
  simp at h

omit tT in
theorem keeps_timeout : Keeps T (M.timeout : M α) := by
  refine ⟨fun {s a s'} h => ?_⟩
  simp at h

omit tT in
theorem keeps_raise (msg : Bytes) : Keeps T (raise msg : M α) := by
  refine ⟨fun {s a s'} h => ?_⟩
  simp at h

theorem keeps_each {f : α → M β} (hf : ∀ a, Keeps T (f a)) : ∀ as, Keeps T (each f as)
  | [] => keeps_pure tT _
  | a :: as => keeps_bind tT (hf a) fun _ => keeps_bind tT (keeps_each hf as) fun _ => keeps_pure tT _

theorem keeps_forEach {f : α → M Unit} (hf : ∀ a, Keeps T (f a)) : ∀ as, Keeps T (forEach f as)
  | [] => keeps_pure tT _
  | a :: as => keeps_bind tT (hf a) fun _ => keeps_forEach hf as

theorem keeps_optIter {f : α → M Unit} (hf : ∀ a, Keeps T (f a)) : ∀ o, Keeps T (optIter f o)
  | none => keeps_pure tT _
  | some a => hf a

end

theorem keeps_ite {T : St → St → Prop} {c : Prop} [Decidable c] {m m' : M α} (h : Keeps T m) (h' : Keeps T m') : Keeps T (if c then m else m') := by
  split
  · exact h
  · exact h'

theorem readName_ok {s s' : St} {x : Cell} {b : Bytes} (h : readName x s = .ok b s') : s' = s ∧ s.keyFreed x = false ∧ b = x.name := by
  unfold readName at h
  obtain ⟨_, _, h1, h2⟩ := (bind_ok_iff ..).1 h
  cases h1
  split at h2
  · cases h2
  · rename_i hk
    cases h2
    exact ⟨rfl, by simpa using hk, rfl⟩

end Bob.Fl
