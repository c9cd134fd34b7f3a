import Verif.Lemmas.FlClosure
import Verif.Spec.Flamingo
/-!
# Outcomes of scripts do not depend on the recursion depth of the model (C64)
-/

namespace Bob.Fl

/-- A script ends in some way: there is a depth with which the model gets to an end.  A script which does not is one for which bob
recurses or loops for ever. -/
def Ends (w : World) (paths : List Bytes) (p : List Stmt) (o : Out Unit) : Prop := o ≠ .timeout ∧ ∃ n, runScript w n paths p = o

/-- `m'` gets at least as far. -/
def Further {α : Type} (m m' : M α) : Prop := ∀ s, m s = .timeout ∨ m s = m' s

theorem cl_further (w : World) : Cl w (fun {α} => Further (α := α)) where
  leaf := fun _ _ _ => .inr rfl
  bind := by
    intro α β m m' f f' hm hf s
    rw [bind_apply, bind_apply]
    rcases hm s with h | h
    · rw [h]
      exact .inl rfl
    · rw [← h]
      cases m s with
      | ok a s1 => exact hf a s1
      | _ => exact .inr rfl
  onErr := by
    intro α m m' g hm s
    unfold onErr
    rcases hm s with h | h
    · rw [h]
      exact .inl rfl
    · rw [← h]
      exact .inr rfl
  blame := by
    intro α m m' c hm s
    unfold M.blame
    rcases hm s with h | h
    · rw [h]
      exact .inl rfl
    · rw [← h]
      exact .inr rfl
  extern := fun _ _ _ _ _ => .inr rfl

theorem rec_further (w : World) : ∀ n, RecP (fun {α} => Further (α := α)) (interp w n) (interp w (n + 1))
  | 0 => {
      eval := fun _ _ _ => .inl rfl
      exec := fun _ _ => .inl rfl
      member := fun _ _ => .inl rfl
      call := fun _ _ _ _ _ => .inl rfl
      filter := fun _ _ _ _ => .inl rfl
      eq := fun _ _ _ => .inl rfl
      dec := fun _ _ => .inl rfl
      repr := fun _ _ => .inl rfl }
  | n + 1 => cl_stepRec (cl_further w) (rec_further w n)

/-- **C64.** An outcome reached with some recursion depth is the outcome with every larger one. -/
theorem C64_deeper (w : World) (paths : List Bytes) (p : List Stmt) {n n' : Nat} (hn : n ≤ n') (h : runScript w n paths p ≠ .timeout) :
    runScript w n' paths p = runScript w n paths p := by
  induction hn with
  | refl => rfl
  | step _ ih =>
    rcases cl_forEach (cl_further w) (rec_further w _).exec p (St.init paths) with h' | h'
    · exact absurd (ih ▸ h') h
    · exact h'.symm.trans ih

/-- **C64.** A script has one outcome only. -/
theorem C64_unique {w : World} {paths : List Bytes} {p : List Stmt} {o o' : Out Unit} (h : Ends w paths p o) (h' : Ends w paths p o') : o = o' := by
  obtain ⟨hne, n, rfl⟩ := h
  obtain ⟨hne', n', rfl⟩ := h'
  rcases Nat.le_total n n' with hn | hn
  · exact (C64_deeper w paths p hn hne).symm
  · exact C64_deeper w paths p hn hne'

/-- **C64.** If it ends at all, every depth either gives that outcome or is not enough. -/
theorem C64_any_depth {w : World} {paths : List Bytes} {p : List Stmt} {o : Out Unit} (h : Ends w paths p o) (n : Nat) :
    runScript w n paths p = o ∨ runScript w n paths p = .timeout := by
  by_cases ht : runScript w n paths p = .timeout
  · exact .inr ht
  · exact .inl (C64_unique ⟨ht, n, rfl⟩ h)

/-- **C64.** From enough depth on the outcome stays. -/
theorem C64_eventually {w : World} {paths : List Bytes} {p : List Stmt} {o : Out Unit} (h : Ends w paths p o) : ∃ n, ∀ n', n ≤ n' → runScript w n' paths p = o := by
  obtain ⟨hne, n, rfl⟩ := h
  exact ⟨n, fun n' hn => C64_deeper w paths p hn hne⟩

/-- The same for single expressions, statements and calls, in every state. -/
theorem further_le (w : World) {n n' : Nat} (hn : n ≤ n') : RecP (fun {α} => Further (α := α)) (interp w n) (interp w n') := by
  induction hn with
  | refl => exact ⟨fun _ _ _ => .inr rfl, fun _ _ => .inr rfl, fun _ _ => .inr rfl, fun _ _ _ _ _ => .inr rfl, fun _ _ _ _ => .inr rfl,
      fun _ _ _ => .inr rfl, fun _ _ => .inr rfl, fun _ _ => .inr rfl⟩
  | step _ ih =>
    have h := rec_further w
    have tr : ∀ {α : Type} {a b c : M α}, Further a b → Further b c → Further a c := fun h1 h2 s => by
      rcases h1 s with h | h
      · exact .inl h
      · rcases h2 s with h' | h'
        · exact .inl (h.trans h')
        · exact .inr (h.trans h')
    exact ⟨fun d e => tr (ih.eval d e) ((h _).eval d e), fun d => tr (ih.exec d) ((h _).exec d), fun d => tr (ih.member d) ((h _).member d),
      fun a b c d => tr (ih.call a b c d) ((h _).call a b c d), fun a b c => tr (ih.filter a b c) ((h _).filter a b c), fun a b => tr (ih.eq a b) ((h _).eq a b),
      fun a => tr (ih.dec a) ((h _).dec a), fun a => tr (ih.repr a) ((h _).repr a)⟩

/-- **C64.** In every state an expression has one outcome only. -/
theorem C64_expression {w : World} {d : Dest} {e : Expr} {s : St} {n n' : Nat} (h : (interp w n).eval d e s ≠ .timeout) (h' : (interp w n').eval d e s ≠ .timeout) :
    (interp w n).eval d e s = (interp w n').eval d e s := by
  rcases Nat.le_total n n' with hn | hn
  · exact ((further_le w hn).eval d e s).resolve_left h
  · exact (((further_le w hn).eval d e s).resolve_left h').symm

example : (match runScript emptyWorld 1 [] [sPrint (eNum b!"1")] with
    | .timeout => true
    | _ => false) = true := by decide +kernel
example : (runScript emptyWorld 9 [] [sPrint (eNum b!"1")]).printed = some [b!"1"] := by decide +kernel

/-- A script for which no depth is enough exists: a function calling itself.  (bob overflows its stack.) -/
def selfCall : List Stmt := [sFn b!"f" [] [sDo (eCall (eVar b!"f") [])], sDo (eCall (eVar b!"f") [])]

example : (match runScript emptyWorld 60 [] selfCall with
    | .timeout => true
    | _ => false) = true := by decide +kernel

end Bob.Fl
