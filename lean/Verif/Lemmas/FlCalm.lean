import Verif.Lemmas.FlFrameRun
import Verif.Lemmas.FlPass
import Verif.Model.Flamingo.Destroy
/-!
# Pieces of the interpreter which leave the environment alone, also when they fail
-/

namespace Bob.Fl

/-- Whether it ends normally or with an error, the environment in force and its stack are the same afterwards. -/
structure Calm (m : M α) : Prop where
  out : ∀ s, (∀ a s', m s = .ok a s' → s'.envs = s.envs ∧ s'.eng.env = s.eng.env) ∧
    ∀ msg s', m s = .err msg s' → s'.envs = s.envs ∧ s'.eng.env = s.eng.env

theorem calm_ok {m : M α} (h : ∀ s, ∃ a s', m s = .ok a s' ∧ s'.envs = s.envs ∧ s'.eng.env = s.eng.env) : Calm m := by
  refine ⟨fun s => ?_⟩
  obtain ⟨a, s', he, h1⟩ := h s
  refine ⟨fun b s2 hb => ?_, fun msg s2 hb => ?_⟩ <;> rw [he] at hb
  · cases hb; exact h1
  · cases hb

theorem calm_bind {m : M α} {f : α → M β} (hm : Calm m) (hf : ∀ a, Calm (f a)) : Calm (m >>= f) := by
  refine ⟨fun s => ?_⟩
  rw [bind_apply]
  cases he : m s with
  | ok a s1 =>
    obtain ⟨h1, h2⟩ := (hm.out s).1 a s1 he
    refine ⟨fun b s2 hb => ?_, fun msg s2 hb => ?_⟩
    · obtain ⟨h3, h4⟩ := ((hf a).out s1).1 b s2 hb
      exact ⟨h3.trans h1, h4.trans h2⟩
    · obtain ⟨h3, h4⟩ := ((hf a).out s1).2 msg s2 hb
      exact ⟨h3.trans h1, h4.trans h2⟩
  | err msg s1 =>
    refine ⟨fun _ _ hb => (nomatch hb), fun msg' s2 hb => ?_⟩
    cases hb
    exact (hm.out s).2 msg s1 he
  | abort => exact ⟨fun _ _ hb => (nomatch hb), fun _ _ hb => (nomatch hb)⟩
  | ub => exact ⟨fun _ _ hb => (nomatch hb), fun _ _ hb => (nomatch hb)⟩
  | timeout => exact ⟨fun _ _ hb => (nomatch hb), fun _ _ hb => (nomatch hb)⟩

theorem calm_pure (a : α) : Calm (pure a : M α) := calm_ok fun s => ⟨a, s, rfl, rfl, rfl⟩
theorem calm_get : Calm M.get := calm_ok fun s => ⟨s, s, rfl, rfl, rfl⟩
theorem calm_ub (c : Cause) : Calm (M.ub c : M α) := ⟨fun _ => ⟨fun _ _ h => (nomatch h), fun _ _ h => (nomatch h)⟩⟩
theorem calm_abort (c : Cause) : Calm (M.abort c : M α) := ⟨fun _ => ⟨fun _ _ h => (nomatch h), fun _ _ h => (nomatch h)⟩⟩
theorem calm_fail : Calm (M.fail : M α) := ⟨fun s => ⟨fun _ _ h => (nomatch h), fun _ _ h => by cases h; exact ⟨rfl, rfl⟩⟩⟩
theorem calm_raise (m : Bytes) : Calm (raise m : M α) := by
  have : ∀ (c : Prop) [Decidable c], Calm (if c then (fun s => .err (some m) s : M α) else M.abort .message) := by
    intro c _
    by_cases h : c
    · simp only [h]
      exact ⟨fun s => ⟨fun _ _ h => (nomatch h), fun _ _ h => by cases h; exact ⟨rfl, rfl⟩⟩⟩
    · simp only [h]
      exact calm_abort _
  exact this _
theorem calm_assert (b : Bool) : Calm (M.assert b) := by cases b <;> first | exact calm_pure _ | exact calm_abort _
theorem calm_deref (o : Option α) (c : Cause) : Calm (M.deref o c) := by cases o <;> first | exact calm_pure _ | exact calm_ub _
theorem calm_getCell (c : Nat) : Calm (getCell c) := by
  refine ⟨fun s => ?_⟩
  unfold getCell
  split
  · exact (calm_pure _).out s
  · exact ⟨fun _ _ h => (nomatch h), fun _ _ h => (nomatch h)⟩
theorem calm_getScope (c : Nat) : Calm (getScope c) := by
  refine ⟨fun s => ?_⟩
  unfold getScope
  split
  · split
    · exact ⟨fun _ _ h => (nomatch h), fun _ _ h => (nomatch h)⟩
    · exact (calm_pure _).out s
  · exact ⟨fun _ _ h => (nomatch h), fun _ _ h => (nomatch h)⟩
theorem calm_modify {f : St → St} (h : ∀ s, (f s).envs = s.envs ∧ (f s).eng.env = s.eng.env) : Calm (M.modify f) :=
  calm_ok fun s => ⟨(), f s, rfl, h s⟩
theorem calm_alloc (d : Data) : Calm (alloc d) := calm_ok fun _ => ⟨_, _, rfl, rfl, rfl⟩
theorem calm_allocBuf (b : Bytes) : Calm (allocBuf b) := calm_ok fun _ => ⟨_, _, rfl, rfl, rfl⟩
theorem calm_allocStr (b : Bytes) : Calm (allocStr b) := calm_bind (calm_allocBuf _) fun _ => calm_alloc _
theorem calm_setCell (c : Nat) (x : Cell) : Calm (setCell c x) := calm_modify fun _ => ⟨rfl, rfl⟩
theorem calm_setScope (i : Nat) (x : Scope) : Calm (setScope i x) := calm_modify fun _ => ⟨rfl, rfl⟩
theorem calm_setRv (r : Rv) : Calm (setRv r) := calm_modify fun _ => ⟨rfl, rfl⟩
theorem calm_getRv : Calm getRv := calm_ok fun s => ⟨_, s, rfl, rfl, rfl⟩
theorem calm_modHost (f : Host → Host) : Calm (modHost f) := calm_modify fun _ => ⟨rfl, rfl⟩
theorem calm_each {f : α → M β} (h : ∀ a, Calm (f a)) : ∀ as, Calm (each f as)
  | [] => calm_pure _
  | a :: as => calm_bind (h a) fun _ => calm_bind (calm_each h as) fun _ => calm_pure _

/-- Goes through the steps of a piece. -/
macro "calm" : tactic => `(tactic| repeat' (first
  | assumption
  | exact calm_pure _ | exact calm_get | exact calm_ub _ | exact calm_abort _ | exact calm_fail | exact calm_raise _
  | exact calm_assert _ | exact calm_deref _ _ | exact calm_getCell _ | exact calm_getScope _ | exact calm_alloc _
  | exact calm_allocBuf _ | exact calm_allocStr _ | exact calm_setCell _ _ | exact calm_setScope _ _ | exact calm_setRv _
  | exact calm_getRv | exact calm_modHost _
  | refine calm_bind ?_ ?_ | refine calm_each ?_ _ | intro _ | split))

theorem calm_readBuf (b n : Nat) : Calm (readBuf b n) := by unfold readBuf; calm
theorem calm_strElems (c : Nat) : Calm (strElems c) := by unfold strElems; calm
theorem calm_addStep (u : Uniq) (k : StepKind) (d : ReqData) : Calm (addStep u k d) := by unfold addStep; calm
theorem calm_prepCompile (w : World) (st : Option Nat) (args : List Nat) : Calm (prepCompile w st args) := by unfold prepCompile; calm
theorem calm_prepLink (w : World) (st : Option Nat) (args : List Nat) (a : Bool) : Calm (prepLink w st args a) := by unfold prepLink; calm
theorem calm_fsList (w : World) (args : List Nat) : Calm (fsList w args) := by unfold fsList; calm
theorem calm_data (o : Owner) : Calm o.data := by unfold Owner.data; calm
theorem calm_findOwner (c : Nat) : Calm (findOwner c) := by unfold findOwner; calm
theorem calm_fsCall (w : World) (c : Nat) (args : List Nat) : Calm (fsCall w c args) := by
  have := calm_fsList w args
  unfold fsCall
  calm
theorem calm_ccCall (w : World) (o : Owner) (name : Bytes) (args : List Nat) : Calm (ccCall w o name args) := by
  have h1 := calm_data o
  have h2 := calm_prepCompile
  unfold ccCall
  calm
  exact h2 _ _ _
theorem calm_linkerCall (w : World) (o : Owner) (name : Bytes) (args : List Nat) : Calm (linkerCall w o name args) := by
  have h1 := calm_data o
  have h2 := calm_prepLink
  unfold linkerCall
  calm
  all_goals exact h2 _ _ _ _
theorem calm_externFn (w : World) (c : Nat) (args : List Nat) : Calm (externFn w c args) := by
  have h1 := calm_findOwner c
  have h2 := calm_fsCall w c args
  unfold externFn askClass
  calm
  all_goals first | exact calm_data _ | exact calm_prepCompile _ _ _ | exact calm_prepLink _ _ _ _
theorem calm_bindArgs (i : Nat) : ∀ ks cs, Calm (bindArgs i ks cs)
  | [], _ => calm_pure _
  | _ :: _, [] => calm_pure _
  | k :: ks, c :: cs => by
    have ih := calm_bindArgs i ks cs
    unfold bindArgs addVar setName bindArgs.setVar' setVar
    calm
theorem calm_setupArgs (i : Nat) (f : FnData) (args : List Nat) : Calm (setupArgs i f args) := by
  have := calm_bindArgs
  unfold setupArgs
  split
  · exact this _ _ _
  · split
    · exact this _ _ _
    · exact calm_raise _

/-! ## Pieces which do not return errors -/

structure NoErr (m : M α) : Prop where
  out : ∀ s msg s', m s ≠ .err msg s'

theorem noErr_bind {m : M α} {f : α → M β} (hm : NoErr m) (hf : ∀ a, NoErr (f a)) : NoErr (m >>= f) := by
  refine ⟨fun s msg s' h => ?_⟩
  rw [bind_apply] at h
  cases he : m s with
  | ok a s1 => rw [he] at h; exact (hf a).out s1 msg s' h
  | err msg' s1 => exact hm.out s msg' s1 he
  | _ => rw [he] at h; exact (nomatch h)

theorem noErr_pure (a : α) : NoErr (pure a : M α) := ⟨fun _ _ _ h => (nomatch h)⟩
theorem noErr_get : NoErr M.get := ⟨fun _ _ _ h => (nomatch h)⟩
theorem noErr_ub (c : Cause) : NoErr (M.ub c : M α) := ⟨fun _ _ _ h => (nomatch h)⟩
theorem noErr_abort (c : Cause) : NoErr (M.abort c : M α) := ⟨fun _ _ _ h => (nomatch h)⟩
theorem noErr_timeout : NoErr (M.timeout : M α) := ⟨fun _ _ _ h => (nomatch h)⟩
theorem noErr_modify (f : St → St) : NoErr (M.modify f) := ⟨fun _ _ _ h => (nomatch h)⟩
theorem noErr_deref (o : Option α) (c : Cause) : NoErr (M.deref o c) := by cases o <;> first | exact noErr_pure _ | exact noErr_ub _
theorem noErr_alloc (d : Data) : NoErr (alloc d) := ⟨fun _ _ _ h => (nomatch h)⟩
theorem noErr_allocScope (x : Scope) : NoErr (allocScope x) := ⟨fun _ _ _ h => (nomatch h)⟩
theorem noErr_getCell (c : Nat) : NoErr (getCell c) := by
  refine ⟨fun s msg s' h => ?_⟩
  unfold getCell at h
  split at h <;> exact (nomatch h)
theorem noErr_getScope (c : Nat) : NoErr (getScope c) := by
  refine ⟨fun s msg s' h => ?_⟩
  unfold getScope at h
  split at h
  · split at h <;> exact (nomatch h)
  · exact (nomatch h)

/-- Goes through the steps of a piece. -/
macro "noErr" : tactic => `(tactic| repeat' (first
  | assumption
  | exact noErr_pure _ | exact noErr_get | exact noErr_ub _ | exact noErr_abort _ | exact noErr_timeout | exact noErr_modify _
  | exact noErr_deref _ _ | exact noErr_alloc _ | exact noErr_allocScope _ | exact noErr_getCell _ | exact noErr_getScope _
  | refine noErr_bind ?_ ?_ | intro _ | split))

theorem noErr_attach (i : Nat) : NoErr (attach i) := by unfold attach setStack curStack; noErr
theorem noErr_pushScope : NoErr pushScope := by
  unfold pushScope topCls curStack
  noErr
theorem noErr_detach : NoErr detach := by unfold detach setStack curStack; noErr
theorem noErr_enter (f : FnData) (inst : Option Nat) : NoErr (enter f inst) := by
  have h1 := noErr_pushScope
  have h2 := noErr_attach
  unfold enter setScope
  cases inst with
  | none => simp only [optIter]; noErr
  | some a => simp only [optIter]; have := h2 a; noErr
theorem noErr_leave (prev : Eng) (inst : Option Nat) : NoErr (leave prev inst) := by
  have h1 := noErr_detach
  unfold leave
  cases inst with
  | none => simp only [optIter]; noErr
  | some a => simp only [optIter]; noErr

theorem noErr_decVars {dec : Nat → M Unit} (hd : ∀ c, NoErr (dec c)) : ∀ vs, NoErr (decVars dec vs)
  | [] => noErr_pure _
  | v :: vs => by
    have ih := noErr_decVars hd vs
    unfold decVars
    cases hv : v.val with
    | none => simp only [optIter]; noErr
    | some c => simp only [optIter]; have := hd c; noErr
theorem noErr_freeScope {dec : Nat → M Unit} (hd : ∀ c, NoErr (dec c)) (i : Nat) : NoErr (freeScope dec i) := by
  unfold freeScope setScope
  exact noErr_bind (noErr_getScope _) fun x => noErr_bind (noErr_decVars hd _) fun _ => noErr_bind (noErr_getScope _) fun _ => noErr_modify _
theorem noErr_freeBuf (b : Nat) : NoErr (freeBuf b) := by unfold freeBuf; noErr
theorem noErr_freeBody (b : Option Nat) : NoErr (freeBody b) := by unfold freeBody; noErr
theorem noErr_freeState (b : Option Nat) : NoErr (freeState b) := by unfold freeState; noErr
theorem noErr_freeVal {dec : Nat → M Unit} (hd : ∀ c, NoErr (dec c)) (c : Nat) : NoErr (freeVal dec c) := by
  unfold freeVal
  refine noErr_bind (noErr_getCell _) fun x => ?_
  split
  · exact noErr_freeBuf _
  · exact noErr_freeBody _
  · exact noErr_bind (noErr_freeScope hd _) fun _ => noErr_freeState _
  · exact noErr_pure _
theorem noErr_stepDec {dec : Nat → M Unit} (hd : ∀ c, NoErr (dec c)) (c : Nat) : NoErr (stepDec dec c) := by
  have := noErr_freeVal hd c
  unfold stepDec setCell
  noErr
theorem noErr_dec (w : World) : ∀ n c, NoErr ((interp w n).dec c)
  | 0, _ => noErr_timeout
  | n + 1, c => noErr_stepDec (noErr_dec w n) c

theorem noErr_getRv : NoErr getRv := ⟨fun _ _ _ h => (nomatch h)⟩

theorem noErr_takeRv {R : Rec} (hd : ∀ c, NoErr (R.dec c)) (d : Dest) : NoErr (takeRv R d) := by
  unfold takeRv setRv
  cases d with
  | ret => exact noErr_abort _
  | discard =>
    simp only
    refine noErr_bind noErr_getRv fun r => noErr_bind ?_ fun _ => noErr_bind (noErr_modify _) fun _ => noErr_pure _
    cases r with
    | val c => exact hd c
    | _ => simp only [dropRv]; noErr
  | keep =>
    simp only
    refine noErr_bind noErr_getRv fun r => noErr_bind ?_ fun _ => noErr_bind (noErr_modify _) fun _ => noErr_pure _
    cases r with
    | val c => exact noErr_pure c
    | _ => simp only [rvValue]; noErr

theorem noErr_finish {R : Rec} (hd : ∀ c, NoErr (R.dec c)) (callable : Nat) (d : Dest) (args : List Nat) : NoErr (finish R callable none d args) := by
  have h := noErr_takeRv hd d
  unfold finish setRv
  refine noErr_bind (noErr_getCell _) fun x => ?_
  split
  · split
    · split
      · noErr
      · exact ⟨fun _ _ _ h => (nomatch h)⟩
    · exact h
  · exact noErr_ub _

end Bob.Fl
