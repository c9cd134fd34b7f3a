import Verif.Props.TreeBuildInst
/-!
# What stands where products belong (C109)
-/

namespace Bob

variable {e : TEnv} {tc : Toolchain} {p : Path}

theorem touch_holds {t : Tree} {q : Path} {now : Nat} (h : t.IsDir p) : (t.touch q now).IsDir p := by
  obtain ⟨m, h⟩ := h
  unfold Tree.touch Tree.IsDir
  dsimp only
  by_cases e : p = q
  · exact ⟨now, by rw [if_pos e, h]; rfl⟩
  · exact ⟨m, by rw [if_neg e, h]⟩

theorem set_holds {t : Tree} {q : Path} {n : Node} (hq : q ≠ p) (h : t.IsDir p) : (t.set q n).IsDir p := by
  obtain ⟨m, h⟩ := h
  exact ⟨m, by rw [Tree.set, if_neg (Ne.symm hq)]; exact h⟩

theorem write_holds {s s' : TStore} {a content : Bytes} (h : s.tree.IsDir p) (hw : s.write e a content = some s') : s'.tree.IsDir p := by
  unfold TStore.write at hw
  cases ht : s.tree.put e.cwd s.now a content with
  | none => rw [ht] at hw; cases hw
  | some t =>
    rw [ht] at hw; cases hw
    show t.IsDir p
    obtain ⟨m, hm⟩ := h
    unfold Tree.put at ht
    split at ht
    · cases ht
    · rename_i q _
      split at ht
      · cases ht
      · rename_i hq; cases ht
        exact set_holds (fun e => by rw [e, hm] at hq; cases hq) ⟨m, hm⟩
      · rename_i hq; cases ht
        exact touch_holds (set_holds (fun e => by rw [e, hm] at hq; cases hq) ⟨m, hm⟩)

theorem writeD_holds {s : TStore} {a content : Bytes} (h : s.tree.IsDir p) : ((s.write e a content).getD s).tree.IsDir p := by
  cases hw : s.write e a content with
  | none => exact h
  | some s' => exact write_holds h hw

theorem remove_holds {s : TStore} {a : Bytes} (h : s.tree.IsDir p) : (s.remove e a).tree.IsDir p := by
  obtain ⟨m, hm⟩ := h
  show (s.tree.del e.cwd s.now a).IsDir p
  unfold Tree.del
  split
  · exact ⟨m, hm⟩
  · rename_i q _
    split
    · rename_i hq
      refine touch_holds ⟨m, ?_⟩
      dsimp only
      rw [if_neg (fun e => by rw [← e, hm] at hq; cases hq)]
      exact hm
    · exact ⟨m, hm⟩

theorem checkFlags_holds {o : Bytes} {F : List Bytes} {s : TStore} (h : s.tree.IsDir p) : (tCheckFlags e o F s).1.tree.IsDir p := by
  unfold tCheckFlags
  split
  · exact writeD_holds h
  · exact h

theorem validate_holds {j : CJob} {s : TStore} (h : s.tree.IsDir p) : (tValidate e j s).1.tree.IsDir p := by
  have := checkFlags_holds (e := e) (o := j.out) (F := j.flags) h
  unfold tValidate
  split
  · rename_i s' hc; rw [hc] at this; exact this
  · rename_i s' hc
    rw [hc] at this
    split
    · exact this
    · split <;> exact this

theorem linkCheck_holds {j : LJob} {s : TStore} (h : s.tree.IsDir p) : (tLinkCheck e j s).1.tree.IsDir p := by
  have := checkFlags_holds (e := e) (o := j.out) (F := j.flags) h
  unfold tLinkCheck
  split
  · rename_i s' hc; rw [hc] at this; exact this
  · rename_i s' hc
    rw [hc] at this
    split <;> exact this

theorem log_holds {o output : Bytes} {s : TStore} (h : s.tree.IsDir p) : (tLog e o output s).tree.IsDir p := by
  unfold tLog
  split
  · exact remove_holds h
  · exact writeD_holds h

theorem install_none (he : e.pre = none) (o : Bytes) (s : TStore) : tInstall e o s = (s, true) := by
  unfold tInstall; rw [he]

theorem linkOp_holds {j : LJob} {s : TStore} (h : s.tree.IsDir p) : (tLinkOp e tc j s).1.tree.IsDir p := by
  unfold tLinkOp
  simp only
  split
  · split
    · rename_i hw; exact write_holds (p := p) (by exact h) hw
    · exact h
  · split
    · exact remove_holds (by exact h)
    · exact h

theorem task_holds (he : e.pre = none) {j : CJob} {k : Nat} {op : TaskOp TStore} (hop : (tTask e tc j)[k]? = some op) (f : Bool) {s : TStore}
    (h : s.tree.IsDir p) : (op f s).1.tree.IsDir p := by
  match k, hop with
  | 0, hop =>
    simp only [tTask, List.getElem?_cons_zero, Option.some.injEq] at hop
    subst hop
    unfold tDepsOp
    split
    · exact h
    · exact writeD_holds h
  | 1, hop =>
    simp only [tTask, List.getElem?_cons_succ, List.getElem?_cons_zero, Option.some.injEq] at hop
    subst hop
    unfold tObjOp
    simp only
    split
    · split
      · rename_i hw; exact write_holds (p := p) (by exact h) hw
      · exact h
    · split
      · exact remove_holds (by exact h)
      · exact h
  | 2, hop =>
    simp only [tTask, List.getElem?_cons_succ, List.getElem?_cons_zero, Option.some.injEq] at hop
    subst hop
    exact log_holds h
  | 3, hop =>
    simp only [tTask, List.getElem?_cons_succ, List.getElem?_cons_zero, Option.some.injEq] at hop
    subst hop
    unfold tInstOp
    split
    · exact h
    · rw [install_none he]; exact h
  | k + 4, hop => simp [tTask] at hop

theorem tAfter_store (rest : List Req) (r : TStore × Bool) : (tAfter rest r).store = r.1 := by
  unfold tAfter; split <;> rfl

theorem seq_holds (he : e.pre = none) {a b : TCfg} (h : a.store.tree.IsDir p) (hs : tSeqNext e tc a = some b) : b.store.tree.IsDir p := by
  cases a with
  | idle rest s =>
    cases rest with
    | nil => cases hs; exact h
    | cons r rest =>
      cases r with
      | compile jobs => cases hs; exact h
      | link j =>
        have hv := linkCheck_holds (e := e) (j := j) h
        simp only [tSeqNext] at hs
        split at hs
        · rename_i s' hc; cases hs; simp only [TCfg.store] at hv; rw [hc] at hv; exact hv
        · rename_i s' hc; cases hs; simp only [TCfg.store] at hv; rw [hc] at hv
          rw [tAfter_store, install_none he]; exact hv
  | validating todo tasks rest s =>
    cases todo with
    | nil => cases hs; exact h
    | cons j todo =>
      have hv := validate_holds (e := e) (j := j) h
      simp only [tSeqNext] at hs
      split at hs
      · rename_i s' hc; cases hs; simp only [TCfg.store] at hv; rw [hc] at hv; exact hv
      · rename_i s' hc; cases hs; simp only [TCfg.store] at hv; rw [hc] at hv; exact hv
      · rename_i s' hc
        rw [install_none he] at hs
        cases hs; simp only [TCfg.store] at hv; rw [hc] at hv; exact hv
  | pooling tasks rest p => cases hs
  | linking j rest s =>
    have hv := linkOp_holds (e := e) (tc := tc) (j := j) h
    simp only [tSeqNext] at hs
    cases hs
    exact hv
  | linkRan ok j rest s =>
    cases ok <;> (cases hs; exact log_holds h)
  | linked j rest s =>
    cases hs
    rw [tAfter_store, install_none he]; exact h
  | finished ok s => cases hs

/-- **C109.** A build that does not install never removes a directory, nor puts anything in its place: not even where a product, a record
or a log belongs. -/
theorem C109_dirs_stay {n : Nat} (he : e.pre = none) {reqs : List Req} {s : TStore} {cfg : TCfg} (h : TBuildReaches e tc n reqs s cfg)
    (hp : s.tree.IsDir p) : cfg.store.tree.IsDir p := by
  refine steps_inv (P := fun a : TCfg => a.store.tree.IsDir p) ?_ h hp
  intro a b ha hs
  cases hs with
  | seq h => exact seq_holds he ha h
  | tick t _ => cases a <;> exact ha
  | @pool tasks rest q q' h =>
    have ha : q.store.tree.IsDir p := ha
    show q'.store.tree.IsDir p
    cases h with
    | work w hw h =>
      unfold workStep at h
      split at h
      case h_7 =>
        split at h
        · rename_i op hop
          cases h
          unfold tTaskProg at hop
          split at hop
          · exact task_holds he hop _ ha
          · cases hop
        · cases h; exact ha
      case h_2 => split at h <;> cases h; exact ha
      case h_3 => split at h <;> (cases h; exact ha)
      case h_9 => cases h
      all_goals (cases h; exact ha)
    | env _ h => exact h.elim
  | join h => rw [tAfter_store]; exact ha

theorem write_blocked {s : TStore} {o x : Bytes} (hw : ∀ x now, s.tree.put e.cwd now o x = none) : s.write e o x = none := by
  unfold TStore.write; rw [hw]; rfl

/-- **C109.** A compiler or linker that has to put its output where there is a directory, or where there is no directory to put it in,
fails and leaves the file system as it was. -/
theorem C109_blocked {s : TStore} {o : Bytes} (hw : ∀ x now, s.tree.put e.cwd now o x = none) (hno : ∀ now, s.tree.del e.cwd now o = s.tree) :
    (∀ (j : CJob) f, j.out = o → (tObjOp e tc j f s).2 = true ∧ (tObjOp e tc j f s).1.tree = s.tree) ∧
      ∀ j : LJob, j.out = o → (tLinkOp e tc j s).2 = false ∧ (tLinkOp e tc j s).1.tree = s.tree := by
  refine ⟨fun j f ho => ?_, fun j ho => ?_⟩
  · subst ho
    unfold tObjOp
    simp only
    split
    · rw [write_blocked (by exact hw)]; exact ⟨rfl, rfl⟩
    · refine ⟨rfl, ?_⟩
      split
      · exact hno _
      · rfl
  · subst ho
    unfold tLinkOp
    simp only
    split
    · rw [write_blocked (by exact hw)]; exact ⟨rfl, rfl⟩
    · refine ⟨rfl, ?_⟩
      split
      · exact hno _
      · rfl

/-- A directory is in the way. -/
theorem blocked_dir {t : Tree} {cwd : Path} {o : Bytes} (h : t.resolve cwd o = .ok p) (hp : t.IsDir p) :
    (∀ x now, t.put cwd now o x = none) ∧ ∀ now, t.del cwd now o = t := by
  obtain ⟨m, hm⟩ := hp
  constructor
  · intro x now; unfold Tree.put; rw [h]; simp only; rw [hm]
  · intro now; unfold Tree.del; rw [h]; simp only; rw [hm]

/-- There is no directory for it. -/
theorem blocked_none {t : Tree} {cwd : Path} {o : Bytes} {er : Errno} (h : t.resolve cwd o = .error er) :
    (∀ x now, t.put cwd now o x = none) ∧ ∀ now, t.del cwd now o = t := by
  constructor
  · intro x now; unfold Tree.put; rw [h]
  · intro now; unfold Tree.del; rw [h]

/-! ## A case: a directory where the program belongs -/

def tdBare : TEnv := { tdEnv with pre := none }

/-- There is a directory with a file in it where the program belongs. -/
def tdDirs : List (Path × Node) :=
  [(tdPath outL, .dir 3), (tdPath outL ++ [b!"keep"], .file b!"k" 3), (tdPath outA, .file b!"OA" 5), (tdPath outB, .file b!"OB" 5)]

/-- Linking fails, and the directory is still there. -/
theorem td_blocked : (tAuto tdBare demoTc 10 (.idle tdLink (td0 tdDirs))).isFailed = true ∧
    (tAuto tdBare demoTc 10 (.idle tdLink (td0 tdDirs))).store.tree.IsDir (tdPath outL) := by
  refine ⟨by decide +kernel, ?_⟩
  have h2 := tAuto_reaches (n := 1) 10 _ (Steps.refl (R := TBuildNext tdBare demoTc 1) (TCfg.idle tdLink (td0 tdDirs)))
  exact C109_dirs_stay (e := tdBare) rfl h2 (td_isDir (by decide +kernel))

theorem td_blocked_obj : (∀ x now, (td0 tdDirs).tree.put tdBare.cwd now outL x = none) ∧ ∀ now, (td0 tdDirs).tree.del tdBare.cwd now outL = (td0 tdDirs).tree :=
  blocked_dir (p := tdPath outL) rfl (td_isDir (by decide +kernel))

/-- Where there is no output directory. -/
example : (∀ x now, (td0 []).tree.put tdBare.cwd now b!"no/a.o" x = none) ∧ ∀ now, (td0 []).tree.del tdBare.cwd now b!"no/a.o" = (td0 []).tree :=
  blocked_none (er := .noent) rfl

end Bob
