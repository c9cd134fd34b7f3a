import Verif.Props.FlEq
import Verif.Props.FlInst
import Verif.Lemmas.FlPassAll
/-!
# `assert` and `print`
-/

namespace Bob.Fl

/-! ## `assert` -/

/-- **C70.** If `assert e` goes through then `e` was true; after that only the value is given up. -/
theorem C70_passed {w : World} {n : Nat} {e : Expr} {text : Bytes} {s s' : St} (hr : s.eng.rv = .none)
    (h : (interp w (n + 1)).exec (.line (.assert e text)) s = .ok () s') :
    ∃ c s1, (interp w n).value e s = .ok c s1 ∧ s1.Holds c (.bool true) ∧ (interp w n).dec c s1 = .ok () s' := by
  rw [exec_line w n hr] at h
  obtain ⟨c, s1, h1, h2⟩ := (bind_ok_iff ..).1 h
  obtain ⟨x, s2, h3, h4⟩ := (bind_ok_iff ..).1 h2
  obtain ⟨hx, rfl⟩ := (getCell_ok_iff ..).1 h3
  refine ⟨c, s2, h1, ?_⟩
  cases hd : x.data <;> rw [hd] at h4 <;> simp only [raise_not_ok] at h4
  rename_i b
  cases b with
  | true => exact ⟨⟨x, hx, hd⟩, h4⟩
  | false => exact ((raise_not_ok ..).1 h4).elim

/-- **C70.** A true condition: nothing but the value of the condition is given up. -/
theorem C70_true {w : World} {n : Nat} {e : Expr} {text : Bytes} {s s1 : St} {c : Nat} (hr : s.eng.rv = .none)
    (he : (interp w n).value e s = .ok c s1) (hc : s1.Holds c (.bool true)) :
    (interp w (n + 1)).exec (.line (.assert e text)) s = (interp w n).dec c s1 := by
  rw [exec_line w n hr]
  obtain ⟨x, hx, hd⟩ := getCell_holds hc
  refine (bind_of_ok he).trans ((bind_of_ok hx).trans ?_)
  rw [hd]
  rfl

/-- **C70.** A false condition stops the script, with a message quoting the condition. -/
theorem C70_false {w : World} {n : Nat} {e : Expr} {text : Bytes} {s s1 : St} {c : Nat} (hr : s.eng.rv = .none)
    (he : (interp w n).value e s = .ok c s1) (hc : s1.Holds c (.bool false)) :
    Refused (b!"assertion test '" ++ cstr text ++ b!"' failed") s1 ((interp w (n + 1)).exec (.line (.assert e text)) s) := by
  rw [exec_line w n hr]
  obtain ⟨x, hx, hd⟩ := getCell_holds hc
  show Refused _ _ (doAssert (interp w n) e text s)
  unfold doAssert
  rw [bind_of_ok he, bind_of_ok hx, hd]
  exact refused_raise _ _

/-- **C70.** So does a condition which is no truth value. -/
theorem C70_other {w : World} {n : Nat} {e : Expr} {text : Bytes} {s s1 : St} {c : Nat} {d : Data} (hr : s.eng.rv = .none)
    (he : (interp w n).value e s = .ok c s1) (hc : s1.Holds c d) (hd : d.kind ≠ .bool) :
    Refused (b!"expected boolean value for test, got " ++ typeStr d) s1 ((interp w (n + 1)).exec (.line (.assert e text)) s) := by
  rw [exec_line w n hr]
  obtain ⟨x, hx, rfl⟩ := getCell_holds hc
  show Refused _ _ (doAssert (interp w n) e text s)
  unfold doAssert
  rw [bind_of_ok he, bind_of_ok hx]
  cases hx : x.data <;> rw [hx] at hd <;> first | exact refused_raise _ _ | exact absurd rfl hd

example : (runScript emptyWorld 20 [] [.line (.assert (.bin .lt (eNum b!"1") (eNum b!"2")) b!"1 < 2"), sPrint (eNum b!"3")]).printed = some [b!"3"] := by decide +kernel
example : (runScript emptyWorld 20 [] [.line (.assert (.bin .gt (eNum b!"1") (eNum b!"2")) b!"1 > 2"), sPrint (eNum b!"3")]).failed =
    some (some b!"assertion test '1 > 2' failed", []) := by decide +kernel

/-! ## `print` -/

theorem commas_eq : ∀ l : List Bytes, commas l = (List.intersperse b!", " l).flatten
  | [] => rfl
  | [x] => by simp [commas]
  | x :: y :: l => by
    have ih := commas_eq (y :: l)
    rw [commas, ih]
    · cases l <;> simp [List.intersperse]
    · simp

theorem readStr_shows {s : St} {buf : Nat} {b full : Bytes} (h : s.bufs[buf]? = some (some full)) (hp : b <+: full) : readStr buf b.length s = .ok (cstr b) s := by
  unfold readStr
  rw [bind_of_ok (show M.get s = .ok s s from rfl), h]
  simp only
  have : full.take b.length = b := List.prefix_iff_eq_take.1 hp |>.symm
  simp [hp.length_le, this]

theorem each_texts {rep : Nat → M Bytes} {s : St} : ∀ {vs : List Val} {es : List Nat}, s.ShowsAll vs es →
    (∀ v c, v ∈ vs → s.Shows v c → rep c s = .ok v.text s) → each rep es s = .ok (Val.texts vs) s
  | [], [], _, _ => rfl
  | v :: vs, e :: es, h, hr => by
    obtain ⟨h1, h2⟩ := (show s.Shows v e ∧ s.ShowsAll vs es by simpa only [St.ShowsAll] using h)
    rw [each, bind_of_ok (hr v e (by simp) h1), bind_of_ok (each_texts h2 fun v c hv => hr v c (by simp [hv])), Val.texts]
    rfl
  | [], _ :: _, h, _ => by simp [St.ShowsAll] at h
  | _ :: _, [], h, _ => by simp [St.ShowsAll] at h

theorem each_itemTexts {rep : Nat → M Bytes} {s : St} : ∀ {vs : List (Val × Val)} {es : List (Nat × Nat)}, s.ShowsItems vs es →
    (∀ kv, kv ∈ vs → ∀ c, (s.Shows kv.1 c → rep c s = .ok kv.1.text s) ∧ (s.Shows kv.2 c → rep c s = .ok kv.2.text s)) →
    each (fun (kv : Nat × Nat) => do
      let k ← rep kv.1
      let v ← rep kv.2
      pure (k ++ b!": " ++ v)) es s = .ok (Val.itemTexts vs) s
  | [], [], _, _ => rfl
  | (k, v) :: vs, e :: es, h, hr => by
    obtain ⟨h1, h2, h3⟩ := (show s.Shows k e.1 ∧ s.Shows v e.2 ∧ s.ShowsItems vs es by simpa only [St.ShowsItems] using h)
    rw [each, bind_of_ok ((bind_of_ok ((hr (k, v) (by simp) _).1 h1)).trans ((bind_of_ok ((hr (k, v) (by simp) _).2 h2)).trans rfl)),
      bind_of_ok (each_itemTexts h3 fun kv hv => hr kv (by simp [hv])), Val.itemTexts]
    rfl
  | [], _ :: _, h, _ => by simp [St.ShowsItems] at h
  | _ :: _, [], h, _ => by simp [St.ShowsItems] at h

theorem stepRepr_shows {rep : Nat → M Bytes} {s : St} {n : Nat} (ih : ∀ (v : Val) (c : Nat), v.depth < n → s.Shows v c → rep c s = .ok v.text s) {v : Val} {c : Nat}
    (hn : v.depth < n + 1) (h : s.Shows v c) (inner : Bool) : stepRepr rep inner c s = .ok (if inner then v.text else v.line) s := by
  unfold stepRepr
  cases v with
  | none =>
    obtain ⟨x, hx, hd⟩ := getCell_holds (show s.Holds c .none by simpa only [St.Shows] using h)
    rw [bind_of_ok hx, hd]
    cases inner <;> simp [Val.line, Val.text]
  | bool b =>
    obtain ⟨x, hx, hd⟩ := getCell_holds (show s.Holds c (.bool b) by simpa only [St.Shows] using h)
    rw [bind_of_ok hx, hd]
    cases inner <;> cases b <;> simp [Val.line, Val.text]
  | int i =>
    obtain ⟨x, hx, hd⟩ := getCell_holds (show s.Holds c (.int i) by simpa only [St.Shows] using h)
    rw [bind_of_ok hx, hd]
    cases inner <;> simp [Val.line, Val.text, decInt]
  | str b =>
    obtain ⟨buf, full, h1, h2, h3⟩ := (show ∃ buf full, s.Holds c (.str buf b.length) ∧ s.bufs[buf]? = some (some full) ∧ b <+: full by
      simpa only [St.Shows] using h)
    obtain ⟨x, hx, hd⟩ := getCell_holds h1
    rw [bind_of_ok hx, hd]
    simp only
    rw [bind_of_ok (readStr_shows h2 h3)]
    cases inner <;> simp [Val.line, Val.text]
  | vec vs =>
    obtain ⟨es, h1, h2⟩ := (show ∃ es, s.Holds c (.vec es) ∧ s.ShowsAll vs es by simpa only [St.Shows] using h)
    obtain ⟨x, hx, hd⟩ := getCell_holds h1
    rw [bind_of_ok hx, hd]
    simp only
    rw [Val.depth] at hn
    rw [bind_of_ok (each_texts h2 fun v c hv => ih v c (by have := depth_mem hv; omega)), commas_eq]
    cases inner <;> simp [Val.line, Val.text]
  | map vs =>
    obtain ⟨es, h1, h2⟩ := (show ∃ es, s.Holds c (.map es) ∧ s.ShowsItems vs es by simpa only [St.Shows] using h)
    obtain ⟨x, hx, hd⟩ := getCell_holds h1
    rw [bind_of_ok hx, hd]
    simp only
    rw [Val.depth] at hn
    rw [bind_of_ok (each_itemTexts h2 fun kv hv c => by
      have := depth_item hv
      exact ⟨ih _ c (by omega), ih _ c (by omega)⟩), commas_eq]
    cases inner <;> simp [Val.line, Val.text]

theorem repr_shows (w : World) {s : St} : ∀ (n : Nat) (v : Val) (c : Nat), v.depth < n → s.Shows v c → (interp w n).repr c s = .ok v.text s
  | 0, _, _, hn, _ => absurd hn (by omega)
  | n + 1, _, _, hn, h => stepRepr_shows (repr_shows w n) hn h true

/-- **C71.** `print e` writes one line, the text of the value of `e`, and then gives up the value. -/
theorem C71_line {w : World} {n : Nat} {e : Expr} {s s1 : St} {c : Nat} {v : Val} (hr : s.eng.rv = .none) (he : (interp w n).value e s = .ok c s1)
    (hv : s1.Shows v c) (hn : v.depth ≤ n) :
    (interp w (n + 1)).exec (.line (.print e)) s = (interp w n).dec c { s1 with out := s1.out ++ [v.line] } := by
  rw [exec_line w n hr]
  refine (bind_of_ok he).trans ((bind_of_ok (stepRepr_shows (repr_shows w n) (by omega) hv false)).trans ?_)
  rfl

example : (Val.vec [.int (-3), .str b!"x", .map [(.str b!"k", .bool true)], .none]).line = b!"[-3, \"x\", {\"k\": true}, <none>]" := by decide +kernel

/-- **C71.** Different values can be printed alike: nothing in a string is escaped. -/
theorem C71_ambiguous : (Val.vec [.str b!"a\", \"b"]).line = (Val.vec [.str b!"a", .str b!"b"]).line := by decide +kernel

example : (runScript emptyWorld 20 [] [sPrint (.vec [eStr b!"a\", \"b"]), sPrint (.vec [eStr b!"a", eStr b!"b"])]).printed =
    some [b!"[\"a\", \"b\"]", b!"[\"a\", \"b\"]"] := by decide +kernel

/-! ### What was printed -/

/-- Lines are only added. -/
def OutT (s s' : St) : Prop := s.out <+: s'.out

theorem trnO : Trn OutT := ⟨fun _ => List.prefix_rfl, fun h1 h2 => h1.trans h2⟩

theorem outT_eq {s s' : St} (h : s'.out = s.out) : OutT s s' := by
  rw [OutT, h]
  exact List.prefix_rfl

theorem outT_modify {f : St → St} (h : ∀ s, (f s).out = s.out) : Keeps OutT (M.modify f) := ⟨fun hm => by cases hm; exact outT_eq (h _)⟩

theorem lyOut : Ly OutT where
  trn := trnO
  alloc := fun _ _ => ⟨fun h => by cases h; exact outT_eq rfl⟩
  allocBuf := fun _ => ⟨fun h => by cases h; exact outT_eq rfl⟩
  incref := fun c => keeps_bind trnO (keeps_getCell trnO _) fun _ => keeps_bind trnO (keeps_assert trnO _) fun _ => outT_modify fun _ => rfl
  decCell := fun _ _ _ _ _ => outT_eq rfl
  valCopy := fun c => by
    unfold valCopy
    refine keeps_bind trnO (keeps_getCell trnO _) fun x => keeps_bind trnO (keeps_readName trnO _) fun _ =>
      keeps_bind trnO ?_ fun _ => ⟨fun h => by cases h; exact outT_eq rfl⟩
    unfold copyData
    split
    · exact keeps_bind trnO (keeps_bind trnO (keeps_readStr trnO _ _) fun _ => ⟨fun h => by cases h; exact outT_eq rfl⟩) fun _ => keeps_pure trnO _
    · exact keeps_pure trnO _
  closeOver := keeps_bind trnO (keeps_curStack trnO) fun _ => ⟨fun h => by cases h; exact outT_eq rfl⟩
  allocBody := fun _ => ⟨fun h => by cases h; exact outT_eq rfl⟩
  freeBuf := fun _ => by
    unfold freeBuf
    refine keeps_bind trnO (keeps_get trnO) fun _ => ?_
    split
    · exact outT_modify fun _ => rfl
    · exact keeps_ub
  freeBody := fun _ => by
    unfold freeBody
    split
    · exact keeps_pure trnO _
    · refine keeps_bind trnO (keeps_get trnO) fun _ => ?_
      split
      · exact outT_modify fun _ => rfl
      · exact keeps_ub
  freeState := fun _ => by
    unfold freeState
    split
    · exact keeps_pure trnO _
    · refine keeps_bind trnO (keeps_get trnO) fun _ => ?_
      split
      · exact keeps_ite keeps_ub (outT_modify fun _ => rfl)
      · exact keeps_ub
  freed := fun _ _ _ _ => outT_eq rfl
  allocScope := fun _ => ⟨fun h => by cases h; exact outT_eq rfl⟩
  setStack := fun _ => outT_modify fun _ => rfl
  addVar := fun _ _ => keeps_bind trnO (keeps_getScope trnO _) fun _ => outT_modify fun _ => rfl
  setVar := fun _ _ => keeps_bind trnO (keeps_getScope trnO _) fun _ => keeps_bind trnO (keeps_deref trnO _) fun _ => outT_modify fun _ => rfl
  setName := fun _ _ _ => keeps_bind trnO (keeps_getCell trnO _) fun _ => outT_modify fun _ => rfl
  setOwnerOf := fun _ _ => keeps_bind trnO (keeps_getCell trnO _) fun _ => outT_modify fun _ => rfl
  overwrite := fun _ _ _ _ _ => outT_eq rfl
  setFn := fun _ _ _ _ _ => outT_eq rfl
  host := fun _ _ => outT_eq rfl
  out := fun _ l => ⟨l, rfl⟩

theorem lxOut (w : World) : Lx w OutT where
  toLy := lyOut
  eng := fun _ _ => outT_eq rfl
  setCls := fun _ _ _ _ _ => outT_eq rfl
  makeInst := fun c i d args => by
    unfold makeInst
    refine keeps_bind trnO (keeps_checkDest trnO d) fun _ => keeps_bind trnO ⟨fun h => by cases h; exact outT_eq rfl⟩ fun _ =>
      keeps_bind trnO (keeps_getScope trnO _) fun _ => keeps_bind trnO (outT_modify fun _ => rfl) fun _ => keeps_bind trnO ?_ fun _ =>
      keeps_bind trnO (outT_modify fun _ => rfl) fun _ => keeps_pure trnO _
    have hi : ∀ c, Keeps OutT (instantiate c args) := by
      intro c
      unfold instantiate
      split
      · refine keeps_bind trnO (keeps_checkFlags trnO _) fun _ => keeps_bind trnO (keeps_get trnO) fun st => keeps_bind trnO (lyOut.modHost _) fun _ =>
          keeps_bind trnO (keeps_getCell trnO _) fun _ => ?_
        split
        · exact outT_modify fun _ => rfl
        · exact keeps_ub
      · exact keeps_fail
    unfold classInst
    refine keeps_bind trnO (keeps_getCell trnO _) fun _ => ?_
    split
    · exact keeps_bind trnO (keeps_getCell trnO _) fun _ => keeps_bind trnO (keeps_nameIs trnO _ _) fun _ => keeps_ite (hi _)
        (keeps_bind trnO (keeps_nameIs trnO _ _) fun _ => keeps_ite (hi _) (keeps_pure trnO _))
    · exact keeps_ub
  calls := fun _ _ => outT_eq rfl
  members := fun _ => outT_eq rfl

/-- **C71.** What has been printed is never taken back or changed: whatever is executed, the lines before stay and new ones follow. -/
theorem C71_kept {w : World} {n : Nat} {p : Stmt} {s s' : St} (h : (interp w n).exec p s = .ok () s') : s.out <+: s'.out :=
  ((recAll (lxOut w) n).exec p).out h

/-- **C71.** A longer script prints what its beginning prints, and then more. -/
theorem C71_in_order {w : World} {n : Nat} {paths : List Bytes} {p q : List Stmt} {s s' : St} (hp : runScript w n paths p = .ok () s)
    (hq : runScript w n paths (p ++ q) = .ok () s') : s.out <+: s'.out := by
  unfold runScript at hp hq
  rw [forEach_append _ _ _ _ hp] at hq
  exact (keeps_forEach trnO (recAll (lxOut w) n).exec q).out hq

end Bob.Fl
