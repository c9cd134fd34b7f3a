import Verif.Lemmas.FlMeanFn
/-!
# bob's own functions do what the description says
-/

namespace Bob.Fl

section
variable {L : Discipline} {C P T : List Nat} {s s' : St} {w : World} {X : List Nat} {r : List Ask} {st : List Nat} {ρ : Names}

/-! ## Arguments and results -/

theorem strElems_shows {c : Nat} {fs : List Bytes} (h : s.Shows (.strs fs) c) : strElems c s = .ok fs s := by
  obtain ⟨es, ⟨x, hx, hd⟩, hall⟩ := h
  unfold strElems
  rw [bind_of_ok ((getCell_ok_iff ..).2 ⟨hx, rfl⟩), hd]
  dsimp only
  clear hd
  induction fs generalizing es with
  | nil =>
    cases es with
    | nil => rfl
    | cons _ _ => exact hall.elim
  | cons b fs ih =>
    cases es with
    | nil => exact hall.elim
    | cons e es =>
      obtain ⟨⟨buf, full, ⟨y, hy, hyd⟩, h2, h3⟩, htl⟩ := hall
      unfold each
      rw [bind_of_ok (a := b) (s1 := s) ?_, bind_of_ok (ih es htl)]
      · rfl
      · rw [bind_of_ok ((getCell_ok_iff ..).2 ⟨hy, rfl⟩), hyd]
        exact readBuf_some h2 h3

theorem conv_strs {f : Bytes → M Nat} {t : Bytes → Bytes} : ∀ {bs : List Bytes} {s : St}, (∀ b ∈ bs, f b = allocStr (t b)) →
    Conv (fun _ => each f bs) s fun cs s' => s'.WasAll ((bs.map t).map .str) cs ∧ Idle s s'
  | [], s, _ => Conv.pure ⟨trivial, Idle.refl s⟩
  | b :: bs, s, h => by
    unfold each
    rw [h b List.mem_cons_self]
    refine Conv.bind (m := fun _ => allocStr (t b)) ((conv_allocStr (t b)).mono fun c s1 ⟨h1, h2⟩ => ?_)
    refine Conv.bind (m := fun _ => each f bs) ((conv_strs fun b hb => h b (List.mem_cons_of_mem _ hb)).mono fun cs s2 ⟨h3, h4⟩ => Conv.pure ⟨⟨h4.toPast.was h1, h3⟩, h2.trans h4⟩)

theorem Wf.envOf (h : Wf L C P T s) {c : Nat} {f : FnData} (hc : s.Holds c (.fn f)) : ∃ st, s.envs[f.env.getD s.eng.env]? = some st := by
  obtain ⟨x, hx, hd⟩ := hc
  have hok := (h.shape.data _ x hx).2
  rw [hd] at hok
  have hlt : f.env.getD s.eng.env < s.envs.length := by
    cases he : f.env with
    | none => exact h.shape.cur
    | some e => exact hok.2.1 e he
  exact ⟨_, List.getElem?_eq_getElem hlt⟩

theorem readStr_some {buf : Nat} {b full : Bytes} (h : s.bufs[buf]? = some (some full)) (hp : b <+: full) : readStr buf b.length s = .ok (cstr b) s := by
  unfold readStr
  rw [bind_of_ok (get_apply s), h]
  obtain ⟨t, rfl⟩ := hp
  dsimp only
  rw [if_pos (by simp), List.take_left]
  rfl

/-! ## `Fs.list` -/

theorem conv_fsList {c : Nat} {d : Bytes} {ps : List Bytes} (hd : NUL ∉ d) (h : s.Shows (.str d) c) (hl : w.list d = some ps) :
    Conv (fun _ => fsList w [c]) s fun v s' => s'.Was (.strs ps) v ∧ Idle s s' := by
  obtain ⟨buf, full, ⟨x, hx, hxd⟩, h2, h3⟩ := h
  unfold fsList
  dsimp only
  refine Conv.bind_ok (m := fun _ => getCell c) (fun _ => (getCell_ok_iff ..).2 ⟨hx, rfl⟩) ?_
  rw [hxd]
  dsimp only
  refine Conv.bind_ok (m := fun _ => readStr buf d.length) (fun _ => readStr_some h2 h3) ?_
  rw [cstr_eq_self hd, hl]
  dsimp only
  refine Conv.bind (m := fun _ => each allocStr ps) ((conv_strs (t := id) fun _ _ => rfl).mono fun es s1 ⟨g1, g2⟩ => ?_)
  refine (conv_alloc (v := .strs ps) (.vec es) fun hi hh => ⟨es, hh, hi.toPast.wasAll (by rw [List.map_id] at g1; exact g1)⟩).mono fun c s2 ⟨k1, k2⟩ => ⟨k1, g2.trans k2⟩

theorem findOwner_cls (h : Wf L C P T s) {l i c : Nat} {y : Cell} {x : Scope} {f : FnData} (hl : s.cells[l]? = some y) (ho : y.owner = some i) (hx : s.scopes[i]? = some x) (hxo : x.owner = some c) (hc : s.Holds c (.fn f))
    (hf : f.kind = .cls) : findOwner l s = .ok (.cls c) s := by
  obtain ⟨z, hz, hzd⟩ := hc
  unfold findOwner
  rw [bind_of_ok ((getCell_ok_iff ..).2 ⟨hl, rfl⟩), bind_of_ok ((deref_ok_iff ..).2 ⟨ho, rfl⟩), bind_of_ok (getScope_alive ⟨hx, (h.shape.scopes i x hx).freed⟩), hxo]
  dsimp only
  rw [bind_of_ok ((getCell_ok_iff ..).2 ⟨hz, rfl⟩), hzd]
  dsimp only
  rw [if_pos hf]
  rfl

theorem conv_externList (h : Wf L C P T s) {fs l c : Nat} {d : Bytes} {ps : List Bytes} (hb : FsIs s fs) (hl : s.host.fsList = some l) (hd : NUL ∉ d) (hc : s.Shows (.str d) c) (hw : w.list d = some ps) :
    Conv (fun _ => externFn w l [c]) s fun v s' => s'.Was (.strs ps) v ∧ Idle s s' := by
  obtain ⟨h0, sc, l', h1, ⟨f, h2, h3, h4⟩, ⟨x, h5, h6, _⟩, y, g, h8, h9, h10, h11, h12⟩ := hb
  cases hl.symm.trans h1
  unfold externFn
  refine Conv.bind_ok (m := fun _ => getCell l) (fun _ => (getCell_ok_iff ..).2 ⟨h8, rfl⟩) ?_
  refine Conv.bind_ok (m := fun _ => findOwner l) (fun _ => findOwner_cls h h8 h9 h5 h6 h2 h3) ?_
  refine Conv.bind_ok (m := fun _ => M.get) (fun _ => get_apply s) ?_
  have hsk : (Owner.cls fs).skip s.host.fsCls = false := by
    unfold Owner.skip
    rw [h0]
    simp
  unfold askClass
  rw [hsk]
  refine Conv.bind (m := fun _ => if false = true then pure none else fsCall w l [c]) (Conv.else (m := fun _ => pure none) (fun h => nomatch h) ?_)
  unfold fsCall
  refine Conv.bind_ok (m := fun _ => M.get) (fun _ => get_apply s) (Conv.then hl.symm ?_)
  exact Conv.bind (m := fun _ => fsList w [c]) ((conv_fsList hd hc hw).mono fun v s1 hq => Conv.pure (Conv.pure hq))

/-- Looking at a class's own function. -/
theorem conv_static (hst : s.Stack st) (h : Wf L C P T s) {name member : Bytes} {c i l : Nat} {f : FnData} {x : Scope} (hf : Finds s.scopes name st c) (hc : s.Holds c (.fn f)) (hk : f.kind = .cls) (hs : f.scope = some i)
    (hx : s.scopes[i]? = some x) (hl : FindsIn x member l) :
    Conv (fun n => (interp w n).eval .keep (.access (.ident name) member)) s fun r s1 => r.val = some l ∧ r.acc = some c ∧ Idle s s1 := by
  refine Conv.succ (m' := fun n => evalAccess (interp w n) .keep (.ident name) member) (fun _ => rfl) ?_
  unfold evalAccess accessFind
  refine Conv.bind (Conv.bind (conv_value (e := .ident name) (Conv.bind (m := fun _ => evalIdent name) ((conv_ident h hst hf).mono fun c' s1 ⟨hc', hw1, hi⟩ => Conv.pure ⟨c', rfl, ?_⟩))))
  subst hc'
  obtain ⟨y, hy, hyd⟩ := hi.toPast.holds hc
  refine Conv.bind_ok (m := fun _ => getCell c') (fun _ => (getCell_ok_iff ..).2 ⟨hy, rfl⟩) ?_
  rw [hyd]
  dsimp only
  obtain ⟨x1, hx1, hks, hvs, _⟩ := hi.scopes i x hx
  obtain ⟨k, v, k1, k2, k3, k4⟩ := (hl.kept hks hvs).has
  refine Conv.then (by rw [hk]; rfl) ?_
  refine Conv.bind_ok (m := fun _ => M.deref f.scope) (fun _ => (deref_ok_iff ..).2 ⟨hs, rfl⟩) ?_
  refine Conv.bind_ok (m := fun _ => shallowFind i member) (fun _ => shallowFind_alive ⟨hx1, (hw1.shape.scopes i x1 hx1).freed⟩ member) ?_
  rw [k4]
  dsimp only
  refine Conv.bind_ok (m := fun _ => getVar (i, k)) (fun _ => getVar_isVar hw1 ⟨x1, hx1, k1, k2⟩) (Conv.pure ?_)
  dsimp only
  refine Conv.else (fun h => nomatch h) (Conv.bind_ok (m := fun _ => checkDest .keep) (fun _ => rfl) ?_)
  refine Conv.bind_ok (m := fun _ => M.deref v.val .uninit) (fun _ => (deref_ok_iff ..).2 ⟨k3, rfl⟩) ?_
  have hiv : IsVar s1 member (i, k) v := ⟨x1, hx1, k1, k2⟩
  exact Conv.bind (m := fun _ => incref l) ((conv_incref hw1 (hiv.val hw1 k3).1).mono fun _ s2 ⟨_, g2⟩ => Conv.pure ⟨rfl, rfl, hi.trans g2⟩)

theorem ev_list (hW : w.Ok L) {e : Expr} {d : Bytes} {ps : List Bytes} {q : List Ask} (hok : (Expr.call (.access (.ident b!"Fs") b!"list") [e]).ok L false = true) (he : Ev w L ρ e (.str d) q) (hl : w.list d = some ps) :
    Ev w L ρ (.call (.access (.ident b!"Fs") b!"list") [e]) (.strs ps) q := by
  intro C P T X r0 st s hs hst
  obtain ⟨fs, cc, lk, hB, hF, _, _⟩ := hs.bob
  have hFs := hB.isFs
  obtain ⟨h0, sc, l, h1, ⟨f, h2, h3, h4⟩, ⟨x, h5, h6, h7⟩, y, g, h8, h9, h10, h11, h12⟩ := hB.isFs
  refine conv_evalCall hW hok hs.wf hs.rv (K := fun acc c fd s1 => acc = some fs ∧ c = l ∧ fd = g ∧ Idle s s1)
    (A := fun acc c fd cs s2 => acc = some fs ∧ c = l ∧ fd = g ∧ (∃ a, cs = [a] ∧ s2.Was (.str d) a) ∧ (∀ c ∈ cs, ∀ x, s2.cells[c]? = some x → ¬ x.data.Named) ∧ Stays s s2 ∧ Amb w L X (r0 ++ q) s2) ?_ ?_ ?_
  · exact (conv_static hst hs.wf hF h2 h3 h4 h5 h7).mono fun r s1 ⟨g1, g2, g3⟩ => ⟨l, g, g1, g3.toPast.holds ⟨y, h8, h10⟩, g2, rfl, rfl, g3⟩
  · intro acc c fd s1 ⟨e1, e2, e3, hi⟩ hw hq
    exact (conv_arg he (hs.idle hi hw hq.2) (hq.stack hst)).mono fun cs s2 ⟨g1, g2, g3, g4⟩ => ⟨e1, e2, e3, g1, g2, hi.toStays.trans g3, g4⟩
  · intro acc c fd cs s2 ⟨e1, e2, e3, ⟨a, e4, ha⟩, hn, hsy, hamb⟩ hc hw hq
    subst e1 e2 e3 e4
    have hinst : instScope (some fs) s2 = .ok none s2 := by
      obtain ⟨z, hz, hzd⟩ := hsy.toPast.holds h2
      show (getCell fs >>= fun y => match y.data with
        | .inst i => pure (some i.scope)
        | _ => pure none) s2 = _
      rw [bind_of_ok ((getCell_ok_iff ..).2 ⟨hz, rfl⟩), hzd]
      rfl
    obtain ⟨st', hst'⟩ := hw.envOf hc.fn
    obtain ⟨s0, hI⟩ := inside hW hw hc hinst (st := st') hst' (.inr ⟨fun p h => (nomatch h11.symm.trans h), rfl, h12⟩) hn
    have hs0 := hsy.trans hI.idle.toStays
    have hsh := hI.wf.shows (hI.idle.toPast.was ha) fun _ => hI.wf.live_P (by simp)
    have hnul := plain_of_shows hI.wf hsh (hI.wf.live_P (by simp))
    refine (hI.extern hq.2 h11 ((conv_externList hI.wf (hFs.kept hs0.toPast hs0.scopes) (hs0.fsList.trans h1) hnul hsh hl).mono fun v s1 hq' => ⟨hq'.2.toPast, hq'⟩)).mono fun o s4 ⟨v, s3, g1, ⟨g2, g3⟩, g5⟩ =>
      ⟨v, g1, g5.toPast.was g2, (hs0.trans g3.toStays).trans g5.toStays, (hamb.idle (hI.idle.trans g3)).idle g5⟩

end

end Bob.Fl
