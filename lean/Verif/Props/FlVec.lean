import Verif.Props.FlMethods
import Verif.Props.FlDeterminism
import Verif.Spec.FlVec
/-!
# `map` and `where` (C55)
-/

namespace Bob.Fl

theorem Calls1.at {w : World} {f e : Nat} {s : St} {o : Out (Option Nat)} (h : Calls1 w f e s o) : ∃ N, ∀ n, N ≤ n → (interp w n).call f none .keep [e] s = o := by
  obtain ⟨hne, N, rfl⟩ := h
  exact ⟨N, fun n hn => (((further_le w hn).call _ _ _ _ _).resolve_left hne).symm⟩

theorem Evals.at {w : World} {e : Expr} {s : St} {o : Out Res} (h : Evals w e s o) : ∃ N, ∀ n, N ≤ n → (interp w n).eval .keep e s = o := by
  obtain ⟨hne, N, rfl⟩ := h
  exact ⟨N, fun n hn => (((further_le w hn).eval _ _ _).resolve_left hne).symm⟩

theorem Evals.of {w : World} {e : Expr} {s : St} {o : Out Res} (n : Nat) (hne : o ≠ .timeout) (h : (interp w n).eval .keep e s = o) : Evals w e s o := ⟨hne, n, h⟩

theorem Evals.unique {w : World} {e : Expr} {s : St} {o o' : Out Res} (h : Evals w e s o) (h' : Evals w e s o') : o = o' := by
  obtain ⟨N, hN⟩ := h.at
  obtain ⟨N', hN'⟩ := h'.at
  exact (hN (max N N') (Nat.le_max_left ..)).symm.trans (hN' (max N N') (Nat.le_max_right ..))

theorem getVec_ok {s : St} {self : Nat} {es : List Nat} (h : s.Holds self (.vec es)) : getVec self s = .ok es s := by
  obtain ⟨x, hx, hd⟩ := getCell_holds h
  unfold getVec
  rw [bind_of_ok hx, hd]
  rfl

/-- The loop of `map`. -/
theorem MapRun.loop {w : World} {self f i n : Nat} {s s' : St} {cs : List Nat} (h : MapRun w self f i n s cs s') :
    ∃ N, ∀ m, N ≤ m → mapLoop (interp w m) self f n i s = .ok cs s' := by
  induction h with
  | done => exact ⟨0, fun _ _ => rfl⟩
  | next h1 h2 h3 _ ih =>
    obtain ⟨N, hN⟩ := h3.at
    obtain ⟨N', hN'⟩ := ih
    refine ⟨max N N', fun m hm => ?_⟩
    unfold mapLoop
    rw [bind_of_ok (getVec_ok h1), bind_of_ok ((deref_ok_iff ..).2 ⟨h2, rfl⟩), bind_of_ok (hN m (by omega)), bind_of_ok ((deref_ok_iff ..).2 ⟨rfl, rfl⟩),
      bind_of_ok (hN' m (by omega))]
    rfl

/-- The loop of `map` when a call fails. -/
theorem MapRun.fails {w : World} {self f i n e : Nat} {s s' : St} {cs es : List Nat} {o : Out (Option Nat)} (h : MapRun w self f i n s cs s')
    (h1 : s'.Holds self (.vec es)) (h2 : es[i + n]? = some e) (h3 : Calls1 w f e s' o) (hbad : o.Bad) (k : Nat) :
    ∃ N, ∀ m, N ≤ m → SameBad o (mapLoop (interp w m) self f (n + (k + 1)) i s) := by
  induction h with
  | @done i s =>
    obtain ⟨N, hN⟩ := h3.at
    refine ⟨N, fun m hm => ?_⟩
    rw [Nat.zero_add]
    rw [Nat.add_zero] at h2
    unfold mapLoop
    rw [bind_of_ok (getVec_ok h1), bind_of_ok ((deref_ok_iff ..).2 ⟨h2, rfl⟩)]
    have := sameBad_bind (m := (interp w m).call f none .keep [e]) (f := fun r => do
      let c ← M.deref r
      let cs ← mapLoop (interp w m) self f k (i + 1)
      pure (c :: cs)) (s := s) (by rw [hN m hm]; exact hbad)
    rw [hN m hm] at this
    exact this
  | @next i n e' c es' cs s s1 s2 g1 g2 g3 _ ih =>
    obtain ⟨N, hN⟩ := g3.at
    obtain ⟨N', hN'⟩ := ih h1 (by rw [show i + 1 + n = i + (n + 1) by omega]; exact h2) h3
    refine ⟨max N N', fun m hm => ?_⟩
    rw [show n + 1 + (k + 1) = n + (k + 1) + 1 by omega]
    unfold mapLoop
    rw [bind_of_ok (getVec_ok g1), bind_of_ok ((deref_ok_iff ..).2 ⟨g2, rfl⟩), bind_of_ok (hN m (by omega)), bind_of_ok ((deref_ok_iff ..).2 ⟨rfl, rfl⟩)]
    have hb := hN' m (by omega)
    exact hb.trans (sameBad_bind hb.bad)

/-- What is common to both methods: calling one with a function. -/
theorem vec_method {w : World} {e fe : Expr} {s s1 s2 : St} {a f k : Nat} {p : Ptm} {name : Bytes} {st es es2 : List Nat} {r ra : Res}
    (hname : ptmIdx .vec name = some k) (hp : members[k]? = some p)
    (he : Evals w e s (.ok ra s1)) (hra : ra.val = some a) (hc1 : s1.Holds a (.vec es)) (hr : s1.Builtins) (ht : Evals w fe (s1.bump (s1.eng.ptm + k)) (.ok r s2))
    (hrt : r.val = some f) (hf : f < s2.cells.length) (hc2 : s2.Holds a (.vec es2)) (hr2 : s2.Ready st) :
    ∃ s0, Entered { kind := .ptm p } none st [[]] [f] s2 s0 ∧
      (∀ v s3 g, (∃ N, ∀ m, N ≤ m → runPtm (interp w m) p (some a) [f] s0 = .ok v s3) → s3.Holds (s1.eng.ptm + k) (.fn g) → g.kind ≠ .cls →
        Evals w (.call (.access e name) [fe]) s (.ok { val := some v } (afterBody { kind := .ptm p } st s2 s3))) ∧
      (∀ o : Out Nat, o ≠ .timeout → o.Bad → (∃ N, ∀ m, N ≤ m → runPtm (interp w m) p (some a) [f] s0 = o) →
        ∃ o', SameBad o o' ∧ Evals w (.call (.access e name) [fe]) s o') := by
  obtain ⟨N1, hN1⟩ := he.at
  obtain ⟨N2, hN2⟩ := ht.at
  have key : ∀ n, N1 ≤ n → N2 ≤ n → (interp w (n + 2)).eval .keep (.call (.access e name) [fe]) s =
      ((interp w (n + 1)).call (s1.eng.ptm + k) (some a) .keep [f] s2).mapVal fun v => { val := v } := by
    intro n h1 h2
    have hacc := access_ptm w n (name := name) (k := k) (value_ok (hN1 n h1) hra) hc1 hname hr
    have hg : (s1.bump (s1.eng.ptm + k)).Holds (s1.eng.ptm + k) (.fn { kind := .ptm p }) := by
      obtain ⟨x, hx, hxd, -⟩ := bump_builtins (c := s1.eng.ptm + k) hr k p hp
      exact ⟨x, hx, hxd⟩
    exact C60_left_to_right w (n + 1) hacc rfl hg (.cons (hN2 (n + 1) (by omega)) hrt .nil) .keep
  have heng : s2.eng.ptm = s1.eng.ptm := (((recFr w N2).eval .keep fe).out (hN2 N2 (Nat.le_refl _))).ptm
  obtain ⟨x, hx, hxd, -⟩ := hr2.builtins k p hp
  rw [heng] at hx
  obtain ⟨s0, h0, hall⟩ := ptm_call w (p := p) (c := s1.eng.ptm + k) ⟨x, hx, hxd⟩ hc2 (by simp [Data.kind]) hr2.stack hr2.top (args := [f]) (by simpa using hf) hr2.rv
  refine ⟨s0, h0, fun v s3 g ⟨N, hN⟩ hg hgk => ?_, fun o ho hbad ⟨N, hN⟩ => ?_⟩
  · refine .of (max N (max N1 N2) + 2) (fun h => nomatch h) ?_
    rw [key _ (by omega) (by omega), (hall _).1 v s3 g (hN _ (by omega)) hg hgk]
    rfl
  · refine ⟨_, ?_, .of (max N (max N1 N2) + 2) ?_ rfl⟩
    all_goals
      rw [key _ (by omega) (by omega)]
      have h1 := (hall (max N (max N1 N2))).2 (by rw [hN _ (by omega)]; exact hbad)
      rw [hN _ (by omega)] at h1
    · exact h1.trans (sameBad_map h1.bad _)
    · cases o with
      | ok => exact hbad.elim
      | timeout => exact absurd rfl ho
      | _ =>
        rw [show _ = _ from h1]
        exact fun h => nomatch h

theorem MapRun.length {w : World} {self f i n : Nat} {s s' : St} {cs : List Nat} (h : MapRun w self f i n s cs s') : cs.length = n := by
  induction h with
  | done => rfl
  | next _ _ _ _ ih => rw [List.length_cons, ih]

/-- The end of `val_copy`. -/
def copyEnd (x : Cell) (d : Data) : M Nat := fun s => .ok s.cells.length { s with cells := s.cells ++ [{ x with data := d, refs := 1, keyIn := none }] }

theorem copied_ok {s s' : St} {e c : Nat} : valCopy e s = .ok c s' ↔ Copied s e c s' := by
  have hv : valCopy e = (getCell e >>= fun x => readName x >>= fun _ => copyData x.data >>= fun d => copyEnd x d) := rfl
  rw [hv]
  constructor
  · intro h
    obtain ⟨x, s1, h1, h'⟩ := (bind_ok_iff ..).1 h
    clear h
    obtain ⟨hx, rfl⟩ := (getCell_ok_iff ..).1 h1
    obtain ⟨_, s2', h2, h''⟩ := (bind_ok_iff ..).1 h'
    clear h'
    obtain ⟨hn, -, e⟩ := readName_ok_iff.1 h2
    subst s2'
    clear h2
    obtain ⟨d, s2, h2, h⟩ := (bind_ok_iff ..).1 h''
    clear h''
    have h : Out.ok s2.cells.length { s2 with cells := s2.cells ++ [{ x with data := d, refs := 1, keyIn := none }] } = .ok c s' := h
    by_cases hstr : ∃ buf size, x.data = .str buf size
    · obtain ⟨buf, size, hd⟩ := hstr
      rw [hd] at h2
      have h2 : (strndup buf size >>= fun b => pure (Data.str b size)) s1 = .ok d s2 := h2
      obtain ⟨b, s3, h3, h4⟩ := (bind_ok_iff ..).1 h2
      cases h4
      obtain ⟨t, s4, h5, h6⟩ := (bind_ok_iff ..).1 h3
      cases h6
      unfold readStr at h5
      rw [bind_of_ok (get_apply _)] at h5
      cases hb : s1.bufs[buf]? with
      | none => rw [hb] at h5; cases h5
      | some full =>
        cases full with
        | none => rw [hb] at h5; cases h5
        | some full =>
          rw [hb] at h5
          simp only at h5
          split at h5
          · rename_i hc
            cases h5
            cases h
            exact ⟨rfl, x, _, _, hx, hn, rfl, .inr ⟨buf, size, full, hd, hb, by simpa using hc, rfl, rfl⟩⟩
          · cases h5
    · have hd : ∀ buf size, x.data ≠ .str buf size := fun buf size h => hstr ⟨buf, size, h⟩
      have h2' : copyData x.data s1 = .ok x.data s1 := by
        cases hxd : x.data <;> first | rfl | exact absurd hxd (hd _ _)
      cases h2'.symm.trans h2
      cases h
      refine ⟨rfl, x, _, [], hx, hn, by rw [List.append_nil], .inl ⟨?_, rfl, rfl⟩⟩
      cases hxd : x.data <;> simp [Data.kind]
      rename_i buf size
      exact hd _ _ hxd
  · rintro ⟨rfl, x, d, extra, hx, hn, rfl, h⟩
    rw [bind_of_ok ((getCell_ok_iff ..).2 ⟨hx, rfl⟩), bind_of_ok (readName_kept hn)]
    rcases h with ⟨hk, rfl, rfl⟩ | ⟨buf, size, full, hd, hb, hsz, rfl, rfl⟩
    · have : copyData x.data s = .ok x.data s := by
        cases hxd : x.data <;> first | rfl | (rw [hxd] at hk; exact absurd rfl hk)
      rw [bind_of_ok this, List.append_nil]
      rfl
    · have : copyData x.data s = .ok (.str s.bufs.length size) { s with bufs := s.bufs ++ [some (cstr (full.take size) ++ [NUL])] } := by
        rw [hd]
        show (strndup buf size >>= fun b => pure (Data.str b size)) s = _
        have h1 : readStr buf size s = .ok (cstr (full.take size)) s := by
          unfold readStr
          rw [bind_of_ok (get_apply _), hb]
          simp only
          rw [if_pos (by simpa using hsz)]
          rfl
        have h2 : strndup buf size s = .ok s.bufs.length { s with bufs := s.bufs ++ [some (cstr (full.take size) ++ [NUL])] } := by
          unfold strndup
          rw [bind_of_ok h1]
          rfl
        rw [bind_of_ok h2]
        rfl
      rw [bind_of_ok this]
      rfl

/-- The loop of `where`. -/
theorem WhereRun.loop {w : World} {self f i : Nat} {s s' : St} {cs : List Nat} (h : WhereRun w self f i s cs s') :
    ∃ N, ∀ m, N ≤ m → (interp w m).filter self f i s = .ok cs s' := by
  induction h with
  | @done i es s h1 h2 =>
    refine ⟨1, fun m hm => ?_⟩
    obtain ⟨m, rfl⟩ : ∃ k, m = k + 1 := ⟨m - 1, by omega⟩
    show stepFilter (interp w m) self f _ _ = _
    unfold stepFilter
    rw [bind_of_ok (getVec_ok h1), List.getElem?_eq_none h2]
    rfl
  | take h1 h2 h3 h4 h5 _ ih =>
    obtain ⟨N, hN⟩ := h3.at
    obtain ⟨N', hN'⟩ := ih
    refine ⟨max N N' + 1, fun m hm => ?_⟩
    obtain ⟨m, rfl⟩ : ∃ k, m = k + 1 := ⟨m - 1, by omega⟩
    show stepFilter (interp w m) self f _ _ = _
    unfold stepFilter
    obtain ⟨x, hx, hd⟩ := getCell_holds h4
    rw [bind_of_ok (getVec_ok h1), h2]
    simp only
    rw [bind_of_ok (hN m (by omega)), bind_of_ok ((deref_ok_iff ..).2 ⟨rfl, rfl⟩), bind_of_ok hx, hd]
    simp only [if_true]
    rw [bind_of_ok (copied_ok.2 h5), bind_of_ok (hN' m (by omega))]
    rfl
  | drop h1 h2 h3 h4 _ ih =>
    obtain ⟨N, hN⟩ := h3.at
    obtain ⟨N', hN'⟩ := ih
    refine ⟨max N N' + 1, fun m hm => ?_⟩
    obtain ⟨m, rfl⟩ : ∃ k, m = k + 1 := ⟨m - 1, by omega⟩
    show stepFilter (interp w m) self f _ _ = _
    unfold stepFilter
    obtain ⟨x, hx, hd⟩ := getCell_holds h4
    rw [bind_of_ok (getVec_ok h1), h2]
    simp only
    rw [bind_of_ok (hN m (by omega)), bind_of_ok ((deref_ok_iff ..).2 ⟨rfl, rfl⟩), bind_of_ok hx, hd]
    simp only [Bool.false_eq_true, if_false]
    exact hN' m (by omega)

/-- The loop of `where` when a call fails. -/
theorem WherePart.fails {w : World} {self f i j e : Nat} {s s' : St} {es : List Nat} {o : Out (Option Nat)} (h : WherePart w self f i s j s')
    (h1 : s'.Holds self (.vec es)) (h2 : es[j]? = some e) (h3 : Calls1 w f e s' o) (hbad : o.Bad) :
    ∃ N, ∀ m, N ≤ m → SameBad o ((interp w m).filter self f i s) := by
  induction h with
  | here =>
    obtain ⟨N, hN⟩ := h3.at
    refine ⟨N + 1, fun m hm => ?_⟩
    obtain ⟨m, rfl⟩ : ∃ k, m = k + 1 := ⟨m - 1, by omega⟩
    show SameBad o (stepFilter (interp w m) self f _ _)
    unfold stepFilter
    rw [bind_of_ok (getVec_ok h1), h2]
    simp only
    rw [bind_apply, hN m (by omega)]
    cases o with
    | ok => exact hbad.elim
    | _ => rfl
  | take g1 g2 g3 g4 g5 _ ih =>
    obtain ⟨N, hN⟩ := g3.at
    obtain ⟨N', hN'⟩ := ih h1 h2 h3
    refine ⟨max N N' + 1, fun m hm => ?_⟩
    obtain ⟨m, rfl⟩ : ∃ k, m = k + 1 := ⟨m - 1, by omega⟩
    show SameBad o (stepFilter (interp w m) self f _ _)
    unfold stepFilter
    obtain ⟨x, hx, hd⟩ := getCell_holds g4
    rw [bind_of_ok (getVec_ok g1), g2]
    simp only
    rw [bind_of_ok (hN m (by omega)), bind_of_ok ((deref_ok_iff ..).2 ⟨rfl, rfl⟩), bind_of_ok hx, hd]
    simp only [if_true]
    rw [bind_of_ok (copied_ok.2 g5)]
    have hb := hN' m (by omega)
    exact hb.trans (sameBad_bind hb.bad)
  | drop g1 g2 g3 g4 _ ih =>
    obtain ⟨N, hN⟩ := g3.at
    obtain ⟨N', hN'⟩ := ih h1 h2 h3
    refine ⟨max N N' + 1, fun m hm => ?_⟩
    obtain ⟨m, rfl⟩ : ∃ k, m = k + 1 := ⟨m - 1, by omega⟩
    show SameBad o (stepFilter (interp w m) self f _ _)
    unfold stepFilter
    obtain ⟨x, hx, hd⟩ := getCell_holds g4
    rw [bind_of_ok (getVec_ok g1), g2]
    simp only
    rw [bind_of_ok (hN m (by omega)), bind_of_ok ((deref_ok_iff ..).2 ⟨rfl, rfl⟩), bind_of_ok hx, hd]
    simp only [Bool.false_eq_true, if_false]
    exact hN' m (by omega)

theorem fnArg_ok {what : Bytes} {s : St} {f : Nat} {g : FnData} (h : s.Holds f (.fn g)) : fnArg what [f] s = .ok f s := by
  obtain ⟨x, hx, hd⟩ := getCell_holds h
  show (getCell f >>= fun x => match x.data with
    | .fn _ => pure f
    | d => raise (b!"'vec." ++ what ++ b!"' expected 'fn' argument to be a function, got a " ++ typeStr d) : M Nat) s = _
  rw [bind_of_ok hx, hd]
  rfl

/-- What `e.map(fe)` and `e.where(fe)` start from: `e` is a vector, `fe` a function, and methods can be called. -/
structure VecCall (w : World) (k : Nat) (e fe : Expr) (s : St) (a f : Nat) (es st : List Nat) (member : Nat) (s2 : St) : Prop where
  recv : ∃ s1 ra es1, Evals w e s (.ok ra s1) ∧ ra.val = some a ∧ s1.Holds a (.vec es1) ∧ s1.Builtins ∧ member = s1.eng.ptm + k ∧
    ∃ r, Evals w fe (s1.bump member) (.ok r s2) ∧ r.val = some f
  fn : ∃ g, s2.Holds f (.fn g)
  vec : s2.Holds a (.vec es)
  ready : s2.Ready st

/-- **C55.** `e.map(fe)`: once `e` is known to be the vector `a` with elements `es` and `fe` the function `f`, a scope is entered (state `s0`).  If `f` can be called on
every element, once and in order, the value is a new vector of the results in order.  If a call fails, so does the whole, in the same way.  (The
member `map` must not be overwritten by the calls, see C54.) -/
theorem C55_map_partial {w : World} {e fe : Expr} {s s2 : St} {a f m : Nat} {es st : List Nat} (h : VecCall w 4 e fe s a f es st m s2) :
    ∃ s0, Entered { kind := .ptm .vecMap } none st [[]] [f] s2 s0 ∧
      (∀ cs s3 g, MapRun w a f 0 es.length s0 cs s3 → s3.Holds m (.fn g) → g.kind ≠ .cls →
        ∃ c s', Evals w (.call (.access e b!"map") [fe]) s (.ok { val := some c } s') ∧ s'.Holds c (.vec cs) ∧ cs.length = es.length ∧ c = s3.cells.length) ∧
      (∀ cs s3 es3 e3 n o, n < es.length → MapRun w a f 0 n s0 cs s3 → s3.Holds a (.vec es3) → es3[n]? = some e3 → Calls1 w f e3 s3 o → o.Bad →
        ∃ o', SameBad o o' ∧ Evals w (.call (.access e b!"map") [fe]) s o') := by
  obtain ⟨⟨s1, ra, es1, he, hra, hc1, hb, rfl, r, hfe, hr⟩, ⟨g, hg⟩, hvec, hready⟩ := h
  have hlt : f < s2.cells.length := by
    obtain ⟨x, hx, -⟩ := hg
    exact (List.getElem?_eq_some_iff.1 hx).1
  obtain ⟨s0, h0, hok, hfail⟩ := vec_method (p := .vecMap) (name := b!"map") rfl rfl he hra hc1 hb hfe hr hlt hvec hready
  obtain ⟨x, hx, hd⟩ := getCell_holds (h0.holds hvec)
  have hrun : ∀ n, runPtm (interp w n) .vecMap (some a) [f] s0 = (mapLoop (interp w n) a f es.length 0 >>= fun cs => alloc (.vec cs) : M Nat) s0 := by
    intro n
    unfold runPtm
    rw [bind_of_ok ((deref_ok_iff ..).2 ⟨rfl, rfl⟩), bind_of_ok hx, hd]
    simp only
    rw [bind_of_ok (fnArg_ok (h0.holds hg))]
  refine ⟨s0, h0, fun cs s3 g hm hm1 hm2 => ?_, fun cs s3 es3 e3 n o hn hm h3 h4 h5 hbad => ?_⟩
  · obtain ⟨N, hN⟩ := hm.loop
    refine ⟨_, _, hok s3.cells.length { s3 with cells := s3.cells ++ [{ data := .vec cs }] } g ⟨N, fun n hn => ?_⟩ (holds_append hm1) hm2, holds_alloc .., hm.length, rfl⟩
    rw [hrun, bind_of_ok (hN n hn)]
    rfl
  · obtain ⟨k, hk⟩ : ∃ k, es.length = n + (k + 1) := ⟨es.length - n - 1, by omega⟩
    obtain ⟨N, hN⟩ := hm.fails h3 (by rw [Nat.zero_add]; exact h4) h5 hbad k
    have hs : ∀ n, N ≤ n → SameBad o (runPtm (interp w n) .vecMap (some a) [f] s0) := by
      intro n hn
      rw [hrun, hk]
      have := hN n hn
      exact this.trans (sameBad_bind this.bad)
    obtain ⟨o', h6, h7⟩ := hfail (o.mapVal fun _ => 0) (by cases o <;> first | exact absurd rfl h5.1 | exact fun h => nomatch h) (by cases o <;> trivial)
      ⟨N, fun n hn => by
        have := hs n hn
        cases o <;> first | exact hbad.elim | exact this⟩
    refine ⟨o', ?_, h7⟩
    cases o <;> first | exact hbad.elim | exact h6

/-- **C55.** `e.where(fe)`: likewise; the value is a new vector of copies, in order, of the elements for which `f` gave true. -/
theorem C55_where_partial {w : World} {e fe : Expr} {s s2 : St} {a f m : Nat} {es st : List Nat} (h : VecCall w 5 e fe s a f es st m s2) :
    ∃ s0, Entered { kind := .ptm .vecWhere } none st [[]] [f] s2 s0 ∧
      (∀ cs s3 g, WhereRun w a f 0 s0 cs s3 → s3.Holds m (.fn g) → g.kind ≠ .cls →
        ∃ c s', Evals w (.call (.access e b!"where") [fe]) s (.ok { val := some c } s') ∧ s'.Holds c (.vec cs) ∧ c = s3.cells.length) ∧
      (∀ s3 es3 e3 n o, WherePart w a f 0 s0 n s3 → s3.Holds a (.vec es3) → es3[n]? = some e3 → Calls1 w f e3 s3 o → o.Bad →
        ∃ o', SameBad o o' ∧ Evals w (.call (.access e b!"where") [fe]) s o') := by
  obtain ⟨⟨s1, ra, es1, he, hra, hc1, hb, rfl, r, hfe, hr⟩, ⟨g, hg⟩, hvec, hready⟩ := h
  have hlt : f < s2.cells.length := by
    obtain ⟨x, hx, -⟩ := hg
    exact (List.getElem?_eq_some_iff.1 hx).1
  obtain ⟨s0, h0, hok, hfail⟩ := vec_method (p := .vecWhere) (name := b!"where") rfl rfl he hra hc1 hb hfe hr hlt hvec hready
  obtain ⟨x, hx, hd⟩ := getCell_holds (h0.holds hvec)
  have hrun : ∀ n, runPtm (interp w n) .vecWhere (some a) [f] s0 = ((interp w n).filter a f 0 >>= fun cs => alloc (.vec cs) : M Nat) s0 := by
    intro n
    unfold runPtm
    rw [bind_of_ok ((deref_ok_iff ..).2 ⟨rfl, rfl⟩), bind_of_ok hx, hd]
    simp only
    rw [bind_of_ok (fnArg_ok (h0.holds hg))]
  refine ⟨s0, h0, fun cs s3 g hm hm1 hm2 => ?_, fun s3 es3 e3 n o hm h3 h4 h5 hbad => ?_⟩
  · obtain ⟨N, hN⟩ := hm.loop
    refine ⟨_, _, hok s3.cells.length { s3 with cells := s3.cells ++ [{ data := .vec cs }] } g ⟨N, fun n hn => ?_⟩ (holds_append hm1) hm2, holds_alloc .., rfl⟩
    rw [hrun, bind_of_ok (hN n hn)]
    rfl
  · obtain ⟨N, hN⟩ := hm.fails h3 h4 h5 hbad
    have hs : ∀ n, N ≤ n → SameBad o (runPtm (interp w n) .vecWhere (some a) [f] s0) := by
      intro n hn
      rw [hrun]
      have := hN n hn
      exact this.trans (sameBad_bind this.bad)
    obtain ⟨o', h6, h7⟩ := hfail (o.mapVal fun _ => 0) (by cases o <;> first | exact absurd rfl h5.1 | exact fun h => nomatch h) (by cases o <;> trivial)
      ⟨N, fun n hn => by
        have := hs n hn
        cases o <;> first | exact hbad.elim | exact this⟩
    refine ⟨o', ?_, h7⟩
    cases o <;> first | exact hbad.elim | exact h6

/-- `|x| x + 1` -/
def eInc : Expr := .lambda [b!"x"] (.expr (.bin .add (eVar b!"x") (eNum b!"1")))

/-- `|x| x > 1` -/
def eBig : Expr := .lambda [b!"x"] (.expr (.bin .gt (eVar b!"x") (eNum b!"1")))

/-- `[1, 2, 3]` -/
def eVec3 : Expr := .vec [eNum b!"1", eNum b!"2", eNum b!"3"]

example : (runScript emptyWorld 20 [] [sPrint (eCall (.access eVec3 b!"map") [eInc])]).printed = some [b!"[2, 3, 4]"] := by decide +kernel
example : (runScript emptyWorld 20 [] [sPrint (eCall (.access eVec3 b!"where") [eBig])]).printed = some [b!"[2, 3]"] := by decide +kernel
example : (runScript emptyWorld 20 [] [sPrint (eCall (.access (.vec [eNum b!"1", eStr b!"a"]) b!"map") [eInc])]).failed =
    some (some b!"operands have incompatible types: string and integer", []) := by decide +kernel

/-- `let v = [1, 2]; let w = [v]; v.map(|x| { w[0] = []; return x })` -/
def shrinks : List Stmt := [sLet b!"v" (.vec [eNum b!"1", eNum b!"2"]), sLet b!"w" (.vec [eVar b!"v"]),
  sDo (eCall (.access (eVar b!"v") b!"map") [.lambda [b!"x"] (.block [
    .line (.assign (.index (eVar b!"w") (eNum b!"0") b!"w[0]") (.vec [])), sRet (eVar b!"x")])])]

/-- **C55 fails** if a call makes the vector shorter: `map` reads beyond its end. -/
theorem C55_shrinking_false : (runScript emptyWorld 20 [] shrinks).isUb = true := by decide +kernel

end Bob.Fl
