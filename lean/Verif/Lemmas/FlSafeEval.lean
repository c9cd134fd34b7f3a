import Verif.Lemmas.FlSafe
/-!
# Expressions do not go wrong
-/

namespace Bob.Fl

/-! ## What is claimed -/

/-- The member of strings or vectors that an expression names. -/
def Expr.memberName : Expr → Option Bytes
  | .access _ x => if memberNames.contains x then some x else none
  | _ => none

/-- `p` is the member of that name of values like `d`. -/
def IsMember (p : Ptm) (d : Data) (name : Bytes) : Prop := ∃ k, ptmIdx d.kind name = some k ∧ members[k]? = some p

/-- What is known about a value of `e`, where `acc` is what it was accessed on. -/
def ValOk (L : Discipline) (e : Expr) (acc : Option Nat) (s : St) (c : Nat) : Prop :=
  ∃ y, s.cells[c]? = some y ∧
    match e.memberName with
    | some name => ∃ a z p, acc = some a ∧ s.cells[a]? = some z ∧ IsMember p z.data name ∧ y.data = .fn { kind := .ptm p }
    | none => y.data.NotPtm ∧ (e.isClass L = false → y.data.Plain)

/-- Names of the variables that evaluation may assign to. -/
def Discipline.touched (L : Discipline) (calm : Bool) : List Bytes := if calm then [] else L.inside

/-- Evaluating `e` ended well. -/
structure Evald (L : Discipline) (C P T : List Nat) (q : Bool) (d : Dest) (e : Expr) (s : St) (r : Res) (s' : St) : Prop where
  wf : if e.isNew L then Wf L C (r.val.toList ++ (r.acc.toList ++ P)) T s' else Wf L C (r.acc.toList ++ P) (r.val.toList ++ T) s'
  val : ∀ c, r.val = some c → ValOk L e r.acc s' c
  keep : d = .keep → ∃ c, r.val = some c
  grow : Grow (L.touched q) s s'

/-- A member which calls nothing back. -/
def Ptm.calm : Ptm → Bool
  | .vecMap | .vecWhere => false
  | _ => true

def FnKind.calm : FnKind → Bool
  | .ptm p => p.calm
  | _ => false

/-- What is needed for calling something. -/
structure CallOk (P : List Nat) (callable : Nat) (f : FnData) (acc : Option Nat) (args : List Nat) (s : St) : Prop where
  fn : ∃ x, s.cells[callable]? = some x ∧ x.data = .fn f
  kept : callable ∈ P
  accd : ∀ a, acc = some a → a ∈ P
  argd : ∀ c ∈ args, c ∈ P ∧ Plain s.cells c
  ptm : ∀ p, f.kind = .ptm p → ∃ a z name, acc = some a ∧ s.cells[a]? = some z ∧ IsMember p z.data name

/-- A call ended well. -/
structure Called (L : Discipline) (C P T : List Nat) (f : FnData) (d : Dest) (s : St) (r : Option Nat) (s' : St) : Prop where
  wf : if f.kind = .cls then Wf L C (r.toList ++ P) T s' else Wf L C P (r.toList ++ T) s'
  val : ∀ c, r = some c → Plain s'.cells c
  keep : d = .keep → ∃ c, r = some c
  grow : Grow (L.touched f.kind.calm) s s'

/-- The context is as it was, and nothing waits to be returned. -/
def Quit (s s' : St) : Prop := FrE s s' ∧ s'.eng.rv = .none

/-- What is claimed of the functions expressions consist of. -/
structure SafeE (L : Discipline) (R : Rec) : Prop where
  eval : ∀ {q : Bool} (d : Dest) {e : Expr} {C P T : List Nat} {s : St}, e.ok L q = true → Wf L C P T s → s.eng.rv = .none →
    Safe (R.eval d e) s fun r s' => Evald L C P T q d e s r s' ∧ Quit s s'
  call : ∀ {callable : Nat} {f : FnData} {acc : Option Nat} (d : Dest) {args : List Nat} {C P T : List Nat} {s : St}, CallOk P callable f acc args s → Wf L C P T s → s.eng.rv = .none →
    Safe (R.call callable acc d args) s fun r s' => Called L C P T f d s r s' ∧ Quit s s'
  filter : ∀ {self f i : Nat} {C P T : List Nat} {s : St} {fd : FnData} {es : List Nat}, s.Holds self (.vec es) → f ∈ P → Plain s.cells f → s.Holds f (.fn fd) → Wf L C P T s → s.eng.rv = .none →
    Safe (R.filter self f i) s fun cs s' => (Wf L (cs ++ C) P T s' ∧ (∀ c ∈ cs, Plain s'.cells c) ∧ Grow L.inside s s') ∧ Quit s s'

section
variable {L : Discipline} {C P T : List Nat} {s s' : St}

/-! ## Small things -/

theorem Elem.sup (h : Sup s s') {c : Nat} (hc : Elem s.cells c) : Elem s'.cells c := by
  obtain ⟨k, y, hy, hc⟩ := hc
  obtain ⟨y', hy', hd⟩ := h.cells k y hy
  exact ⟨k, y', hy', hd ▸ hc⟩

theorem Wf.permC {C' : List Nat} (h : Wf L C P T s) (hC : ∀ c, c ∈ C ↔ c ∈ C') : Wf L C' P T s := by
  have hh : ∀ c, Hard C' s.cells c ↔ Hard C s.cells c := fun c => or_congr_left (hC c).symm
  exact ⟨h.mem.mono (fun _ => Nat.le_refl _) (fun c hc => .inl (hc.imp (hh c).1 id)) (fun c hc => (hh c).2 hc) (fun c hc => .inl hc), h.shape, fun c hc => h.inC c ((hC c).2 hc), h.inP, h.inT⟩

theorem Discipline.touched_le (L : Discipline) (q : Bool) : ∀ x ∈ L.touched q, x ∈ L.inside := by
  intro x hx
  cases q
  · exact hx
  · cases hx

theorem memberName_iff (e : Expr) : e.isMember = e.memberName.isSome := by
  cases e with
  | access b x =>
    show memberNames.contains x = (if memberNames.contains x then some x else none).isSome
    cases memberNames.contains x <;> rfl
  | _ => rfl

theorem memberName_none {e : Expr} (h : e.isMember = false) : e.memberName = none := by
  rw [memberName_iff] at h
  exact Option.not_isSome_iff_eq_none.1 (by rw [h]; exact Bool.false_ne_true)

theorem isVal_iff (e : Expr) : e.isVal L = true ↔ e.isClass L = false ∧ e.isMember = false := by
  unfold Expr.isVal
  rw [Bool.and_eq_true, Bool.not_eq_true', Bool.not_eq_true']

theorem isOwn_iff (e : Expr) : e.isOwn L = true ↔ e.isVal L = true ∧ e.isNew L = false := by
  unfold Expr.isOwn
  rw [Bool.and_eq_true, Bool.not_eq_true']

theorem ValOk.plain {e : Expr} {acc : Option Nat} {c : Nat} (h : ValOk L e acc s c) (he : e.isVal L = true) : Plain s.cells c := by
  obtain ⟨h1, h2⟩ := (isVal_iff e).1 he
  obtain ⟨y, hy, h⟩ := h
  rw [memberName_none h2] at h
  exact ⟨y, hy, h.2 h1⟩

theorem Plain.valOk {c : Nat} (h : Plain s.cells c) {e : Expr} {acc : Option Nat} (he : e.memberName = none) : ValOk L e acc s c := by
  obtain ⟨y, hy, h⟩ := h
  refine ⟨y, hy, ?_⟩
  rw [he]
  exact ⟨h.notPtm, fun _ => h⟩

/-- Something new was made, which is held. -/
def NewVal (L : Discipline) (C P T : List Nat) (s : St) (v : Nat) (s' : St) : Prop := Wf L C P (v :: T) s' ∧ Plain s'.cells v ∧ ∀ F, Grow F s s'

theorem Grow.push {F : List Bytes} (xs : List Cell) (bufs : List (Option Bytes)) (bodies : List (Option Body)) :
    Grow F s { s with cells := s.cells ++ xs, bufs := bufs, bodies := bodies } := Grow.of_scopes (Sup.of_push _ _ _) rfl

theorem made_alloc (h : Wf L C P T s) {d : Data} (hd : d.Simple) (hp : d.parts = []) : Safe (alloc d) s (NewVal L C P T s) := by
  refine Safe.of_ok (alloc_apply d s) ⟨h.alloc (ps := []) hd (by rw [hp]; exact fun c hc => (nomatch hc)), ⟨_, List.getElem?_concat_length, ?_⟩, fun F => ?_⟩
  · cases d <;> trivial
  · exact Grow.push _ _ _

/-- A vector or map of values that are kept. -/
theorem made_parts {ps : List Nat} (h : Wf L C (ps ++ P) T s) {d : Data} (hd : d.Simple) (hp : ∀ c ∈ d.parts, c ∈ ps ∧ Plain s.cells c) : Safe (alloc d) s (NewVal L C P T s) := by
  refine Safe.of_ok (alloc_apply d s) ⟨h.alloc hd hp, ⟨_, List.getElem?_concat_length, ?_⟩, fun F => ?_⟩
  · cases d <;> trivial
  · exact Grow.push _ _ _

theorem made_copies {cs : List Nat} (h : Wf L (cs ++ C) P T s) {d : Data} (hd : d.Simple) (hp : ∀ c ∈ d.parts, c ∈ cs ∧ Plain s.cells c) (hall : ∀ c ∈ cs, c ∈ d.parts) :
    Safe (alloc d) s (NewVal L C P T s) := by
  refine Safe.of_ok (alloc_apply d s) ⟨h.allocCopies hd hp hall, ⟨_, List.getElem?_concat_length, ?_⟩, fun F => ?_⟩
  · cases d <;> trivial
  · exact Grow.push _ _ _

theorem made_str (h : Wf L C P T s) {b : Bytes} (hb : NUL ∉ b) : Safe (allocStr b) s (NewVal L C P T s) := by
  refine Safe.of_ok (a := s.cells.length) (s1 := { s with cells := s.cells ++ [{ data := .str s.bufs.length b.length }], bufs := s.bufs ++ [some b] }) rfl
    ⟨h.allocStr hb, ⟨_, List.getElem?_concat_length, trivial⟩, fun F => ?_⟩
  exact Grow.push _ _ _

theorem NewVal.grow {s0 : St} {v : Nat} (h : NewVal L C P T s v s') (hg : ∀ F, Grow F s0 s) : NewVal L C P T s0 v s' := ⟨h.1, h.2.1, fun F => (hg F).trans (h.2.2 F)⟩

/-- A new function. -/
theorem made_lambda (h : Wf L C P T s) {ps : List Bytes} {b : Body} (hps : ps.all L.param = true) (hb : b.ok L = true) : Safe (evalLambda ps b) s (NewVal L C P T s) := by
  obtain ⟨st, hst⟩ : ∃ st, s.envs[s.eng.env]? = some st := ⟨_, List.getElem?_eq_getElem h.shape.cur⟩
  unfold evalLambda
  refine Safe.bind_ok (a := s.envs.length) (s1 := { s with envs := s.envs ++ [st] }) ?_ ?_
  · unfold closeOver
    exact (bind_of_ok ((curStack_ok_iff ..).2 ⟨hst, rfl⟩)).trans rfl
  · refine Safe.bind_ok (allocBody_apply ..) (Safe.of_ok (alloc_apply ..) ⟨?_, ?_, fun F => ?_⟩)
    · refine (h.newEnv (st := st) (h.shape.envs _ _ hst)).allocFn (f := { kind := .function, body := some s.bodies.length, params := ps, env := some s.envs.length }) ⟨?_, ?_, _, rfl⟩ rfl hb (fun p => ?_)
      · exact fun p hp => List.all_eq_true.1 hps p hp
      · intro e he
        cases he
        simp
      · rintro ⟨⟩
    · exact ⟨_, List.getElem?_concat_length, .inl rfl⟩
    · exact Grow.of_scopes ⟨fun _ x hx => ⟨x, getElem?_pushed hx, rfl⟩, by simp, Nat.le_refl _, Nat.le_refl _⟩ rfl

/-! ## Operators -/

/-- Copying values that are kept for good. -/
theorem safe_copies : ∀ {xs : List Nat} {C : List Nat} {s : St}, Wf L C P T s → (∀ x ∈ xs, Elem s.cells x) →
    Safe (each valCopy xs) s fun cs s' => Wf L (cs ++ C) P T s' ∧ (∀ c ∈ cs, Plain s'.cells c) ∧ ∀ F, Grow F s s'
  | [], C, s, h, _ => ⟨h, fun c hc => (nomatch hc), fun F => Grow.refl F s⟩
  | x :: xs, C, s, h, hx => by
    have he := hx x List.mem_cons_self
    obtain ⟨s1, h1, hw, hp, hg⟩ := h.valCopy (.inr (.inl he)) (h.shape.elem he)
    unfold each
    refine Safe.bind_ok h1 (Safe.bind ((safe_copies hw fun y hy => (hx y (List.mem_cons_of_mem _ hy)).sup (hg []).toSup).mono fun cs s2 ⟨hw2, hp2, hg2⟩ => ?_))
    refine Safe.pure ⟨hw2.permC fun c => ?_, fun c hc => ?_, fun F => (hg F).trans (hg2 F)⟩
    · simp only [List.mem_append, List.mem_cons]
      exact or_left_comm.trans or_assoc.symm
    · rcases List.mem_cons.1 hc with rfl | hc
      · exact (hg2 []).toSup.plain hp
      · exact hp2 c hc

theorem safe_copyEntries : ∀ {xs : List (Nat × Nat)} {C : List Nat} {s : St}, Wf L C P T s → (∀ x ∈ xs, Elem s.cells x.1 ∧ Elem s.cells x.2) →
    Safe (each copyEntry xs) s fun es s' => Wf L ((Data.map es).parts ++ C) P T s' ∧ (∀ c ∈ (Data.map es).parts, Plain s'.cells c) ∧ ∀ F, Grow F s s'
  | [], C, s, h, _ => ⟨h, fun c hc => (nomatch hc), fun F => Grow.refl F s⟩
  | x :: xs, C, s, h, hx => by
    obtain ⟨hk, hv⟩ := hx x List.mem_cons_self
    obtain ⟨s1, h1, hw, hp, hg⟩ := h.valCopy (.inr (.inl hk)) (h.shape.elem hk)
    have hv1 := hv.sup (hg []).toSup
    obtain ⟨s2, h2, hw2, hp2, hg2⟩ := hw.valCopy (.inr (.inl hv1)) (hw.shape.elem hv1)
    unfold each
    refine Safe.bind_ok (a := (s.cells.length, s1.cells.length)) (s1 := s2) ?_ ?_
    · unfold copyEntry
      rw [bind_of_ok h1, bind_of_ok h2]
      rfl
    · have hg12 := fun F => (hg F).trans (hg2 F)
      refine Safe.bind ((safe_copyEntries hw2 fun y hy => (hx y (List.mem_cons_of_mem _ hy)).imp (·.sup (hg12 []).toSup) (·.sup (hg12 []).toSup)).mono fun es s3 ⟨hw3, hp3, hg3⟩ => ?_)
      refine Safe.pure ⟨hw3.permC fun c => ?_, fun c hc => ?_, fun F => (hg12 F).trans (hg3 F)⟩
      · simp only [Data.parts, List.flatMap_cons, List.mem_append, List.mem_cons, List.not_mem_nil, or_false]
        constructor
        · rintro (h | h | h | h)
          · exact .inl (.inr h)
          · exact .inl (.inl (.inr h))
          · exact .inl (.inl (.inl h))
          · exact .inr h
        · rintro (((h | h) | h) | h)
          · exact .inr (.inr (.inl h))
          · exact .inr (.inl h)
          · exact .inl h
          · exact .inr (.inr (.inr h))
      · simp only [Data.parts, List.flatMap_cons, List.mem_append, List.mem_cons, List.not_mem_nil, or_false] at hc
        rcases hc with (rfl | rfl) | hc
        · exact (hg3 []).toSup.plain ((hg2 []).toSup.plain hp)
        · exact (hg3 []).toSup.plain hp2
        · exact hp3 c hc

theorem safe_equality (w : World) (n : Nat) (h : Wf L C P T s) {l r : Nat} (hl : Live s l) (hr : Live s r) (op : BinOp) (d : Data) :
    Safe (equality (interp w n) op d l r) s (NewVal L C P T s) := by
  unfold equality
  split
  · exact Safe.still_bind (safe_eq w h n hl hr) fun b _ => made_alloc h trivial rfl
  · exact Safe.still_bind (safe_eq w h n hl hr) fun b _ => made_alloc h trivial rfl
  · exact Safe.unknownOp

theorem safe_opResult (h : Wf L C P T s) (op : BinOp) (d : Data) (r : OpRes) : Safe (opResult op d r) s (NewVal L C P T s) := by
  unfold opResult
  split
  · exact made_alloc h trivial rfl
  · exact made_alloc h trivial rfl
  · exact Safe.raise
  · exact Safe.ub fun h => nomatch h
  · exact Safe.unknownOp

theorem safe_applyBin (w : World) (n : Nat) (h : Wf L C P T s) (op : BinOp) {l r : Nat} {cl cr : Cell} (hl : s.cells[l]? = some cl) (hr : s.cells[r]? = some cr) (hll : cl.refs ≠ 0) (hrr : cr.refs ≠ 0) :
    Safe (applyBin w (interp w n) op l r cl.data cr.data) s (NewVal L C P T s) := by
  have heq := fun d => safe_equality w n h ⟨cl, hl, hll⟩ ⟨cr, hr, hrr⟩ op d
  unfold applyBin
  split
  · split
    · exact made_alloc h trivial rfl
    · exact made_alloc h trivial rfl
    · exact Safe.raise
  · split
    · exact safe_opResult h _ _ _
    · exact safe_opResult h _ _ _
    · rename_i hdl hdr
      split
      · obtain ⟨t, ht, ht0⟩ := h.read hl hdl hll
        obtain ⟨u, hu, hu0⟩ := h.read hr hdr hrr
        refine Safe.bind_ok ht (Safe.bind_ok hu (made_str h ?_))
        rw [List.mem_append]
        exact fun h => h.elim ht0 hu0
      · exact heq _
    · rename_i xs ys hdl hdr
      split
      · refine Safe.bind ((safe_copies h fun x hx => ⟨l, cl, hl, by rw [hdl]; exact hx⟩).mono fun as s1 ⟨hw1, hp1, hg1⟩ => ?_)
        refine Safe.bind ((safe_copies hw1 fun x hx => Elem.sup (hg1 []).toSup ⟨r, cr, hr, by rw [hdr]; exact hx⟩).mono fun bs s2 ⟨hw2, hp2, hg2⟩ => ?_)
        refine (made_copies (cs := as ++ bs) (d := .vec (as ++ bs)) (hw2.permC fun c => ?_) trivial (fun c hc => ⟨hc, ?_⟩) (fun c hc => hc)).mono
          fun v s3 h3 => h3.grow fun F => (hg1 F).trans (hg2 F)
        · simp only [List.mem_append]
          exact or_left_comm.trans or_assoc.symm
        · rcases List.mem_append.1 hc with hc | hc
          · exact (hg2 []).toSup.plain (hp1 c hc)
          · exact hp2 c hc
      · exact heq _
    · rename_i xs ys hdl hdr
      split
      · refine Safe.bind ((safe_copyEntries h fun x hx => ⟨⟨l, cl, hl, by rw [hdl]; exact (mem_parts_map hx).1⟩, ⟨l, cl, hl, by rw [hdl]; exact (mem_parts_map hx).2⟩⟩).mono
          fun as s1 ⟨hw1, hp1, hg1⟩ => ?_)
        refine Safe.bind ((safe_copyEntries hw1 fun x hx => ⟨Elem.sup (hg1 []).toSup ⟨r, cr, hr, by rw [hdr]; exact (mem_parts_map hx).1⟩,
          Elem.sup (hg1 []).toSup ⟨r, cr, hr, by rw [hdr]; exact (mem_parts_map hx).2⟩⟩).mono fun bs s2 ⟨hw2, hp2, hg2⟩ => ?_)
        have hparts : (Data.map (as ++ bs)).parts = (Data.map as).parts ++ (Data.map bs).parts := by simp [Data.parts]
        refine (made_copies (cs := (Data.map (as ++ bs)).parts) (d := .map (as ++ bs)) (hw2.permC fun c => ?_) trivial (fun c hc => ⟨hc, ?_⟩) (fun c hc => hc)).mono
          fun v s3 h3 => h3.grow fun F => (hg1 F).trans (hg2 F)
        · rw [hparts]
          simp only [List.mem_append]
          exact or_left_comm.trans or_assoc.symm
        · rw [hparts] at hc
          rcases List.mem_append.1 hc with hc | hc
          · exact (hg2 []).toSup.plain (hp1 c hc)
          · exact hp2 c hc
      · exact heq _
    · exact Safe.unknownOp

theorem safe_applyUn (h : Wf L C P T s) (op : UnOp) (d : Data) : Safe (applyUn op d) s (NewVal L C P T s) := by
  unfold applyUn
  split
  · split
    · exact made_alloc h trivial rfl
    · exact Safe.ub fun h => nomatch h
  · exact made_alloc h trivial rfl
  · exact Safe.unknownOp

theorem safe_evalLit (h : Wf L C P T s) {l : Lit} {q : Bool} (hl : (Expr.lit l).ok L q = true) : Safe (evalLit l) s (NewVal L C P T s) := by
  unfold evalLit
  split
  · exact made_alloc h trivial rfl
  · exact made_alloc h trivial rfl
  · split
    · exact made_alloc h trivial rfl
    · exact Safe.raise
    · exact Safe.ub fun h => nomatch h
  · refine made_str h ?_
    unfold Expr.ok at hl
    simpa using hl

/-! ## Looking up variables -/

theorem Wf.safe_incref (h : Wf L C P T s) {c : Nat} (hc : Live s c) : Safe (Bob.Fl.incref c) s fun _ s' => Wf L C P (c :: T) s' ∧ ∀ F, Grow F s s' := by
  obtain ⟨x, hx, hr⟩ := hc
  refine Safe.of_ok (a := ()) (s1 := { s with cells := s.cells.set c { x with refs := x.refs + 1 } }) ?_ ⟨h.incref hx hr, fun F => ?_⟩
  · unfold Bob.Fl.incref
    rw [bind_of_ok ((getCell_ok_iff ..).2 ⟨hx, rfl⟩), bind_of_ok ((assert_ok_iff _ _ _ ()).2 ⟨by simpa using hr, rfl⟩), setCell_apply]
  · exact Grow.of_scopes (Sup.of_same (SameData.set hx rfl)) rfl

/-- A variable of that name is at position `p`. -/
def IsVar (s : St) (name : Bytes) (p : Nat × Nat) (v : Var) : Prop := ∃ x, s.scopes[p.1]? = some x ∧ x.vars[p.2]? = some v ∧ v.key = name

theorem safe_findIn (h : Wf L C P T s) (name : Bytes) : ∀ {st : List Nat}, (∀ i ∈ st, i < s.scopes.length) →
    Safe (findIn name st) s fun o s' => s' = s ∧ ∀ p, o = some p → ∃ v, IsVar s name p v
  | [], _ => ⟨rfl, fun p hp => (nomatch hp)⟩
  | i :: st, hst => by
    have hx := List.getElem?_eq_getElem (hst i List.mem_cons_self)
    unfold findIn shallowFind
    refine Safe.bind (Safe.getScope hx (h.shape.scopes i _ hx).freed (Safe.pure ?_))
    split
    · rename_i k hk
      refine ⟨rfl, fun p hp => ?_⟩
      cases hp
      obtain ⟨v, h1, h2, _⟩ := findKeyIdx_some hk
      exact ⟨v, _, hx, h1, h2⟩
    · exact safe_findIn h name fun j hj => hst j (List.mem_cons_of_mem _ hj)

theorem Wf.stack (h : Wf L C P T s) : ∃ st, s.envs[s.eng.env]? = some st ∧ ∀ i ∈ st, i < s.scopes.length :=
  have hst := List.getElem?_eq_getElem h.shape.cur
  ⟨_, hst, h.shape.envs _ _ hst⟩

theorem safe_findVar (h : Wf L C P T s) (name : Bytes) : Safe (findVar name) s fun o s' => s' = s ∧ ∀ p, o = some p → ∃ v, IsVar s name p v := by
  obtain ⟨st, hst, hlt⟩ := h.stack
  unfold findVar
  exact Safe.bind_ok ((curStack_ok_iff ..).2 ⟨hst, rfl⟩) (safe_findIn h name hlt)

theorem getVar_isVar (h : Wf L C P T s) {name : Bytes} {p : Nat × Nat} {v : Var} (hv : IsVar s name p v) : getVar p s = .ok v s := by
  obtain ⟨x, hx, hv, _⟩ := hv
  unfold getVar
  rw [bind_of_ok ((getScope_ok_iff ..).2 ⟨hx, (h.shape.scopes _ x hx).freed, rfl⟩)]
  exact (deref_ok_iff ..).2 ⟨hv, rfl⟩

/-- What is known about the value of a variable. -/
theorem IsVar.val (h : Wf L C P T s) {name : Bytes} {p : Nat × Nat} {v : Var} (hv : IsVar s name p v) {c : Nat} (hc : v.val = some c) :
    Live s c ∧ ∃ y, s.cells[c]? = some y ∧ y.data.NotPtm ∧ (name ∉ L.classes → y.data.Plain) := by
  obtain ⟨x, hx, hv, rfl⟩ := hv
  have hvm := List.mem_of_getElem? hv
  obtain ⟨y, hy, h1, h2⟩ := ((h.shape.scopes _ x hx).vars v hvm).val c hc
  exact ⟨⟨y, hy, h.live_var hx hvm hc hy⟩, y, hy, h1, h2⟩

theorem IsVar.key (h : Wf L C P T s) {name : Bytes} {p : Nat × Nat} {v : Var} (hv : IsVar s name p v) : name ∉ memberNames := by
  obtain ⟨x, hx, hv, rfl⟩ := hv
  exact ((h.shape.scopes _ x hx).vars v (List.mem_of_getElem? hv)).key

theorem safe_evalIdent (h : Wf L C P T s) (name : Bytes) :
    Safe (evalIdent name) s fun c s' => Wf L C P (c :: T) s' ∧ ValOk L (.ident name) none s' c ∧ ∀ F, Grow F s s' := by
  unfold evalIdent
  refine Safe.bind ((safe_findVar h name).mono fun o s1 ⟨h1, h2⟩ => ?_)
  subst h1
  split
  · exact Safe.raise
  · obtain ⟨v, hv⟩ := h2 _ rfl
    refine Safe.bind_ok (getVar_isVar h hv) (Safe.deref (fun _ h => nomatch h) fun c hc => ?_)
    obtain ⟨hl, y, hy, hn, hp⟩ := hv.val h hc
    refine Safe.bind ((h.safe_incref hl).mono fun _ s2 ⟨hw, hg⟩ => Safe.pure ⟨hw, ?_, hg⟩)
    obtain ⟨y', hy', hd⟩ := (hg []).toSup.cells c y hy
    refine ⟨y', hy', ?_, fun hcls => ?_⟩
    · rw [hd]; exact hn
    · rw [hd]
      exact hp (by unfold Expr.isClass at hcls; simpa using hcls)

end

end Bob.Fl
