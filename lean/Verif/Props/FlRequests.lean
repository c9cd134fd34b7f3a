import Verif.Lemmas.FlClosure
import Verif.Lemmas.FlFrameRun
import Verif.Lemmas.FlQuiet
import Verif.Spec.FlHost
import Verif.Props.BuildStep
import Verif.Props.FlNames
/-!
# What a script asks to be built (C62)
-/

namespace Bob.Fl

/-! ## The functions of the classes -/

/-- Values and string buffers stay, more may have been added. -/
structure Grown (s s' : St) : Prop where
  cells : ∀ {c : Nat} {x : Cell}, s.cells[c]? = some x → s'.cells[c]? = some x
  bufs : ∀ {c : Nat} {x : Option Bytes}, s.bufs[c]? = some x → s'.bufs[c]? = some x
  host : s'.host = s.host
  calls : s'.calls = s.calls

theorem trnG : Trn Grown where
  refl _ := ⟨id, id, rfl, rfl⟩
  trans h1 h2 := ⟨fun h => h2.cells (h1.cells h), fun h => h2.bufs (h1.bufs h), h2.host.trans h1.host, h2.calls.trans h1.calls⟩

theorem get?_append {l m : List α} {c : Nat} {x : α} (h : l[c]? = some x) : (l ++ m)[c]? = some x := by
  obtain ⟨hlt, -⟩ := List.getElem?_eq_some_iff.1 h
  rwa [List.getElem?_append_left hlt]

theorem g_alloc (d : Data) : Keeps Grown (alloc d) := ⟨fun h => by cases h; exact ⟨get?_append, id, rfl, rfl⟩⟩
theorem g_allocBuf (d : Bytes) : Keeps Grown (allocBuf d) := ⟨fun h => by cases h; exact ⟨id, get?_append, rfl, rfl⟩⟩
theorem g_allocStr (d : Bytes) : Keeps Grown (allocStr d) := keeps_bind trnG (g_allocBuf _) fun _ => g_alloc _

theorem Grown.hasStr {s s' : St} (h : Grown s s') {c : Nat} {b : Bytes} (hb : s.HasStr c b) : s'.HasStr c b := by
  obtain ⟨buf, size, full, ⟨x, hx, hd⟩, h2, h3, h4⟩ := hb
  exact ⟨buf, size, full, ⟨x, h.cells hx, hd⟩, h.bufs h2, h3, h4⟩

theorem forall₂_imp {R S : α → β → Prop} (h : ∀ a b, R a b → S a b) {as : List α} {bs : List β} (hab : List.Forall₂ R as bs) : List.Forall₂ S as bs := by
  induction hab with
  | nil => exact .nil
  | cons h1 _ ih => exact .cons (h _ _ h1) ih

theorem readBuf_ok {s s' : St} {buf size : Nat} {b : Bytes} (h : readBuf buf size s = .ok b s') :
    s' = s ∧ ∃ full, s.bufs[buf]? = some (some full) ∧ size ≤ full.length ∧ b = full.take size := by
  unfold readBuf at h
  obtain ⟨_, _, h1, h2⟩ := (bind_ok_iff ..).1 h
  cases h1
  cases hb : s.bufs[buf]? with
  | none =>
    rw [hb] at h2
    cases h2
  | some o =>
    rw [hb] at h2
    cases o with
    | none => cases h2
    | some full =>
      by_cases hs : size ≤ full.length
      · simp only [hs, if_true] at h2
        cases h2
        exact ⟨rfl, full, rfl, hs, rfl⟩
      · simp only [hs, if_false] at h2
        cases h2

theorem readStr_ok {s s' : St} {buf size : Nat} {b : Bytes} (h : readStr buf size s = .ok b s') :
    s' = s ∧ ∃ full, s.bufs[buf]? = some (some full) ∧ (size ≤ full.length ∨ NUL ∈ full) ∧ b = cstr (full.take size) := by
  unfold readStr at h
  obtain ⟨_, _, h1, h2⟩ := (bind_ok_iff ..).1 h
  cases h1
  cases hb : s.bufs[buf]? with
  | none =>
    rw [hb] at h2
    cases h2
  | some o =>
    rw [hb] at h2
    cases o with
    | none => cases h2
    | some full =>
      dsimp only at h2
      split at h2
      · rename_i hs
        cases h2
        exact ⟨rfl, full, rfl, by simpa using hs, rfl⟩
      · cases h2

theorem allocStr_has {s s' : St} {b : Bytes} {c : Nat} (h : allocStr b s = .ok c s') : s'.HasStr c b := by
  obtain ⟨buf, s1, h1, h2⟩ := (bind_ok_iff ..).1 h
  cases h1
  cases h2
  refine ⟨s.bufs.length, b.length, b, ⟨_, List.getElem?_concat_length, rfl⟩, ?_, Nat.le_refl _, ?_⟩
  · show (s.bufs ++ [some b])[s.bufs.length]? = _
    exact List.getElem?_concat_length
  · rw [List.take_of_length_le (Nat.le_refl _)]

theorem strElems_ok {s s' : St} {c : Nat} {bs : List Bytes} (h : strElems c s = .ok bs s') : s' = s ∧ s.HasStrs c bs := by
  unfold strElems at h
  obtain ⟨x, s1, h1, h2⟩ := (bind_ok_iff ..).1 h
  obtain ⟨hx, rfl⟩ := (getCell_ok_iff ..).1 h1
  cases hd : x.data <;> rw [hd] at h2 <;> try (cases h2)
  · rename_i es
    have key : ∀ (es : List Nat) (bs : List Bytes) (s' : St), each (fun e => do
        let y ← getCell e
        match y.data with
        | .str buf size => readBuf buf size
        | _ => M.fail) es s1 = .ok bs s' → s' = s1 ∧ List.Forall₂ s1.HasStr es bs := by
      intro es
      induction es with
      | nil =>
        intro bs s' h
        cases h
        exact ⟨rfl, .nil⟩
      | cons e es ih =>
        intro bs s' h
        obtain ⟨b, s2, h3, h4⟩ := (bind_ok_iff ..).1 h
        obtain ⟨bs', s3, h5, h6⟩ := (bind_ok_iff ..).1 h4
        obtain ⟨y, s4, h7, h8⟩ := (bind_ok_iff ..).1 h3
        obtain ⟨hy, rfl⟩ := (getCell_ok_iff ..).1 h7
        cases hyd : y.data <;> rw [hyd] at h8 <;> try (cases h8)
        · rename_i buf size
          obtain ⟨rfl, full, h9⟩ := readBuf_ok h8
          obtain ⟨rfl, ih⟩ := ih _ _ h5
          cases h6
          exact ⟨rfl, .cons ⟨buf, size, full, ⟨y, hy, hyd⟩, h9⟩ ih⟩
    obtain ⟨rfl, h3⟩ := key _ _ _ h2
    exact ⟨rfl, es, ⟨x, hx, hd⟩, h3⟩

/-- Making strings. -/
theorem each_alloc {f : Bytes → M Nat} {g : Bytes → Bytes} (hf : ∀ p s c s', f p s = .ok c s' → Grown s s' ∧ s'.HasStr c (g p)) :
    ∀ {ps : List Bytes} {cs : List Nat} {s s' : St}, each f ps s = .ok cs s' → Grown s s' ∧ List.Forall₂ s'.HasStr cs (ps.map g)
  | [], _, s, _, h => by
    cases h
    exact ⟨trnG.refl _, .nil⟩
  | p :: ps, _, s, _, h => by
    obtain ⟨c, s2, h3, h4⟩ := (bind_ok_iff ..).1 h
    obtain ⟨cs, s3, h5, h6⟩ := (bind_ok_iff ..).1 h4
    cases h6
    obtain ⟨g1, k1⟩ := hf _ _ _ _ h3
    obtain ⟨g2, k2⟩ := each_alloc hf h5
    exact ⟨trnG.trans g1 g2, .cons (g2.hasStr k1) k2⟩

theorem alloc_vec_has {s s' : St} {cs : List Nat} {bs : List Bytes} {c : Nat} (h : alloc (.vec cs) s = .ok c s') (hc : List.Forall₂ s.HasStr cs bs) :
    Grown s s' ∧ s'.HasStrs c bs := by
  have hg := (g_alloc _).out h
  cases h
  exact ⟨hg, cs, holds_alloc s _, forall₂_imp (fun _ _ => hg.hasStr) hc⟩

/-- What registering a request does. -/
structure StepAdded (r : Request) (s s' : St) : Prop where
  nbss : s'.host.nbss = s.host.nbss + 1
  steps : addBuildStep s.host.steps r.1 r.2.1 r.2.2 = some s'.host.steps
  cells : s'.cells = s.cells
  bufs : s'.bufs = s.bufs
  calls : s'.calls = s.calls

theorem addStep_ok {s s' : St} {u : Uniq} {k : StepKind} {d : ReqData} (h : addStep u k d s = .ok () s') : StepAdded (u, k, d) s s' := by
  unfold addStep at h
  obtain ⟨_, _, h1, h2⟩ := (bind_ok_iff ..).1 h
  cases h1
  cases hs : addBuildStep s.host.steps u k d with
  | none =>
    rw [hs] at h2
    cases h2
  | some steps =>
    rw [hs] at h2
    cases h2
    exact ⟨rfl, hs, rfl, rfl, rfl⟩

theorem StepAdded.hasStr {r : Request} {s s' : St} (h : StepAdded r s s') {c : Nat} {b : Bytes} (hb : s.HasStr c b) : s'.HasStr c b := by
  unfold St.HasStr St.Holds
  rw [h.cells, h.bufs]
  exact hb

theorem StepAdded.hasStrs {r : Request} {s s' : St} (h : StepAdded r s s') {c : Nat} {b : List Bytes} (hb : s.HasStrs c b) : s'.HasStrs c b := by
  obtain ⟨es, h1, h2⟩ := hb
  refine ⟨es, ?_, forall₂_imp (fun _ _ => h.hasStr) h2⟩
  unfold St.Holds
  rw [h.cells]
  exact h1

/-- Between the state before an external function and the state after: nothing of values is lost, and at most one request was added. -/
structure Did (o : Option Request) (s s' : St) : Prop where
  steps : match o with
    | none => s'.host.steps = s.host.steps
    | some r => addBuildStep s.host.steps r.1 r.2.1 r.2.2 = some s'.host.steps
  calls : s'.calls = s.calls
  nbss : s'.host.nbss = s.host.nbss + o.toList.length

theorem Grown.did {s s' : St} (h : Grown s s') : Did none s s' := ⟨by rw [h.host], h.calls, by rw [h.host]; rfl⟩

theorem did_of_added {r : Request} {s s1 s' : St} (h : Grown s s1) (h' : StepAdded r s1 s') : Did (some r) s s' :=
  ⟨by have := h'.steps; rw [h.host] at this; exact this, h'.calls.trans h.calls, by have := h'.nbss; rw [h.host] at this; exact this⟩

/-- The object paths of sources. -/
theorem each_objPath {w : World} : ∀ {es cs : List Nat} {s s' : St}, each (objPath w) es s = .ok cs s' → Grown s s' ∧
    ∃ paths, List.Forall₂ s'.HasStr es paths ∧ List.Forall₂ s'.HasStr cs (paths.map fun p => genCookie w.signed w.outPath p b!"o")
  | [], _, s, _, h => by
    cases h
    exact ⟨trnG.refl _, [], .nil, .nil⟩
  | e :: es, _, s, _, h => by
    obtain ⟨c, s2, h3, h4⟩ := (bind_ok_iff ..).1 h
    obtain ⟨cs, s3, h5, h6⟩ := (bind_ok_iff ..).1 h4
    cases h6
    obtain ⟨y, s4, h7, h8⟩ := (bind_ok_iff ..).1 h3
    obtain ⟨hy, rfl⟩ := (getCell_ok_iff ..).1 h7
    cases hyd : y.data <;> rw [hyd] at h8 <;> try (cases h8)
    rename_i buf size
    obtain ⟨p, s5, h9, h10⟩ := (bind_ok_iff ..).1 h8
    obtain ⟨rfl, full, hb⟩ := readBuf_ok h9
    split at h10
    · cases h10
    · have g1 := (g_allocStr _).out h10
      obtain ⟨g2, paths, k1, k2⟩ := each_objPath h5
      exact ⟨trnG.trans g1 g2, p :: paths, .cons ((trnG.trans g1 g2).hasStr ⟨buf, size, full, ⟨y, hy, hyd⟩, hb⟩) k1,
        .cons (g2.hasStr (allocStr_has h10)) k2⟩

theorem prepCompile_ok {w : World} {st : Option Nat} {args : List Nat} {s s' : St} {r : Nat} (h : prepCompile w st args s = .ok r s') :
    ∃ srcs paths, args = [srcs] ∧ s'.HasStrs srcs paths ∧ s'.HasStrs r (paths.map fun p => genCookie w.signed w.outPath p b!"o") ∧
      Did (some (.state st, .compile, { state := st, srcs := srcs, out := r })) s s' := by
  unfold prepCompile at h
  split at h
  · rename_i srcs
    obtain ⟨x, s1, h1, k1⟩ := (bind_ok_iff ..).1 h
    obtain ⟨hx, rfl⟩ := (getCell_ok_iff ..).1 h1
    cases hd : x.data <;> rw [hd] at k1 <;> try (cases k1)
    rename_i es
    obtain ⟨outs, s2, h2, k2⟩ := (bind_ok_iff ..).1 k1
    obtain ⟨g2, paths, hs, ho⟩ := each_objPath h2
    obtain ⟨out, s3, h3, k3⟩ := (bind_ok_iff ..).1 k2
    obtain ⟨g3, ho3⟩ := alloc_vec_has h3 ho
    obtain ⟨_, s4, h4, k4⟩ := (bind_ok_iff ..).1 k3
    have h4 := addStep_ok h4
    cases k4
    have hsrc : s3.HasStrs srcs paths := ⟨es, ⟨x, g3.cells (g2.cells hx), hd⟩, forall₂_imp (fun _ _ => g3.hasStr) hs⟩
    exact ⟨srcs, paths, rfl, h4.hasStrs hsrc, h4.hasStrs ho3, did_of_added (trnG.trans g2 g3) h4⟩
  · cases h

theorem prepLink_ok {w : World} {st : Option Nat} {args : List Nat} {a : Bool} {s s' : St} {r : Nat} (h : prepLink w st args a s = .ok r s') :
    ∃ srcs paths, args = [srcs] ∧ s.HasStrs srcs paths ∧ s'.HasStr r (linkCookie w.signed w.outPath a paths) ∧
      Did (some (.bss s.host.nbss, (if a then .archive else .link), { state := st, srcs := srcs, out := r })) s s' := by
  unfold prepLink at h
  split at h
  · rename_i srcs
    obtain ⟨paths, s1, h1, k1⟩ := (bind_ok_iff ..).1 h
    obtain ⟨rfl, hs⟩ := strElems_ok h1
    obtain ⟨out, s2, h2, k2⟩ := (bind_ok_iff ..).1 k1
    obtain ⟨_, s3, h3, k3⟩ := (bind_ok_iff ..).1 k2
    cases h3
    obtain ⟨_, s4, h4, k4⟩ := (bind_ok_iff ..).1 k3
    have h4 := addStep_ok h4
    cases k4
    have hg := (g_allocStr _).out h2
    rw [hg.host] at h4
    exact ⟨srcs, paths, rfl, hs, h4.hasStr (allocStr_has h2), did_of_added hg h4⟩
  · cases h

theorem fsList_ok {w : World} {args : List Nat} {s s' : St} {r : Nat} (h : fsList w args s = .ok r s') :
    ∃ arg dir found, args = [arg] ∧ s.HasText arg dir ∧ w.list dir = some found ∧ s'.HasStrs r found ∧ Did none s s' := by
  unfold fsList at h
  split at h
  · rename_i arg
    obtain ⟨x, s1, h1, k1⟩ := (bind_ok_iff ..).1 h
    obtain ⟨hx, rfl⟩ := (getCell_ok_iff ..).1 h1
    cases hd : x.data <;> rw [hd] at k1 <;> try (cases k1)
    · rename_i buf size
      obtain ⟨p, s2, h2, k2⟩ := (bind_ok_iff ..).1 k1
      obtain ⟨rfl, full, hb⟩ := readStr_ok h2
      cases hl : w.list p <;> rw [hl] at k2
      · cases k2
      · rename_i ps
        obtain ⟨es, s3, h3, k3⟩ := (bind_ok_iff ..).1 k2
        obtain ⟨g3, ho⟩ := each_alloc (g := id) (fun _ _ _ _ h => ⟨(g_allocStr _).out h, allocStr_has h⟩) h3
        rw [List.map_id] at ho
        obtain ⟨g4, ho4⟩ := alloc_vec_has k3 ho
        exact ⟨arg, p, ps, rfl, ⟨buf, size, full, ⟨x, hx, hd⟩, hb⟩, hl, ho4, (trnG.trans g3 g4).did⟩
  · cases h

/-- What `findOwner` found. -/
theorem findOwner_ok {c : Nat} {s s' : St} {o : Owner} (h : findOwner c s = .ok o s') : s' = s ∧ ∀ i, o = .inst i →
    ∃ x sc scope oc, s.cells[c]? = some x ∧ x.owner = some sc ∧ s.Alive sc scope ∧ scope.owner = some oc ∧ s.Holds oc (.inst i) := by
  unfold findOwner at h
  obtain ⟨x, s1, h1, k1⟩ := (bind_ok_iff ..).1 h
  obtain ⟨hx, rfl⟩ := (getCell_ok_iff ..).1 h1
  obtain ⟨sc, s2, h2, k2⟩ := (bind_ok_iff ..).1 k1
  obtain ⟨hsc, rfl⟩ := (deref_ok_iff ..).1 h2
  obtain ⟨scope, s3, h3, k3⟩ := (bind_ok_iff ..).1 k2
  obtain ⟨hs, hf, rfl⟩ := (getScope_ok_iff ..).1 h3
  cases ho : scope.owner <;> rw [ho] at k3
  · cases k3
    exact ⟨rfl, fun i hi => by cases hi⟩
  · rename_i oc
    obtain ⟨y, s4, h4, k4⟩ := (bind_ok_iff ..).1 k3
    obtain ⟨hy, rfl⟩ := (getCell_ok_iff ..).1 h4
    cases hd : y.data <;> rw [hd] at k4 <;> cases k4 <;> refine ⟨rfl, fun i hi => ?_⟩
    case some.inst.refl =>
      cases hi
      exact ⟨x, sc, scope, oc, hx, hsc, ⟨hs, hf⟩, ho, y, hy, hd⟩
    case some.fn.refl => split at hi <;> cases hi
    all_goals cases hi

theorem ownerData_ok {o : Owner} {s s' : St} {d : Option (Option Nat)} (h : o.data s = .ok d s') : s' = s ∧ ∀ st, d = some st → ∃ i, o = .inst i ∧ i.data = st := by
  cases o with
  | nobody => cases h
  | inst i =>
    cases h
    exact ⟨rfl, fun st hst => ⟨i, rfl, Option.some.inj hst⟩⟩
  | cls c =>
    cases h
    exact ⟨rfl, fun st hst => by cases hst⟩
  | other =>
    cases h
    exact ⟨rfl, fun st hst => by cases hst⟩

/-- Asking a class. -/
theorem askClass_ok {o : Owner} {k : Option Nat} {m : M (Option Nat)} {s s' : St} {r : Option Nat} (h : askClass o k m s = .ok r s') :
    (r = none ∧ s' = s ∧ o.skip k = true) ∨ (o.skip k = false ∧ m s = .ok r s') := by
  unfold askClass at h
  cases hk : o.skip k with
  | true =>
    rw [hk] at h
    cases h
    exact .inl ⟨rfl, rfl, rfl⟩
  | false =>
    rw [hk] at h
    exact .inr ⟨rfl, h⟩

theorem skip_inst {i : InstData} {k : Option Nat} (h : (Owner.inst i).skip k = false) : k = some i.cls := by
  have : (some i.cls != k) = false := h
  simpa using (by simpa using this : some i.cls = k).symm

/-- What an external call that comes back did. -/
theorem externFn_ok {w : World} {c : Nat} {args : List Nat} {s s' : St} {r : Nat} (h : externFn w c args s = .ok r s') :
    ∃ o, Serves w s s' { callable := c, args := args, result := r } o ∧ Did o s s' := by
  obtain ⟨x, s1, h1, k1⟩ := (bind_ok_iff ..).1 h
  obtain ⟨hx, rfl⟩ := (getCell_ok_iff ..).1 h1
  obtain ⟨o, s2, h2, k2⟩ := (bind_ok_iff ..).1 k1
  obtain ⟨rfl, ho⟩ := findOwner_ok h2
  obtain ⟨_, _, h3, k3⟩ := (bind_ok_iff ..).1 k2
  cases h3
  have method : ∀ {i name}, o = .inst i → x.name = name → s2.Method c name i := by
    intro i name hi hn
    obtain ⟨x', sc, scope, oc, e1, e2, e3, e4, e5⟩ := ho i hi
    rw [hx] at e1
    cases e1
    exact ⟨x, sc, scope, oc, hx, hn, e2, e3, e4, e5⟩
  obtain ⟨r1, s3, h4, k4⟩ := (bind_ok_iff ..).1 k3
  have f1 : (r1 = none ∧ s3 = s2) ∨ (∃ v, r1 = some v ∧ Serves w s2 s3 { callable := c, args := args, result := v } none ∧ Did none s2 s3) := by
    rcases askClass_ok h4 with ⟨e1, e2, -⟩ | ⟨-, e⟩
    · exact .inl ⟨e1, e2⟩
    · obtain ⟨_, _, g1, g2⟩ := (bind_ok_iff ..).1 e
      cases g1
      split at g2
      · rename_i hfs
        obtain ⟨v, s5, g3, g4⟩ := (bind_ok_iff ..).1 g2
        cases g4
        obtain ⟨arg, dir, found, a1, a2, a3, a4, a5⟩ := fsList_ok g3
        exact .inr ⟨v, rfl, .list arg dir found hfs.symm a1 a2 a3 a4, a5⟩
      · cases g2
        exact .inl ⟨rfl, rfl⟩
  rcases f1 with ⟨rfl, rfl⟩ | ⟨v, rfl, f2, f3⟩
  swap
  · cases k4
    exact ⟨_, f2, f3⟩
  obtain ⟨nm, s3', h5, k4'⟩ := (bind_ok_iff ..).1 k4
  obtain ⟨e, -, rfl⟩ := readName_ok h5
  subst s3'
  clear k4 h5
  obtain ⟨r2, s4, h5, k5⟩ := (bind_ok_iff ..).1 k4'
  have f2 : (r2 = none ∧ s4 = s3) ∨ (∃ v q, r2 = some v ∧ Serves w s3 s4 { callable := c, args := args, result := v } q ∧ Did q s3 s4) := by
    rcases askClass_ok h5 with ⟨e1, e2, -⟩ | ⟨hk, e⟩
    · exact .inl ⟨e1, e2⟩
    · obtain ⟨d, s5, g1, g2⟩ := (bind_ok_iff ..).1 e
      obtain ⟨rfl, hd⟩ := ownerData_ok g1
      split at g2
      · rename_i hn
        obtain ⟨st, s6, g3, g4⟩ := (bind_ok_iff ..).1 g2
        obtain ⟨hst, rfl⟩ := (deref_ok_iff ..).1 g3
        obtain ⟨v, s7, g5, g6⟩ := (bind_ok_iff ..).1 g4
        cases g6
        obtain ⟨i, rfl, rfl⟩ := hd st hst
        obtain ⟨srcs, paths, a1, a2, a3, a4⟩ := prepCompile_ok g5
        exact .inr ⟨v, _, rfl, .compile i srcs paths (method rfl hn) (skip_inst hk) a1 a2 a3, a4⟩
      · cases g2
        exact .inl ⟨rfl, rfl⟩
  rcases f2 with ⟨rfl, rfl⟩ | ⟨v, q, rfl, f2, f3⟩
  swap
  · cases k5
    exact ⟨_, f2, f3⟩
  obtain ⟨r3, s5, h6, k6⟩ := (bind_ok_iff ..).1 k5
  have f3 : r3 = none ∨ (∃ v q, r3 = some v ∧ Serves w s4 s5 { callable := c, args := args, result := v } q ∧ Did q s4 s5) := by
    rcases askClass_ok h6 with ⟨e1, -, -⟩ | ⟨hk, e⟩
    · exact .inl e1
    · obtain ⟨d, s6, g1, g2⟩ := (bind_ok_iff ..).1 e
      obtain ⟨rfl, hd⟩ := ownerData_ok g1
      split at g2
      · rename_i hn
        obtain ⟨st, s7, g3, g4⟩ := (bind_ok_iff ..).1 g2
        obtain ⟨hst, rfl⟩ := (deref_ok_iff ..).1 g3
        obtain ⟨v, s8, g5, g6⟩ := (bind_ok_iff ..).1 g4
        cases g6
        obtain ⟨i, rfl, rfl⟩ := hd st hst
        obtain ⟨srcs, paths, a1, a2, a3, a4⟩ := prepLink_ok g5
        exact .inr ⟨v, _, rfl, .link i srcs paths (method rfl hn) (skip_inst hk) a1 a2 a3, a4⟩
      · split at g2
        · rename_i hn
          obtain ⟨st, s7, g3, g4⟩ := (bind_ok_iff ..).1 g2
          obtain ⟨hst, rfl⟩ := (deref_ok_iff ..).1 g3
          obtain ⟨v, s8, g5, g6⟩ := (bind_ok_iff ..).1 g4
          cases g6
          obtain ⟨i, rfl, rfl⟩ := hd st hst
          obtain ⟨srcs, paths, a1, a2, a3, a4⟩ := prepLink_ok g5
          exact .inr ⟨v, _, rfl, .archive i srcs paths (method rfl hn) (skip_inst hk) a1 a2 a3, a4⟩
        · cases g2
          exact .inl rfl
  rcases f3 with rfl | ⟨v, q, rfl, f2, f3⟩
  · exact ((raise_not_ok ..).1 k6).elim
  · cases k6
    exact ⟨_, f2, f3⟩

/-! ## Whole scripts -/

theorem addAll_append (a b : List Request) : ∀ steps : List (BuildStep Uniq StepKind ReqData),
    addAll steps (a ++ b) = (addAll steps a).bind fun st => addAll st b := by
  induction a with
  | nil => intro _; rfl
  | cons r a ih =>
    intro steps
    obtain ⟨u, k, d⟩ := r
    simp only [List.cons_append, addAll]
    cases addBuildStep steps u k d with
    | none => rfl
    | some st => exact ih st

/-- From `s` to `s'` the external calls `es` were made, in this order. -/
def Made (w : World) (s s' : St) : Prop :=
  ∃ es : List Event, s'.calls = s.calls ++ es.map (·.call) ∧ (∀ e ∈ es, Serves w e.before e.after e.call e.req) ∧
    addAll s.host.steps (es.filterMap (·.req)) = some s'.host.steps

theorem trn_made (w : World) : Trn (Made w) where
  refl s := ⟨[], by simp, by simp, rfl⟩
  trans := by
    rintro s1 s2 s3 ⟨es, h1, h2, h3⟩ ⟨es', k1, k2, k3⟩
    refine ⟨es ++ es', by rw [k1, h1, List.map_append, List.append_assoc], ?_, ?_⟩
    · intro e he
      rcases List.mem_append.1 he with h | h
      · exact h2 e h
      · exact k2 e h
    · rw [List.filterMap_append, addAll_append, h3]
      exact k3

theorem made_of_noReq {w : World} {s s' : St} (h : NoReq s s') : Made w s s' :=
  ⟨[], by simp [h.1], by simp, by rw [h.2.1]; rfl⟩

theorem cl_made (w : World) : Cl w (fun {α} (m _ : M α) => Keeps (Made w) m) where
  leaf _ h := ⟨fun hm => made_of_noReq (h.out hm)⟩
  bind h1 h2 := keeps_bind (trn_made w) h1 h2
  onErr _ h := ⟨fun hm => h.out (onErr_ok hm)⟩
  blame _ h := keeps_blame h
  extern := by
    intro α c args k hk
    refine ⟨fun {s a s'} h => ?_⟩
    obtain ⟨v, s1, h1, k1⟩ := (bind_ok_iff ..).1 h
    obtain ⟨_, s2, h2, k2⟩ := (bind_ok_iff ..).1 k1
    obtain ⟨o, hs, hd⟩ := externFn_ok h1
    cases h2
    refine (trn_made w).trans ?_ ((hk v).out k2)
    refine ⟨[{ before := s, after := s1, call := { callable := c, args := args, result := v }, req := o }], ?_, ?_, ?_⟩
    · show s1.calls ++ _ = s.calls ++ _
      rw [hd.calls]
      rfl
    · intro e he
      cases List.mem_singleton.1 he
      exact hs
    · have := hd.steps
      cases o with
      | none => exact congrArg some this.symm
      | some r =>
        obtain ⟨u, k, d⟩ := r
        show addAll s.host.steps [(u, k, d)] = _
        simp only [addAll]
        rw [show addBuildStep s.host.steps u k d = some s1.host.steps from this]

theorem rec_made (w : World) : ∀ n, RecP (fun {α} (m _ : M α) => Keeps (Made w) m) (interp w n) (interp w n)
  | 0 => {
      eval := fun _ _ => keeps_timeout
      exec := fun _ => keeps_timeout
      member := fun _ => keeps_timeout
      call := fun _ _ _ _ => keeps_timeout
      filter := fun _ _ _ => keeps_timeout
      eq := fun _ _ => keeps_timeout
      dec := fun _ => keeps_timeout
      repr := fun _ => keeps_timeout }
  | n + 1 => cl_stepRec (cl_made w) (rec_made w n)

/-- Registering requests without failing keeps each once and in order. -/
theorem addAll_served : ∀ {reqs : List Request} {steps steps' : List (BuildStep Uniq StepKind ReqData)}, Maximal steps → addAll steps reqs = some steps' →
    served steps' = served steps ++ reqs ∧ Maximal steps'
  | [], _, _, hm, h => by
    cases h
    exact ⟨by simp, hm⟩
  | (u, k, d) :: rest, steps, steps', hm, h => by
    have hs := addBuildStep_spec steps u k d hm
    simp only [addAll] at h
    cases ha : addBuildStep steps u k d with
    | none =>
      rw [ha] at h
      cases h
    | some st =>
      rw [ha] at h hs
      obtain ⟨k1, k2⟩ := addAll_served hs.1 h
      exact ⟨by rw [k1, hs.2.1]; simp, k2⟩

/-- **C62.** When a script has ended normally, the registered steps serve exactly the requests of the external calls it made, each once and in the order of
the calls: compiling for `compile` of an instance of `Cc`, linking and archiving for `link` and `archive` of an instance of `Linker`, and nothing for
`Fs.list`, the only other one there is.  What a call returns is the value naming the files its request produces, and on return this holds the cookies of
the sources. -/
theorem C62_requests {w : World} {n : Nat} {paths : List Bytes} {p : List Stmt} {s : St} (h : runScript w n paths p = .ok () s) :
    ∃ es : List Event, s.calls = es.map (·.call) ∧ (∀ e ∈ es, Serves w e.before e.after e.call e.req) ∧
      served s.host.steps = es.filterMap (·.req) ∧ Maximal s.host.steps := by
  obtain ⟨es, h1, h2, h3⟩ := (cl_forEach (cl_made w) (f' := (interp w n).exec) (rec_made w n).exec p).out h
  obtain ⟨k1, k2⟩ := addAll_served (steps := []) ⟨fun _ h => (nomatch h), trivial⟩ h3
  exact ⟨es, h1, h2, k1, k2⟩

/-- **C62.** The value a request writes its products to is the one the call returned, and its sources are those the call was given. -/
theorem C62_result {w : World} {t t' : St} {c : ExtCall} {u : Uniq} {k : StepKind} {d : ReqData} (h : Serves w t t' c (some (u, k, d))) :
    c.result = d.out ∧ c.args = [d.srcs] := by
  cases h with
  | compile i srcs paths hm hc ha hs hr => exact ⟨rfl, ha⟩
  | link i srcs paths hm hc ha hs hr => exact ⟨rfl, ha⟩
  | archive i srcs paths hm hc ha hs hr => exact ⟨rfl, ha⟩

/-- Each link step was asked for once and is named by a number given out already; steps of compilers are named by their state. -/
def Host.Apart (h : Host) : Prop :=
  ∀ st ∈ h.steps, (st.kind = .compile ∧ ∃ o, st.unique = .state o) ∨ (st.kind ≠ .compile ∧ (∃ d, st.data = [d]) ∧ ∃ n, st.unique = .bss n ∧ n < h.nbss)

theorem apart_add {h h' : Host} {u : Uniq} {k : StepKind} {d : ReqData} (ha : h.Apart) (hu : (k = .compile ∧ ∃ o, u = .state o) ∨ (k ≠ .compile ∧ u = .bss h.nbss))
    (hn : h'.nbss = h.nbss + 1) (hs : addBuildStep h.steps u k d = some h'.steps) : h'.Apart := by
  have old : ∀ st ∈ h.steps, (st.kind = .compile ∧ ∃ o, st.unique = .state o) ∨ (st.kind ≠ .compile ∧ (∃ d, st.data = [d]) ∧ ∃ n, st.unique = .bss n ∧ n < h'.nbss) := by
    intro st hst
    rcases ha st hst with h1 | ⟨h1, h2, n, h3, h4⟩
    · exact .inl h1
    · exact .inr ⟨h1, h2, n, h3, by omega⟩
  have fresh : ∀ st ∈ h.steps ++ [⟨u, k, [d]⟩], (st.kind = .compile ∧ ∃ o, st.unique = .state o) ∨
      (st.kind ≠ .compile ∧ (∃ d, st.data = [d]) ∧ ∃ n, st.unique = .bss n ∧ n < h'.nbss) := by
    intro st hst
    rcases List.mem_append.1 hst with h1 | h1
    · exact old st h1
    · cases List.mem_singleton.1 h1
      rcases hu with ⟨rfl, o, rfl⟩ | ⟨h2, rfl⟩
      · exact .inl ⟨rfl, o, rfl⟩
      · exact .inr ⟨h2, ⟨d, rfl⟩, _, rfl, by omega⟩
  unfold addBuildStep at hs
  unfold Host.Apart
  cases hl : h.steps.getLast? with
  | none =>
    rw [hl] at hs
    rw [← Option.some.inj hs]
    exact fresh
  | some last =>
    rw [hl] at hs
    dsimp only at hs
    have hmem : last ∈ h.steps := List.mem_of_getLast? hl
    split at hs
    · rename_i hlu
      split at hs
      · rename_i hlk
        rw [← Option.some.inj hs]
        intro st hst
        rcases List.mem_append.1 hst with h1 | h1
        · exact old st (List.dropLast_subset _ h1)
        · cases List.mem_singleton.1 h1
          rcases ha last hmem with h2 | ⟨h2, -, n, h3, h4⟩
          · exact .inl h2
          · rcases hu with ⟨rfl, o, rfl⟩ | ⟨h5, rfl⟩
            · exact absurd hlk h2
            · rw [hlu] at h3
              cases h3
              omega
      · cases hs
    · rw [← Option.some.inj hs]
      exact fresh

theorem cl_apart (w : World) : Cl w (fun {α} (m _ : M α) => Keeps (fun s s' => s.host.Apart → s'.host.Apart) m) where
  leaf _ h := ⟨fun hm ha => by
    obtain ⟨-, h1, h2⟩ := h.out hm
    unfold Host.Apart at ha ⊢
    rw [h1, h2]
    exact ha⟩
  bind h1 h2 := keeps_bind ⟨fun _ => id, fun h1 h2 h => h2 (h1 h)⟩ h1 h2
  onErr _ h := ⟨fun hm => h.out (onErr_ok hm)⟩
  blame _ h := keeps_blame h
  extern := by
    intro α c args k hk
    refine ⟨fun {s a s'} h ha => ?_⟩
    obtain ⟨v, s1, h1, k1⟩ := (bind_ok_iff ..).1 h
    obtain ⟨_, s2, h2, k2⟩ := (bind_ok_iff ..).1 k1
    obtain ⟨o, hs, hd⟩ := externFn_ok h1
    cases h2
    refine (hk v).out k2 ?_
    show s1.host.Apart
    cases hs with
    | list =>
      have h1 := hd.steps
      have h2 := hd.nbss
      unfold Host.Apart at ha ⊢
      simp only at h1
      rw [h1, h2]
      exact ha
    | compile i => exact apart_add ha (.inl ⟨rfl, _, rfl⟩) hd.nbss hd.steps
    | link => exact apart_add (k := .link) ha (.inr ⟨by decide, rfl⟩) hd.nbss hd.steps
    | archive => exact apart_add (k := .archive) ha (.inr ⟨by decide, rfl⟩) hd.nbss hd.steps

theorem rec_apart (w : World) : ∀ n, RecP (fun {α} (m _ : M α) => Keeps (fun s s' => s.host.Apart → s'.host.Apart) m) (interp w n) (interp w n)
  | 0 => {
      eval := fun _ _ => keeps_timeout
      exec := fun _ => keeps_timeout
      member := fun _ => keeps_timeout
      call := fun _ _ _ _ => keeps_timeout
      filter := fun _ _ _ => keeps_timeout
      eq := fun _ _ => keeps_timeout
      dec := fun _ => keeps_timeout
      repr := fun _ => keeps_timeout }
  | n + 1 => cl_stepRec (cl_apart w) (rec_apart w n)

/-- **C62.** Every link and archive call gets a step of its own, however similar the calls. -/
theorem C62_links_apart {w : World} {n : Nat} {paths : List Bytes} {p : List Stmt} {s : St} (h : runScript w n paths p = .ok () s) :
    ∀ st ∈ s.host.steps, st.kind ≠ .compile → ∃ d, st.data = [d] := by
  have := (cl_forEach (cl_apart w) (f' := (interp w n).exec) (rec_apart w n).exec p).out h (fun _ h => (nomatch h))
  intro st hst hk
  rcases this st hst with ⟨h1, -⟩ | ⟨-, h1, -⟩
  · exact absurd h1 hk
  · exact h1

/-- **C62.** The steps of compilers are exactly the compile steps. -/
theorem C62_kinds {w : World} {n : Nat} {paths : List Bytes} {p : List Stmt} {s : St} (h : runScript w n paths p = .ok () s) :
    ∀ st ∈ s.host.steps, (st.kind = .compile ↔ ∃ o, st.unique = .state o) := by
  have := (cl_forEach (cl_apart w) (f' := (interp w n).exec) (rec_apart w n).exec p).out h (fun _ h => (nomatch h))
  intro st hst
  rcases this st hst with ⟨h1, h2⟩ | ⟨h1, -, m, h2, -⟩
  · exact ⟨fun _ => h2, fun _ => h1⟩
  · exact ⟨fun h => absurd h h1, fun ⟨o, h⟩ => by rw [h2] at h; cases h⟩

/-- The function `f` is static in a class bob does not know, or belongs to an instance of one. -/
def St.Foreign (s : St) (f : Nat) : Prop :=
  ∃ x sc scope o k, s.cells[f]? = some x ∧ x.owner = some sc ∧ s.Alive sc scope ∧ scope.owner = some o ∧
    ((o = k ∧ ∃ g : FnData, s.Holds o (.fn g) ∧ g.kind = .cls) ∨ ∃ i : InstData, s.Holds o (.inst i) ∧ i.cls = k) ∧
    s.host.fsCls ≠ some k ∧ s.host.ccCls ≠ some k ∧ s.host.linkerCls ≠ some k

/-- **C62.** External functions of classes other than `Fs`, `Cc` and `Linker` are refused, whatever their names. -/
theorem C62_foreign {w : World} {s : St} {f : Nat} {x : Cell} (h : s.Foreign f) (hx : s.cells[f]? = some x)
    (hn : s.NameKept x) (args : List Nat) :
    Refused (b!"Bob doesn't support the '" ++ x.name ++ b!"' external function call (" ++ dec args.length ++ b!" arguments passed)") s (externFn w f args s) := by
  obtain ⟨x', sc, scope, o, k, h1, h2, h3, h4, h5, h6, h7, h8⟩ := h
  rw [hx] at h1
  cases h1
  obtain ⟨ow, how, hk1, hk2, hk3⟩ : ∃ ow, findOwner f s = .ok ow s ∧ ow.skip s.host.fsCls = true ∧ ow.skip s.host.ccCls = true ∧ ow.skip s.host.linkerCls = true := by
    unfold findOwner
    rw [bind_of_ok ((getCell_ok_iff ..).2 ⟨hx, rfl⟩), bind_of_ok ((deref_ok_iff ..).2 ⟨h2, rfl⟩), bind_of_ok (getScope_alive h3), h4]
    dsimp only
    rcases h5 with ⟨rfl, g, h5, h5'⟩ | ⟨i, h5, rfl⟩
    · obtain ⟨y, hy, hd⟩ := getCell_holds h5
      rw [bind_of_ok hy, hd]
      refine ⟨.cls o, ?_, ?_⟩
      · show (pure (if g.kind = .cls then Owner.cls o else .other) : M Owner) s = _
        rw [if_pos h5']
        rfl
      · simp only [Owner.skip, bne_iff_ne, ne_eq]
        exact ⟨Ne.symm h6, Ne.symm h7, Ne.symm h8⟩
    · obtain ⟨y, hy, hd⟩ := getCell_holds h5
      rw [bind_of_ok hy, hd]
      refine ⟨.inst i, rfl, ?_⟩
      simp only [Owner.skip, bne_iff_ne, ne_eq]
      exact ⟨Ne.symm h6, Ne.symm h7, Ne.symm h8⟩
  unfold externFn
  rw [bind_of_ok ((getCell_ok_iff ..).2 ⟨hx, rfl⟩), bind_of_ok how, bind_of_ok (show M.get s = .ok s s from rfl)]
  unfold askClass
  rw [hk1, hk2, hk3]
  show Refused _ s ((readName x >>= _) s)
  rw [bind_of_ok (readName_kept hn)]
  exact refused_raise _ _

/-! ## The builds -/

theorem mapM_cons_some {f : α → Option β} {a : α} {as : List α} {bs : List β} (h : (a :: as).mapM f = some bs) :
    ∃ b bs', f a = some b ∧ as.mapM f = some bs' ∧ bs = b :: bs' := by
  rw [List.mapM_cons] at h
  cases ha : f a with
  | none =>
    rw [ha] at h
    cases h
  | some b =>
    rw [ha] at h
    cases hb : as.mapM f with
    | none =>
      rw [hb] at h
      cases h
    | some bs' =>
      rw [hb] at h
      cases h
      exact ⟨b, bs', rfl, rfl, rfl⟩

theorem mapM_append_some {f : α → Option β} {as as' : List α} {bs bs' : List β} (h : as.mapM f = some bs) (h' : as'.mapM f = some bs') :
    (as ++ as').mapM f = some (bs ++ bs') := by
  rw [List.mapM_append, h, h']
  rfl

/-- One step. -/
theorem request_items {s : St} {st : BuildStep Uniq StepKind ReqData} {r : Req} (h : s.request st = some r) :
    ∃ iss, (st.data.map fun d => (st.unique, st.kind, d)).mapM s.items = some iss ∧ itemsOf r = iss.flatten := by
  obtain ⟨u, k, data⟩ := st
  have hlink : ∀ (a : Bool) (k : StepKind) (d : ReqData), (s.items (u, k, d) = (s.linkJob a d).map fun j => [.product j]) →
      (s.linkJob a d).map Req.link = some r → ∃ iss, ([d].map fun d => (u, k, d)).mapM s.items = some iss ∧ itemsOf r = iss.flatten := by
    intro a k d hk h
    cases hj : s.linkJob a d with
    | none =>
      rw [hj] at h
      cases h
    | some j =>
      rw [hj] at h hk
      cases h
      refine ⟨[[.product j]], ?_, rfl⟩
      simp [hk]
  cases k with
  | link =>
    match data, h with
    | [d], h => exact hlink false .link d rfl h
  | archive =>
    match data, h with
    | [d], h => exact hlink true .archive d rfl h
  | compile =>
    have key : ∀ (data : List ReqData) (js : List (List CJob)), data.mapM s.compileJobs = some js →
        (data.map fun d => (u, StepKind.compile, d)).mapM s.items = some (js.map fun j => j.map Item.obj) := by
      intro data
      induction data with
      | nil =>
        intro js h
        cases h
        rfl
      | cons d data ih =>
        intro js h
        obtain ⟨j, js', h1, h2, rfl⟩ := mapM_cons_some h
        rw [List.map_cons, List.mapM_cons, ih _ h2]
        have : s.items (u, .compile, d) = some (j.map .obj) := by
          show (s.compileJobs d).map _ = _
          rw [h1]
          rfl
        rw [this]
        rfl
    have h : (data.mapM s.compileJobs).map (fun js => Req.compile js.flatten) = some r := h
    cases hj : data.mapM s.compileJobs with
    | none =>
      rw [hj] at h
      cases h
    | some js =>
      rw [hj] at h
      cases h
      exact ⟨_, key _ _ hj, by rw [itemsOf, List.map_flatten]⟩

theorem requests_items {s : St} : ∀ {steps : List (BuildStep Uniq StepKind ReqData)} {reqs : List Req}, steps.mapM s.request = some reqs →
    ∃ iss, (served steps).mapM s.items = some iss ∧ reqs.flatMap itemsOf = iss.flatten
  | [], _, h => by
    cases h
    exact ⟨[], rfl, rfl⟩
  | st :: steps, reqs, h => by
    obtain ⟨r, rs, h1, h2, rfl⟩ := mapM_cons_some h
    obtain ⟨is1, k1, e1⟩ := request_items h1
    obtain ⟨is2, k2, e2⟩ := requests_items h2
    refine ⟨is1 ++ is2, ?_, ?_⟩
    · show ((st.data.map _) ++ served steps).mapM s.items = _
      exact mapM_append_some k1 k2
    · rw [List.flatMap_cons, e1, e2, List.flatten_append]

/-- **C62.** What is built after the script is, in the order of its calls, what each call asked for: its sources into the files its result names (as the
values are when the script is over). -/
theorem C62_built_partial {w : World} {n : Nat} {paths : List Bytes} {p : List Stmt} {s : St} (h : runScript w n paths p = .ok () s) {reqs : List Req}
    (hr : s.requests = some reqs) :
    ∃ (es : List Event) (iss : List (List Item)), s.calls = es.map (·.call) ∧ (∀ e ∈ es, Serves w e.before e.after e.call e.req) ∧
      (es.filterMap (·.req)).mapM s.items = some iss ∧ reqs.flatMap itemsOf = iss.flatten := by
  obtain ⟨es, h1, h2, h3, -⟩ := C62_requests h
  obtain ⟨iss, k1, k2⟩ := requests_items hr
  exact ⟨es, iss, h1, h2, h3 ▸ k1, k2⟩

/-- An object and a program made from it. -/
def twoSteps : List Stmt := [sBob, sLet b!"o" (eMeth (eNew b!"Cc" [b!"-O2"]) b!"compile" [.vec [eStr b!"a.c"]]),
  sLet b!"l" (eMeth (eNew b!"Linker" [b!"-lm"]) b!"link" [eVar b!"o"])]

example : (runScript bobWorld 30 bobPaths twoSteps).requests = some [
    .compile [{ src := b!"a.c", out := b!"out/bob/a.c.cookie.b8855d7.o", flags := [b!"-O2"] }],
    .link { archive := false, srcs := [b!"out/bob/a.c.cookie.b8855d7.o"], out := linkCookie true b!"out" false [b!"out/bob/a.c.cookie.b8855d7.o"],
            flags := [b!"-lm"] }] := by decide +kernel

/-- A call may come from a function, a callback or an imported file; a changed result changes where the product goes. -/
example : (runScript bobWorld 40 bobPaths [sBob, sLet b!"c" (eNew b!"Cc" []), sLet b!"f" (.lambda [b!"s"] (.expr (eMeth (eVar b!"c") b!"compile" [.vec [eVar b!"s"]]))),
    sLet b!"os" (eMeth (eMeth (eVar b!"Fs") b!"list" [eStr b!"src"]) b!"map" [eVar b!"f"]),
    .line (.assign (.index (.index (eVar b!"os") (eNum b!"1")) (eNum b!"0") []) (eStr b!"here"))]).requests = some [
    .compile [{ src := b!"src/a.c", out := genCookie true b!"out" b!"src/a.c" b!"o", flags := [] }, { src := b!"src/b.c", out := b!"here", flags := [] }]] := by
  decide +kernel

/-- Two equal links are two requests. -/
example : (runScript bobWorld 30 bobPaths [sBob, sLet b!"l" (eNew b!"Linker" []), sLet b!"a" (eMeth (eVar b!"l") b!"link" [.vec [eStr b!"x"]]),
    sLet b!"b" (eMeth (eVar b!"l") b!"link" [.vec [eStr b!"x"]])]).requests.map (·.length) = some 2 := by decide +kernel

/-- A class of the script itself with a function `compile`. -/
example : (runScript bobWorld 30 bobPaths [sBob, .cls false b!"Mine" [] [.line (.proto true b!"compile" [b!"s"])], sDo (eMeth (eVar b!"Mine") b!"compile" [.vec []])]).failed =
    some (some b!"Bob doesn't support the 'compile' external function call (1 arguments passed)", []) := by decide +kernel

/-- `Linker([]).link([])`, where nobody keeps the result. -/
def discards : List Stmt := [sBob, sDo (eMeth (eNew b!"Linker" []) b!"link" [.vec []])]

/-- **C62** as stated is false: the values of a request are not kept alive for it. This script is
accepted and registers a step whose output path has been released. -/
theorem C62_discarded_false : ∃ p : List Stmt, setup (runScript bobWorld 30 bobPaths p) = some true ∧
    ∀ s, runScript bobWorld 30 bobPaths p = .ok () s → s.host.steps.length = 1 ∧ s.requests = none := by
  refine ⟨discards, by decide +kernel, fun s hs => ?_⟩
  have h : (match runScript bobWorld 30 bobPaths discards with
    | .ok _ s => decide (s.host.steps.length = 1 ∧ s.requests = none)
    | _ => false) = true := by decide +kernel
  rw [hs] at h
  exact of_decide_eq_true h

end Bob.Fl
