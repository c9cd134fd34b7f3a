import Verif.Lemmas.FlWf
/-!
# Operations on well-formed states
-/

namespace Bob.Fl

section
variable {L : Discipline} {C P T : List Nat} {s : St}

/-! ## Using the invariant -/

theorem Elem.same {cells cells' : List Cell} (h : SameData cells cells') {c : Nat} (he : Elem cells c) : Elem cells' c := by
  obtain ⟨k, y, hy, hc⟩ := he
  obtain ⟨y', hy', hd⟩ := h.get hy
  exact ⟨k, y', hy', hd ▸ hc⟩

theorem Hard.same {cells cells' : List Cell} (h : SameData cells cells') {c : Nat} (he : Hard C cells c) : Hard C cells' c := by
  rcases he with he | he | ⟨x, hx, hf⟩
  · exact .inl he
  · exact .inr (.inl (he.same h))
  · obtain ⟨y', hy', hd⟩ := h.get hx
    exact .inr (.inr ⟨y', hy', hd ▸ hf⟩)

theorem Shape.elem (h : Shape L s) {c : Nat} (he : Elem s.cells c) : Plain s.cells c := by
  obtain ⟨k, y, hy, hc⟩ := he
  exact (h.data k y hy).1 c hc

theorem Plain.lt {cells : List Cell} {c : Nat} (h : Plain cells c) : c < cells.length := by
  obtain ⟨y, hy, _⟩ := h
  exact lt_of_get hy

theorem Wf.hard_lt (h : Wf L C P T s) {c : Nat} (hc : Hard C s.cells c) : c < s.cells.length := by
  rcases hc with hc | hc | ⟨x, hx, _⟩
  · exact h.inC c hc
  · exact (h.shape.elem hc).lt
  · exact lt_of_get hx

theorem Wf.pinned_lt (h : Wf L C P T s) {c : Nat} (hc : Pinned L C P s c) : c < s.cells.length := by
  rcases hc with hc | hc | ⟨i, x, v, hx, hv, hc, _⟩ | hc
  · exact h.hard_lt hc
  · exact h.inP c hc
  · obtain ⟨y, hy, _⟩ := ((h.shape.scopes i x hx).vars v hv).val c hc
    exact lt_of_get hy
  · exact h.shape.host.uses c hc

/-- Something still referred to. -/
theorem Wf.live (h : Wf L C P T s) {c : Nat} {x : Cell} (hx : s.cells[c]? = some x) (hc : Pinned L C P s c ∨ 1 ≤ held L T s c) : x.refs ≠ 0 := by
  rcases hc with hc | hc
  · have := h.mem.pin c x hx hc
    omega
  · have := h.mem.cnt c x hx
    omega

theorem held_of_mem {c : Nat} (hc : c ∈ T) : 1 ≤ held L T s c := by
  have := List.count_pos_iff.2 hc
  unfold held
  omega

theorem held_of_var {i : Nat} {x : Scope} {v : Var} (hx : s.scopes[i]? = some x) (hv : v ∈ x.vars) {c : Nat} (hc : v.val = some c) (hk : v.key ∈ L.assigned) :
    1 ≤ held L T s c := by
  have := cntVars_pos (L := L) hv hc hk
  have := cntVars_le (L := L) hx c
  unfold held
  omega

/-- The value of a variable. -/
theorem Wf.live_var (h : Wf L C P T s) {i : Nat} {x : Scope} {v : Var} (hx : s.scopes[i]? = some x) (hv : v ∈ x.vars) {c : Nat} (hc : v.val = some c) {y : Cell}
    (hy : s.cells[c]? = some y) : y.refs ≠ 0 := by
  by_cases hk : v.key ∈ L.assigned
  · exact h.live hy (.inr (held_of_var hx hv hc hk))
  · exact h.live hy (.inl (.inr (.inr (.inl ⟨i, x, v, hx, hv, hc, hk⟩))))

theorem Wf.held_new (h : Wf L C P T s) : heldVars L s.scopes s.cells.length = 0 := by
  refine heldVars_zero fun i x hx v hv hc => ?_
  obtain ⟨y, hy, _⟩ := ((h.shape.scopes i x hx).vars v hv).val _ hc
  exact Nat.lt_irrefl _ (lt_of_get hy)

theorem Wf.rv_new (h : Wf L C P T s) : s.eng.rv ≠ .val s.cells.length := fun hr => Nat.lt_irrefl _ (h.shape.rv _ hr).lt

/-! ## Giving up knowledge -/

theorem Wf.mono {P' T' : List Nat} (h : Wf L C P T s) (hP : ∀ c ∈ P', Pinned L C P s c ∨ T'.count c + 1 ≤ T.count c) (hT : ∀ c, T'.count c ≤ T.count c) :
    Wf L C P' T' s where
  mem := by
    refine h.mem.mono (fun c => ?_) (fun c hc => ?_) (fun _ h => h) (fun _ h => .inl h)
    · have := hT c
      unfold held
      omega
    · rcases hc with hc | hc | hc
      · exact .inl (.inl hc)
      · rcases hP c hc with hc | hc
        · exact .inl hc
        · refine .inr ?_
          unfold held
          omega
      · exact .inl (.inr (.inr hc))
  shape := h.shape
  inC := h.inC
  inP c hc := by
    rcases hP c hc with hc | hc
    · exact h.pinned_lt hc
    · exact h.inT c (List.count_pos_iff.1 (by omega))
  inT c hc := h.inT c (by
    have := hT c
    have := List.count_pos_iff.2 hc
    exact List.count_pos_iff.1 (by omega))

/-- Keeping a reference for good. -/
theorem Wf.keep {c : Nat} (h : Wf L C P (c :: T) s) : Wf L C (c :: P) T s := by
  refine h.mono (fun c' hc' => ?_) fun c' => ?_
  · rcases List.mem_cons.1 hc' with rfl | hc'
    · refine .inr ?_
      rw [List.count_cons_self]
    · exact .inl (.inr (.inl hc'))
  · rw [List.count_cons]
    omega

theorem Wf.keepAll {cs : List Nat} (h : Wf L C P (cs ++ T) s) : Wf L C (cs ++ P) T s := by
  refine h.mono (fun c' hc' => ?_) fun c' => ?_
  · rcases List.mem_append.1 hc' with hc' | hc'
    · have := List.count_pos_iff.2 hc'
      refine .inr ?_
      rw [List.count_append]
      omega
    · exact .inl (.inr (.inl hc'))
  · rw [List.count_append]
    omega

theorem Wf.sub {P' T' : List Nat} (h : Wf L C P T s) (hP : ∀ c ∈ P', c ∈ P) (hT : ∀ c, T'.count c ≤ T.count c) : Wf L C P' T' s :=
  h.mono (fun c hc => .inl (.inr (.inl (hP c hc)))) hT

theorem Wf.subP {P' : List Nat} (h : Wf L C P T s) (hP : ∀ c ∈ P', c ∈ P) : Wf L C P' T s := h.sub hP fun _ => Nat.le_refl _

theorem Wf.drop {T' : List Nat} (h : Wf L C P (T' ++ T) s) : Wf L C P T s :=
  h.sub (fun _ h => h) fun c => by rw [List.count_append]; omega

theorem Wf.drop1 {c : Nat} (h : Wf L C P (c :: T) s) : Wf L C P T s := Wf.drop (T' := [c]) h

theorem Wf.perm {T' : List Nat} (h : Wf L C P T s) (hT : T'.Perm T) : Wf L C P T' s := h.sub (fun _ h => h) fun c => by rw [hT.count_eq]

theorem Wf.pinned {c : Nat} (h : Wf L C P T s) (hc : Pinned L C P s c) : Wf L C (c :: P) T s := by
  refine h.mono (fun c' hc' => .inl ?_) fun _ => Nat.le_refl _
  rcases List.mem_cons.1 hc' with rfl | hc'
  · exact hc
  · exact .inr (.inl hc')

/-! ## Changing cells -/

theorem Sup.of_same {s : St} {cells : List Cell} {bufs : List (Option Bytes)} {bodies : List (Option Body)} (hsd : SameData s.cells cells) :
    Sup s { s with cells := cells, bufs := bufs, bodies := bodies } :=
  ⟨fun _ _ hx => hsd.get hx, Nat.le_refl _, Nat.le_refl _, Nat.le_refl _⟩

theorem Shape.same {cells : List Cell} {bufs : List (Option Bytes)} {bodies : List (Option Body)} (h : Shape L s) (hsd : SameData s.cells cells)
    (hown : ∀ (k : Nat) (x : Cell), s.cells[k]? = some x → ∃ x', cells[k]? = some x' ∧ (x'.owner = x.owner ∨ ∃ i, x'.owner = some i ∧ i < s.scopes.length)) :
    Shape L { s with cells := cells, bufs := bufs, bodies := bodies } := by
  have hsup : Sup s { s with cells := cells, bufs := bufs, bodies := bodies } := Sup.of_same hsd
  refine ⟨fun c x hx => ?_, fun i x hx => (h.scopes i x hx).sup hsup, h.envs, h.cur, fun k p hp => ?_, fun c hc => hsup.plain (h.rv c hc), h.rvs, h.host.mono (fun c hc => hsup.lt hc) fun _ _ => hsup.holds⟩
  · obtain ⟨y, hy, hd⟩ := hsd.symm.get hx
    obtain ⟨z, hz, ho⟩ := hown c y hy
    rw [show cells[c]? = some x from hx] at hz
    cases hz
    have hok := (h.data c y hy).sup hsup
    refine ⟨by rw [← hd]; exact hok.1, ?_⟩
    have h2 := hok.2
    rw [hd] at h2
    cases hxd : x.data <;> rw [hxd] at h2 <;> try trivial
    simp only at h2 ⊢
    rcases ho with ho | ⟨i, ho, hi⟩
    · rw [ho]
      exact h2
    · obtain ⟨p1, p2, p3⟩ := h2
      refine ⟨p1, p2, ?_⟩
      split at p3
      · exact p3
      · exact p3
      · exact ⟨p3.1, i, ho, hi⟩
      · exact p3
  · obtain ⟨x, hx, hd⟩ := h.ptm k p hp
    obtain ⟨x', hx', hd'⟩ := hsd.get hx
    exact ⟨x', hx', hd'.trans hd⟩

theorem Wf.same {cells : List Cell} {bufs : List (Option Bytes)} {bodies : List (Option Body)} {T' : List Nat} (h : Wf L C P T s) (hsd : SameData s.cells cells)
    (hown : ∀ (k : Nat) (x : Cell), s.cells[k]? = some x → ∃ x', cells[k]? = some x' ∧ (x'.owner = x.owner ∨ ∃ i, x'.owner = some i ∧ i < s.scopes.length))
    (hmem : Mem L (held L T' s) (Pinned L C P s) (Hard C s.cells) cells bufs bodies) (hT : ∀ c ∈ T', c < s.cells.length) :
    Wf L C P T' { s with cells := cells, bufs := bufs, bodies := bodies } := by
  have hsup : Sup s { s with cells := cells, bufs := bufs, bodies := bodies } := Sup.of_same hsd
  refine ⟨?_, h.shape.same hsd hown, fun c hc => hsup.lt (h.inC c hc), fun c hc => hsup.lt (h.inP c hc), fun c hc => hsup.lt (hT c hc)⟩
  refine hmem.mono (fun _ => Nat.le_refl _) (fun c hc => .inl ?_) (fun c hc => hc.same hsd) (fun c hc => .inl hc)
  rcases hc with hc | hc | hc
  · exact .inl (hc.same hsd.symm)
  · exact .inr (.inl hc)
  · exact .inr (.inr hc)

theorem own_set {cells : List Cell} {n c : Nat} {x y : Cell} (hx : cells[c]? = some x) (hy : y.owner = x.owner ∨ ∃ i, y.owner = some i ∧ i < n) (k : Nat) (z : Cell)
    (hz : cells[k]? = some z) : ∃ x', (cells.set c y)[k]? = some x' ∧ (x'.owner = z.owner ∨ ∃ i, x'.owner = some i ∧ i < n) := by
  by_cases hk : k = c
  · subst hk
    rw [hx] at hz
    cases hz
    exact ⟨y, List.getElem?_set_self (lt_of_get hx), hy⟩
  · exact ⟨z, by rw [List.getElem?_set_ne (Ne.symm hk)]; exact hz, .inl rfl⟩

/-- Name and owner of a cell change. -/
theorem Wf.touch (h : Wf L C P T s) {c : Nat} {x y : Cell} (hx : s.cells[c]? = some x) (hd : y.data = x.data) (hr : y.refs = x.refs)
    (ho : y.owner = x.owner ∨ ∃ i, y.owner = some i ∧ i < s.scopes.length) : Wf L C P T { s with cells := s.cells.set c y } :=
  h.same (SameData.set hx hd) (own_set hx ho) (h.mem.set hx hd (by rw [hr]) (fun _ _ => Nat.le_refl _) (fun p hp => by rw [hr]; exact hp)) h.inT

theorem held_cons (c c' : Nat) : held L (c :: T) s c' = held L T s c' + (if c' = c then 1 else 0) := by
  unfold held
  rw [List.count_cons]
  by_cases hc : c' = c
  · subst hc
    simp
    omega
  · have : (c == c') = false := by simpa using Ne.symm hc
    simp [this, hc]

/-- One more reference. -/
theorem Wf.incref (h : Wf L C P T s) {c : Nat} {x : Cell} (hx : s.cells[c]? = some x) (hr : x.refs ≠ 0) :
    Wf L C P (c :: T) { s with cells := s.cells.set c { x with refs := x.refs + 1 } } := by
  refine h.same (SameData.set hx rfl) (own_set hx (.inl rfl)) (h.mem.set hx rfl ⟨fun h => absurd h (Nat.succ_ne_zero _), fun h => absurd h hr⟩ (fun c' hne => ?_) (fun p hp => ?_))
    fun c' hc' => ?_
  · rw [held_cons, if_neg hne]
    exact Nat.le_refl _
  · rw [held_cons, if_pos rfl]
    show _ ≤ x.refs + 1
    omega
  · rcases List.mem_cons.1 hc' with rfl | hc'
    · exact lt_of_get hx
    · exact h.inT c' hc'

theorem Wf.dec (h : Wf L C P (c :: T) s) (w : World) (n : Nat) : (interp w n).dec c s = .timeout ∨ ∃ s', (interp w n).dec c s = .ok () s' ∧ Wf L C P T s' ∧ ∀ F, Grow F s s' := by
  cases n with
  | zero => exact .inl rfl
  | succ n =>
    obtain ⟨cells, bufs, bodies, h1, h2, h3, h4⟩ := stepDec_mem (N' := held L T s) (interp w n).dec (h.inT c List.mem_cons_self) h.mem
      fun c' => by rw [held_cons]
    refine .inr ⟨_, h1, h.same h2 (fun k x hx => ?_) h4 fun c' hc' => h.inT c' (List.mem_cons_of_mem _ hc'), fun F => Grow.of_scopes (Sup.of_same h2) rfl⟩
    obtain ⟨x', hx', ho⟩ := h3 k x hx
    exact ⟨x', hx', .inl ho⟩

/-! ## More cells -/

theorem Sup.of_push {s : St} (xs : List Cell) (bufs : List (Option Bytes)) (bodies : List (Option Body)) :
    Sup s { s with cells := s.cells ++ xs, bufs := bufs, bodies := bodies } :=
  ⟨fun _ x hx => ⟨x, getElem?_pushed hx, rfl⟩, Nat.le_refl _, Nat.le_refl _, Nat.le_refl _⟩

theorem Shape.push (h : Shape L s) (x : Cell) (bufs : List (Option Bytes)) (bodies : List (Option Body)) (hx : DataOk L s x) :
    Shape L { s with cells := s.cells ++ [x], bufs := bufs, bodies := bodies } := by
  have hsup : Sup s { s with cells := s.cells ++ [x], bufs := bufs, bodies := bodies } := Sup.of_push _ _ _
  refine ⟨fun c y hy => ?_, fun i x hx => (h.scopes i x hx).sup hsup, h.envs, h.cur, fun k p hp => ?_, fun c hc => hsup.plain (h.rv c hc), h.rvs, h.host.mono (fun c hc => hsup.lt hc) fun _ _ => hsup.holds⟩
  · rcases getElem?_push hy with ⟨_, hy⟩ | ⟨_, rfl⟩
    · exact (h.data c y hy).sup hsup
    · exact hx.sup hsup
  · obtain ⟨x, hx, hd⟩ := h.ptm k p hp
    exact ⟨x, getElem?_pushed hx, hd⟩

theorem Elem.push {cells : List Cell} {x : Cell} {c : Nat} (h : Elem (cells ++ [x]) c) : Elem cells c ∨ c ∈ x.data.parts := by
  obtain ⟨k, y, hy, hc⟩ := h
  rcases getElem?_push hy with ⟨_, hy⟩ | ⟨_, rfl⟩
  · exact .inl ⟨k, y, hy, hc⟩
  · exact .inr hc

theorem Wf.push {C' P' T' : List Nat} (h : Wf L C P T s) (x : Cell) (bs : List (Option Bytes)) (ds : List (Option Body)) (hok : DataOk L s x)
    (hparts : ∀ c ∈ x.data.parts, Pinned L C P s c)
    (hC : ∀ c ∈ C, c ∈ C' ∨ c ∈ x.data.parts) (hC' : ∀ c ∈ C', c ∈ C ∨ c = s.cells.length) (hP : ∀ c ∈ P', c ∈ P ∨ c = s.cells.length)
    (hT : ∀ c, c < s.cells.length → T'.count c ≤ T.count c) (hT' : ∀ c ∈ T', c ≤ s.cells.length) (hx : T'.count s.cells.length ≤ x.refs)
    (hx' : s.cells.length ∈ C' ∨ s.cells.length ∈ P' ∨ x.data.Fixed → T'.count s.cells.length + 1 ≤ x.refs)
    (hbuf : ∀ b n, x.data = .str b n → (b < (s.bufs ++ bs).length ∧ ∃ t : Bytes, (s.bufs ++ bs)[b]? = some (some t) ∧ n ≤ t.length ∧ NUL ∉ t.take n) ∧ s.bufs.length ≤ b)
    (hbody : ∀ f b, x.data = .fn f → f.body = some b → (b < (s.bodies ++ ds).length ∧ ∃ y : Body, (s.bodies ++ ds)[b]? = some (some y) ∧ bodyOk L f.kind y) ∧
      (s.bodies.length ≤ b ∨ s.cells.length ∈ C' ∧ ∀ c y f', s.cells[c]? = some y → y.data = .fn f' → f'.body = some b → Hard C s.cells c)) :
    Wf L C' P' T' { s with cells := s.cells ++ [x], bufs := s.bufs ++ bs, bodies := s.bodies ++ ds } := by
  have hlen : (s.cells ++ [x]).length = s.cells.length + 1 := by simp
  have hS : ∀ c, Hard C s.cells c → Hard C' (s.cells ++ [x]) c := by
    rintro c (hc | ⟨k, y, hy, hc⟩ | ⟨y, hy, hf⟩)
    · rcases hC c hc with hc | hc
      · exact .inl hc
      · exact .inr (.inl ⟨s.cells.length, x, List.getElem?_concat_length, hc⟩)
    · exact .inr (.inl ⟨k, y, getElem?_pushed hy, hc⟩)
    · exact .inr (.inr ⟨y, getElem?_pushed hy, hf⟩)
  have hpin : ∀ c, c < s.cells.length → Pinned L C' P' { s with cells := s.cells ++ [x], bufs := s.bufs ++ bs, bodies := s.bodies ++ ds } c → Pinned L C P s c := by
    rintro c hlt ((hc | hc | ⟨y, hy, hf⟩) | hc | hc)
    · rcases hC' c hc with hc | hc
      · exact .inl (.inl hc)
      · omega
    · rcases hc.push with hc | hc
      · exact .inl (.inr (.inl hc))
      · exact hparts c hc
    · rcases getElem?_push hy with ⟨_, hy⟩ | ⟨hc, _⟩
      · exact .inl (.inr (.inr ⟨y, hy, hf⟩))
      · omega
    · rcases hP c hc with hc | hc
      · exact .inr (.inl hc)
      · omega
    · exact .inr (.inr hc)
  have hnew : held L T' { s with cells := s.cells ++ [x], bufs := s.bufs ++ bs, bodies := s.bodies ++ ds } s.cells.length = T'.count s.cells.length := by
    show heldVars L s.scopes s.cells.length + _ + (if s.eng.rv = _ then 1 else 0) = _
    rw [h.held_new, if_neg h.rv_new]
    omega
  refine ⟨?_, h.shape.push x _ _ hok, fun c hc => ?_, fun c hc => ?_, fun c hc => ?_⟩
  · refine h.mem.push x bs ds (fun c hc => ?_) (fun c hc hp => .inl (hpin c hc hp)) hS (fun c hc => .inl hc) (by rw [hnew]; exact hx) (fun hp => ?_) hbuf ?_ ?_
    · have := hT c hc
      show heldVars L s.scopes c + _ + (if s.eng.rv = _ then 1 else 0) ≤ heldVars L s.scopes c + _ + (if s.eng.rv = _ then 1 else 0)
      omega
    · rw [hnew]
      rcases hp with (hc | hc | ⟨y, hy, hf⟩) | hc | ⟨i, sc, v, hsc, hv, hc, _⟩ | hc
      · exact hx' (.inl hc)
      · exfalso
        rcases hc.push with hc | hc
        · exact Nat.lt_irrefl _ (h.shape.elem hc).lt
        · exact Nat.lt_irrefl _ (h.pinned_lt (hparts _ hc))
      · rcases getElem?_push hy with ⟨hlt, _⟩ | ⟨_, rfl⟩
        · omega
        · exact hx' (.inr (.inr hf))
      · exact hx' (.inr (.inl hc))
      · exfalso
        obtain ⟨y, hy, _⟩ := ((h.shape.scopes i sc hsc).vars v hv).val _ hc
        exact Nat.lt_irrefl _ (lt_of_get hy)
      · exact absurd (h.shape.host.uses _ hc) (Nat.lt_irrefl _)
    · intro f b hf hb
      obtain ⟨h1, h2⟩ := hbody f b hf hb
      refine ⟨h1, h2.imp id fun ⟨h3, h4⟩ => ⟨.inl h3, fun c y f' hy hd hb' => hS c (h4 c y f' hy hd hb')⟩⟩
    · intro i hi
      exact .inr (.inr ⟨x, List.getElem?_concat_length, by rw [hi]; trivial⟩)
  · show c < (s.cells ++ [x]).length
    rw [hlen]
    rcases hC' c hc with hc | hc
    · have := h.inC c hc
      omega
    · omega
  · show c < (s.cells ++ [x]).length
    rw [hlen]
    rcases hP c hc with hc | hc
    · have := h.inP c hc
      omega
    · omega
  · show c < (s.cells ++ [x]).length
    rw [hlen]
    have := hT' c hc
    omega

theorem count_new (h : Wf L C P T s) : T.count s.cells.length = 0 := List.count_eq_zero.2 fun hc => Nat.lt_irrefl _ (h.inT _ hc)

/-- Values that are neither strings nor functions nor instances. -/
def Data.Simple : Data → Prop
  | .str _ _ => False
  | .fn _ => False
  | .inst _ => False
  | _ => True

/-- A new value, whose parts were kept. -/
theorem Wf.alloc {d : Data} {ps : List Nat} (h : Wf L C (ps ++ P) T s) (hd : d.Simple) (hparts : ∀ c ∈ d.parts, c ∈ ps ∧ Plain s.cells c) :
    Wf L C P (s.cells.length :: T) { s with cells := s.cells ++ [{ data := d }] } := by
  have := h.push (C' := C) (P' := P) (T' := s.cells.length :: T) { data := d } [] [] ⟨fun c hc => (hparts c hc).2, by cases d <;> trivial⟩
    (fun c hc => .inr (.inl (List.mem_append_left _ (hparts c hc).1))) (fun _ h => .inl h) (fun _ h => .inl h) (fun _ h => .inl (List.mem_append_right _ h)) (fun c hc => ?_) (fun c hc => ?_) ?_ ?_
    (fun b n hb => by simp only at hb; rw [hb] at hd; exact hd.elim) (fun f b hf _ => by simp only at hf; rw [hf] at hd; exact hd.elim)
  · simpa using this
  · rw [List.count_cons_of_ne (by omega)]
  · rcases List.mem_cons.1 hc with rfl | hc
    · exact Nat.le_refl _
    · exact Nat.le_of_lt (h.inT c hc)
  · rw [List.count_cons_self, count_new h]
  · rintro (hc | hc | hc)
    · exact absurd (h.inC _ hc) (Nat.lt_irrefl _)
    · exact absurd (h.inP _ (List.mem_append_right _ hc)) (Nat.lt_irrefl _)
    · cases d <;> first | exact hd.elim | exact hc.elim

/-- The same where the parts are copies. -/
theorem Wf.allocCopies {d : Data} {cs : List Nat} (h : Wf L (cs ++ C) P T s) (hd : d.Simple) (hparts : ∀ c ∈ d.parts, c ∈ cs ∧ Plain s.cells c) (hall : ∀ c ∈ cs, c ∈ d.parts) :
    Wf L C P (s.cells.length :: T) { s with cells := s.cells ++ [{ data := d }] } := by
  have := h.push (C' := C) (P' := P) (T' := s.cells.length :: T) { data := d } [] [] ⟨fun c hc => (hparts c hc).2, by cases d <;> trivial⟩
    (fun c hc => .inl (.inl (List.mem_append_left _ (hparts c hc).1))) (fun c h => ?_) (fun _ h => .inl (List.mem_append_right _ h)) (fun _ h => .inl h) (fun c hc => ?_) (fun c hc => ?_) ?_ ?_
    (fun b n hb => by simp only at hb; rw [hb] at hd; exact hd.elim) (fun f b hf _ => by simp only at hf; rw [hf] at hd; exact hd.elim)
  · simpa using this
  · rcases List.mem_append.1 h with h | h
    · exact .inr (hall c h)
    · exact .inl h
  · rw [List.count_cons_of_ne (by omega)]
  · rcases List.mem_cons.1 hc with rfl | hc
    · exact Nat.le_refl _
    · exact Nat.le_of_lt (h.inT c hc)
  · rw [List.count_cons_self, count_new h]
  · rintro (hc | hc | hc)
    · exact absurd (h.inC _ (List.mem_append_right _ hc)) (Nat.lt_irrefl _)
    · exact absurd (h.inP _ hc) (Nat.lt_irrefl _)
    · cases d <;> first | exact hd.elim | exact hc.elim

/-- A new string. -/
theorem Wf.allocStr {b : Bytes} (h : Wf L C P T s) (hb : NUL ∉ b) :
    Wf L C P (s.cells.length :: T) { s with cells := s.cells ++ [{ data := .str s.bufs.length b.length }], bufs := s.bufs ++ [some b] } := by
  have := h.push (C' := C) (P' := P) (T' := s.cells.length :: T) { data := .str s.bufs.length b.length } [some b] [] ⟨fun c hc => (nomatch hc), trivial⟩
    (fun c hc => (nomatch hc)) (fun _ h => .inl h) (fun _ h => .inl h) (fun _ h => .inl h) (fun c hc => ?_) (fun c hc => ?_) ?_ ?_
    (fun b' n hb' => ?_) (fun f b hf _ => (nomatch hf))
  · simpa using this
  · rw [List.count_cons_of_ne (by omega)]
  · rcases List.mem_cons.1 hc with rfl | hc
    · exact Nat.le_refl _
    · exact Nat.le_of_lt (h.inT c hc)
  · rw [List.count_cons_self, count_new h]
  · rintro (hc | hc | hc)
    · exact absurd (h.inC _ hc) (Nat.lt_irrefl _)
    · exact absurd (h.inP _ hc) (Nat.lt_irrefl _)
    · exact hc.elim
  · cases hb'
    refine ⟨⟨by simp, b, List.getElem?_concat_length, Nat.le_refl _, ?_⟩, Nat.le_refl _⟩
    rw [List.take_length]
    exact hb

/-- A new function. -/
theorem Wf.allocFn {f : FnData} {b : Body} {o : Option Nat} {nm : Bytes} {ky : Option Nat} (h : Wf L C P T s) (hf : fnOk L s.envs.length s.scopes.length o f) (hb : f.body = some s.bodies.length) (hok : bodyOk L f.kind b)
    (hk : ∀ p, f.kind ≠ .ptm p) :
    Wf L C P (s.cells.length :: T) { s with cells := s.cells ++ [{ data := .fn f, owner := o, name := nm, keyIn := ky }], bodies := s.bodies ++ [some b] } := by
  have := h.push (C' := C) (P' := P) (T' := s.cells.length :: T) { data := .fn f, owner := o, name := nm, keyIn := ky } [] [some b] ⟨fun c hc => (nomatch hc), hf⟩
    (fun c hc => (nomatch hc)) (fun _ h => .inl h) (fun _ h => .inl h) (fun _ h => .inl h) (fun c hc => ?_) (fun c hc => ?_) ?_ ?_
    (fun b' n hb' => (nomatch hb')) (fun f b hf _ => ?_)
  · simpa using this
  · rw [List.count_cons_of_ne (by omega)]
  · rcases List.mem_cons.1 hc with rfl | hc
    · exact Nat.le_refl _
    · exact Nat.le_of_lt (h.inT c hc)
  · rw [List.count_cons_self, count_new h]
  · rintro (hc | hc | ⟨p, hc⟩)
    · exact absurd (h.inC _ hc) (Nat.lt_irrefl _)
    · exact absurd (h.inP _ hc) (Nat.lt_irrefl _)
    · exact absurd hc (hk p)
  · cases hf
    rename_i hfb
    rw [hb] at hfb
    cases hfb
    exact ⟨⟨by simp, _, List.getElem?_concat_length, hok⟩, .inl (Nat.le_refl _)⟩

/-- A new external function. -/
theorem Wf.allocExtern {f : FnData} {o : Option Nat} {nm : Bytes} {ky : Option Nat} (h : Wf L C P T s) (hf : fnOk L s.envs.length s.scopes.length o f) (hb : f.body = none)
    (hk : ∀ p, f.kind ≠ .ptm p) :
    Wf L C P (s.cells.length :: T) { s with cells := s.cells ++ [{ data := .fn f, owner := o, name := nm, keyIn := ky }] } := by
  have := h.push (C' := C) (P' := P) (T' := s.cells.length :: T) { data := .fn f, owner := o, name := nm, keyIn := ky } [] [] ⟨fun c hc => (nomatch hc), hf⟩
    (fun c hc => (nomatch hc)) (fun _ h => .inl h) (fun _ h => .inl h) (fun _ h => .inl h) (fun c hc => ?_) (fun c hc => ?_) ?_ ?_
    (fun b' n hb' => (nomatch hb')) (fun f b hf _ => ?_)
  · simpa using this
  · rw [List.count_cons_of_ne (by omega)]
  · rcases List.mem_cons.1 hc with rfl | hc
    · exact Nat.le_refl _
    · exact Nat.le_of_lt (h.inT c hc)
  · rw [List.count_cons_self, count_new h]
  · rintro (hc | hc | ⟨p, hc⟩)
    · exact absurd (h.inC _ hc) (Nat.lt_irrefl _)
    · exact absurd (h.inP _ hc) (Nat.lt_irrefl _)
    · exact absurd hc (hk p)
  · cases hf
    rename_i hfb
    rw [hb] at hfb
    cases hfb

/-- A new instance, which is kept. -/
theorem Wf.allocInst {i : InstData} (h : Wf L C P T s) (hc : i.cls < s.cells.length) (hs : i.scope < s.scopes.length) (hk : ∀ k, i.data = some k → k < s.host.states.length) :
    Wf L C (s.cells.length :: P) T { s with cells := s.cells ++ [{ data := .inst i }] } := by
  have := h.push (C' := C) (P' := s.cells.length :: P) (T' := T) { data := .inst i } [] [] ⟨fun c hc => (nomatch hc), hc, hs, hk⟩
    (fun c hc => (nomatch hc)) (fun _ h => .inl h) (fun _ h => .inl h) (fun _ h => (List.mem_cons.1 h).symm) (fun c hc => Nat.le_refl _) (fun c hc => Nat.le_of_lt (h.inT c hc)) ?_ ?_
    (fun b' n hb' => (nomatch hb')) (fun f b hf _ => (nomatch hf))
  · simpa using this
  · rw [count_new h]
    exact Nat.zero_le _
  · intro _
    rw [count_new h]

end

end Bob.Fl
