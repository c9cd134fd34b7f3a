import Verif.Spec.FlSafe
import Verif.Lemmas.FlPtm
/-!
# Reference counts and the memory behind values
-/

namespace Bob.Fl

/-- Values a value consists of. -/
def Data.parts : Data → List Nat
  | .vec es => es
  | .map es => es.flatMap fun e => [e.1, e.2]
  | _ => []

/-- Neither a class nor a member of strings or vectors. -/
def Data.Plain : Data → Prop
  | .fn f => f.kind = .function ∨ f.kind = .extern
  | _ => True

/-- Not a member of strings or vectors. -/
def Data.NotPtm : Data → Prop
  | .fn f => ∀ p, f.kind ≠ .ptm p
  | _ => True

/-- Values which nothing gives up. -/
def Data.Fixed : Data → Prop
  | .fn f => ∃ p, f.kind = .ptm p
  | .inst _ => True
  | _ => False

theorem Data.Plain.notPtm {d : Data} (h : d.Plain) : d.NotPtm := by
  cases d <;> try trivial
  intro p hp
  rcases h with h | h <;> rw [hp] at h <;> cases h

/-- A body that a function of this kind may have. -/
def bodyOk (L : Discipline) (k : FnKind) (b : Body) : Prop :=
  match k, b with
  | .cls, .block ss => okStmts L .cls ss = true
  | .cls, .expr _ => False
  | _, b => b.ok L = true

/-- Cells with their counts and the memory behind them.  `N` are references that will be given up, `Pin` the cells with a further
reference that never will be, and `Sh` those which may share their body with other cells. -/
structure Mem (L : Discipline) (N : Nat → Nat) (Pin Sh : Nat → Prop) (cells : List Cell) (bufs : List (Option Bytes)) (bodies : List (Option Body)) : Prop where
  cnt : ∀ (c : Nat) (x : Cell), cells[c]? = some x → N c ≤ x.refs
  pin : ∀ (c : Nat) (x : Cell), cells[c]? = some x → Pin c → N c + 1 ≤ x.refs
  buf : ∀ (c : Nat) (x : Cell) (b n : Nat), cells[c]? = some x → x.data = .str b n →
    b < bufs.length ∧ (x.refs ≠ 0 → ∃ t : Bytes, bufs[b]? = some (some t) ∧ n ≤ t.length ∧ NUL ∉ t.take n)
  bufInj : ∀ (c c' : Nat) (x x' : Cell) (b n n' : Nat), cells[c]? = some x → cells[c']? = some x' → x.data = .str b n → x'.data = .str b n' → c = c'
  body : ∀ (c : Nat) (x : Cell) (f : FnData) (b : Nat), cells[c]? = some x → x.data = .fn f → f.body = some b →
    b < bodies.length ∧ (x.refs ≠ 0 → ∃ y : Body, bodies[b]? = some (some y) ∧ bodyOk L f.kind y)
  bodyInj : ∀ (c c' : Nat) (x x' : Cell) (f f' : FnData) (b : Nat), cells[c]? = some x → cells[c']? = some x' → x.data = .fn f → x'.data = .fn f' →
    f.body = some b → f'.body = some b → c ≠ c' → Sh c ∧ Sh c'
  inst : ∀ (c : Nat) (x : Cell) (i : InstData), cells[c]? = some x → x.data = .inst i → Sh c
  shPin : ∀ c, Sh c → Pin c

section
variable {L : Discipline} {N N' : Nat → Nat} {Pin Pin' Sh Sh' : Nat → Prop} {cells : List Cell} {bufs : List (Option Bytes)} {bodies : List (Option Body)}

theorem Mem.mono (h : Mem L N Pin Sh cells bufs bodies) (hN : ∀ c, N' c ≤ N c) (hP : ∀ c, Pin' c → Pin c ∨ N' c + 1 ≤ N c) (hS : ∀ c, Sh c → Sh' c)
    (hSP : ∀ c, Sh' c → Pin' c) : Mem L N' Pin' Sh' cells bufs bodies where
  cnt c x hx := (hN c).trans (h.cnt c x hx)
  pin c x hx hp := by
    rcases hP c hp with hp | hp
    · have := h.pin c x hx hp
      have := hN c
      omega
    · exact hp.trans (h.cnt c x hx)
  buf := h.buf
  bufInj := h.bufInj
  body := h.body
  bodyInj c c' x x' f f' b h1 h2 h3 h4 h5 h6 h7 := (h.bodyInj c c' x x' f f' b h1 h2 h3 h4 h5 h6 h7).imp (hS _) (hS _)
  inst c x i h1 h2 := hS _ (h.inst c x i h1 h2)
  shPin := hSP

theorem getElem?_push {α : Type} {l : List α} {a y : α} {c : Nat} (h : (l ++ [a])[c]? = some y) : (c < l.length ∧ l[c]? = some y) ∨ (c = l.length ∧ y = a) := by
  by_cases hc : c < l.length
  · rw [List.getElem?_append_left hc] at h
    exact .inl ⟨hc, h⟩
  · rw [List.getElem?_append_right (by omega)] at h
    obtain ⟨h1, h2⟩ := List.getElem?_eq_some_iff.1 h
    have h1' : c - l.length < 1 := h1
    have : c = l.length := by omega
    subst this
    refine .inr ⟨rfl, ?_⟩
    simpa using h2.symm

theorem getElem?_pushed {α : Type} {l m : List α} {y : α} {c : Nat} (h : l[c]? = some y) : (l ++ m)[c]? = some y := by
  rw [List.getElem?_append_left (List.getElem?_eq_some_iff.1 h).1]
  exact h

theorem lt_of_get {α : Type} {l : List α} {y : α} {c : Nat} (h : l[c]? = some y) : c < l.length := (List.getElem?_eq_some_iff.1 h).1

/-- One more cell (and perhaps more memory). -/
theorem Mem.push (h : Mem L N Pin Sh cells bufs bodies) (x : Cell) (bs : List (Option Bytes)) (ds : List (Option Body))
    (hN : ∀ c, c < cells.length → N' c ≤ N c) (hP : ∀ c, c < cells.length → Pin' c → Pin c ∨ N' c + 1 ≤ N c) (hS : ∀ c, Sh c → Sh' c)
    (hSP : ∀ c, Sh' c → Pin' c) (hx : N' cells.length ≤ x.refs) (hx' : Pin' cells.length → N' cells.length + 1 ≤ x.refs)
    (hbuf : ∀ b n, x.data = .str b n → (b < (bufs ++ bs).length ∧ ∃ t : Bytes, (bufs ++ bs)[b]? = some (some t) ∧ n ≤ t.length ∧ NUL ∉ t.take n) ∧ bufs.length ≤ b)
    (hbody : ∀ f b, x.data = .fn f → f.body = some b → (b < (bodies ++ ds).length ∧ ∃ y : Body, (bodies ++ ds)[b]? = some (some y) ∧ bodyOk L f.kind y) ∧
      (bodies.length ≤ b ∨ Sh' cells.length ∧ ∀ c y f', cells[c]? = some y → y.data = .fn f' → f'.body = some b → Sh' c))
    (hinst : ∀ i, x.data = .inst i → Sh' cells.length) : Mem L N' Pin' Sh' (cells ++ [x]) (bufs ++ bs) (bodies ++ ds) where
  cnt c y hy := by
    rcases getElem?_push hy with ⟨hc, hy⟩ | ⟨rfl, rfl⟩
    · exact (hN c hc).trans (h.cnt c y hy)
    · exact hx
  pin c y hy hp := by
    rcases getElem?_push hy with ⟨hc, hy⟩ | ⟨rfl, rfl⟩
    · rcases hP c hc hp with hp | hp
      · have := h.pin c y hy hp
        have := hN c hc
        omega
      · exact hp.trans (h.cnt c y hy)
    · exact hx' hp
  buf c y b n hy hd := by
    rcases getElem?_push hy with ⟨hc, hy⟩ | ⟨rfl, rfl⟩
    · obtain ⟨h1, h2⟩ := h.buf c y b n hy hd
      refine ⟨by rw [List.length_append]; omega, fun hr => ?_⟩
      obtain ⟨t, ht, ht'⟩ := h2 hr
      exact ⟨t, getElem?_pushed ht, ht'⟩
    · obtain ⟨⟨h1, t, ht⟩, _⟩ := hbuf b n hd
      exact ⟨h1, fun _ => ⟨t, ht⟩⟩
  bufInj c c' y y' b n n' hy hy' hd hd' := by
    rcases getElem?_push hy with ⟨hc, h1y⟩ | ⟨rfl, rfl⟩ <;> rcases getElem?_push hy' with ⟨hc', h1y'⟩ | ⟨rfl, rfl⟩
    · exact h.bufInj c c' y y' b n n' h1y h1y' hd hd'
    · have := (h.buf c y b n h1y hd).1
      have := (hbuf b n' hd').2
      omega
    · have := (h.buf c' y' b n' h1y' hd').1
      have := (hbuf b n hd).2
      omega
    · rfl
  body c y f b hy hd hb := by
    rcases getElem?_push hy with ⟨hc, hy⟩ | ⟨rfl, rfl⟩
    · obtain ⟨h1, h2⟩ := h.body c y f b hy hd hb
      refine ⟨by rw [List.length_append]; omega, fun hr => ?_⟩
      obtain ⟨t, ht, ht'⟩ := h2 hr
      exact ⟨t, getElem?_pushed ht, ht'⟩
    · obtain ⟨⟨h1, t, ht⟩, _⟩ := hbody f b hd hb
      exact ⟨h1, fun _ => ⟨t, ht⟩⟩
  bodyInj c c' y y' f f' b hy hy' hd hd' hb hb' hne := by
    rcases getElem?_push hy with ⟨hc, h1y⟩ | ⟨rfl, rfl⟩ <;> rcases getElem?_push hy' with ⟨hc', h1y'⟩ | ⟨rfl, rfl⟩
    · exact (h.bodyInj c c' y y' f f' b h1y h1y' hd hd' hb hb' hne).imp (hS _) (hS _)
    · have hlt := (h.body c y f b h1y hd hb).1
      rcases (hbody f' b hd' hb').2 with h1 | ⟨h1, h2⟩
      · omega
      · exact ⟨h2 c y f h1y hd hb, h1⟩
    · have hlt := (h.body c' y' f' b h1y' hd' hb').1
      rcases (hbody f b hd hb).2 with h1 | ⟨h1, h2⟩
      · omega
      · exact ⟨h1, h2 c' y' f' h1y' hd' hb'⟩
    · exact absurd rfl hne
  inst c y i hy hd := by
    rcases getElem?_push hy with ⟨hc, hy⟩ | ⟨rfl, rfl⟩
    · exact hS _ (h.inst c y i hy hd)
    · exact hinst i hd
  shPin := hSP

/-- Values stay as they are. -/
def SameData (cells cells' : List Cell) : Prop := ∀ (c : Nat), (cells'[c]?).map Cell.data = (cells[c]?).map Cell.data

theorem SameData.get {cells cells' : List Cell} (h : SameData cells cells') {c : Nat} {x : Cell} (hx : cells[c]? = some x) : ∃ x', cells'[c]? = some x' ∧ x'.data = x.data := by
  have := h c
  rw [hx] at this
  obtain ⟨x', h1, h2⟩ := Option.map_eq_some_iff.1 this
  exact ⟨x', h1, h2⟩

theorem SameData.symm {cells cells' : List Cell} (h : SameData cells cells') : SameData cells' cells := fun c => (h c).symm

theorem getElem?_set {α : Type} {l : List α} {a y : α} {c c' : Nat} (h : (l.set c a)[c']? = some y) : (c' = c ∧ y = a ∧ c < l.length) ∨ (c' ≠ c ∧ l[c']? = some y) := by
  by_cases hc : c' = c
  · subst hc
    have hlt := lt_of_get h
    rw [List.length_set] at hlt
    rw [List.getElem?_set_self hlt] at h
    cases h
    exact .inl ⟨rfl, rfl, hlt⟩
  · rw [List.getElem?_set_ne (Ne.symm hc)] at h
    exact .inr ⟨hc, h⟩

theorem SameData.set {cells : List Cell} {c : Nat} {x y : Cell} (hx : cells[c]? = some x) (hy : y.data = x.data) : SameData cells (cells.set c y) := by
  intro c'
  by_cases hc : c' = c
  · subst hc
    rw [List.getElem?_set_self (lt_of_get hx), hx]
    exact congrArg some hy
  · rw [List.getElem?_set_ne (Ne.symm hc)]

/-- Name or owner of a cell change, or its count goes up. -/
theorem Mem.set (h : Mem L N Pin Sh cells bufs bodies) {c : Nat} {x y : Cell} (hx : cells[c]? = some x) (hd : y.data = x.data) (hr : y.refs = 0 ↔ x.refs = 0)
    (hN : ∀ c', c' ≠ c → N' c' ≤ N c') (hc : ∀ p, N c + p ≤ x.refs → N' c + p ≤ y.refs) : Mem L N' Pin Sh (cells.set c y) bufs bodies where
  cnt c' z hz := by
    rcases getElem?_set hz with ⟨rfl, rfl, _⟩ | ⟨hne, hz⟩
    · exact hc 0 (h.cnt _ _ hx)
    · exact (hN c' hne).trans (h.cnt _ _ hz)
  pin c' z hz hp := by
    rcases getElem?_set hz with ⟨rfl, rfl, _⟩ | ⟨hne, hz⟩
    · exact hc 1 (h.pin _ _ hx hp)
    · have := h.pin _ _ hz hp
      have := hN c' hne
      omega
  buf c' z b n hz hb := by
    rcases getElem?_set hz with ⟨rfl, rfl, _⟩ | ⟨hne, hz⟩
    · have := h.buf _ _ b n hx (hd ▸ hb)
      exact ⟨this.1, fun h' => this.2 fun h'' => h' (hr.2 h'')⟩
    · exact h.buf _ _ b n hz hb
  bufInj c1 c2 z z' b n n' hz hz' hb hb' := by
    obtain ⟨w, hw, hwd⟩ := (SameData.set hx hd).symm.get hz
    obtain ⟨w', hw', hwd'⟩ := (SameData.set hx hd).symm.get hz'
    exact h.bufInj c1 c2 w w' b n n' hw hw' (hwd ▸ hb) (hwd' ▸ hb')
  body c' z f b hz hf hb := by
    rcases getElem?_set hz with ⟨rfl, rfl, _⟩ | ⟨hne, hz⟩
    · have := h.body _ _ f b hx (hd ▸ hf) hb
      exact ⟨this.1, fun h' => this.2 fun h'' => h' (hr.2 h'')⟩
    · exact h.body _ _ f b hz hf hb
  bodyInj c1 c2 z z' f f' b hz hz' hf hf' := by
    obtain ⟨w, hw, hwd⟩ := (SameData.set hx hd).symm.get hz
    obtain ⟨w', hw', hwd'⟩ := (SameData.set hx hd).symm.get hz'
    exact h.bodyInj c1 c2 w w' f f' b hw hw' (hwd ▸ hf) (hwd' ▸ hf')
  inst c' z i hz hi := by
    obtain ⟨w, hw, hwd⟩ := (SameData.set hx hd).symm.get hz
    exact h.inst c' w i hw (hwd ▸ hi)
  shPin := h.shPin

theorem dataFixed_not_pin (h : Mem L N Pin Sh cells bufs bodies) {c : Nat} {x : Cell} (hx : cells[c]? = some x) (hr : x.refs = N c) : ¬ Pin c := fun hp => by
  have := h.pin c x hx hp
  omega

/-- Giving up a reference. -/
theorem stepDec_mem {s : St} (dec : Nat → M Unit) {c : Nat} (hlt : c < s.cells.length)
    (h : Mem L N Pin Sh s.cells s.bufs s.bodies) (hN : ∀ c', N' c' + (if c' = c then 1 else 0) ≤ N c') :
    ∃ cells bufs bodies, stepDec dec c s = .ok () { s with cells := cells, bufs := bufs, bodies := bodies } ∧ SameData s.cells cells ∧
      (∀ (k : Nat) (x : Cell), s.cells[k]? = some x → ∃ x', cells[k]? = some x' ∧ x'.owner = x.owner) ∧
      Mem L N' Pin Sh cells bufs bodies := by
  obtain ⟨x, hx⟩ : ∃ x, s.cells[c]? = some x := ⟨_, List.getElem?_eq_getElem hlt⟩
  have hNc := hN c
  rw [if_pos rfl] at hNc
  have hcnt := h.cnt c x hx
  have hr0 : x.refs ≠ 0 := by omega
  have hN' : ∀ c', c' ≠ c → N' c' ≤ N c' := fun c' hne => by have := hN c'; rw [if_neg hne] at this; omega
  have hown : ∀ (y : Cell), y.owner = x.owner → ∀ (k : Nat) (z : Cell), s.cells[k]? = some z → ∃ x', (s.cells.set c y)[k]? = some x' ∧ x'.owner = z.owner := by
    intro y hy k z hz
    by_cases hk : k = c
    · subst hk
      rw [hx] at hz
      cases hz
      exact ⟨y, List.getElem?_set_self hlt, hy⟩
    · exact ⟨z, by rw [List.getElem?_set_ne (Ne.symm hk)]; exact hz, rfl⟩
  unfold stepDec
  rw [bind_of_ok ((getCell_ok_iff ..).2 ⟨hx, rfl⟩)]
  simp only [if_neg hr0]
  rw [bind_of_ok (setCell_apply ..)]
  by_cases h1 : x.refs - 1 = 0
  · rw [if_pos h1]
    have hnp : ¬ Pin c := fun hp => by have := h.pin c x hx hp; omega
    have hns : ¬ Sh c := fun hs => hnp (h.shPin c hs)
    have hsd : SameData s.cells (s.cells.set c { x with refs := x.refs - 1 }) := SameData.set hx rfl
    unfold freeVal
    rw [bind_of_ok ((getCell_ok_iff ..).2 ⟨List.getElem?_set_self hlt, rfl⟩)]
    -- what is the same whatever is released
    have key : ∀ (bufs' : List (Option Bytes)) (bodies' : List (Option Body)), s.bufs.length ≤ bufs'.length → s.bodies.length ≤ bodies'.length →
        (∀ (c' : Nat) (y : Cell) (b n : Nat), c' ≠ c → s.cells[c']? = some y → y.data = .str b n → bufs'[b]? = s.bufs[b]?) →
        (∀ (c' : Nat) (y : Cell) (f : FnData) (b : Nat), c' ≠ c → s.cells[c']? = some y → y.data = .fn f → f.body = some b → bodies'[b]? = s.bodies[b]?) →
        Mem L N' Pin Sh (s.cells.set c { x with refs := x.refs - 1 }) bufs' bodies' := by
      intro bufs' bodies' hl1 hl2 hb1 hb2
      exact {
        cnt := fun c' z hz => by
          rcases getElem?_set hz with ⟨rfl, rfl, _⟩ | ⟨hne, hz⟩
          · show N' c' ≤ x.refs - 1
            omega
          · exact (hN' c' hne).trans (h.cnt _ _ hz)
        pin := fun c' z hz hp => by
          rcases getElem?_set hz with ⟨rfl, rfl, _⟩ | ⟨hne, hz⟩
          · exact absurd hp hnp
          · have := h.pin _ _ hz hp
            have := hN' c' hne
            omega
        buf := fun c' z b n hz hb => by
          rcases getElem?_set hz with ⟨rfl, rfl, _⟩ | ⟨hne, hz⟩
          · exact ⟨Nat.lt_of_lt_of_le (h.buf _ _ b n hx hb).1 hl1, fun h' => absurd h1 h'⟩
          · obtain ⟨h2, h3⟩ := h.buf _ _ b n hz hb
            exact ⟨Nat.lt_of_lt_of_le h2 hl1, by rw [hb1 c' z b n hne hz hb]; exact h3⟩
        bufInj := fun c1 c2 z z' b n n' hz hz' hb hb' => by
          obtain ⟨w, hw, hwd⟩ := hsd.symm.get hz
          obtain ⟨w', hw', hwd'⟩ := hsd.symm.get hz'
          exact h.bufInj c1 c2 w w' b n n' hw hw' (hwd ▸ hb) (hwd' ▸ hb')
        body := fun c' z f b hz hf hb => by
          rcases getElem?_set hz with ⟨rfl, rfl, _⟩ | ⟨hne, hz⟩
          · exact ⟨Nat.lt_of_lt_of_le (h.body _ _ f b hx hf hb).1 hl2, fun h' => absurd h1 h'⟩
          · obtain ⟨h2, h3⟩ := h.body _ _ f b hz hf hb
            exact ⟨Nat.lt_of_lt_of_le h2 hl2, by rw [hb2 c' z f b hne hz hf hb]; exact h3⟩
        bodyInj := fun c1 c2 z z' f f' b hz hz' hf hf' => by
          obtain ⟨w, hw, hwd⟩ := hsd.symm.get hz
          obtain ⟨w', hw', hwd'⟩ := hsd.symm.get hz'
          exact h.bodyInj c1 c2 w w' f f' b hw hw' (hwd ▸ hf) (hwd' ▸ hf')
        inst := fun c' z i hz hi => by
          obtain ⟨w, hw, hwd⟩ := hsd.symm.get hz
          exact h.inst c' w i hw (hwd ▸ hi)
        shPin := h.shPin }
    have none' : ∀ bufs' bodies', s.bufs = bufs' → s.bodies = bodies' → Mem L N' Pin Sh (s.cells.set c { x with refs := x.refs - 1 }) bufs' bodies' := by
      rintro _ _ rfl rfl
      exact key _ _ (Nat.le_refl _) (Nat.le_refl _) (fun _ _ _ _ _ _ _ => rfl) (fun _ _ _ _ _ _ _ _ => rfl)
    have hown' := hown { x with refs := x.refs - 1 } rfl
    generalize s.cells.set c { x with refs := x.refs - 1 } = cs at *
    cases hd : x.data with
    | str b n =>
      simp only
      obtain ⟨hbl, hb⟩ := h.buf c x b n hx hd
      obtain ⟨t, ht, _⟩ := hb hr0
      unfold freeBuf
      rw [bind_of_ok (get_apply _)]
      simp only [ht]
      simp only [modify_apply]
      refine ⟨_, _, _, rfl, hsd, hown', key _ _ (by rw [List.length_set]) (Nat.le_refl _) (fun c' y b' n' hne hy hyd => ?_) (fun _ _ _ _ _ _ _ _ => rfl)⟩
      rw [List.getElem?_set_ne]
      rintro rfl
      exact hne (h.bufInj c' c y x b n' n hy hx hyd hd)
    | fn f =>
      simp only
      cases hfb : f.body with
      | none => exact ⟨_, _, _, rfl, hsd, hown', none' _ _ rfl rfl⟩
      | some b =>
        obtain ⟨hbl, hb⟩ := h.body c x f b hx hd hfb
        obtain ⟨t, ht, _⟩ := hb hr0
        unfold freeBody
        simp only
        rw [bind_of_ok (get_apply _)]
        simp only [ht]
        simp only [modify_apply]
        refine ⟨_, _, _, rfl, hsd, hown', key _ _ (Nat.le_refl _) (by rw [List.length_set]) (fun _ _ _ _ _ _ _ => rfl) (fun c' y f' b' hne hy hyd hb' => ?_)⟩
        rw [List.getElem?_set_ne]
        rintro rfl
        exact hns (h.bodyInj c c' x y f f' b hx hy hd hyd hfb hb' (Ne.symm hne)).1
    | inst i => exact absurd (h.inst c x i hx hd) hns
    | _ => exact ⟨_, _, _, rfl, hsd, hown', none' _ _ rfl rfl⟩
  · rw [if_neg h1]
    refine ⟨_, _, _, rfl, SameData.set hx rfl, hown _ rfl, h.set hx rfl ?_ hN' ?_⟩
    · exact ⟨fun h' => absurd h' h1, fun h' => absurd h' hr0⟩
    · intro p hp
      show N' c + p ≤ x.refs - 1
      omega

end

end Bob.Fl
