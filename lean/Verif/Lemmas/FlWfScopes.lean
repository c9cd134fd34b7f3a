import Verif.Lemmas.Base
import Verif.Lemmas.FlWfOps
/-!
# Copies, scopes and context in well-formed states
-/

namespace Bob.Fl

section
variable {L : Discipline} {C P T T0 : List Nat} {s : St}

/-! ## Copies -/

theorem cstr_take {t : Bytes} {n : Nat} (h : NUL ∉ t.take n) : cstr (t.take n) = t.take n := cstr_eq_self h

/-- What a live string says. -/
theorem Wf.str (h : Wf L C P T s) {c : Nat} {x : Cell} {b n : Nat} (hx : s.cells[c]? = some x) (hd : x.data = .str b n) (hr : x.refs ≠ 0) :
    ∃ t : Bytes, s.bufs[b]? = some (some t) ∧ n ≤ t.length ∧ NUL ∉ t.take n := (h.mem.buf c x b n hx hd).2 hr

theorem readBuf_str {b n : Nat} {t : Bytes} (ht : s.bufs[b]? = some (some t)) (hn : n ≤ t.length) : readBuf b n s = .ok (t.take n) s := by
  unfold readBuf
  rw [bind_of_ok (get_apply s)]
  simp only [ht, hn, if_true]
  rfl

theorem readStr_str {b n : Nat} {t : Bytes} (ht : s.bufs[b]? = some (some t)) (hn : n ≤ t.length) (h0 : NUL ∉ t.take n) : readStr b n s = .ok (t.take n) s := by
  unfold readStr
  rw [bind_of_ok (get_apply s)]
  simp only [ht, hn, decide_true, Bool.true_or, if_true, cstr_take h0]
  rfl

theorem Wf.nameKept (h : Wf L C P T s) (x : Cell) : s.NameKept x := fun i sc _ hs => (h.shape.scopes i sc hs).freed

theorem Wf.valCopy (h : Wf L C P T s) {c : Nat} (hc : Hard C s.cells c) (hp : Plain s.cells c) :
    ∃ s', valCopy c s = .ok s.cells.length s' ∧ Wf L (s.cells.length :: C) P T s' ∧ Plain s'.cells s.cells.length ∧ ∀ F, Grow F s s' := by
  obtain ⟨x, hx, hpl⟩ := hp
  have hr : x.refs ≠ 0 := h.live hx (.inl (.inl hc))
  have hok := h.shape.data c x hx
  unfold Bob.Fl.valCopy
  rw [bind_of_ok ((getCell_ok_iff ..).2 ⟨hx, rfl⟩), bind_of_ok (readName_kept (h.nameKept x))]
  have hT0 : T.count s.cells.length = 0 := count_new h
  by_cases hs : ∃ b n, x.data = .str b n
  · obtain ⟨b, n, hd⟩ := hs
    obtain ⟨t, ht, hn, h0⟩ := h.str hx hd hr
    have hcopy : copyData x.data s = .ok (.str s.bufs.length n) { s with bufs := s.bufs ++ [some (t.take n ++ [NUL])] } := by
      rw [hd]
      unfold copyData strndup
      simp only
      rw [bind_of_ok (s1 := { s with bufs := s.bufs ++ [some (t.take n ++ [NUL])] }) (a := s.bufs.length)]
      · rfl
      · rw [bind_of_ok (readStr_str ht hn h0)]
        rfl
    refine ⟨_, (bind_of_ok hcopy).trans rfl, ?_, ?_, ?_⟩
    · have := h.push (C' := s.cells.length :: C) (P' := P) (T' := T) { x with data := .str s.bufs.length n, refs := 1, keyIn := none } [some (t.take n ++ [NUL])] []
        ⟨fun c hc => (nomatch hc), trivial⟩ (fun c hc => (nomatch hc)) (fun _ h => .inl (List.mem_cons_of_mem _ h)) (fun _ h => (List.mem_cons.1 h).symm) (fun _ h => .inl h)
        (fun c hc => Nat.le_refl _) (fun c hc => Nat.le_of_lt (h.inT c hc)) (by rw [hT0]; exact Nat.zero_le _) (fun _ => by rw [hT0]) (fun b' n' hb' => ?_)
        (fun f b hf _ => (nomatch hf))
      · simpa using this
      · cases hb'
        have hlen : (t.take n).length = n := by rw [List.length_take]; omega
        refine ⟨⟨by simp, _, List.getElem?_concat_length, by simp [hlen], ?_⟩, Nat.le_refl _⟩
        rw [List.take_append_of_le_length (by omega), List.take_take, Nat.min_self]
        exact h0
    · exact ⟨_, List.getElem?_concat_length, trivial⟩
    · intro F
      exact Grow.of_scopes ⟨fun _ x hx => ⟨x, getElem?_pushed hx, rfl⟩, Nat.le_refl _, Nat.le_refl _, Nat.le_refl _⟩ rfl
  · have hcopy : copyData x.data s = .ok x.data s := by
      cases hd : x.data <;> first | rfl | exact absurd ⟨_, _, hd⟩ hs
    refine ⟨_, (bind_of_ok hcopy).trans rfl, ?_, ?_, ?_⟩
    · have := h.push (C' := s.cells.length :: C) (P' := P) (T' := T) { x with data := x.data, refs := 1, keyIn := none } [] []
        hok (fun k hk => .inl (.inr (.inl ⟨c, x, hx, hk⟩))) (fun _ h => .inl (List.mem_cons_of_mem _ h)) (fun _ h => (List.mem_cons.1 h).symm) (fun _ h => .inl h)
        (fun c hc => Nat.le_refl _) (fun c hc => Nat.le_of_lt (h.inT c hc)) (by rw [hT0]; exact Nat.zero_le _) (fun _ => by rw [hT0]) (fun b' n' hb' => absurd ⟨_, _, hb'⟩ hs)
        (fun f b hf hb => ?_)
      · simpa using this
      · obtain ⟨h1, h2⟩ := h.mem.body c x f b hx hf hb
        obtain ⟨y, hy, hyok⟩ := h2 hr
        refine ⟨⟨by simpa using h1, y, by simpa using hy, hyok⟩, .inr ⟨List.mem_cons_self, fun c' y' f' hy' hf' hb' => ?_⟩⟩
        by_cases hcc : c = c'
        · subst hcc
          exact hc
        · exact (h.mem.bodyInj c c' x y' f f' b hx hy' hf hf' hb hb' hcc).2
    · exact ⟨_, List.getElem?_concat_length, hpl⟩
    · intro F
      exact Grow.of_scopes ⟨fun _ x hx => ⟨x, getElem?_pushed hx, rfl⟩, Nat.le_refl _, Nat.le_refl _, Nat.le_refl _⟩ rfl

/-! ## Scopes -/

theorem Wf.scopes {S : List Scope} (h : Wf L C P T0 s) (hlen : s.scopes.length ≤ S.length) (hok : ∀ (i : Nat) (x : Scope), S[i]? = some x → ScopeOk L s.cells x)
    (hN : ∀ c, heldVars L S c + T.count c ≤ heldVars L s.scopes c + T0.count c)
    (hsoft : ∀ c, Soft L S c → Pinned L C P s c ∨ heldVars L S c + T.count c + 1 ≤ heldVars L s.scopes c + T0.count c) (hT : ∀ c ∈ T, c < s.cells.length) :
    Wf L C P T { s with scopes := S } where
  mem := by
    refine h.mem.mono (fun c => ?_) (fun c hc => ?_) (fun _ h => h) (fun _ h => .inl h)
    · have := hN c
      show heldVars L S c + T.count c + (if s.eng.rv = .val c then 1 else 0) ≤ heldVars L s.scopes c + T0.count c + (if s.eng.rv = .val c then 1 else 0)
      omega
    · rcases hc with hc | hc | hc
      · exact .inl (.inl hc)
      · exact .inl (.inr (.inl hc))
      · rcases hc with hc | hc
        swap
        · exact .inl (.inr (.inr (.inr hc)))
        refine (hsoft c hc).imp id fun h => ?_
        show heldVars L S c + T.count c + (if s.eng.rv = .val c then 1 else 0) + 1 ≤ heldVars L s.scopes c + T0.count c + (if s.eng.rv = .val c then 1 else 0)
        omega
  shape := by
    have hsup : Sup s { s with scopes := S } := ⟨fun _ x hx => ⟨x, hx, rfl⟩, Nat.le_refl _, hlen, Nat.le_refl _⟩
    exact ⟨fun c x hx => (h.shape.data c x hx).sup hsup, hok, fun j st hj i hi => Nat.lt_of_lt_of_le (h.shape.envs j st hj i hi) hlen, h.shape.cur, h.shape.ptm, h.shape.rv,
      h.shape.rvs, h.shape.host⟩
  inC := h.inC
  inP := h.inP
  inT := hT

theorem Soft.push {scopes : List Scope} {x : Scope} {c : Nat} (h : Soft L (scopes ++ [x]) c) (hx : x.vars = []) : Soft L scopes c := by
  obtain ⟨i, y, v, hy, hv, hc⟩ := h
  rcases getElem?_push hy with ⟨_, hy⟩ | ⟨_, rfl⟩
  · exact ⟨i, y, v, hy, hv, hc⟩
  · rw [hx] at hv
    cases hv

theorem Soft.set {scopes : List Scope} {i : Nat} {y : Scope} {c : Nat} (h : Soft L (scopes.set i y) c) : Soft L scopes c ∨ ∃ v ∈ y.vars, v.val = some c ∧ v.key ∉ L.assigned := by
  obtain ⟨j, z, v, hz, hv, hc⟩ := h
  rcases getElem?_set hz with ⟨_, rfl, _⟩ | ⟨_, hz⟩
  · exact .inr ⟨v, hv, hc⟩
  · exact .inl ⟨j, z, v, hz, hv, hc⟩

theorem Wf.newScope (h : Wf L C P T s) (x : Scope) (hx : x.vars = []) (hf : x.freed = false) (ho : ∀ c, x.owner = some c → c < s.cells.length) :
    Wf L C P T { s with scopes := s.scopes ++ [x] } := by
  refine h.scopes (by simp) (fun i y hy => ?_) (fun c => ?_) (fun c hc => .inl (.inr (.inr (.inl (hc.push hx))))) h.inT
  · rcases getElem?_push hy with ⟨_, hy⟩ | ⟨_, rfl⟩
    · exact h.shape.scopes i y hy
    · exact ⟨hf, ho, by rw [hx]; exact fun v hv => (nomatch hv)⟩
  · rw [heldVars_push, hx]
    exact Nat.le_refl _

/-- Replacing a scope. -/
theorem Wf.setScope (h : Wf L C P T0 s) {i : Nat} {x y : Scope} (hx : s.scopes[i]? = some x) (hy : ScopeOk L s.cells y)
    (hN : ∀ c, cntVars L y.vars c + T.count c ≤ cntVars L x.vars c + T0.count c)
    (hsoft : ∀ c, ∀ v ∈ y.vars, v.val = some c → v.key ∉ L.assigned → Pinned L C P s c ∨ cntVars L y.vars c + T.count c + 1 ≤ cntVars L x.vars c + T0.count c)
    (hT : ∀ c ∈ T, c < s.cells.length) : Wf L C P T { s with scopes := s.scopes.set i y } := by
  have hset := fun c => heldVars_set (L := L) hx y c
  refine h.scopes (by simp) (fun j z hz => ?_) (fun c => ?_) (fun c hc => ?_) hT
  · rcases getElem?_set hz with ⟨_, rfl, _⟩ | ⟨_, hz⟩
    · exact hy
    · exact h.shape.scopes j z hz
  · have := hset c
    have := hN c
    omega
  · rcases hc.set with hc | ⟨v, hv, hc, hk⟩
    · exact .inl (.inr (.inr (.inl hc)))
    · refine (hsoft c v hv hc hk).imp id fun h => ?_
      have := hset c
      omega

/-- A scope gets another owner or other flags. -/
theorem Wf.flagScope (h : Wf L C P T s) {i : Nat} {x y : Scope} (hx : s.scopes[i]? = some x) (hv : y.vars = x.vars) (hf : y.freed = false)
    (ho : ∀ c, y.owner = some c → c < s.cells.length) : Wf L C P T { s with scopes := s.scopes.set i y } := by
  have hok := h.shape.scopes i x hx
  refine h.setScope hx ⟨hf, ho, by rw [hv]; exact hok.vars⟩ (fun c => by rw [hv]) (fun c v hv' hc hk => .inl (.inr (.inr (.inl ⟨i, x, v, hx, ?_, hc, hk⟩)))) h.inT
  rw [← hv]
  exact hv'

theorem counts_none (v : Var) (hv : v.val = none) (c : Nat) : v.counts L c = 0 := by
  unfold Var.counts
  rw [if_neg]
  rw [hv]
  exact fun h => nomatch h.1

theorem counts_le (v : Var) {c c' : Nat} (hv : v.val = some c) : v.counts L c' ≤ if c' = c then 1 else 0 := by
  unfold Var.counts
  split
  · rename_i h
    rw [hv] at h
    rw [if_pos (by cases h.1; rfl)]
  · exact Nat.zero_le _

theorem counts_unassigned (v : Var) (hv : v.key ∉ L.assigned) (c : Nat) : v.counts L c = 0 := by
  unfold Var.counts
  rw [if_neg]
  exact fun h => hv h.2

theorem Wf.addVar (h : Wf L C P T s) {i : Nat} {x : Scope} (hx : s.scopes[i]? = some x) {v : Var} (hk : v.key ∉ memberNames) (hv : v.val = none) :
    Wf L C P T { s with scopes := s.scopes.set i { x with vars := x.vars ++ [v] } } := by
  have hok := h.shape.scopes i x hx
  refine h.setScope hx ⟨hok.freed, hok.owner, fun u hu => ?_⟩ (fun c => ?_) (fun c u hu hc hku => ?_) h.inT
  · rcases List.mem_append.1 hu with hu | hu
    · exact hok.vars u hu
    · cases List.mem_singleton.1 hu
      exact ⟨hk, fun c hc => by rw [hv] at hc; cases hc⟩
  · show cntVars L (x.vars ++ [v]) c + _ ≤ _
    rw [cntVars_append, counts_none v hv]
    omega
  · rcases List.mem_append.1 hu with hu | hu
    · exact .inl (.inr (.inr (.inl ⟨i, x, u, hx, hu, hc, hku⟩)))
    · cases List.mem_singleton.1 hu
      rw [hv] at hc
      cases hc

/-- Setting a variable, with a reference of its own or (if never assigned to) to something kept. -/
theorem Wf.setVar (h : Wf L C P T0 s) {i k c : Nat} {x : Scope} {v : Var} {y : Cell} (hx : s.scopes[i]? = some x) (hv : x.vars[k]? = some v) (hy : s.cells[c]? = some y)
    (hnp : y.data.NotPtm) (hpl : v.key ∉ L.classes → y.data.Plain)
    (hT : (T0 = c :: T) ∨ (T0 = T ∧ Pinned L C P s c ∧ v.key ∉ L.assigned)) :
    Wf L C P T { s with scopes := s.scopes.set i { x with vars := x.vars.set k { v with val := some c } } } := by
  have hok := h.shape.scopes i x hx
  have hvm := List.mem_of_getElem? hv
  have hcs := fun c' => cntVars_set (L := L) hv { v with val := some c } c'
  have hTT : ∀ c', T0.count c' = T.count c' + (if T0 = T then 0 else if c' = c then 1 else 0) := by
    intro c'
    by_cases he : T0 = T
    · simp [he]
    · rcases hT with rfl | ⟨h, _⟩
      · rw [if_neg he, List.count_cons]
        by_cases hcc : c' = c
        · simp [hcc]
        · have : (c == c') = false := by simpa using Ne.symm hcc
          simp [this, hcc]
      · exact absurd h he
  have hne : ∀ l : List Nat, ¬ (c :: l = l) := fun l he => by
    have := congrArg List.length he
    simp at this
  refine h.setScope hx ⟨hok.freed, hok.owner, fun u hu => ?_⟩ (fun c' => ?_) (fun c' u hu hc hku => ?_) (fun c' hc' => h.inT c' ?_)
  · rcases List.mem_or_eq_of_mem_set hu with hu | rfl
    · exact hok.vars u hu
    · refine ⟨(hok.vars v hvm).key, fun c' hc' => ?_⟩
      cases hc'
      exact ⟨y, hy, hnp, hpl⟩
  · show cntVars L (x.vars.set k { v with val := some c }) c' + _ ≤ _
    have := hcs c'
    have := hTT c'
    rcases hT with rfl | ⟨rfl, _, hk⟩
    · rw [if_neg (hne T)] at this
      have := counts_le (L := L) { v with val := some c } (c := c) (c' := c') rfl
      omega
    · have := counts_unassigned (L := L) { v with val := some c } hk c'
      omega
  · rcases List.mem_or_eq_of_mem_set hu with hu | rfl
    · exact .inl (.inr (.inr (.inl ⟨i, x, u, hx, hu, hc, hku⟩)))
    · cases hc
      rcases hT with rfl | ⟨rfl, hp, hk⟩
      · refine .inr ?_
        show cntVars L (x.vars.set k { v with val := some c }) c + _ + 1 ≤ _
        have := hcs c
        have := counts_unassigned (L := L) { v with val := some c } hku c
        rw [List.count_cons_self]
        omega
      · exact .inl hp
  · rcases hT with rfl | ⟨rfl, _, hk⟩
    · exact List.mem_cons_of_mem _ hc'
    · exact hc'

/-- Giving up the value of a variable and setting it to another one. -/
theorem Wf.storeSucc (h : Wf L C P (r :: T) s) {i k c : Nat} {x : Scope} {v : Var} {y : Cell} (hx : s.scopes[i]? = some x) (hv : x.vars[k]? = some v) (hc : v.val = some c)
    (hy : s.cells[r]? = some y) (hpl : y.data.Plain) (hk : v.key ∈ L.assigned) (w : World) (n : Nat) :
    ∃ cells bufs bodies, (interp w (n + 1)).dec c s = .ok () { s with cells := cells, bufs := bufs, bodies := bodies } ∧ SameData s.cells cells ∧
      Wf L C P T { s with cells := cells, bufs := bufs, bodies := bodies, scopes := s.scopes.set i { x with vars := x.vars.set k { v with val := some r } } } := by
  have hok := h.shape.scopes i x hx
  have hvm := List.mem_of_getElem? hv
  have hclt : c < s.cells.length := by
    obtain ⟨z, hz, _⟩ := (hok.vars v hvm).val c hc
    exact lt_of_get hz
  generalize hS : s.scopes.set i { x with vars := x.vars.set k { v with val := some r } } = S
  have hnum : ∀ c', held L T { s with scopes := S } c' + (if c' = c then 1 else 0) ≤ held L (r :: T) s c' := by
    intro c'
    rw [held_cons]
    have h1 := heldVars_set (L := L) hx { x with vars := x.vars.set k { v with val := some r } } c'
    have h2 := cntVars_set (L := L) hv { v with val := some r } c'
    rw [hS] at h1
    have h3 : v.counts L c' = if c' = c then 1 else 0 := by
      unfold Var.counts
      by_cases hcc : c' = c
      · rw [if_pos hcc, hcc, if_pos ⟨hc, hk⟩]
      · rw [if_neg hcc, if_neg]
        rw [hc]
        rintro ⟨h, _⟩
        cases h
        exact hcc rfl
    have h4 := counts_le (L := L) { v with val := some r } (c := r) (c' := c') rfl
    show heldVars L S c' + T.count c' + (if s.eng.rv = .val c' then 1 else 0) + (if c' = c then 1 else 0) ≤
      heldVars L s.scopes c' + T.count c' + (if s.eng.rv = .val c' then 1 else 0) + (if c' = r then 1 else 0)
    simp only at h1
    omega
  obtain ⟨cells, bufs, bodies, h1, h2, h3, h4⟩ := stepDec_mem (N' := held L T { s with scopes := S }) (interp w n).dec hclt h.mem hnum
  refine ⟨cells, bufs, bodies, h1, h2, ?_⟩
  have hsoft : ∀ c', Soft L S c' → Soft L s.scopes c' := by
    intro c' hc'
    rw [← hS] at hc'
    rcases hc'.set with hc' | ⟨u, hu, hcu, hku⟩
    · exact hc'
    · rcases List.mem_or_eq_of_mem_set hu with hu | rfl
      · exact ⟨i, x, u, hx, hu, hcu, hku⟩
      · exact absurd hk hku
  -- first the scopes, then the cells
  have hsh : Shape L { s with scopes := S } := by
    subst hS
    have hsup : Sup s { s with scopes := s.scopes.set i { x with vars := x.vars.set k { v with val := some r } } } := ⟨fun _ x hx => ⟨x, hx, rfl⟩, Nat.le_refl _, by simp, Nat.le_refl _⟩
    refine ⟨fun c x hx => (h.shape.data c x hx).sup hsup, fun j z hz => ?_, fun j st hj i hi => Nat.lt_of_lt_of_le (h.shape.envs j st hj i hi) hsup.scopes, h.shape.cur, h.shape.ptm,
      h.shape.rv, h.shape.rvs, h.shape.host⟩
    rcases getElem?_set hz with ⟨_, rfl, _⟩ | ⟨_, hz⟩
    · refine ⟨hok.freed, hok.owner, fun u hu => ?_⟩
      rcases List.mem_or_eq_of_mem_set hu with hu | rfl
      · exact hok.vars u hu
      · refine ⟨(hok.vars v hvm).key, fun c' hc' => ?_⟩
        cases hc'
        exact ⟨y, hy, hpl.notPtm, fun _ => hpl⟩
    · exact h.shape.scopes j z hz
  have hlen : s.scopes.length ≤ S.length := by rw [← hS]; simp
  have hsh' : Shape L { s with scopes := S, cells := cells, bufs := bufs, bodies := bodies } := hsh.same h2 fun k x hx => by
    obtain ⟨x', hx', ho⟩ := h3 k x hx
    exact ⟨x', hx', .inl ho⟩
  have hsup : Sup s { s with scopes := S, cells := cells, bufs := bufs, bodies := bodies } := ⟨fun _ _ hx => h2.get hx, Nat.le_refl _, hlen, Nat.le_refl _⟩
  refine ⟨?_, hsh', fun c hc => hsup.lt (h.inC c hc), fun c hc => hsup.lt (h.inP c hc), fun c hc => hsup.lt (h.inT c (List.mem_cons_of_mem _ hc))⟩
  refine h4.mono (fun _ => Nat.le_refl _) (fun c hc => .inl ?_) (fun c hc => hc.same h2) (fun c hc => .inl hc)
  rcases hc with hc | hc | hc
  · exact .inl (hc.same h2.symm)
  · exact .inr (.inl hc)
  · exact .inr (.inr (hc.imp (hsoft c) id))

theorem Wf.store (h : Wf L C P (r :: T) s) {i k c : Nat} {x : Scope} {v : Var} {y : Cell} (hx : s.scopes[i]? = some x) (hv : x.vars[k]? = some v) (hc : v.val = some c)
    (hy : s.cells[r]? = some y) (hpl : y.data.Plain) (hk : v.key ∈ L.assigned) (w : World) (n : Nat) :
    (interp w n).dec c s = .timeout ∨ ∃ cells bufs bodies, (interp w n).dec c s = .ok () { s with cells := cells, bufs := bufs, bodies := bodies } ∧ SameData s.cells cells ∧
      Wf L C P T { s with cells := cells, bufs := bufs, bodies := bodies, scopes := s.scopes.set i { x with vars := x.vars.set k { v with val := some r } } } := by
  cases n with
  | zero => exact .inl rfl
  | succ n => exact .inr (h.storeSucc hx hv hc hy hpl hk w n)

/-! ## Context -/

theorem Wf.context {E : List (List Nat)} {g : Eng} (h : Wf L C P T0 s) (hE : ∀ (j : Nat) (st : List Nat), E[j]? = some st → ∀ i ∈ st, i < s.scopes.length)
    (hlen : s.envs.length ≤ E.length) (henv : g.env < E.length)
    (hptm : ∀ (k : Nat) (p : Ptm), members[k]? = some p → ∃ x, s.cells[g.ptm + k]? = some x ∧ x.data = .fn { kind := .ptm p })
    (hrv : ∀ c, g.rv = .val c → Plain s.cells c) (hrvs : g.rv ≠ .sentinel)
    (hN : ∀ c, T.count c + (if g.rv = .val c then 1 else 0) ≤ T0.count c + (if s.eng.rv = .val c then 1 else 0)) (hT : ∀ c ∈ T, c < s.cells.length) :
    Wf L C P T { s with envs := E, eng := g } where
  mem := by
    refine h.mem.mono (fun c => ?_) (fun c hc => .inl hc) (fun _ h => h) (fun _ h => .inl h)
    have := hN c
    show heldVars L s.scopes c + T.count c + (if g.rv = .val c then 1 else 0) ≤ heldVars L s.scopes c + T0.count c + (if s.eng.rv = .val c then 1 else 0)
    omega
  shape := by
    have hsup : Sup s { s with envs := E, eng := g } := ⟨fun _ x hx => ⟨x, hx, rfl⟩, hlen, Nat.le_refl _, Nat.le_refl _⟩
    exact ⟨fun c x hx => (h.shape.data c x hx).sup hsup, h.shape.scopes, hE, henv, hptm, hrv, hrvs, h.shape.host⟩
  inC := h.inC
  inP := h.inP
  inT := hT

/-- Setting the scope stack. -/
theorem Wf.setStack (h : Wf L C P T s) {st : List Nat} {e : Nat} (hst : ∀ i ∈ st, i < s.scopes.length) : Wf L C P T { s with envs := s.envs.set e st } := by
  refine h.context (E := s.envs.set e st) (g := s.eng) (fun j st' hj => ?_) (by simp) (by simpa using h.shape.cur) h.shape.ptm h.shape.rv h.shape.rvs (fun _ => Nat.le_refl _) h.inT
  rcases getElem?_set hj with ⟨_, rfl, _⟩ | ⟨_, hj⟩
  · exact hst
  · exact h.shape.envs j st' hj

/-- A new environment. -/
theorem Wf.newEnv (h : Wf L C P T s) {st : List Nat} (hst : ∀ i ∈ st, i < s.scopes.length) : Wf L C P T { s with envs := s.envs ++ [st] } := by
  refine h.context (E := s.envs ++ [st]) (g := s.eng) (fun j st' hj => ?_) (by simp) (by have := h.shape.cur; simp; omega) h.shape.ptm h.shape.rv h.shape.rvs (fun _ => Nat.le_refl _) h.inT
  rcases getElem?_push hj with ⟨_, hj⟩ | ⟨_, rfl⟩
  · exact h.shape.envs j st' hj
  · exact hst

/-- Another body and environment. -/
theorem Wf.setEng (h : Wf L C P T s) {b : Option Nat} {e : Nat} (he : e < s.envs.length) : Wf L C P T { s with eng := { s.eng with body := b, env := e } } :=
  h.context (E := s.envs) (g := { s.eng with body := b, env := e }) h.shape.envs (Nat.le_refl _) he h.shape.ptm h.shape.rv h.shape.rvs (fun _ => Nat.le_refl _) h.inT

/-- A value becomes the value to be returned. -/
theorem Wf.setRv {c : Nat} (h : Wf L C P (c :: T) s) (hc : Plain s.cells c) (hr : s.eng.rv = .none) : Wf L C P T { s with eng := { s.eng with rv := .val c } } := by
  refine h.context (E := s.envs) (g := { s.eng with rv := .val c }) h.shape.envs (Nat.le_refl _) h.shape.cur h.shape.ptm (fun c' hc' => ?_) (by rintro ⟨⟩) (fun c' => ?_)
    fun c' hc' => h.inT c' (List.mem_cons_of_mem _ hc')
  · cases hc'
    exact hc
  · rw [hr]
    by_cases hcc : c' = c
    · subst hcc
      rw [List.count_cons_self, if_pos rfl]
      omega
    · rw [List.count_cons_of_ne (Ne.symm hcc), if_neg (by rintro ⟨⟩; exact hcc rfl)]
      omega

/-- The value to be returned is taken. -/
theorem Wf.takeRv {c : Nat} (h : Wf L C P T s) (hr : s.eng.rv = .val c) : Wf L C P (c :: T) { s with eng := { s.eng with rv := .none } } := by
  refine h.context (E := s.envs) (g := { s.eng with rv := .none }) h.shape.envs (Nat.le_refl _) h.shape.cur h.shape.ptm (fun c' hc' => (nomatch hc')) (by rintro ⟨⟩) (fun c' => ?_)
    fun c' hc' => ?_
  · rw [hr, if_neg (by rintro ⟨⟩)]
    by_cases hcc : c' = c
    · subst hcc
      rw [List.count_cons_self, if_pos rfl]
    · rw [List.count_cons_of_ne (Ne.symm hcc)]
      omega
  · rcases List.mem_cons.1 hc' with rfl | hc'
    · exact (h.shape.rv _ hr).lt
    · exact h.inT c' hc'

theorem Wf.clearRv (h : Wf L C P T s) : Wf L C P T { s with eng := { s.eng with rv := .none } } := by
  refine h.context (E := s.envs) (g := { s.eng with rv := .none }) h.shape.envs (Nat.le_refl _) h.shape.cur h.shape.ptm (fun c' hc' => (nomatch hc')) (by rintro ⟨⟩) (fun c' => ?_) h.inT
  rw [if_neg (by rintro ⟨⟩)]
  omega

theorem Wf.host {s' : St} (h : Wf L C P T s) (h1 : s'.cells = s.cells) (h2 : s'.bufs = s.bufs) (h3 : s'.bodies = s.bodies) (h4 : s'.scopes = s.scopes) (h5 : s'.envs = s.envs) (h6 : s'.eng = s.eng)
    (hn : s.host.states.length ≤ s'.host.states.length) (hs : HostOk s.Holds (Pinned L C P s) s'.host) : Wf L C P T s' := by
  have hN : held L T s' = held L T s := by
    funext c
    unfold held
    rw [h4, h6]
  have hP : ∀ c, Pinned L C P s' c → Pinned L C P s c := by
    intro c hc
    unfold Pinned at hc
    rw [h1, h4] at hc
    rcases hc with hc | hc | hc | hc
    · exact .inl hc
    · exact .inr (.inl hc)
    · exact .inr (.inr (.inl hc))
    · exact hs.uses c hc
  have hsup : Sup s s' := ⟨fun _ x hx => ⟨x, by rw [h1]; exact hx, rfl⟩, by rw [h5], by rw [h4], hn⟩
  have hm : Mem L (held L T s) (Pinned L C P s') (Hard C s.cells) s.cells s.bufs s.bodies :=
    h.mem.mono (fun _ => Nat.le_refl _) (fun c hc => .inl (hP c hc)) (fun _ h => h) (fun _ h => .inl (by rw [h1]; exact h))
  refine ⟨by rw [hN, h1, h2, h3]; exact hm, ?_, by rw [h1]; exact h.inC, by rw [h1]; exact h.inP, by rw [h1]; exact h.inT⟩
  have hsh := h.shape
  exact ⟨by rw [h1]; exact fun c x hx => (hsh.data c x hx).sup hsup, by rw [h1, h4]; exact hsh.scopes, by rw [h4, h5]; exact hsh.envs, by rw [h5, h6]; exact hsh.cur,
    by rw [h1, h6]; exact hsh.ptm, by rw [h1, h6]; exact hsh.rv, by rw [h6]; exact hsh.rvs,
    hs.mono (fun c hc => by rw [h1]; exact h.pinned_lt hc) fun _ _ => hsup.holds⟩

/-- What bob keeps. -/
theorem Wf.hostOk (h : Wf L C P T s) : HostOk s.Holds (Pinned L C P s) s.host :=
  ⟨h.shape.host.steps, fun _ hc => .inr (.inr (.inr hc)), h.shape.host.states, h.shape.host.flags, h.shape.host.reqs⟩

end

end Bob.Fl
