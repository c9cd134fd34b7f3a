import Verif.Lemmas.FlSafeExpr
/-!
# bob's own functions do not go wrong
-/

namespace Bob.Fl

section
variable {L : Discipline} {C P T : List Nat} {s s' : St} {w : World}

/-- Something new was made, and the context is the same. -/
def Done (L : Discipline) (C P T : List Nat) (s : St) (v : Nat) (s' : St) : Prop := NewVal L C P T s v s' ∧ s'.eng = s.eng

/-! ## Cookies -/

theorem genCookie_nul {sg : Bool} {out path ext : Bytes} (h1 : NUL ∉ out) (h2 : NUL ∉ path) (h3 : NUL ∉ ext) : NUL ∉ genCookie sg out path ext := by
  unfold genCookie
  simp only [List.mem_append, not_or]
  refine ⟨⟨⟨⟨⟨⟨h1, by decide⟩, fun h => ?_⟩, by decide⟩, fun h => (hex_mem h).2.2 rfl⟩, by decide⟩, h3⟩
  obtain ⟨c, hc, he⟩ := List.mem_map.1 h
  unfold foldSlash at he
  split at he
  · exact absurd he (by decide)
  · exact h2 (he ▸ hc)

theorem linkCookie_nul {sg : Bool} {out : Bytes} {archive : Bool} {srcs : List Bytes} (h1 : NUL ∉ out) : NUL ∉ linkCookie sg out archive srcs := by
  unfold linkCookie
  simp only [List.mem_append, not_or]
  cases archive
  · exact ⟨⟨⟨⟨⟨⟨h1, by decide⟩, by decide⟩, by decide⟩, fun h => (hex_mem h).2.2 rfl⟩, by decide⟩, by decide⟩
  · exact ⟨⟨⟨⟨⟨⟨h1, by decide⟩, by decide⟩, by decide⟩, fun h => (hex_mem h).2.2 rfl⟩, by decide⟩, by decide⟩

/-! ## Reading arguments -/

theorem safe_strElems (h : Wf L C P T s) {c : Nat} (hc : Live s c) : Safe (strElems c) s fun bs s' => s' = s ∧ (∀ b ∈ bs, NUL ∉ b) ∧ ∃ n, StrsAt s.Holds c n := by
  obtain ⟨x, hx, _⟩ := hc
  unfold strElems
  refine Safe.getCell hx ?_
  split
  · rename_i es hd
    have hel : ∀ e ∈ es, Elem s.cells e := fun e he => ⟨c, x, hx, by rw [hd]; exact he⟩
    refine Safe.mono (Q := fun bs s' => s' = s ∧ (∀ b ∈ bs, NUL ∉ b) ∧ ∀ e ∈ es, ∃ b m, s.Holds e (.str b m)) ?_
      fun _ _ ⟨h1, h2, h3⟩ => ⟨h1, h2, _, es, ⟨x, hx, hd⟩, rfl, h3⟩
    clear hd
    induction es with
    | nil => exact ⟨rfl, fun b hb => (nomatch hb), fun e he => (nomatch he)⟩
    | cons e es ih =>
      unfold each
      obtain ⟨y, hy, hl⟩ := h.live_elem (hel e List.mem_cons_self)
      refine Safe.bind (Safe.getCell hy ?_)
      split
      · rename_i b n hyd
        obtain ⟨t, ht, ht0⟩ := h.read hy hyd hl
        refine Safe.of_ok ht (Safe.bind ((ih fun e he => hel e (List.mem_cons_of_mem _ he)).mono fun bs s1 ⟨h1, h2, h3⟩ => ?_))
        subst h1
        refine Safe.pure ⟨rfl, fun b hb => ?_, fun e' he' => ?_⟩
        · rcases List.mem_cons.1 hb with rfl | hb
          · exact ht0
          · exact h2 b hb
        · rcases List.mem_cons.1 he' with rfl | he'
          · exact ⟨b, n, y, hy, hyd⟩
          · exact h3 e' he'
      · exact Safe.fail
  · exact Safe.fail

theorem safe_checkFlags (h : Wf L C P T s) {c : Nat} (hc : Live s c) : Safe (checkFlags c) s fun _ s' => s' = s ∧ ∃ n, StrsAt s.Holds c n := by
  obtain ⟨x, hx, _⟩ := hc
  unfold checkFlags
  refine Safe.getCell hx ?_
  split
  · rename_i es hd
    have hel : ∀ e ∈ es, Elem s.cells e := fun e he => ⟨c, x, hx, by rw [hd]; exact he⟩
    refine Safe.mono (Q := fun _ s' => s' = s ∧ ∀ e ∈ es, ∃ b m, s.Holds e (.str b m)) ?_
      fun _ _ ⟨h1, h3⟩ => ⟨h1, _, es, ⟨x, hx, hd⟩, rfl, h3⟩
    clear hd
    induction es with
    | nil => exact ⟨rfl, fun e he => (nomatch he)⟩
    | cons e es ih =>
      unfold forEach
      obtain ⟨y, hy, hl⟩ := h.live_elem (hel e List.mem_cons_self)
      refine Safe.bind (Safe.getCell hy ?_)
      split
      · rename_i b n hyd
        refine Safe.pure ((ih fun e he => hel e (List.mem_cons_of_mem _ he)).mono fun _ s1 ⟨h1, h3⟩ => ⟨h1, fun e' he' => ?_⟩)
        rcases List.mem_cons.1 he' with rfl | he'
        · exact ⟨b, n, y, hy, hyd⟩
        · exact h3 e' he'
      · exact Safe.fail
  · exact Safe.fail

theorem safe_strs {f : Bytes → M Nat} {t : Bytes → Bytes} : ∀ {bs : List Bytes} {P : List Nat} {s : St}, Wf L C P T s → (∀ b ∈ bs, f b = allocStr (t b) ∧ NUL ∉ t b) →
    Safe (each f bs) s fun cs s' => Wf L C (cs ++ P) T s' ∧ (∀ c ∈ cs, Plain s'.cells c) ∧ (∀ F, Grow F s s') ∧ s'.eng = s.eng ∧ s'.host = s.host
  | [], P, s, h, _ => ⟨h, fun c hc => (nomatch hc), fun F => Grow.refl F s, rfl, rfl⟩
  | b :: bs, P, s, h, hb => by
    obtain ⟨h1, h2⟩ := hb b List.mem_cons_self
    unfold each
    rw [h1]
    refine Safe.bind_ok (a := s.cells.length) (s1 := { s with cells := s.cells ++ [{ data := .str s.bufs.length (t b).length }], bufs := s.bufs ++ [some (t b)] }) rfl ?_
    refine Safe.bind ((safe_strs (h.allocStr h2).keep fun b hb' => hb b (List.mem_cons_of_mem _ hb')).mono fun cs s2 ⟨hw, hp, hg, he, hh⟩ => Safe.pure ?_)
    refine ⟨hw.subP fun c hc => ?_, fun c hc => ?_, fun F => (Grow.push _ _ _).trans (hg F), he, hh⟩
    · simp only [List.mem_append, List.mem_cons] at hc ⊢
      exact hc.elim (fun h => h.elim (fun h => .inr (.inl h)) .inl) fun h => .inr (.inr h)
    · rcases List.mem_cons.1 hc with rfl | hc
      · exact (hg []).toSup.plain ⟨_, List.getElem?_concat_length, trivial⟩
      · exact hp c hc

/-! ## Build steps -/

theorem addStep_safe {D : Nat → Data → Prop} {U : Nat → Prop} {u : Uniq} {k : StepKind} (hso : HostOk D U s.host) (hu : (∃ o, u = .state o ∧ k = .compile) ∨ u = .bss s.host.nbss ∧ k ≠ .compile)
    (d : ReqData) (hd : U d.srcs) (hr : ReqOk D s.host.states.length k d) :
    ∃ h, addStep u k d s = .ok () { s with host := h } ∧ s.host.states.length ≤ h.states.length ∧ HostOk D U h := by
  have hs := hso.steps
  unfold addStep
  rw [bind_of_ok (get_apply s)]
  have hnew : HostOk D U { s.host with steps := s.host.steps ++ [⟨u, k, [d]⟩], nbss := s.host.nbss + 1 } := by
    refine ⟨fun st hst => ?_, fun c hc => ?_, hso.states, hso.flags, fun st hst d' hd' => ?_⟩
    rotate_left
    · rcases hc with hc | ⟨st, hst, d', hd', hc⟩
      · exact hso.uses c (.inl hc)
      · rcases List.mem_append.1 hst with hst | hst
        · exact hso.uses c (.inr ⟨st, hst, d', hd', hc⟩)
        · cases List.mem_singleton.1 hst
          cases List.mem_singleton.1 hd'
          exact hc ▸ hd
    · rcases List.mem_append.1 hst with hst | hst
      · exact hso.reqs st hst d' hd'
      · cases List.mem_singleton.1 hst
        cases List.mem_singleton.1 hd'
        exact hr
    rcases List.mem_append.1 hst with hst | hst
    · rcases hs st hst with h | ⟨n, h1, h2, h3⟩
      · exact .inl h
      · exact .inr ⟨n, h1, Nat.lt_succ_of_lt h2, h3⟩
    · cases List.mem_singleton.1 hst
      rcases hu with hu | hu
      · exact .inl hu
      · exact .inr ⟨_, hu.1, Nat.lt_succ_self _, hu.2, d, rfl⟩
  generalize he : addBuildStep s.host.steps u k d = o
  unfold addBuildStep at he
  cases o with
  | some steps =>
    split at he
    · cases he
      exact ⟨_, rfl, Nat.le_refl _, hnew⟩
    · rename_i last hl
      have hlm := List.mem_of_getLast? hl
      split at he
      · rename_i hlu
        split at he
        · rename_i hlk
          cases he
          refine ⟨_, rfl, Nat.le_refl _, fun st hst => ?_, fun c hc => ?_, hso.states, hso.flags, fun st hst d' hd' => ?_⟩
          rotate_left
          · rcases hc with hc | ⟨st, hst, d', hd', hc⟩
            · exact hso.uses c (.inl hc)
            · rcases List.mem_append.1 hst with hst | hst
              · exact hso.uses c (.inr ⟨st, List.dropLast_subset _ hst, d', hd', hc⟩)
              · cases List.mem_singleton.1 hst
                rcases List.mem_append.1 hd' with hd' | hd'
                · exact hso.uses c (.inr ⟨last, hlm, d', hd', hc⟩)
                · cases List.mem_singleton.1 hd'
                  exact hc ▸ hd
          · rcases List.mem_append.1 hst with hst | hst
            · exact hso.reqs st (List.dropLast_subset _ hst) d' hd'
            · cases List.mem_singleton.1 hst
              rcases List.mem_append.1 hd' with hd' | hd'
              · exact hso.reqs last hlm d' hd'
              · cases List.mem_singleton.1 hd'
                exact hlk ▸ hr
          rcases List.mem_append.1 hst with hst | hst
          · rcases hs st (List.dropLast_subset _ hst) with h | ⟨n, h1, h2, h3⟩
            · exact .inl h
            · exact .inr ⟨n, h1, Nat.lt_succ_of_lt h2, h3⟩
          · cases List.mem_singleton.1 hst
            rcases hs last hlm with h | ⟨n, h1, h2, h3⟩
            · exact .inl h
            · exfalso
              rcases hu with ⟨o', h4, h5⟩ | h4
              · rw [h4, h1] at hlu
                cases hlu
              · rw [h4.1, h1] at hlu
                cases hlu
                exact Nat.lt_irrefl _ h2
        · cases he
      · cases he
        exact ⟨_, rfl, Nat.le_refl _, hnew⟩
  | none =>
    exfalso
    split at he
    · cases he
    · rename_i last hl
      have hlm := List.mem_of_getLast? hl
      split at he
      · rename_i hlu
        split at he
        · cases he
        · rename_i hlk
          rcases hs last hlm with ⟨o, h1, h2⟩ | ⟨n, h1, h2, -⟩
          · rcases hu with ⟨o', h3, h4⟩ | ⟨h3, -⟩
            · exact hlk (h2.trans h4.symm)
            · rw [h3, h1] at hlu
              cases hlu
          · rcases hu with ⟨o', h3, h4⟩ | ⟨h3, -⟩
            · rw [h3, h1] at hlu
              cases hlu
            · rw [h3, h1] at hlu
              cases hlu
              exact Nat.lt_irrefl _ h2
      · cases he

theorem Grow.same {F : List Bytes} (h1 : s'.cells = s.cells) (h4 : s'.scopes = s.scopes) (h5 : s'.envs = s.envs) (hn : s.host.states.length ≤ s'.host.states.length) : Grow F s s' :=
  Grow.of_scopes ⟨fun _ x hx => ⟨x, by rw [h1]; exact hx, rfl⟩, by rw [h5], by rw [h4], hn⟩ h4

theorem Done.host {v : Nat} {h : Host} (hd : Done L C P T s v s') (hn : s'.host.states.length ≤ h.states.length) (hh : HostOk s'.Holds (Pinned L C P s') h) : Done L C P T s v { s' with host := h } :=
  ⟨⟨hd.1.1.host rfl rfl rfl rfl rfl rfl hn hh, hd.1.2.1, fun F => (hd.1.2.2 F).trans (Grow.same rfl rfl rfl hn)⟩, hd.2⟩

/-! ## Requests -/

theorem safe_objPaths (hw : w.Ok L) : ∀ {es : List Nat} {P : List Nat} {s : St}, Wf L C P T s → (∀ e ∈ es, Elem s.cells e) →
    Safe (each (objPath w) es) s fun cs s' => Wf L C (cs ++ P) T s' ∧ (∀ c ∈ cs, ∃ b m, s'.Holds c (.str b m)) ∧ (∀ F, Grow F s s') ∧ s'.eng = s.eng ∧ s'.host = s.host ∧
      cs.length = es.length ∧ ∀ e ∈ es, ∃ b m, s.Holds e (.str b m)
  | [], P, s, h, _ => ⟨h, fun c hc => (nomatch hc), fun F => Grow.refl F s, rfl, rfl, rfl, fun e he => (nomatch he)⟩
  | e :: es, P, s, h, hel => by
    obtain ⟨y, hy, hl⟩ := h.live_elem (hel e List.mem_cons_self)
    unfold each
    have hobj : Safe (objPath w e) s fun c s' => ∃ p : Bytes, NUL ∉ p ∧ c = s.cells.length ∧ (∃ b m, s.Holds e (.str b m)) ∧
        s' = { s with cells := s.cells ++ [{ data := .str s.bufs.length p.length }], bufs := s.bufs ++ [some p] } := by
      unfold objPath
      refine Safe.getCell hy ?_
      split
      · rename_i b n hyd
        obtain ⟨t, ht, ht0⟩ := h.read hy hyd hl
        refine Safe.bind_ok ht ?_
        rw [if_neg (by simpa using ht0)]
        exact ⟨_, genCookie_nul hw.out ht0 (by decide), rfl, ⟨b, n, y, hy, hyd⟩, rfl⟩
      · exact Safe.fail
    refine Safe.bind (hobj.mono fun c s1 hs1 => ?_)
    obtain ⟨p, hp0, rfl, hstr, rfl⟩ := hs1
    refine Safe.bind ((safe_objPaths hw (h.allocStr hp0).keep fun e he => ?_).mono fun cs s2 ⟨hw2, hp, hg, he, hh, hlen, hall⟩ => Safe.pure ?_)
    · obtain ⟨c, x, hx, hm⟩ := hel e (List.mem_cons_of_mem _ he)
      exact ⟨c, x, getElem?_pushed hx, hm⟩
    · refine ⟨hw2.subP fun c hc => ?_, fun c hc => ?_, fun F => (Grow.push _ _ _).trans (hg F), he, hh, by simp [hlen], fun e' he' => ?_⟩
      · simp only [List.mem_append, List.mem_cons] at hc ⊢
        exact hc.elim (fun h => h.elim (fun h => .inr (.inl h)) .inl) fun h => .inr (.inr h)
      · rcases List.mem_cons.1 hc with rfl | hc
        · exact ⟨_, _, (hg []).toSup.holds ⟨_, List.getElem?_concat_length, rfl⟩⟩
        · exact hp c hc
      · rcases List.mem_cons.1 he' with rfl | he'
        · exact hstr
        · obtain ⟨b, m, z, hz, hzd⟩ := hall e' he'
          obtain ⟨z0, hz0, -⟩ := h.live_elem (hel e' (List.mem_cons_of_mem _ he'))
          cases (getElem?_pushed hz0).symm.trans hz
          exact ⟨b, m, z, hz0, hzd⟩

theorem safe_prepCompile (hw : w.Ok L) (h : Wf L C P T s) {args : List Nat} (ha : ∀ c ∈ args, c ∈ P) {state : Option Nat} (hk : ∀ k, state = some k → k < s.host.states.length) :
    Safe (prepCompile w state args) s (Done L C P T s) := by
  unfold prepCompile
  split
  · rename_i c
    obtain ⟨x, hx, _⟩ := h.live_P (ha c List.mem_cons_self)
    refine Safe.getCell hx ?_
    split
    · rename_i es hd
      refine Safe.bind ((safe_objPaths hw h fun e he => ⟨c, x, hx, by rw [hd]; exact he⟩).mono fun cs s1 ⟨hw1, hp1, hg1, he1, hh1, hlen, hall⟩ => ?_)
      refine Safe.bind_ok (alloc_apply (.vec cs) s1) ?_
      have hm : NewVal L C P T s1 s1.cells.length { s1 with cells := s1.cells ++ [{ data := .vec cs }] } :=
        Safe.get_ok (made_parts hw1 (d := .vec cs) trivial fun c hc => ⟨hc, let ⟨_, _, y, hy, hyd⟩ := hp1 c hc; ⟨y, hy, by rw [hyd]; trivial⟩⟩) (alloc_apply (.vec cs) s1)
      have hs1 : Sup s { s1 with cells := s1.cells ++ [{ data := .vec cs }] } := ((hg1 []).trans (Grow.push [{ data := .vec cs }] s1.bufs s1.bodies)).toSup
      obtain ⟨h', h3, h5, h4⟩ := addStep_safe (s := { s1 with cells := s1.cells ++ [{ data := .vec cs }] }) hm.1.hostOk (.inl ⟨state, rfl, rfl⟩) { state := state, srcs := c, out := s1.cells.length }
        (.inr (.inl (ha c List.mem_cons_self)))
        ⟨fun k e => Nat.lt_of_lt_of_le (hk k e) hs1.states, es.length, ⟨es, hs1.holds ⟨x, hx, hd⟩, rfl, fun e he => (hall e he).imp fun _ => .imp fun _ => hs1.holds⟩, by
          rw [if_pos rfl]
          exact ⟨cs, ⟨_, List.getElem?_concat_length, rfl⟩, hlen, fun e he => (hp1 e he).imp fun _ => .imp fun _ ⟨y, hy, hyd⟩ => ⟨y, getElem?_pushed hy, hyd⟩⟩⟩
      exact Safe.bind_ok h3 (Safe.pure (Done.host (s' := { s1 with cells := s1.cells ++ [{ data := .vec cs }] }) ⟨hm.grow hg1, he1⟩ h5 h4))
    · exact Safe.fail
  · exact Safe.fail

theorem safe_prepLink (hw : w.Ok L) (h : Wf L C P T s) {args : List Nat} (ha : ∀ c ∈ args, c ∈ P) {state : Option Nat} (hk : ∀ k, state = some k → k < s.host.states.length) (archive : Bool) :
    Safe (prepLink w state args archive) s (Done L C P T s) := by
  unfold prepLink
  split
  · rename_i c
    refine Safe.bind ((safe_strElems h (h.live_P (ha c List.mem_cons_self))).mono fun bs s1 ⟨h1, h2, k, hk'⟩ => ?_)
    subst h1
    have ho : allocStr (linkCookie w.signed w.outPath archive bs) s1 = .ok s1.cells.length { s1 with
      cells := s1.cells ++ [{ data := .str s1.bufs.length (linkCookie w.signed w.outPath archive bs).length }], bufs := s1.bufs ++ [some (linkCookie w.signed w.outPath archive bs)] } := rfl
    have hm := Safe.get_ok (made_str h (linkCookie_nul hw.out)) ho
    refine Safe.bind_ok ho (Safe.get ?_)
    have hout : ({ s1 with cells := s1.cells ++ [{ data := .str s1.bufs.length (linkCookie w.signed w.outPath archive bs).length }], bufs := s1.bufs ++ [some (linkCookie w.signed w.outPath archive bs)] } : St).Holds
      s1.cells.length (.str s1.bufs.length (linkCookie w.signed w.outPath archive bs).length) := ⟨_, List.getElem?_concat_length, rfl⟩
    generalize hs2 : ({ s1 with cells := s1.cells ++ [{ data := .str s1.bufs.length (linkCookie w.signed w.outPath archive bs).length }], bufs := s1.bufs ++ [some (linkCookie w.signed w.outPath archive bs)] } : St) = s2 at hm hout
    have hsup := (hm.2.2 []).toSup
    have hkind : (if archive then StepKind.archive else .link) ≠ .compile := by cases archive <;> decide
    obtain ⟨h', h3, h5, h4⟩ := addStep_safe (k := if archive then .archive else .link) (s := s2) hm.1.hostOk (.inr ⟨rfl, hkind⟩) { state := state, srcs := c, out := s1.cells.length }
      (.inr (.inl (ha c List.mem_cons_self)))
      ⟨fun k e => Nat.lt_of_lt_of_le (hk k e) hsup.states, k, hk'.mono fun _ _ => hsup.holds, by rw [if_neg hkind]; exact ⟨_, _, hout⟩⟩
    exact Safe.bind_ok h3 (Safe.pure (Done.host ⟨hm, by rw [← hs2]⟩ h5 h4))
  · exact Safe.fail

theorem safe_fsList (hw : w.Ok L) (h : Wf L C P T s) {args : List Nat} (ha : ∀ c ∈ args, c ∈ P) : Safe (fsList w args) s (Done L C P T s) := by
  unfold fsList
  split
  · rename_i c
    obtain ⟨x, hx, hl⟩ := h.live_P (ha c List.mem_cons_self)
    refine Safe.getCell hx ?_
    split
    · rename_i b n hd
      obtain ⟨t, ht, hn, h0⟩ := h.str hx hd hl
      refine Safe.bind_ok (readStr_str ht hn h0) ?_
      split
      · exact Safe.fail
      · rename_i ps hps
        refine Safe.bind ((safe_strs (t := id) h fun b hb => ⟨rfl, hw.list _ _ hps b hb⟩).mono fun cs s1 ⟨hw1, hp1, hg1, he1, hh1⟩ => ?_)
        refine Safe.of_ok (alloc_apply (.vec cs) s1) ⟨?_, he1⟩
        exact (Safe.get_ok (made_parts hw1 (d := .vec cs) trivial fun c hc => ⟨hc, hp1 c hc⟩) (alloc_apply (.vec cs) s1)).grow hg1
    · exact Safe.abort fun h => nomatch h
  · exact Safe.abort fun h => nomatch h

/-- A call that was answered, or not. -/
def Asked (L : Discipline) (C P T : List Nat) (s : St) (o : Option Nat) (s' : St) : Prop :=
  match o with
  | some v => Done L C P T s v s'
  | none => s' = s

theorem Safe.asked {m : M Nat} (h : Safe m s (Done L C P T s)) : Safe (m >>= fun r => Pure.pure (some r)) s (Asked L C P T s) :=
  Safe.bind (h.mono fun _ _ h => Safe.pure h)

theorem safe_owner (o : Owner) {f : Option (Option Nat) → M α} {Q : α → St → Prop} (hf : ∀ d, (∀ st, d = some st → ∃ i, o = .inst i ∧ i.data = st) → Safe (f d) s Q) :
    Safe (o.data >>= f) s Q := by
  cases o with
  | nobody => exact Safe.bind (Safe.ub fun h => nomatch h)
  | inst i => exact Safe.bind_ok rfl (hf _ fun st h => ⟨i, rfl, Option.some.inj h⟩)
  | _ => exact Safe.bind_ok rfl (hf _ fun _ h => nomatch h)

/-- The owner is an instance with a compiler or linker that there is, if any. -/
def Owner.Known (s : St) (o : Owner) : Prop := ∀ i, o = .inst i → ∀ k, i.data = some k → k < s.host.states.length

theorem Owner.Known.state {o : Owner} (h : o.Known s) {d : Option (Option Nat)} (hd : ∀ st, d = some st → ∃ i, o = .inst i ∧ i.data = st) {st : Option Nat} (e : d = some st) :
    ∀ k, st = some k → k < s.host.states.length := by
  obtain ⟨i, h1, h2⟩ := hd st e
  exact fun k hk => h i h1 k (h2.trans hk)

theorem safe_ccCall (hw : w.Ok L) (h : Wf L C P T s) {args : List Nat} (ha : ∀ c ∈ args, c ∈ P) {o : Owner} (ho : o.Known s) (name : Bytes) :
    Safe (ccCall w o name args) s (Asked L C P T s) := by
  unfold ccCall
  refine safe_owner o fun d hd => ?_
  split
  · exact Safe.deref (fun _ h => nomatch h) fun st e => Safe.asked (safe_prepCompile hw h ha (ho.state hd e))
  · exact Safe.pure rfl

theorem safe_linkerCall (hw : w.Ok L) (h : Wf L C P T s) {args : List Nat} (ha : ∀ c ∈ args, c ∈ P) {o : Owner} (ho : o.Known s) (name : Bytes) :
    Safe (linkerCall w o name args) s (Asked L C P T s) := by
  unfold linkerCall
  refine safe_owner o fun d hd => ?_
  split
  · exact Safe.deref (fun _ h => nomatch h) fun st e => Safe.asked (safe_prepLink hw h ha (ho.state hd e) _)
  · split
    · exact Safe.deref (fun _ h => nomatch h) fun st e => Safe.asked (safe_prepLink hw h ha (ho.state hd e) _)
    · exact Safe.pure rfl

theorem safe_fsCall (hw : w.Ok L) (h : Wf L C P T s) {args : List Nat} (ha : ∀ c ∈ args, c ∈ P) (callable : Nat) :
    Safe (fsCall w callable args) s (Asked L C P T s) := by
  unfold fsCall
  refine Safe.get ?_
  split
  · exact Safe.asked (safe_fsList hw h ha)
  · exact Safe.pure rfl

theorem safe_askClass {o : Owner} {cv : Option Nat} {m : M (Option Nat)} (h : Safe m s (Asked L C P T s)) : Safe (askClass o cv m) s (Asked L C P T s) := by
  unfold askClass
  exact Safe.ite (Safe.pure rfl) h

theorem safe_findOwner (h : Wf L C P T s) {c i : Nat} {x : Cell} (hx : s.cells[c]? = some x) (ho : x.owner = some i) (hi : i < s.scopes.length) : Safe (findOwner c) s fun o s' => s' = s ∧ o.Known s := by
  have hsc := List.getElem?_eq_getElem hi
  have hok := h.shape.scopes i _ hsc
  unfold findOwner
  refine Safe.getCell hx ?_
  rw [ho]
  refine Safe.bind_ok rfl (Safe.getScope hsc hok.freed ?_)
  split
  · exact Safe.pure ⟨rfl, fun i hi => nomatch hi⟩
  · rename_i c' hc'
    have hg := List.getElem?_eq_getElem (hok.owner c' hc')
    refine Safe.getCell hg ?_
    split
    · rename_i d hd
      have hdat := (h.shape.data c' _ hg).2
      rw [hd] at hdat
      exact Safe.pure ⟨rfl, fun i hi k hk => by cases hi; exact hdat.2.2 k hk⟩
    · split
      · exact Safe.pure ⟨rfl, fun i hi => nomatch hi⟩
      · exact Safe.pure ⟨rfl, fun i hi => nomatch hi⟩
    · exact Safe.pure ⟨rfl, fun i hi => nomatch hi⟩

theorem safe_externFn (hw : w.Ok L) (h : Wf L C P T s) {args : List Nat} (ha : ∀ c ∈ args, c ∈ P) {c : Nat} {x : Cell} {f : FnData} (hx : s.cells[c]? = some x) (hf : x.data = .fn f) (hk : f.kind = .extern) :
    Safe (externFn w c args) s (Done L C P T s) := by
  have hdat := (h.shape.data c x hx).2
  rw [hf] at hdat
  obtain ⟨_, _, h3⟩ := hdat
  rw [hk] at h3
  obtain ⟨_, i, ho, hi⟩ := h3
  unfold externFn
  refine Safe.getCell hx (Safe.bind ((safe_findOwner h hx ho hi).mono fun o s' ⟨e, hkn⟩ => ?_))
  cases e
  refine Safe.get ?_
  have hask : ∀ {m : M (Option Nat)} {k : M Nat} {cv : Option Nat}, Safe m s (Asked L C P T s) → Safe k s (Done L C P T s) →
      Safe (askClass o cv m >>= fun r => match r with
        | some r => pure r
        | none => k) s (Done L C P T s) := by
    intro m k cv hm hk
    refine Safe.bind ((safe_askClass hm).mono fun r s1 hr => ?_)
    cases r with
    | some r => exact Safe.pure hr
    | none =>
      cases hr
      exact hk
  exact hask (safe_fsCall hw h ha c) (Safe.bind_ok (readName_kept (h.nameKept x)) (hask (safe_ccCall hw h ha hkn _) (hask (safe_linkerCall hw h ha hkn _) Safe.raise)))

/-! ## Classes -/

theorem safe_classDecl (h : Wf L C P T s) {c i : Nat} {x : Cell} {f : FnData} (hx : s.cells[c]? = some x) (hf : x.data = .fn f) (hs : f.scope = some i) (hi : i < s.scopes.length) :
    Safe (classDecl c) s fun _ s' => Wf L C P T s' ∧ (∀ F, Grow F s s') ∧ s'.eng = s.eng := by
  have hsc := List.getElem?_eq_getElem hi
  have hpop : ∀ (vs : List Var) (h : Host), (populateFs vs h).steps = h.steps ∧ (populateFs vs h).nbss = h.nbss ∧ (populateFs vs h).states = h.states := by
    intro vs
    induction vs with
    | nil => exact fun h => ⟨rfl, rfl, rfl⟩
    | cons v vs ih =>
      intro h
      unfold populateFs
      obtain ⟨h1, h2, h3⟩ := ih (if v.key = b!"list" then { h with fsList := v.val } else h)
      refine ⟨h1.trans ?_, h2.trans ?_, h3.trans ?_⟩ <;> split <;> rfl
  unfold classDecl
  refine Safe.getCell hx ?_
  rw [hf]
  simp only
  rw [hs]
  refine Safe.bind_ok rfl (Safe.getScope hsc (h.shape.scopes i _ hsc).freed ?_)
  have hmod : ∀ g : Host → Host, (g s.host).states = s.host.states ∧ HostOk s.Holds (Pinned L C P s) (g s.host) → Safe (modHost g) s fun _ s' => Wf L C P T s' ∧ (∀ F, Grow F s s') ∧ s'.eng = s.eng := fun g hg =>
    Safe.of_ok (a := ()) (s1 := { s with host := g s.host }) rfl ⟨h.host rfl rfl rfl rfl rfl rfl (Nat.le_of_eq (by rw [hg.1])) hg.2, fun F => Grow.same rfl rfl rfl (Nat.le_of_eq (by rw [hg.1])), rfl⟩
  have hst : ∀ g : Host, g.steps = s.host.steps → g.nbss = s.host.nbss → g.states = s.host.states → g.states = s.host.states ∧ HostOk s.Holds (Pinned L C P s) g := by
    intro g h1 h2 h3
    have hh := h.hostOk
    refine ⟨h3, ?_, fun c' hc' => hh.uses c' ?_, by rw [h3]; exact hh.states, by rw [h3]; exact hh.flags, by rw [h1, h3]; exact hh.reqs⟩
    · unfold StepsOk
      rw [h1, h2]
      exact hh.steps
    · unfold Host.Uses at hc'
      rw [h1, h3] at hc'
      exact hc'
  split
  · refine hmod _ ?_
    obtain ⟨h1, h2, h3⟩ := hpop s.scopes[i].vars { s.host with fsCls := some c }
    exact hst _ h1 h2 h3
  · split
    · exact hmod _ (hst _ rfl rfl rfl)
    · split
      · exact hmod _ (hst _ rfl rfl rfl)
      · exact Safe.pure ⟨h, fun F => Grow.refl F s, rfl⟩

end

end Bob.Fl
