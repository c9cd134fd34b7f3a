import Verif.Model.Parser.Mend
import Verif.Lemmas.ParTerm
/-!
# What is on the stack when tokens may be missing

As `Lemmas/ParSound`, without the tokens that follow: a reduction may have been made with another one.
-/

namespace Bob.Parse

/-- A state that leads to another with a symbol, by the actions for it or by those that are passed over without errors. -/
structure MayLead (q X q' : Nat) : Prop where
  lt : X < 110
  doc : X ≠ 62
  ne : q' ≠ 0
  chk : chkEdgeTo q X q' = true

theorem MayLead.ok {q X q' : Nat} (h : MayLead q X q') : EdgeOK q X q' := by
  have := h.chk
  simp only [chkEdgeTo, Bool.or_eq_true, Nat.beq_eq, h.ne, h.doc, false_or, Bool.and_eq_true, nbeq_false, Nat.blt_eq, List.all_eq_true] at this
  obtain ⟨⟨⟨⟨⟨h1, h2⟩, h3⟩, h4⟩, h5⟩, h6⟩ := this
  refine ⟨⟨h.ne, h2⟩, h1, fun r k hk => ?_, fun ha => ?_, fun hq => ?_, fun hq => ?_⟩
  · have := h3 _ hk
    match k, this with
    | 0, h => cases h
    | 1, h =>
      simp only [chkItem, Bool.and_eq_true, natIn_iff, nbeq_false] at h
      exact ⟨0, rfl, h.1, .inl ⟨rfl, h.2⟩⟩
    | j + 2, h =>
      simp only [chkItem, Bool.and_eq_true, natIn_iff, itemIn_iff] at h
      exact ⟨j + 1, rfl, h.1, .inr h.2⟩
  · rcases h4 with h4 | h4
    · simp [ha] at h4
    · exact h4
  · rcases h5 with h5 | h5
    · exact absurd hq h5
    · exact h5
  · rcases h6 with h6 | h6
    · exact absurd hq h6
    · exact h6

theorem leads_edge {q X : Nat} (hq : Live q) (hX : X < 110) (h62 : X ≠ 62) (he : edge q X ≠ 0) : MayLead q X (edge q X) := ⟨hX, h62, he, (chk_live hq).1 X hX⟩

/-- States one after the other. -/
inductive MayPath : Nat → List Nat → Nat → Prop where
  | nil (q : Nat) : MayPath q [] q
  | cons {q m q' X : Nat} {xs : List Nat} : MayLead q X m → MayPath m xs q' → MayPath q (X :: xs) q'

theorem MayPath.items : ∀ {q q' : Nat} {xs : List Nat}, MayPath q xs q' → Live q → Live q' ∧
    ∀ r k, (r, k) ∈ items.get q' → xs.length ≤ k → ∃ j, k = j + xs.length ∧ FillsPre xs ((ruleOf r).rhs.drop j) ∧
      ((r, j) ∈ items.get q ∨ j = 0 ∧ goto q (ruleOf r).lhs ≠ 0)
  | _, _, _, .nil _, hq => ⟨hq, fun _ k hk _ => ⟨k, rfl, trivial, .inl hk⟩⟩
  | q, _, _, .cons (xs := xs) he h, _ => by
    have ok := he.ok
    have ih := h.items ok.live
    refine ⟨ih.1, fun r k hk hl => ?_⟩
    obtain ⟨j, rfl, hp, hj⟩ := ih.2 r k hk (Nat.le_of_succ_le hl)
    rcases hj with hj | ⟨rfl, -⟩
    · obtain ⟨i, rfl, hx, hi⟩ := ok.item r j hj
      refine ⟨i, by simp only [List.length_cons]; omega, nth_drop hx hp, ?_⟩
      rcases hi with hi | hi
      · exact .inr hi
      · exact .inl hi
    · simp only [List.length_cons] at hl; omega

theorem MayPath.rule {q q' t A n pid : Nat} {xs : List Nat} (hc : MayPath q xs q') (hq : Live q) (ha : actions q' t = [.reduce A n pid]) (hn : xs.length = n) :
    ∃ r ∈ grammar, r.lhs = A ∧ r.pid = pid ∧ Fills xs r.rhs ∧ (n ≠ 0 → goto q A ≠ 0) := by
  have hi := hc.items hq
  have := act_ok hi.1 t
  rw [ha] at this
  cases this with
  | reduce _ _ _ h =>
    rcases h with ⟨rfl, rfl, rfl, _⟩ | ⟨r, hm, rfl, rfl, hl, hn0⟩
    · exact ⟨_, eps_mem, rfl, rfl, by rw [List.length_eq_zero_iff.1 hn]; trivial, fun h => absurd rfl h⟩
    · obtain ⟨j, hj, hp, hg⟩ := hi.2 r n hm (Nat.le_of_eq hn)
      have : j = 0 := by omega
      subst this
      refine ⟨ruleOf r, ruleOf_mem (by omega), rfl, rfl, hp.fills (by simp; omega), fun _ => ?_⟩
      rcases hg with hg | hg
      · exact absurd hg (item_ne hq)
      · exact hg.2

theorem MayPath.docFills {q : Nat} {xs : List Nat} (hc : MayPath q xs 335) (hq : Live q) (hn : xs.length = 2) : Fills xs [[4], [5]] := by
  obtain ⟨j, hj, hp, _⟩ := (hc.items hq).2 5 2 (by decide) (Nat.le_of_eq hn)
  have : j = 0 := by omega
  subst this
  exact hp.fills (by rw [hn]; rfl)

/-- The stack: trees that follow the grammar, and states that lead to each other. -/
inductive LOK : Stack → Prop where
  | nil : LOK []
  | extra {c : Tree} {st : Stack} : Comment c → LOK st → LOK ((st.top, c) :: st)
  | cons {q : Nat} {c : Tree} {st : Stack} : c.extra = false → MayLead st.top c.sym q → Derives c → (c.sym = 4 → goto st.top 62 = st.top) → LOK st → LOK ((q, c) :: st)

theorem Comment.isExtra {c : Tree} (h : Comment c) : c.extra = true := by cases h <;> rfl

theorem LOK.live {st : Stack} (h : LOK st) : Live st.top := by
  induction h with
  | nil => exact live_one
  | extra _ _ ih => exact ih
  | cons _ hl _ _ _ _ => exact hl.ok.live

theorem lpop_ok : ∀ {n : Nat} {st : Stack} {acc : List Tree} {qe : Nat} {cs : List Tree} {st' : Stack}, LOK st → AllDerive acc → MayPath st.top (solid acc) qe →
    popCount n st acc = some (cs, st') → LOK st' ∧ AllDerive cs ∧ MayPath st'.top (solid cs) qe ∧ (solid cs).length = n + (solid acc).length ∧
      (n ≠ 0 → ∃ c cs', cs = c :: cs' ∧ c.extra = false ∧ (c.sym = 4 → goto st'.top 62 = st'.top))
  | 0, st, acc, qe, cs, st', hs, hd, hc, h => by
    simp only [popCount, Option.some.injEq, Prod.mk.injEq] at h
    obtain ⟨rfl, rfl⟩ := h
    exact ⟨hs, hd, hc, (Nat.zero_add _).symm, fun h => absurd rfl h⟩
  | n + 1, [], _, _, _, _, _, _, _, h => by simp [popCount] at h
  | n + 1, (q, c) :: st, acc, qe, cs, st', hs, hd, hc, h => by
    cases hs with
    | extra he hs =>
      simp only [popCount, he.isExtra, if_true] at h
      have := lpop_ok hs (.comment he hd) (by rw [solid_extra he.isExtra]; exact hc) h
      rwa [solid_extra he.isExtra] at this
    | cons he hl hder h4 hs =>
      simp only [popCount, he, Bool.false_eq_true, if_false] at h
      obtain ⟨h1, h1', h2, h3, h5⟩ := lpop_ok hs (.cons he hder hd) (by rw [solid_cons he]; exact .cons hl hc) h
      refine ⟨h1, h1', h2, ?_, fun _ => ?_⟩
      · rw [h3, solid_cons he]; simp only [List.length_cons]; omega
      · match n, h, h5 with
        | 0, h, _ =>
          simp only [popCount, Option.some.injEq, Prod.mk.injEq] at h
          obtain ⟨rfl, rfl⟩ := h
          exact ⟨c, acc, rfl, he, h4⟩
        | n + 1, _, h5 => exact h5 (by omega)

theorem AllDerive.parts : ∀ {as bs : List Tree}, AllDerive (as ++ bs) → AllDerive as ∧ AllDerive bs
  | [], _, h => ⟨.nil, h⟩
  | a :: as, bs, h => by
    cases h with
    | cons h1 h2 h3 => exact ⟨.cons h1 h2 h3.parts.1, h3.parts.2⟩
    | comment h1 h2 => exact ⟨.comment h1 h2.parts.1, h2.parts.2⟩

theorem AllDerive.comments : ∀ {cs : List Tree}, AllDerive cs → (∀ c ∈ cs, c.extra = true) → ∀ c ∈ cs, Comment c
  | [], _, _ => by simp
  | a :: as, h, hx => by
    have hx := List.forall_mem_cons.1 hx
    cases h with
    | cons h1 _ _ => rw [hx.1] at h1; cases h1
    | comment h1 h2 => exact List.forall_mem_cons.2 ⟨h1, h2.comments hx.2⟩

theorem lpushAll_ok {q : Nat} : ∀ {es : List Tree} {st : Stack}, LOK st → st.top = q → (∀ c ∈ es, Comment c) → LOK (pushAll q es st) ∧ (pushAll q es st).top = q
  | [], _, h, hq, _ => ⟨h, hq⟩
  | e :: es, st, h, hq, he => by
    subst hq
    have he := List.forall_mem_cons.1 he
    exact lpushAll_ok (es := es) (.extra he.1 h) rfl he.2

theorem solid_first (cs : List Tree) : solid (splitExtras cs).1 = solid cs := by
  obtain ⟨e1, e2, _⟩ := split_spec cs
  conv => rhs; rw [e1, solid_append]
  have : solid (splitExtras cs).2 = [] := by
    simp only [solid, List.map_eq_nil_iff, List.filter_eq_nil_iff, Bool.not_eq_true', Bool.not_eq_false]
    exact e2
  rw [this, List.append_nil]

theorem lreduce {st st' : Stack} {t A n pid : Nat} (hs : LOK st) (h335 : st.top ≠ 335) (ha : actions st.top t = [.reduce A n pid])
    (h : reduce A n pid false st = some st') : LOK st' ∧ st'.top ≠ 335 := by
  unfold reduce at h
  split at h
  · cases h
  · rename_i cs st1 hp
    obtain ⟨h1, hd, h2, h3, h4⟩ := lpop_ok hs .nil (.nil _) hp
    obtain ⟨r, hm, hl, hpid, hf, hg⟩ := h2.rule h1.live ha (by simpa [solid] using h3)
    have ok := act_ok hs.live t
    rw [ha] at ok
    have h62 : A ≠ 62 := by cases ok with | reduce _ _ h => exact h h335
    have h60 := lhs_ok hm
    rw [hl] at h60
    have hg : goto st1.top A ≠ 0 := by
      by_cases h0 : n = 0
      · cases ok with
        | reduce _ _ _ hr =>
          rcases hr with ⟨_, rfl, _, hr⟩ | ⟨_, _, _, _, _, hr⟩
          · subst h0
            rw [popCount] at hp
            cases hp
            rw [hr]; exact goto_eps
          · exact absurd h0 hr
      · exact hg h0
    obtain ⟨e1, e2, e3⟩ := split_spec cs
    have hd' := hd
    rw [e1] at hd'
    have he := edge_goto (q := st1.top) h60.1
    have hled := leads_edge h1.live h60.2 h62 (he ▸ hg)
    have hder : Derives (.node A pid (splitExtras cs).1 false) := by
      rw [← hl, ← hpid]
      refine .rule hm hd'.parts.1 (by rw [solid_first]; exact hf) (fun c hc => ?_) e3
      by_cases h0 : n = 0
      · subst h0
        rw [popCount] at hp
        cases hp
        cases hc
      · obtain ⟨d, cs', hd, hx, _⟩ := h4 h0
        have := head_append (bs := (splitExtras cs).2) hc
        rw [← e1, hd] at this
        cases this
        exact hx
    have hnew : LOK ((goto st1.top A, .node A pid (splitExtras cs).1 false) :: st1) :=
      .cons rfl (he ▸ hled) hder (fun (h4 : A = 4) => by omega) h1
    have := lpushAll_ok hnew rfl (hd'.parts.2.comments e2)
    simp only [Bool.false_and, Option.some.injEq] at h
    subst h
    refine ⟨this.1, fun hq => ?_⟩
    have hq := this.2.symm.trans hq
    have := hled.ok.doc (he.trans hq)
    omega

theorem lreduce_doc {st st' : Stack} (hs : LOK st) (h335 : st.top = 335) (h : reduce 62 2 0 true st = some st') : LOK st' := by
  unfold reduce at h
  split at h
  · cases h
  · rename_i cs st1 hp
    obtain ⟨h1, hd, h2, h3, h4⟩ := lpop_ok hs .nil (.nil _) hp
    rw [h335] at h2
    have hn : (solid cs).length = 2 := by simpa [solid] using h3
    have hf := h2.docFills h1.live hn
    obtain ⟨c, cs', hc, hx, h4⟩ := h4 (by decide)
    have hc4 : c.sym = 4 := by
      rw [hc, solid_cons hx] at hf
      exact List.mem_singleton.1 hf.1
    have hgo := h4 hc4
    obtain ⟨e1, e2, e3⟩ := split_spec cs
    have hd' := hd
    rw [e1] at hd'
    simp only [hgo, Bool.true_and, beq_self_eq_true, Option.some.injEq] at h
    subst h
    exact (lpushAll_ok (.extra (.doc hd'.parts.1 (by rw [solid_first]; exact hf)) h1) rfl (hd'.parts.2.comments e2)).1

theorem lone_extras {st : Stack} (h : LOK st) (h1 : st.top = 1) : ∀ c ∈ st.map (·.2), Comment c := by
  induction h with
  | nil => simp
  | extra he _ ih => exact List.forall_mem_cons.2 ⟨he, ih h1⟩
  | cons _ hl _ _ _ _ => exact absurd h1 hl.ok.ne_one

theorem comments_derive {cs : List Tree} (h : ∀ c ∈ cs, Comment c) {ds : List Tree} (hd : AllDerive ds) : AllDerive (cs ++ ds) := by
  induction cs with
  | nil => exact hd
  | cons c cs ih =>
    have h := List.forall_mem_cons.1 h
    exact .comment h.1 (ih h.2)

theorem allDerive_both : ∀ {cs ds : List Tree}, AllDerive cs → AllDerive ds → AllDerive (cs ++ ds)
  | [], _, _, hd => hd
  | _ :: _, _, .cons h1 h2 h3, hd => .cons h1 h2 (allDerive_both h3 hd)
  | _ :: _, _, .comment h1 h2, hd => .comment h1 (allDerive_both h2 hd)

theorem laccept {st : Stack} (h : LOK st) (ha : isAccept (actions st.top 0) = true) (after : List Tree) (post : List Tree) (pad text : Bytes)
    (hpost : ∀ c ∈ post, Comment c) (haf : after = post ++ [.leaf 0 pad text true]) {root : Tree} (hr : acceptFrom (st.map (·.2)) after = some root) : WholeTree root := by
  induction h generalizing after post with
  | nil => exact absurd ha (by rw [Stack.top]; decide +kernel)
  | extra he _ ih =>
    simp only [List.map_cons, acceptFrom, he.isExtra, if_true] at hr
    exact ih ha _ (_ :: post) (List.forall_mem_cons.2 ⟨he, hpost⟩) (by rw [haf]; rfl) hr
  | @cons _ _ st' he hl hd _ h _ =>
    obtain ⟨h1, h2⟩ := hl.ok.accept ha
    cases hd with
    | tok hlt =>
      simp only [Tree.sym] at h2
      rw [h2] at hlt
      exact absurd hlt (by decide)
    | @rule r cs hg hall hf _ _ =>
      simp only [List.map_cons, acceptFrom, Tree.extra, Bool.false_eq_true, if_false, Option.some.injEq] at hr
      subst hr
      subst haf
      have hx : ∀ {es : List Tree}, (∀ c ∈ es, Comment c) → solid es = [] := fun h => by
        simp only [solid, List.map_eq_nil_iff, List.filter_eq_nil_iff, Bool.not_eq_true', Bool.not_eq_false]
        exact fun c hc => (h c hc).isExtra
      have hpre : ∀ c ∈ (st'.map (·.2)).reverse, Comment c := fun c hc => lone_extras h h1 c (List.mem_reverse.1 hc)
      rw [← List.append_assoc]
      refine .mk hg h2 ?_ ?_
      · refine allDerive_both (comments_derive hpre hall) ?_
        have := comments_derive hpost .nil
        rwa [List.append_nil] at this
      · rw [solid_append, solid_append, hx hpre, hx hpost, List.nil_append, List.append_nil]
        exact hf

/-- What holds of all versions. -/
structure Fair (text : Bytes) (c : Config) : Prop where
  ok : LOK c.stack
  doc : ∀ t, c.look = some t → c.stack.top ≠ 335 ∧ (t.sym = 0 → t.rest = [])
  all : c.all = text

theorem stepTok_fair {text : Bytes} {st : Stack} {t : Tok} {rest : Bytes} (h : Fair text ⟨st, some t, rest⟩) :
    (∀ c, stepTok st t = .next c → Fair text c) ∧ ∀ r, stepTok st t = .stop (.tree r) → WholeTree r ∧ r.yield = text := by
  obtain ⟨hs, hd, hall⟩ := h
  obtain ⟨h335, h0⟩ := hd t rfl
  have hall : yields (trees st) ++ t.all = text := hall
  have ok := act_ok hs.live t.sym
  refine ⟨fun c hc => ?_, fun r hr => ?_⟩
  · have hy := (stepTok_yield.1 c hc).trans hall
    unfold stepTok at hc
    generalize ha : actions st.top t.sym = as at ok hc
    cases ok with
    | none => cases hc
    | shift _ hq h4 =>
      have hlt := act_lt hs.live (t := t.sym) (by rw [ha]; simp)
      have he := edge_shift hlt ha
      cases hc
      refine ⟨?_, fun _ h => (nomatch h), hy⟩
      refine LOK.cons rfl ?_ (.tok hlt) h4 hs
      have hlt' : t.sym < 60 := hlt
      have := leads_edge hs.live (X := t.sym) (by omega) (by omega) (he ▸ hq)
      rwa [he] at this
    | extra h3 =>
      cases hc
      have h3' : t.sym = T.comment := h3
      exact ⟨.extra (h3' ▸ .hash) hs, fun _ h => (nomatch h), hy⟩
    | reduce h3 h4 h62 hr =>
      simp only [] at hc
      split at hc
      · rename_i st' hred
        cases hc
        have := lreduce hs h335 ha hred
        exact ⟨this.1, fun t' ht => by cases ht; exact ⟨this.2, h0⟩, hy⟩
      · cases hc
    | accept => simp only [] at hc; split at hc <;> cases hc
    | recover => cases hc
  · have hr' := hr
    unfold stepTok at hr
    generalize ha : actions st.top t.sym = as at ok hr
    cases ok with
    | none => cases hr
    | shift _ _ _ => cases hr
    | extra _ => cases hr
    | reduce _ _ _ _ => simp only [] at hr; split at hr <;> cases hr
    | recover => cases hr
    | accept h0' =>
      simp only [] at hr
      split at hr
      · rename_i root hacc
        cases hr
        rw [h0'] at ha
        refine ⟨?_, (stepTok_yield.2 _ hr' (h0 h0')).trans hall⟩
        simp only [acceptFrom, Tree.extra, if_true] at hacc
        exact laccept hs (by rw [ha]; rfl) _ [] t.pad t.text (by simp) (by rw [h0']; rfl) hacc
      · cases hr

theorem Fair.read {text : Bytes} {st : Stack} {rest : Bytes} {m : Nat} {t : Tok} (h : Fair text ⟨st, none, rest⟩) (hm : lexMode st.top = some m) (ht : lexTok m rest = some t)
    (rest' : Bytes) : Fair text ⟨st, some t, rest'⟩ := by
  refine ⟨h.ok, fun t' ht' => ?_, ?_⟩
  · cases ht'
    refine ⟨fun h3 => ?_, (lexTok_ok h.ok.live hm ht).2⟩
    have h3 : st.top = 335 := h3
    rw [(lexMode_none h.ok.live).2 h3] at hm
    cases hm
  · have := h.all
    simp only [Config.all] at this ⊢
    rw [lexTok_all ht]
    exact this

theorem step_fair {text : Bytes} {c : Config} (h : Fair text c) : (∀ c', step c = .next c' → Fair text c') ∧ ∀ r, step c = .stop (.tree r) → WholeTree r ∧ r.yield = text := by
  obtain ⟨st, look, rest⟩ := c
  cases look with
  | some t => exact stepTok_fair h
  | none =>
    simp only [step]
    cases hm : lexMode st.top with
    | none =>
      have h335 := (lexMode_none h.ok.live).1 hm
      simp only [stepNull, h335, doc_act]
      refine ⟨fun c' hc => ?_, fun r hr => ?_⟩
      · split at hc
        · rename_i st' hred
          cases hc
          refine ⟨lreduce_doc h.ok h335 hred, fun _ h => (nomatch h), ?_⟩
          have := h.all
          simp only [Config.all] at this ⊢
          rw [reduce_yield hred]
          exact this
        · cases hc
      · split at hr <;> cases hr
    | some m =>
      simp only []
      cases ht : lexTok m rest with
      | none => exact ⟨fun _ h => (nomatch h), fun _ h => (nomatch h)⟩
      | some t => exact stepTok_fair (h.read hm ht [])

/-- All tokens that may be missing lead from a state to one where the rules fit. -/
theorem miss_may : ((List.range 336).all fun q => Nat.beq q 0 || (List.range 60).all fun s =>
    Nat.beq s 0 || Nat.beq (nextState q s) 0 || Nat.beq (nextState q s) q || (chkEdgeTo q s (nextState q s) && (!Nat.beq s 4 || Nat.beq (goto q 62) q))) = true := by
  decide +kernel

theorem miss_doc : ((List.range 60).all fun t => Nat.beq t 0 || !hasReduce 335 t) = true ∧ hopeful 335 0 = false := by decide +kernel

theorem reduce_only {q s A n pid : Nat} (hq : Live q) (h : Act.reduce A n pid ∈ findActs s (rows.get q).acts) : actions q s = [.reduce A n pid] := by
  have hm : Act.reduce A n pid ∈ actions q s := List.mem_filter.2 ⟨h, rfl⟩
  have ok := act_ok hq s
  generalize actions q s = as at hm ok
  cases ok <;> simp at hm
  obtain ⟨rfl, rfl, rfl⟩ := hm
  rfl

theorem miss_state {q s t : Nat} (hq : Live q) (h : mayMiss q s t = true) (ht : t < 60) : MayLead q s (nextState q s) ∧ (s = 4 → goto q 62 = q) ∧ nextState q s ≠ 335 ∧ s < 60 := by
  simp only [mayMiss, Bool.and_eq_true, bne_iff_ne, Nat.blt_eq] at h
  obtain ⟨⟨⟨⟨⟨h1, h2⟩, h3⟩, h4⟩, h5⟩, h6⟩ := h
  have h2 : s < 60 := h2
  have := List.all_eq_true.1 miss_may q (List.mem_range.2 hq.2)
  simp only [Bool.or_eq_true, Nat.beq_eq, hq.1, false_or, List.all_eq_true, List.mem_range] at this
  have := this s h2
  simp only [h1, h3, h4, false_or, Bool.and_eq_true, Bool.or_eq_true, nbeq_false, Nat.beq_eq] at this
  refine ⟨⟨by omega, by omega, h3, this.1⟩, fun e => this.2.resolve_left (fun h => h e), fun e => ?_, h2⟩
  rw [e] at h5 h6
  have hd := List.all_eq_true.1 miss_doc.1 t (List.mem_range.2 ht)
  simp only [Bool.or_eq_true, Nat.beq_eq, Bool.not_eq_true', h5, Bool.true_eq_false, or_false] at hd
  rw [hd, miss_doc.2] at h6
  cases h6

theorem hasReduce_lt {q t : Nat} (hq : Live q) (h : hasReduce q t = true) : t < 60 := by
  refine act_lt hq fun h0 => ?_
  unfold hasReduce at h
  split at h
  · rename_i A n pid as hf
    have : Act.reduce A n pid ∈ actions q t := List.mem_filter.2 ⟨by rw [hf]; exact List.mem_cons_self .., rfl⟩
    rw [h0] at this
    cases this
  · cases h

theorem nextState_live : ((List.range 336).all fun q => Nat.beq q 0 || (List.range 60).all fun s => Nat.beq (nextState q s) 0 || Nat.blt (nextState q s) 336) = true := by decide +kernel

theorem mend_fair {text : Bytes} {c c' : Config} (h : Fair text c) (hm : Mend c c') : Fair text c' := by
  cases hm with
  | step hs => exact (step_fair h).1 _ hs
  | look h1 h2 => exact h.read h1 h2 _
  | again => exact ⟨h.ok, fun _ h => (nomatch h), h.all⟩
  | @reduce st st' t rest s A n pid h1 h2 h3 =>
    obtain ⟨h335, h0⟩ := h.doc t rfl
    have := lreduce h.ok h335 (reduce_only h.ok.live h1) h3
    refine ⟨this.1, fun t' ht => by cases ht; exact ⟨this.2, h0⟩, ?_⟩
    have hall := h.all
    simp only [Config.all] at hall ⊢
    rw [reduce_yield h3]
    exact hall
  | @missing st t rest s h1 =>
    obtain ⟨h335, h0⟩ := h.doc t rfl
    have hq : Live st.top := h.ok.live
    have hs : s < 60 ∧ nextState st.top s ≠ 0 ∧ hasReduce (nextState st.top s) t.sym = true := by
      simp only [mayMiss, Bool.and_eq_true, bne_iff_ne, Nat.blt_eq] at h1
      exact ⟨h1.1.1.1.1.2, h1.1.1.1.2, h1.1.2⟩
    have hl : Live (nextState st.top s) := by
      have := List.all_eq_true.1 nextState_live st.top (List.mem_range.2 hq.2)
      simp only [Bool.or_eq_true, Nat.beq_eq, hq.1, false_or, List.all_eq_true, List.mem_range, Nat.blt_eq] at this
      exact ⟨hs.2.1, (this s hs.1).resolve_left hs.2.1⟩
    obtain ⟨h2, h3, h4, h5⟩ := miss_state hq h1 (hasReduce_lt hl hs.2.2)
    refine ⟨.cons rfl h2 (.tok h5) h3 h.ok, fun t' ht => by cases ht; exact ⟨h4, h0⟩, ?_⟩
    have hall := h.all
    simp only [Config.all] at hall ⊢
    rw [trees_cons, yields_append]
    simpa [yields, Tree.yield, missingLeaf] using hall

theorem mends_fair {text : Bytes} {c c' : Config} (h : Fair text c) (hm : Mends c c') : Fair text c' := by
  induction hm with
  | refl => exact h
  | tail _ h1 ih => exact mend_fair ih h1

theorem start_fair (text : Bytes) : Fair (dropMark text) (start text) := ⟨.nil, fun _ h => (nomatch h), rfl⟩

end Bob.Parse
