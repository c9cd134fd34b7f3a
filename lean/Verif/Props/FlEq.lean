import Verif.Spec.FlVal
import Verif.Lemmas.FlQuiet
import Mathlib.Data.List.Forall2
/-!
# Equality of values (C48)
-/

namespace Bob.Fl

open List (Forall₂)

/-- Two items of maps are the same. -/
def SameItem (a b : Val × Val) : Prop := a.1.Same b.1 ∧ a.2.Same b.2

theorem sames_iff {vs us : List Val} : Val.Sames vs us ↔ Forall₂ Val.Same vs us := by
  constructor
  · intro h
    induction vs generalizing us with
    | nil => cases h; exact .nil
    | cons v vs ih => cases h with | cons h1 h2 => exact .cons h1 (ih h2)
  · intro h
    induction h with
    | nil => exact .nil
    | cons h1 _ ih => exact .cons h1 ih

theorem sameItems_iff {vs us : List (Val × Val)} : Val.SameItems vs us ↔ Forall₂ SameItem vs us := by
  constructor
  · intro h
    induction vs generalizing us with
    | nil => cases h; exact .nil
    | cons v vs ih => cases h with | cons h1 h2 h3 => exact .cons ⟨h1, h2⟩ (ih h3)
  · intro h
    induction h with
    | nil => exact .nil
    | cons h1 _ ih => exact .cons h1.1 h1.2 ih

theorem depth_mem {v : Val} {vs : List Val} (h : v ∈ vs) : v.depth ≤ Val.allDepth vs := by
  induction h with
  | head => simp only [Val.allDepth]; omega
  | tail _ _ ih => simp only [Val.allDepth]; omega

theorem depth_item {a : Val × Val} {items : List (Val × Val)} (h : a ∈ items) : a.1.depth ≤ Val.itemsDepth items ∧ a.2.depth ≤ Val.itemsDepth items := by
  induction h with
  | head => simp only [Val.itemsDepth]; omega
  | tail _ _ ih => simp only [Val.itemsDepth]; omega

theorem forall2_refl {R : α → α → Prop} : ∀ {l : List α}, (∀ a ∈ l, R a a) → Forall₂ R l l
  | [], _ => .nil
  | a :: _, h => .cons (h a (.head _)) (forall2_refl fun b hb => h b (.tail _ hb))

theorem forall2_flip {R : α → α → Prop} {l l' : List α} (h : Forall₂ R l l') (hR : ∀ a ∈ l, ∀ b, R a b → R b a) : Forall₂ R l' l := by
  induction h with
  | nil => exact .nil
  | cons h1 _ ih => exact .cons (hR _ (.head _) _ h1) (ih fun a ha => hR a (.tail _ ha))

theorem forall2_trans {R : α → α → Prop} {l l' l'' : List α} (h : Forall₂ R l l') (h' : Forall₂ R l' l'') (hR : ∀ a ∈ l, ∀ b c, R a b → R b c → R a c) :
    Forall₂ R l l'' := by
  induction h generalizing l'' with
  | nil => exact h'
  | cons h1 _ ih => cases h' with | cons h2 h3 => exact .cons (hR _ (.head _) _ _ h1 h2) (ih h3 fun a ha => hR a (.tail _ ha))

/-- Every value is the same as itself. -/
theorem same_refl (v : Val) : v.Same v := by
  have key : ∀ n (v : Val), v.depth ≤ n → v.Same v := by
    intro n
    induction n with
    | zero =>
      intro v hv
      cases v with
      | vec vs => simp [Val.depth] at hv
      | map vs => simp [Val.depth] at hv
      | none => exact .none
      | bool b => exact .bool b
      | int b => exact .int b
      | str b => exact .str b
    | succ n ih =>
      intro v hv
      cases v with
      | none => exact .none
      | bool b => exact .bool b
      | int b => exact .int b
      | str b => exact .str b
      | vec vs =>
        simp only [Val.depth] at hv
        exact .vec (sames_iff.2 (forall2_refl fun a ha => ih a (by have := depth_mem ha; omega)))
      | map vs =>
        simp only [Val.depth] at hv
        exact .map (sameItems_iff.2 (forall2_refl fun a ha => by
          have := depth_item ha
          exact ⟨ih _ (by omega), ih _ (by omega)⟩)) (.refl _)
  exact key _ v (Nat.le_refl _)

theorem same_symm {v u : Val} (h : v.Same u) : u.Same v := by
  have key : ∀ n (v u : Val), v.depth ≤ n → v.Same u → u.Same v := by
    intro n
    induction n with
    | zero =>
      intro v u hv h
      cases h with
      | vec h => simp [Val.depth] at hv
      | map h h' => simp [Val.depth] at hv
      | none => exact .none
      | bool b => exact .bool b
      | int b => exact .int b
      | str b => exact .str b
    | succ n ih =>
      intro v u hv h
      cases h with
      | none => exact .none
      | bool b => exact .bool b
      | int b => exact .int b
      | str b => exact .str b
      | vec h =>
        simp only [Val.depth] at hv
        exact .vec (sames_iff.2 (forall2_flip (sames_iff.1 h) fun a ha b hab => ih a b (by have := depth_mem ha; omega) hab))
      | @map items others items' h hp =>
        simp only [Val.depth] at hv
        have h1 : Forall₂ SameItem items' items := forall2_flip (sameItems_iff.1 h) fun a ha b hab => by
          have := depth_item ha
          exact ⟨ih _ _ (by omega) hab.1, ih _ _ (by omega) hab.2⟩
        obtain ⟨zs, hz1, hz2⟩ := List.perm_comp_forall₂ hp.symm h1
        exact .map (sameItems_iff.2 hz1) hz2
  exact key _ v u (Nat.le_refl _) h

theorem same_trans {v u t : Val} (h : v.Same u) (h' : u.Same t) : v.Same t := by
  have key : ∀ n (v u t : Val), v.depth ≤ n → v.Same u → u.Same t → v.Same t := by
    intro n
    induction n with
    | zero =>
      intro v u t hv h h'
      cases h with
      | vec h => simp [Val.depth] at hv
      | map h h' => simp [Val.depth] at hv
      | none => exact h'
      | bool b => exact h'
      | int b => exact h'
      | str b => exact h'
    | succ n ih =>
      intro v u t hv h h'
      cases h with
      | none => exact h'
      | bool b => exact h'
      | int b => exact h'
      | str b => exact h'
      | vec h =>
        cases h' with
        | vec h' =>
          simp only [Val.depth] at hv
          exact .vec (sames_iff.2 (forall2_trans (sames_iff.1 h) (sames_iff.1 h') fun a ha b c => ih a b c (by have := depth_mem ha; omega)))
      | @map items others items' h hp =>
        cases h' with
        | @map _ third others' h' hp' =>
          simp only [Val.depth] at hv
          obtain ⟨zs, hz1, hz2⟩ := List.perm_comp_forall₂ hp (sameItems_iff.1 h')
          refine .map (sameItems_iff.2 (forall2_trans (sameItems_iff.1 h) hz1 fun a ha b c hab hbc => ?_)) (hz2.trans hp')
          have := depth_item ha
          exact ⟨ih _ _ _ (by omega) hab.1 hbc.1, ih _ _ _ (by omega) hab.2 hbc.2⟩
  exact key _ v u t (Nat.le_refl _) h h'

/-! ## The comparison -/

/-- Looking for the same key and comparing what is there decides sameness of maps with distinct keys. -/
theorem map_same_iff {items others : List (Val × Val)} (hd : items.Pairwise fun a b => ¬ a.1.Same b.1)
    (hl : items.length = others.length) : (Val.map items).Same (.map others) ↔ ∀ a ∈ items, ∃ b ∈ others, SameItem a b := by
  constructor
  · intro h a ha
    cases h with
    | @map _ _ items' h hp =>
      obtain ⟨b, hb, hab⟩ : ∃ b ∈ items', SameItem a b := by
        have h2 := sameItems_iff.1 h
        clear hp hd hl h
        induction h2 with
        | nil => cases ha
        | cons h1 _ ih =>
          cases ha with
          | head => exact ⟨_, .head _, h1⟩
          | tail _ ha =>
            obtain ⟨b, hb, hab⟩ := ih ha
            exact ⟨b, .tail _ hb, hab⟩
      exact ⟨b, hp.subset hb, hab⟩
  · intro h
    have key : ∃ zs, Forall₂ SameItem items zs ∧ zs.Subperm others := by
      clear hl
      induction items with
      | nil => exact ⟨[], .nil, List.nil_subperm⟩
      | cons a items ih =>
        obtain ⟨zs, h1, h2⟩ := ih (List.pairwise_cons.1 hd).2 fun x hx => h x (.tail _ hx)
        obtain ⟨b, hb, hab⟩ := h a (.head _)
        refine ⟨b :: zs, .cons hab h1, List.cons_subperm_of_not_mem_of_mem (fun hbz => ?_) hb h2⟩
        obtain ⟨c, hc, hcb⟩ : ∃ c ∈ items, SameItem c b := by
          clear ih h2 hd h
          induction h1 with
          | nil => cases hbz
          | cons k1 _ ih =>
            cases hbz with
            | head => exact ⟨_, .head _, k1⟩
            | tail _ hb =>
              obtain ⟨c, hc, hcb⟩ := ih hb
              exact ⟨c, .tail _ hc, hcb⟩
        exact (List.pairwise_cons.1 hd).1 c hc (same_trans hab.1 (same_symm hcb.1))
    obtain ⟨zs, h1, h2⟩ := key
    exact .map (sameItems_iff.2 h1) (h2.perm_of_length_le (by rw [← h1.length_eq, hl]; exact Nat.le_refl _))

/-- Items of a map with distinct keys are determined by their key. -/
theorem key_unique {others : List (Val × Val)} (hd : others.Pairwise fun a b => ¬ a.1.Same b.1) {a b : Val × Val} (ha : a ∈ others) (hb : b ∈ others)
    (h : a.1.Same b.1) : a = b := by
  induction others with
  | nil => cases ha
  | cons c others ih =>
    obtain ⟨h1, h2⟩ := List.pairwise_cons.1 hd
    cases ha with
    | head =>
      cases hb with
      | head => rfl
      | tail _ hb => exact absurd h (h1 _ hb)
    | tail _ ha =>
      cases hb with
      | head => exact absurd (same_symm h) (h1 _ ha)
      | tail _ hb => exact ih h2 ha hb

theorem readBuf_some {s : St} {buf : Nat} {full b : Bytes} (h : s.bufs[buf]? = some (some full)) (hb : b <+: full) : readBuf buf b.length s = .ok b s := by
  obtain ⟨r, rfl⟩ := hb
  unfold readBuf
  rw [bind_of_ok (get_apply s), h]
  simp

/-- What is known about a comparison: it gives an answer and the answer is right. -/
def Tells (eq : Nat → Nat → M Bool) (s : St) (x y : Nat) (p : Prop) : Prop := ∃ b, eq x y s = .ok b s ∧ (b = true ↔ p)

theorem eqVec_tells {eq : Nat → Nat → M Bool} {s : St} : ∀ {vs us : List Val} {xs ys : List Nat}, s.ShowsAll vs xs → s.ShowsAll us ys → xs.length = ys.length →
    (∀ v ∈ vs, ∀ u ∈ us, ∀ x y, s.Shows v x → s.Shows u y → Tells eq s x y (v.Same u)) →
    ∃ b, eqVec eq xs ys s = .ok b s ∧ (b = true ↔ Val.Sames vs us)
  | [], [], [], [], _, _, _, _ => ⟨true, rfl, by simp [Val.Sames.nil]⟩
  | v :: vs, u :: us, x :: xs, y :: ys, hv, hu, hl, he => by
    simp only [St.ShowsAll] at hv hu
    obtain ⟨b, h1, h2⟩ := he v (.head _) u (.head _) x y hv.1 hu.1
    unfold eqVec
    rw [bind_of_ok h1]
    cases b with
    | true =>
      obtain ⟨b, h3, h4⟩ := eqVec_tells hv.2 hu.2 (by simpa using hl) fun v hv u hu => he v (.tail _ hv) u (.tail _ hu)
      refine ⟨b, h3, h4.trans ⟨fun h => .cons (h2.1 rfl) h, fun h => ?_⟩⟩
      cases h with | cons _ h => exact h
    | false =>
      refine ⟨false, rfl, ⟨fun h => (nomatch h), fun h => ?_⟩⟩
      cases h with | cons h _ => exact (h2.2 h)
  | [], [], [], _ :: _, _, h, _, _ | [], [], _ :: _, _, h, _, _, _ => by simp [St.ShowsAll] at h
  | [], _ :: _, [], [], _, h, _, _ | _ :: _, _, [], _, h, _, _, _ => by simp [St.ShowsAll] at h
  | [], _ :: _, [], _ :: _, _, _, h, _ => by simp at h
  | [], _ :: _, _ :: _, _, h, _, _, _ => by simp [St.ShowsAll] at h
  | _ :: _, [], _ :: _, [], _, _, h, _ => by simp at h
  | _ :: _, [], _ :: _, _ :: _, _, h, _, _ => by simp [St.ShowsAll] at h
  | _ :: _, _ :: _, _ :: _, [], _, h, _, _ => by simp [St.ShowsAll] at h

theorem findKey_tells {eq : Nat → Nat → M Bool} {s : St} {k : Val} {x : Nat} : ∀ {items : List (Val × Val)} {es : List (Nat × Nat)}, s.ShowsItems items es →
    (∀ a ∈ items, ∀ y, s.Shows a.1 y → Tells eq s x y (k.Same a.1)) →
    (findKey eq x es s = .ok none s ∧ ∀ a ∈ items, ¬ k.Same a.1) ∨ ∃ a ∈ items, ∃ c, findKey eq x es s = .ok (some c) s ∧ s.Shows a.2 c ∧ k.Same a.1
  | [], [], _, _ => .inl ⟨rfl, fun _ h => by cases h⟩
  | (k', v) :: items, e :: es, h, he => by
    simp only [St.ShowsItems] at h
    obtain ⟨b, h1, h2⟩ := he (k', v) (.head _) e.1 h.1
    unfold findKey
    rw [bind_of_ok h1]
    cases b with
    | true => exact .inr ⟨(k', v), .head _, e.2, rfl, h.2.1, h2.1 rfl⟩
    | false =>
      rcases findKey_tells h.2.2 fun a ha => he a (.tail _ ha) with ⟨h3, h4⟩ | ⟨a, ha, c, h3, h4, h5⟩
      · refine .inl ⟨h3, fun a ha => ?_⟩
        cases ha with
        | head => exact fun hs => Bool.false_ne_true (h2.2 hs)
        | tail _ ha => exact h4 a ha
      · exact .inr ⟨a, .tail _ ha, c, h3, h4, h5⟩
  | [], _ :: _, h, _ | _ :: _, [], h, _ => by simp [St.ShowsItems] at h

theorem eqMap_tells {eq : Nat → Nat → M Bool} {s : St} {others : List (Val × Val)} {ys : List (Nat × Nat)} (ho : s.ShowsItems others ys)
    (hd : others.Pairwise fun a b => ¬ a.1.Same b.1) : ∀ {items : List (Val × Val)} {xs : List (Nat × Nat)}, s.ShowsItems items xs →
    (∀ a ∈ items, ∀ b ∈ others, ∀ x y, s.Shows a.1 x → s.Shows b.1 y → Tells eq s x y (a.1.Same b.1)) →
    (∀ a ∈ items, ∀ b ∈ others, ∀ x y, s.Shows a.2 x → s.Shows b.2 y → Tells eq s x y (a.2.Same b.2)) →
    ∃ r, eqMap eq ys xs s = .ok r s ∧ (r = true ↔ ∀ a ∈ items, ∃ b ∈ others, SameItem a b)
  | [], [], _, _, _ => ⟨true, rfl, by simp⟩
  | (k, v) :: items, e :: xs, h, hk, hv => by
    simp only [St.ShowsItems] at h
    unfold eqMap
    rcases findKey_tells (k := k) (x := e.1) ho fun b hb y hy => hk (k, v) (.head _) b hb e.1 y h.1 hy with ⟨h1, h2⟩ | ⟨b, hb, c, h1, h2, h3⟩
    · rw [bind_of_ok h1]
      refine ⟨false, rfl, ⟨fun h => (nomatch h), fun h => ?_⟩⟩
      obtain ⟨b, hb, hab⟩ := h _ (.head _)
      exact absurd hab.1 (h2 b hb)
    · rw [bind_of_ok h1]
      obtain ⟨r, h4, h5⟩ := hv (k, v) (.head _) b hb e.2 c h.2.1 h2
      show ∃ r, (eq e.2 c >>= fun b => if b = true then eqMap eq ys xs else pure false) s = .ok r s ∧ _
      rw [bind_of_ok h4]
      cases r with
      | true =>
        obtain ⟨r, h6, h7⟩ := eqMap_tells ho hd h.2.2 (fun a ha => hk a (.tail _ ha)) fun a ha => hv a (.tail _ ha)
        refine ⟨r, h6, h7.trans ⟨fun h a ha => ?_, fun h a ha => h a (.tail _ ha)⟩⟩
        cases ha with
        | head => exact ⟨b, hb, h3, h5.1 rfl⟩
        | tail _ ha => exact h a ha
      | false =>
        refine ⟨false, rfl, ⟨fun h => (nomatch h), fun h => ?_⟩⟩
        obtain ⟨b', hb', hab⟩ := h _ (.head _)
        cases key_unique hd hb hb' (same_trans (same_symm h3) hab.1)
        exact h5.2 hab.2
  | [], _ :: _, h, _, _ | _ :: _, [], h, _, _ => by simp [St.ShowsItems] at h

theorem allProper_mem {vs : List Val} (h : Val.AllProper vs) {v : Val} (hv : v ∈ vs) : v.Proper := by
  induction hv with
  | head => simp only [Val.AllProper] at h; exact h.1
  | tail _ _ ih => simp only [Val.AllProper] at h; exact ih h.2

theorem itemsProper_mem {vs : List (Val × Val)} (h : Val.ItemsProper vs) {v : Val × Val} (hv : v ∈ vs) : v.1.Proper ∧ v.2.Proper := by
  induction hv with
  | head => simp only [Val.ItemsProper] at h; exact ⟨h.1, h.2.1⟩
  | tail _ _ ih => simp only [Val.ItemsProper] at h; exact ih h.2.2

theorem showsAll_length {s : St} : ∀ {vs : List Val} {es : List Nat}, s.ShowsAll vs es → es.length = vs.length
  | [], [], _ => rfl
  | _ :: _, _ :: _, h => by
    simp only [St.ShowsAll] at h
    simp [showsAll_length h.2]
  | [], _ :: _, h | _ :: _, [], h => by simp [St.ShowsAll] at h

theorem showsItems_length {s : St} : ∀ {vs : List (Val × Val)} {es : List (Nat × Nat)}, s.ShowsItems vs es → es.length = vs.length
  | [], [], _ => rfl
  | _ :: _, _ :: _, h => by
    simp only [St.ShowsItems] at h
    simp [showsItems_length h.2.2]
  | [], _ :: _, h | _ :: _, [], h => by simp [St.ShowsItems] at h

theorem shows_kind {s : St} {v : Val} {c : Nat} (h : s.Shows v c) : ∃ d, s.Holds c d ∧ d.kind = v.kind := by
  cases v <;> simp only [St.Shows] at h
  case str b =>
    obtain ⟨_, _, h, _⟩ := h
    exact ⟨_, h, rfl⟩
  case vec =>
    obtain ⟨_, h, _⟩ := h
    exact ⟨_, h, rfl⟩
  case map =>
    obtain ⟨_, h, _⟩ := h
    exact ⟨_, h, rfl⟩
  all_goals exact ⟨_, h, rfl⟩

/-- **C48.** Comparing two values without functions, instances and repeated keys always comes back, changes nothing, and says whether they have the same
structure. -/
theorem C48_structure (w : World) : ∀ (n : Nat) {s : St} {v u : Val} {x y : Nat}, v.depth < n → v.Proper → u.Proper → s.Shows v x → s.Shows u y →
    ∃ b, (interp w n).eq x y s = .ok b s ∧ (b = true ↔ v.Same u)
  | 0, _, _, _, _, _, h, _, _, _, _ => by omega
  | n + 1, s, v, u, x, y, hn, hv, hu, hx, hy => by
    have ih := @C48_structure w n
    show ∃ b, stepEq (interp w n).eq x y s = .ok b s ∧ _
    unfold stepEq
    have key : ∀ {d d' : Data}, s.Holds x d → s.Holds y d' → ∃ cx cy : Cell, getCell x s = .ok cx s ∧ getCell y s = .ok cy s ∧ cx.data = d ∧ cy.data = d' := by
      intro d d' h h'
      obtain ⟨cx, h1, h2⟩ := getCell_holds h
      obtain ⟨cy, h3, h4⟩ := getCell_holds h'
      exact ⟨cx, cy, h1, h3, h2, h4⟩
    have hx0 := hx
    have hy0 := hy
    cases v <;> cases u
    all_goals simp only [St.Shows] at hx hy
    case none.none =>
      obtain ⟨cx, cy, h1, h2, h3, h4⟩ := key hx hy
      rw [bind_of_ok h1, bind_of_ok h2]
      simp only [h3, h4]
      exact ⟨true, rfl, by simp [Val.Same.none]⟩
    case bool.bool a b =>
      obtain ⟨cx, cy, h1, h2, h3, h4⟩ := key hx hy
      rw [bind_of_ok h1, bind_of_ok h2]
      simp only [h3, h4]
      refine ⟨a == b, rfl, ⟨fun h => ?_, fun h => by cases h; simp⟩⟩
      cases eq_of_beq h
      exact .bool _
    case int.int a b =>
      obtain ⟨cx, cy, h1, h2, h3, h4⟩ := key hx hy
      rw [bind_of_ok h1, bind_of_ok h2]
      simp only [h3, h4]
      refine ⟨a == b, rfl, ⟨fun h => ?_, fun h => by cases h; simp⟩⟩
      cases eq_of_beq h
      exact .int _
    case str.str a b =>
      obtain ⟨buf, full, hx, hb, hp⟩ := hx
      obtain ⟨buf', full', hy, hb', hp'⟩ := hy
      obtain ⟨cx, cy, h1, h2, h3, h4⟩ := key hx hy
      rw [bind_of_ok h1, bind_of_ok h2]
      simp only [h3, h4]
      split
      · rw [bind_of_ok (readBuf_some hb hp), bind_of_ok (readBuf_some hb' hp')]
        refine ⟨a == b, rfl, ⟨fun h => ?_, fun h => by cases h; simp⟩⟩
        cases eq_of_beq h
        exact .str _
      · rename_i hl
        refine ⟨false, rfl, ⟨fun h => (nomatch h), fun h => ?_⟩⟩
        cases h
        exact absurd rfl hl
    case vec.vec vs us =>
      obtain ⟨xs, hx, hxs⟩ := hx
      obtain ⟨ys, hy, hys⟩ := hy
      obtain ⟨cx, cy, h1, h2, h3, h4⟩ := key hx hy
      rw [bind_of_ok h1, bind_of_ok h2]
      simp only [h3, h4]
      simp only [Val.depth, Val.Proper] at hn hv hu
      split
      · rename_i hl
        obtain ⟨b, h5, h6⟩ := eqVec_tells (eq := (interp w n).eq) hxs hys hl fun v hv' u hu' x y hx hy =>
          ih (by have := depth_mem hv'; omega) (allProper_mem hv hv') (allProper_mem hu hu') hx hy
        refine ⟨b, h5, h6.trans ⟨.vec, fun h => ?_⟩⟩
        cases h with | vec h => exact h
      · rename_i hl
        refine ⟨false, rfl, ⟨fun h => (nomatch h), fun h => ?_⟩⟩
        cases h with
        | vec h =>
          rw [showsAll_length hxs, showsAll_length hys] at hl
          exact absurd (sames_iff.1 h).length_eq hl
    case map.map vs us =>
      obtain ⟨xs, hx, hxs⟩ := hx
      obtain ⟨ys, hy, hys⟩ := hy
      obtain ⟨cx, cy, h1, h2, h3, h4⟩ := key hx hy
      rw [bind_of_ok h1, bind_of_ok h2]
      simp only [h3, h4]
      simp only [Val.depth, Val.Proper] at hn hv hu
      split
      · rename_i hl
        rw [showsItems_length hxs, showsItems_length hys] at hl
        obtain ⟨b, h5, h6⟩ := eqMap_tells (eq := (interp w n).eq) hys hu.2 hxs
          (fun a ha b hb x y hx hy => ih (by have := depth_item ha; omega) (itemsProper_mem hv.1 ha).1 (itemsProper_mem hu.1 hb).1 hx hy)
          (fun a ha b hb x y hx hy => ih (by have := depth_item ha; omega) (itemsProper_mem hv.1 ha).2 (itemsProper_mem hu.1 hb).2 hx hy)
        exact ⟨b, h5, h6.trans (map_same_iff hv.2 hl).symm⟩
      · rename_i hl
        refine ⟨false, rfl, ⟨fun h => (nomatch h), fun h => ?_⟩⟩
        cases h with
        | map h hp =>
          rw [showsItems_length hxs, showsItems_length hys] at hl
          exact absurd ((sameItems_iff.1 h).length_eq.trans hp.length_eq) hl
    all_goals
      obtain ⟨d, hx, hk⟩ := shows_kind hx0
      obtain ⟨d', hy, hk'⟩ := shows_kind hy0
      obtain ⟨cx, cy, h1, h2, h3, h4⟩ := key hx hy
      rw [bind_of_ok h1, bind_of_ok h2]
      simp only [h3, h4]
      cases d <;> cases hk; cases d' <;> cases hk'; exact ⟨false, rfl, ⟨fun h => (nomatch h), fun h => (nomatch h)⟩⟩

/-- **C48.** Equality is reflexive. -/
theorem C48_reflexive {w : World} {n : Nat} {s : St} {v : Val} {x : Nat} (hn : v.depth < n) (hv : v.Proper) (hx : s.Shows v x) :
    (interp w n).eq x x s = .ok true s := by
  obtain ⟨b, h1, h2⟩ := C48_structure w n hn hv hv hx hx
  rw [h1, h2.2 (same_refl v)]

/-- **C48.** Equality is symmetric. -/
theorem C48_symmetric {w : World} {n : Nat} {s s' : St} {v u : Val} {x y : Nat} {b : Bool} (hn : v.depth < n) (hn' : u.depth < n) (hv : v.Proper) (hu : u.Proper)
    (hx : s.Shows v x) (hy : s.Shows u y) (h : (interp w n).eq x y s = .ok b s') : (interp w n).eq y x s = .ok b s' := by
  obtain ⟨b', h1, h2⟩ := C48_structure w n hn hv hu hx hy
  obtain ⟨b'', h3, h4⟩ := C48_structure w n hn' hu hv hy hx
  cases h1.symm.trans h
  have : b = b'' := Bool.eq_iff_iff.2 (h2.trans (Iff.trans ⟨same_symm, same_symm⟩ h4.symm))
  rw [h3, this]

/-- **C48.** Equality is transitive. -/
theorem C48_transitive {w : World} {n : Nat} {s s' s'' : St} {v u t : Val} {x y z : Nat} (hn : v.depth < n) (hn' : u.depth < n) (hv : v.Proper) (hu : u.Proper)
    (ht : t.Proper) (hx : s.Shows v x) (hy : s.Shows u y) (hz : s.Shows t z) (h : (interp w n).eq x y s = .ok true s') (h' : (interp w n).eq y z s = .ok true s'') :
    (interp w n).eq x z s = .ok true s := by
  obtain ⟨_, h1, h2⟩ := C48_structure w n hn hv hu hx hy
  obtain ⟨_, h3, h4⟩ := C48_structure w n hn' hu ht hy hz
  obtain ⟨b, h5, h6⟩ := C48_structure w n hn hv ht hx hz
  cases h1.symm.trans h
  cases h3.symm.trans h'
  rw [h5, h6.2 (same_trans (h2.1 rfl) (h4.1 rfl))]

/-- Values of different kinds are not the same. -/
theorem same_kind {v u : Val} (h : v.Same u) : v.kind = u.kind := by cases h <;> rfl

/-- What `==` and `!=` should give. -/
def saysSame : BinOp → Val → Val → Prop
  | .ne, v, u => ¬ v.Same u
  | _, v, u => v.Same u

/-- **C48.** The operators `==` and `!=` say whether the operands have the same structure. -/
theorem C48_operator {w : World} {n : Nat} {op : BinOp} (hop : op = .eq ∨ op = .ne) {le re : Expr} {s s1 s2 s' : St} {l r : Nat} {v u : Val} {res : Res}
    (hl : (interp w n).value le s = .ok l s1) (hr : (interp w n).value re s1 = .ok r s2) (hv : v.Proper) (hu : u.Proper) (hn : v.depth < n)
    (hx : s2.Shows v l) (hy : s2.Shows u r) (h : (interp w (n + 1)).eval .keep (.bin op le re) s = .ok res s') :
    ∃ c b, res.val = some c ∧ s'.Holds c (.bool b) ∧ (b = true ↔ saysSame op v u) := by
  have h : evalBin w (interp w n) .keep op le re s = .ok res s' := h
  unfold evalBin at h
  rw [bind_of_ok hl, bind_of_ok hr] at h
  obtain ⟨dl, hdl, hkl⟩ := shows_kind hx
  obtain ⟨dr, hdr, hkr⟩ := shows_kind hy
  obtain ⟨cl, h1, rfl⟩ := getCell_holds hdl
  obtain ⟨cr, h2, rfl⟩ := getCell_holds hdr
  rw [bind_of_ok h1, bind_of_ok h2] at h
  split at h
  · exact ((raise_not_ok ..).1 h).elim
  rename_i hk
  rw [if_neg (by decide)] at h
  obtain ⟨_, s3, h3, h⟩ := (bind_ok_iff ..).1 h
  cases h3
  obtain ⟨c, s3, h3, h⟩ := (bind_ok_iff ..).1 h
  obtain ⟨_, s4, h4, h⟩ := (bind_ok_iff ..).1 h
  obtain ⟨_, s5, h5, h⟩ := (bind_ok_iff ..).1 h
  cases h
  have hq := trnQ.trans ((q_dec w n l).out h4) ((q_dec w n r).out h5)
  suffices ∃ b, s3.Holds c (.bool b) ∧ (b = true ↔ saysSame op v u) by
    obtain ⟨b, h6, h7⟩ := this
    exact ⟨c, b, rfl, hq.holds _ _ h6, h7⟩
  have hflip : ∀ {b : Bool} {p : Prop}, (b = true ↔ p) → ((!b) = true ↔ ¬ p) := by
    intro b p h
    rw [← h]
    simp
  unfold applyBin at h3
  split at h3
  · rename_i hnone
    have hsame : v.Same u ↔ cl.data.kind = cr.data.kind := by
      rw [hkl, hkr]
      refine ⟨same_kind, fun h => ?_⟩
      rw [hkl, hkr] at hnone
      cases v <;> cases u <;> cases h <;> first | exact .none | (rcases hnone with h | h <;> cases h)
    rcases hop with rfl | rfl
    · cases h3
      exact ⟨_, holds_alloc .., by rw [show saysSame .eq v u = v.Same u from rfl, hsame]; simp⟩
    · cases h3
      exact ⟨_, holds_alloc .., by rw [show saysSame .ne v u = ¬ v.Same u from rfl, hsame]; simp⟩
  · rename_i hnn
    obtain ⟨b, hb1, hb2⟩ := C48_structure w n hn hv hu hx hy
    have heq : ∀ d, equality (interp w n) op d l r s2 = .ok c s3 → ∃ b, s3.Holds c (.bool b) ∧ (b = true ↔ saysSame op v u) := by
      intro d h
      rcases hop with rfl | rfl
      · have h : ((interp w n).eq l r >>= fun b => alloc (.bool b)) s2 = .ok c s3 := h
        rw [bind_of_ok hb1] at h
        cases h
        exact ⟨b, holds_alloc .., hb2⟩
      · have h : ((interp w n).eq l r >>= fun b => alloc (.bool !b)) s2 = .ok c s3 := h
        rw [bind_of_ok hb1] at h
        cases h
        exact ⟨!b, holds_alloc .., hflip hb2⟩
    have hkk : cl.data.kind = cr.data.kind := by
      by_contra hne
      exact hk ⟨hne, fun h => hnn (.inl h), fun h => hnn (.inr h)⟩
    rw [hkl] at hnn hkk
    rw [hkr] at hkk
    cases v <;> cases u <;> cases hkk
    case isFalse.refl.refl.isFalse.none.none.refl => exact absurd (.inl rfl) hnn
    case isFalse.refl.refl.isFalse.bool.bool.refl a b =>
      simp only [St.Shows] at hx hy
      rw [holds_unique hdl hx, holds_unique hdr hy] at h3
      rcases hop with rfl | rfl
      · cases h3
        refine ⟨_, holds_alloc .., ⟨fun h => ?_, fun h => ?_⟩⟩
        · cases eq_of_beq h; exact .bool _
        · cases h; simp
      · cases h3
        refine ⟨_, holds_alloc .., ⟨fun h h' => ?_, fun h => ?_⟩⟩
        · cases h'; simp at h
        · simp only [bne_iff_ne]
          rintro rfl
          exact h (.bool _)
    case isFalse.refl.refl.isFalse.int.int.refl a b =>
      simp only [St.Shows] at hx hy
      rw [holds_unique hdl hx, holds_unique hdr hy] at h3
      rcases hop with rfl | rfl
      · cases h3
        refine ⟨_, holds_alloc .., ⟨fun h => ?_, fun h => ?_⟩⟩
        · cases eq_of_beq h; exact .int _
        · cases h; simp
      · cases h3
        refine ⟨_, holds_alloc .., ⟨fun h h' => ?_, fun h => ?_⟩⟩
        · cases h'; simp at h
        · simp only [bne_iff_ne]
          rintro rfl
          exact h (.int _)
    case isFalse.refl.refl.isFalse.str.str.refl a b =>
      simp only [St.Shows] at hx hy
      obtain ⟨_, _, hx, _⟩ := hx
      obtain ⟨_, _, hy, _⟩ := hy
      rw [holds_unique hdl hx, holds_unique hdr hy] at h3
      exact heq .none (by rcases hop with rfl | rfl <;> exact h3)
    case isFalse.refl.refl.isFalse.vec.vec.refl a b =>
      simp only [St.Shows] at hx hy
      obtain ⟨_, hx, _⟩ := hx
      obtain ⟨_, hy, _⟩ := hy
      rw [holds_unique hdl hx, holds_unique hdr hy] at h3
      exact heq .none (by rcases hop with rfl | rfl <;> exact h3)
    case isFalse.refl.refl.isFalse.map.map.refl a b =>
      simp only [St.Shows] at hx hy
      obtain ⟨_, hx, _⟩ := hx
      obtain ⟨_, hy, _⟩ := hy
      rw [holds_unique hdl hx, holds_unique hdr hy] at h3
      exact heq .none (by rcases hop with rfl | rfl <;> exact h3)

/-! ## Repeated keys -/

def eMap (items : List (Expr × Expr)) : Expr := .map items

/-- `let a = {1: 1} + {1: 2}; print a == a; let b = {1: 1} + {1: 1}; let c = {1: 1, 2: 2}; print b == c; print c == b` -/
def repeats : List Stmt := [
  sLet b!"a" (.bin .add (eMap [(eNum b!"1", eNum b!"1")]) (eMap [(eNum b!"1", eNum b!"2")])),
  sPrint (.bin .eq (eVar b!"a") (eVar b!"a")),
  sLet b!"b" (.bin .add (eMap [(eNum b!"1", eNum b!"1")]) (eMap [(eNum b!"1", eNum b!"1")])),
  sLet b!"c" (eMap [(eNum b!"1", eNum b!"1"), (eNum b!"2", eNum b!"2")]),
  sPrint (.bin .eq (eVar b!"b") (eVar b!"c")),
  sPrint (.bin .eq (eVar b!"c") (eVar b!"b"))]

/-- **C48 fails** for maps with repeated keys: such a map differs from itself, and two can be equal one way round only. -/
theorem C48_repeated_keys_false : (runScript emptyWorld 10 [] repeats).printed = some [b!"false", b!"true", b!"false"] := by decide +kernel

/-- The order of items does not matter. -/
example : (runScript emptyWorld 10 [] [
    sPrint (.bin .eq (eMap [(eNum b!"1", eStr b!"x"), (eNum b!"2", .vec [eNum b!"3"])]) (eMap [(eNum b!"2", .vec [eNum b!"3"]), (eNum b!"1", eStr b!"x")]))]).printed =
    some [b!"true"] := by decide +kernel

/-- A state in which there is a map. -/
def mapState : St := { cells := [{ data := .int 1 }, { data := .str 0 1 }, { data := .map [(0, 1)] }, { data := .vec [2, 0] }], bufs := [some b!"xyz"] }

example : mapState.Shows (.vec [.map [(.int 1, .str b!"x")], .int 1]) 3 ∧ (Val.vec [.map [(.int 1, .str b!"x")], .int 1]).Proper ∧
    (Val.vec [.map [(.int 1, .str b!"x")], .int 1]).depth = 2 := by
  refine ⟨?_, ?_, rfl⟩
  · simp only [St.Shows]
    exact ⟨[2, 0], ⟨_, rfl, rfl⟩, ⟨[(0, 1)], ⟨_, rfl, rfl⟩, ⟨_, rfl, rfl⟩, ⟨0, b!"xyz", ⟨_, rfl, rfl⟩, rfl, by decide⟩, trivial⟩, ⟨_, rfl, rfl⟩, trivial⟩
  · simp [Val.Proper, Val.AllProper, Val.ItemsProper]

end Bob.Fl
