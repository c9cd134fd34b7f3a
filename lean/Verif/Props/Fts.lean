import Verif.Spec.Fts
import Verif.Lemmas.Base
import Verif.Props.Cookie
/-!
# C106: `Fs.list` lists what is there
-/

namespace Bob.Fts

/-! ## The loop -/

def FtsEnt.item (e : FtsEnt) : Option Bytes :=
  match e.info with
  | .d | .dc | .f | .default => some e.path
  | _ => none

def FtsEnt.msg (e : FtsEnt) : Option ListMsg :=
  match e.info with
  | .sl | .slnone => some .symlink
  | .dot => some .dot
  | .dnr | .err | .ns => some (.failed e.path)
  | _ => none

theorem listLoop_eq (es : List FtsEnt) : ∀ out log, listLoop es out log = (out ++ es.filterMap FtsEnt.item, log ++ es.filterMap FtsEnt.msg) := by
  induction es with
  | nil => intro out log; simp [listLoop]
  | cons e es ih =>
    intro out log
    obtain ⟨i, p⟩ := e
    cases i <;> simp [listLoop, ih, List.filterMap_cons, FtsEnt.item, FtsEnt.msg]

/-! ## The walk -/

/-- The paths a walk finds. -/
def found (T : Disk) (anc : List Nat) (path : Bytes) (t : Target) : List Bytes := (ftsWalk T anc path t).filterMap FtsEnt.item

theorem found_dir {T : Disk} {anc : List Nat} {path : Bytes} {i : Nat} {es : List (Bytes × Target)} (h : T.node i = .dir (some es)) (hi : i ∉ anc) :
    found T anc path (.to i) = path :: es.flatMap fun e => found T (i :: anc) (joinPath path e.1) e.2 := by
  unfold found
  rw [ftsWalk]
  split
  · rename_i h'; rw [h] at h'; cases h'
  · rename_i h'; rw [h] at h'; cases h'
  · rename_i es' h'
    rw [h] at h'
    cases h'
    rw [dif_neg hi]
    simp [FtsEnt.item, List.filterMap_flatMap]

theorem found_leaf {T : Disk} {anc : List Nat} {path : Bytes} {i : Nat} (h : i ∈ anc ∨ ∀ es, T.node i ≠ .dir (some es)) : found T anc path (.to i) = [path] := by
  unfold found
  rw [ftsWalk]
  split
  · rfl
  · rfl
  · rename_i es h'
    split
    · rfl
    · rename_i hn
      cases es with
      | none => rfl
      | some es => exact (h.elim hn fun h => h es h').elim

theorem found_broken {T : Disk} {anc : List Nat} {path : Bytes} : found T anc path .broken = [] := by unfold found; rw [ftsWalk]; rfl
theorem found_unknown {T : Disk} {anc : List Nat} {path : Bytes} : found T anc path .unknown = [] := by unfold found; rw [ftsWalk]; rfl

/-- Cases of a walk, with what is needed for the directories on the way. -/
theorem walk_induct {T : Disk} {motive : List Nat → Bytes → Target → Prop} (broken : ∀ anc path, motive anc path .broken) (unknown : ∀ anc path, motive anc path .unknown)
    (leaf : ∀ anc path i, (i ∈ anc ∨ ∀ es, T.node i ≠ .dir (some es)) → motive anc path (.to i))
    (dir : ∀ anc path i es, T.node i = .dir (some es) → i ∉ anc → (∀ e ∈ es, motive (i :: anc) (joinPath path e.1) e.2) → motive anc path (.to i)) :
    ∀ anc path t, motive anc path t := by
  intro anc
  generalize hk : (T.dirs.filter (· ∉ anc)).length = k
  induction k using Nat.strongRecOn generalizing anc with
  | _ k ih =>
    intro path t
    cases t with
    | broken => exact broken _ _
    | unknown => exact unknown _ _
    | to i =>
      by_cases hi : i ∈ anc
      · exact leaf _ _ _ (.inl hi)
      · cases hn : T.node i with
        | file => exact leaf _ _ _ (.inr fun es h => by rw [hn] at h; cases h)
        | other => exact leaf _ _ _ (.inr fun es h => by rw [hn] at h; cases h)
        | dir es =>
          cases es with
          | none => exact leaf _ _ _ (.inr fun es h => by rw [hn] at h; cases h)
          | some es => exact dir _ _ _ _ hn hi fun e _ => ih _ (by rw [← hk]; exact filter_shrinks (T.listed i _ hn) hi) _ rfl _ _

theorem mem_found {T : Disk} {p : Bytes} : ∀ anc path t, p ∈ found T anc path t ↔ ∃ ns i, T.Simple anc t ns (.to i) ∧ p = ns.foldl joinPath path := by
  refine walk_induct (T := T) ?_ ?_ ?_ ?_
  · intro anc path
    rw [found_broken]
    refine ⟨fun h => (nomatch h), ?_⟩
    rintro ⟨ns, i, h, -⟩
    cases h
  · intro anc path
    rw [found_unknown]
    refine ⟨fun h => (nomatch h), ?_⟩
    rintro ⟨ns, i, h, -⟩
    cases h
  · intro anc path i h
    rw [found_leaf h, List.mem_singleton]
    constructor
    · rintro rfl
      exact ⟨[], i, .here _ _, rfl⟩
    · rintro ⟨ns, j, hs, rfl⟩
      cases hs with
      | here => rfl
      | down hi hd => exact (h.elim hi fun h => h _ hd).elim
  · intro anc path i es hd hi ih
    rw [found_dir hd hi, List.mem_cons, List.mem_flatMap]
    constructor
    · rintro (rfl | ⟨e, he, h⟩)
      · exact ⟨[], i, .here _ _, rfl⟩
      · obtain ⟨ns, j, h1, h2⟩ := (ih e he).1 h
        exact ⟨e.1 :: ns, j, .down hi hd he h1, h2⟩
    · rintro ⟨ns, j, hs, rfl⟩
      cases hs with
      | here => exact .inl rfl
      | down hi' hd' he h =>
        rw [hd] at hd'
        cases hd'
        exact .inr ⟨_, he, (ih _ he).2 ⟨_, _, h, rfl⟩⟩

/-! ## Paths -/

theorem Disk.Simple.path {T : Disk} {seen : List Nat} {t t' : Target} {ns : List Bytes} (h : T.Simple seen t ns t') : T.Path t ns t' := by
  induction h with
  | here => exact .here _
  | down _ hd he _ ih => exact .down hd he ih

def NamesOk (ns : List Bytes) : Prop := ∀ n ∈ ns, n ≠ [] ∧ SLASH ∉ n ∧ NUL ∉ n

theorem Disk.Path.names {T : Disk} (hT : T.Proper) {t t' : Target} {ns : List Bytes} (h : T.Path t ns t') : NamesOk ns := by
  induction h with
  | here => exact fun _ h => nomatch h
  | down hd he _ ih =>
    intro x hx
    rcases List.mem_cons.1 hx with rfl | hx
    · exact (hT _ _ hd).2 _ he
    · exact ih x hx

theorem last_append {a n : Bytes} (hn : n ≠ []) (hs : SLASH ∉ n) : (a ++ n).getLast? ≠ some SLASH := by
  rw [List.getLast?_append]
  cases h : n.getLast? with
  | none => exact (hn (List.getLast?_eq_none_iff.1 h)).elim
  | some c =>
    simp only [Option.some_or, ne_eq, Option.some.injEq]
    rintro rfl
    exact hs (List.mem_of_getLast? h)

theorem joinPath_last {a n : Bytes} (hn : n ≠ []) (hs : SLASH ∉ n) : (joinPath a n).getLast? ≠ some SLASH := by
  unfold joinPath
  split <;> exact last_append hn hs

theorem fold_plain {ns : List Bytes} (hn : NamesOk ns) : ∀ {path : Bytes}, path.getLast? ≠ some SLASH → ns.foldl joinPath path = path ++ ns.flatMap (SLASH :: ·) := by
  induction ns with
  | nil => intro path _; simp
  | cons n ns ih =>
    intro path hp
    have hn' := hn n (by simp)
    rw [List.foldl_cons, ih (fun x hx => hn x (List.mem_cons_of_mem _ hx)) (joinPath_last hn'.1 hn'.2.1)]
    unfold joinPath
    rw [if_neg hp]
    simp

theorem fold_below {ns : List Bytes} (hn : NamesOk ns) {path : Bytes} : ns.foldl joinPath path = below path ns := by
  cases ns with
  | nil => rfl
  | cons n ns =>
    have hn' := hn n (by simp)
    rw [List.foldl_cons, fold_plain (fun x hx => hn x (List.mem_cons_of_mem _ hx)) (joinPath_last hn'.1 hn'.2.1)]
    unfold below joinPath
    split <;> rfl

theorem slash_split {a b x y : Bytes} (ha : SLASH ∉ a) (hb : SLASH ∉ b) (hx : x = [] ∨ x.head? = some SLASH) (hy : y = [] ∨ y.head? = some SLASH) (h : a ++ x = b ++ y) : a = b ∧ x = y := by
  induction a generalizing b with
  | nil =>
    cases b with
    | nil => exact ⟨rfl, h⟩
    | cons c b =>
      exfalso
      simp only [List.nil_append, List.cons_append] at h
      rcases hx with rfl | hx
      · cases h
      · rw [h] at hx
        simp only [List.head?_cons, Option.some.injEq] at hx
        exact hb (by simp [hx])
  | cons c a ih =>
    cases b with
    | nil =>
      exfalso
      simp only [List.nil_append, List.cons_append] at h
      rcases hy with rfl | hy
      · cases h
      · rw [← h] at hy
        simp only [List.head?_cons, Option.some.injEq] at hy
        exact ha (by simp [hy])
    | cons d b =>
      simp only [List.cons_append, List.cons.injEq] at h
      obtain ⟨rfl, h⟩ := h
      obtain ⟨rfl, rfl⟩ := ih (fun h => ha (List.mem_cons_of_mem _ h)) (fun h => hb (List.mem_cons_of_mem _ h)) h
      exact ⟨rfl, rfl⟩

theorem tail_head (ns : List Bytes) : ns.flatMap (SLASH :: ·) = [] ∨ (ns.flatMap (SLASH :: ·)).head? = some SLASH := by
  cases ns with
  | nil => exact .inl rfl
  | cons n ns => exact .inr rfl

theorem tail_inj {ns ms : List Bytes} (hn : NamesOk ns) (hm : NamesOk ms) (h : ns.flatMap (SLASH :: ·) = ms.flatMap (SLASH :: ·)) : ns = ms := by
  induction ns generalizing ms with
  | nil =>
    cases ms with
    | nil => rfl
    | cons m ms => cases h
  | cons n ns ih =>
    cases ms with
    | nil => cases h
    | cons m ms =>
      simp only [List.flatMap_cons, List.cons_append, List.cons.injEq, true_and] at h
      obtain ⟨rfl, h'⟩ := slash_split (hn n (by simp)).2.1 (hm m (by simp)).2.1 (tail_head _) (tail_head _) h
      rw [ih (fun x hx => hn x (List.mem_cons_of_mem _ hx)) (fun x hx => hm x (List.mem_cons_of_mem _ hx)) h']

/-- Different ways down are written differently. -/
theorem below_inj {root : Bytes} {ns ms : List Bytes} (hn : NamesOk ns) (hm : NamesOk ms) (h : below root ns = below root ms) : ns = ms := by
  have key : ∀ n l, NamesOk (n :: l) → below root (n :: l) ≠ root := by
    intro n l hl e
    have := congrArg List.length e
    have h1 := List.length_pos_iff.2 (hl n (by simp)).1
    simp only [below] at this
    split at this <;> simp only [List.length_append] at this <;> omega
  cases ns with
  | nil =>
    cases ms with
    | nil => rfl
    | cons m ms => exact (key _ _ hm h.symm).elim
  | cons n ns =>
    cases ms with
    | nil => exact (key _ _ hn h).elim
    | cons m ms =>
      simp only [below] at h
      rw [List.append_assoc, List.append_assoc] at h
      obtain ⟨rfl, h'⟩ := slash_split (hn n (by simp)).2.1 (hm m (by simp)).2.1 (tail_head _) (tail_head _) (List.append_cancel_left h)
      rw [tail_inj (fun x hx => hn x (List.mem_cons_of_mem _ hx)) (fun x hx => hm x (List.mem_cons_of_mem _ hx)) h']

theorem flatMap_nodup {α β : Type} {es : List α} {f : α → List β} (h1 : ∀ e ∈ es, (f e).Nodup) (h2 : es.Pairwise fun a b => ∀ x ∈ f a, x ∉ f b) : (es.flatMap f).Nodup := by
  induction es with
  | nil => simp
  | cons e es ih =>
    rw [List.pairwise_cons] at h2
    rw [List.flatMap_cons, List.nodup_append]
    refine ⟨h1 e (by simp), ih (fun x hx => h1 x (List.mem_cons_of_mem _ hx)) h2.2, ?_⟩
    rintro a ha b hb rfl
    obtain ⟨e', he', hb⟩ := List.mem_flatMap.1 hb
    exact h2.1 e' he' a ha hb

theorem mem_sublist_flatMap {α β : Type} {es : List α} {f : α → List β} {e : α} (h : e ∈ es) : (f e).Sublist (es.flatMap f) := by
  induction es with
  | nil => cases h
  | cons a es ih =>
    rw [List.flatMap_cons]
    rcases List.mem_cons.1 h with rfl | h
    · exact List.sublist_append_left _ _
    · exact (ih h).trans (List.sublist_append_right _ _)

theorem flatMap_perm {α β : Type} {es : List α} {f g : α → List β} (h : ∀ e ∈ es, (f e).Perm (g e)) : (es.flatMap f).Perm (es.flatMap g) := by
  induction es with
  | nil => simp
  | cons a es ih =>
    rw [List.flatMap_cons, List.flatMap_cons]
    exact (h a (by simp)).append (ih fun x hx => h x (List.mem_cons_of_mem _ hx))

theorem found_nodup {T : Disk} (hT : T.Proper) : ∀ anc path t, (found T anc path t).Nodup := by
  refine walk_induct (T := T) ?_ ?_ ?_ ?_
  · intro anc path; rw [found_broken]; exact .nil
  · intro anc path; rw [found_unknown]; exact .nil
  · intro anc path i h; rw [found_leaf h]; simp
  · intro anc path i es hd hi ih
    have hin : ∀ e ∈ es, ∀ x ∈ found T (i :: anc) (joinPath path e.1) e.2, ∃ ns, NamesOk (e.1 :: ns) ∧ x = below path (e.1 :: ns) := by
      intro e he x hx
      obtain ⟨ns, j, h1, rfl⟩ := (mem_found _ _ _).1 hx
      have hok : NamesOk (e.1 :: ns) := (Disk.Path.down hd he h1.path).names hT
      exact ⟨ns, hok, by rw [← fold_below hok, List.foldl_cons]⟩
    rw [found_dir hd hi, List.nodup_cons]
    refine ⟨fun h => ?_, flatMap_nodup ih ?_⟩
    · obtain ⟨e, he, hx⟩ := List.mem_flatMap.1 h
      obtain ⟨ns, hok, hx⟩ := hin e he _ hx
      have := below_inj (ns := []) (fun _ h => (nomatch h)) hok (show below path [] = _ from hx)
      cases this
    · have := List.pairwise_map.1 (hT _ _ hd).1
      refine this.imp_of_mem fun {a b} ha hb hne x hxa hxb => ?_
      obtain ⟨ns, hok, hx⟩ := hin a ha x hxa
      obtain ⟨ms, hok', hx'⟩ := hin b hb x hxb
      exact hne (List.cons.inj (below_inj hok hok' (hx.symm.trans hx'))).1

theorem found_before {T : Disk} {anc : List Nat} {t : Target} {ns : List Bytes} {m : Bytes} {ms : List Bytes} {i : Nat} (h : T.Simple anc t (ns ++ m :: ms) (.to i)) (path : Bytes) :
    [ns.foldl joinPath path, (ns ++ m :: ms).foldl joinPath path].Sublist (found T anc path t) := by
  induction ns generalizing anc t path with
  | nil =>
    cases h with
    | down hi hd he h =>
      rw [found_dir hd hi]
      refine List.Sublist.cons_cons _ (List.singleton_sublist.2 (List.mem_flatMap.2 ⟨_, he, (mem_found _ _ _).2 ⟨_, _, h, rfl⟩⟩))
  | cons n ns ih =>
    cases h with
    | down hi hd he h =>
      rw [found_dir hd hi]
      refine List.Sublist.cons _ (List.Sublist.trans (ih h (joinPath path n)) ?_)
      exact mem_sublist_flatMap (f := fun e : Bytes × Target => found T (_ :: anc) (joinPath path e.1) e.2) he

theorem found_reordered {T T' : Disk} (h : T.Reordered T') : ∀ anc path t, (found T anc path t).Perm (found T' anc path t) := by
  refine walk_induct (T := T) ?_ ?_ ?_ ?_
  · intro anc path; rw [found_broken, found_broken]
  · intro anc path; rw [found_unknown, found_unknown]
  · intro anc path i hl
    rw [found_leaf hl, found_leaf]
    by_cases hi : i ∈ anc
    · exact .inl hi
    · have := hl.resolve_left hi
      exact .inr fun es he => this es (by rw [← h.others i this]; exact he)
  · intro anc path i es hd hi ih
    obtain ⟨es', hd', hp⟩ := h.dirs i es hd
    rw [found_dir hd hi, found_dir hd' hi]
    exact List.Perm.cons _ ((flatMap_perm ih).trans (hp.flatMap_right _))

theorem acyclic_simple {T : Disk} {height : Nat → Nat} (hT : ∀ i es, T.node i = .dir (some es) → ∀ e ∈ es, ∀ j, e.2 = .to j → height j < height i) {t t' : Target} {ns : List Bytes}
    (h : T.Path t ns t') : ∀ seen : List Nat, (∀ i, t = .to i → ∀ j ∈ seen, height i < height j) → T.Simple seen t ns t' := by
  induction h with
  | here => exact fun seen _ => .here _ _
  | down hd he _ ih =>
    intro seen hs
    refine .down (fun hi => Nat.lt_irrefl _ (hs _ rfl _ hi)) hd he (ih _ fun j hj k hk => ?_)
    have hlt := hT _ _ hd _ he j hj
    rcases List.mem_cons.1 hk with rfl | hk
    · exact hlt
    · exact Nat.lt_trans hlt (hs _ rfl _ hk)

theorem simple_snoc {T : Disk} {seen : List Nat} {t x t' : Target} {ms : List Bytes} (h : T.Simple seen t ms x) {j : Nat} (hx : x = .to j) {es : List (Bytes × Target)} {n : Bytes}
    (hd : T.node j = .dir (some es)) (he : (n, t') ∈ es) (hj : j ∉ seen) : ∃ ms', T.Simple seen t ms' t' := by
  induction h with
  | here => subst hx; exact ⟨[n], .down hj hd he (.here _ _)⟩
  | @down seen i es' n' t1 ns t2 hi hd' he' _ ih =>
    by_cases e : j = i
    · subst e; exact ⟨[n], .down hi hd he (.here _ _)⟩
    · obtain ⟨ms', h⟩ := ih hx (by simp [e, hj])
      exact ⟨_, .down hi hd' he' h⟩

theorem path_simple {T : Disk} {t t' : Target} {ns : List Bytes} (h : T.Path t ns t') : ∀ {t0 : Target} {ms : List Bytes}, T.Simple [] t0 ms t → ∃ ms', T.Simple [] t0 ms' t' := by
  induction h with
  | here => exact fun h => ⟨_, h⟩
  | down hd he _ ih =>
    intro t0 ms h
    obtain ⟨ms', h'⟩ := simple_snoc h rfl hd he (by simp)
    exact ih h'

/-! ## Messages -/

def logged (T : Disk) (anc : List Nat) (path : Bytes) (t : Target) : List ListMsg := (ftsWalk T anc path t).filterMap FtsEnt.msg

theorem logged_dir {T : Disk} {anc : List Nat} {path : Bytes} {i : Nat} {es : List (Bytes × Target)} (h : T.node i = .dir (some es)) (hi : i ∉ anc) :
    logged T anc path (.to i) = es.flatMap fun e => logged T (i :: anc) (joinPath path e.1) e.2 := by
  unfold logged
  rw [ftsWalk]
  split
  · rename_i h'; rw [h] at h'; cases h'
  · rename_i h'; rw [h] at h'; cases h'
  · rename_i es' h'
    rw [h] at h'
    cases h'
    rw [dif_neg hi]
    simp [FtsEnt.msg, List.filterMap_cons, List.filterMap_flatMap]

theorem logged_leaf {T : Disk} {anc : List Nat} {path : Bytes} {i : Nat} (h : i ∈ anc ∨ ∀ es, T.node i ≠ .dir (some es)) (ha : i ∈ anc → T.node i ≠ .dir none) :
    logged T anc path (.to i) = [] ↔ T.node i ≠ .dir none := by
  unfold logged
  rw [ftsWalk]
  split
  · rename_i h'; rw [h']; exact ⟨fun _ h => (nomatch h), fun _ => rfl⟩
  · rename_i h'; rw [h']; exact ⟨fun _ h => (nomatch h), fun _ => rfl⟩
  · rename_i es h'
    split
    · rename_i hi; exact ⟨fun _ => ha hi, fun _ => rfl⟩
    · rename_i hn
      cases es with
      | none => exact ⟨fun h => (nomatch h), fun h => (h h').elim⟩
      | some es => exact (h.elim hn fun h => h es h').elim

/-- Nothing is printed just if each name on the way stands for something, and the directories can be read. -/
theorem logged_nil {T : Disk} : ∀ anc path t, (∀ j ∈ anc, T.node j ≠ .dir none) →
    (logged T anc path t = [] ↔ ∀ ns t', T.Simple anc t ns t' → ∃ i, t' = .to i ∧ T.node i ≠ .dir none) := by
  refine walk_induct (T := T) ?_ ?_ ?_ ?_
  · intro anc path _
    unfold logged
    rw [ftsWalk]
    refine ⟨fun h => (nomatch h), fun h => ?_⟩
    obtain ⟨i, h, -⟩ := h [] _ (.here _ _)
    cases h
  · intro anc path _
    unfold logged
    rw [ftsWalk]
    refine ⟨fun h => (nomatch h), fun h => ?_⟩
    obtain ⟨i, h, -⟩ := h [] _ (.here _ _)
    cases h
  · intro anc path i h ha
    rw [logged_leaf h (ha i)]
    refine ⟨fun hn ns t' hs => ?_, fun h => ?_⟩
    · cases hs with
      | here => exact ⟨i, rfl, hn⟩
      | down hi hd => exact (h.elim hi fun h => h _ hd).elim
    · obtain ⟨j, e, hn⟩ := h [] _ (.here _ _)
      cases e
      exact hn
  · intro anc path i es hd hi ih ha
    have ha' : ∀ j ∈ i :: anc, T.node j ≠ .dir none := by
      intro j hj
      rcases List.mem_cons.1 hj with rfl | hj
      · rw [hd]; exact fun h => (nomatch h)
      · exact ha j hj
    rw [logged_dir hd hi, List.flatMap_eq_nil_iff]
    refine ⟨fun h ns t' hs => ?_, fun h e he => (ih e he ha').2 fun ns t' hs => h _ _ (.down hi hd he hs)⟩
    cases hs with
    | here => exact ⟨i, rfl, by rw [hd]; exact fun h => (nomatch h)⟩
    | down hi' hd' he hs =>
      rw [hd] at hd'
      cases hd'
      exact (ih _ he ha').1 (h _ he) _ _ hs

/-! ## The claim -/

theorem listPath_eq {T : Disk} {arg : Bytes} {t : Target} (hn : NUL ∉ arg) (h0 : arg ≠ []) : listPath T none arg t = some (found T [] arg t, logged T [] arg t) := by
  simp only [listPath]
  rw [cstr_eq_self hn, if_neg h0, listLoop_eq]
  simp [found, logged]

/-- **C106.** `Fs.list` of a path lists just what stands below it, and itself, each once: what can be reached through directories that can be read, no directory being
passed twice.  It says something just if a name on the way stands for nothing or a directory cannot be read. -/
theorem C106_lists {T : Disk} (hT : T.Proper) {arg : Bytes} {t : Target} (hn : NUL ∉ arg) (h0 : arg ≠ []) :
    ∃ ps log, listPath T none arg t = some (ps, log) ∧ ps.Nodup ∧ (∀ p, p ∈ ps ↔ ∃ ns i, T.Simple [] t ns (.to i) ∧ p = below arg ns) ∧
      (log = [] ↔ ∀ ns t', T.Simple [] t ns t' → ∃ i, t' = .to i ∧ T.node i ≠ .dir none) := by
  refine ⟨_, _, listPath_eq hn h0, found_nodup hT _ _ _, fun p => ?_, logged_nil _ _ _ fun _ h => (nomatch h)⟩
  rw [mem_found]
  constructor <;> rintro ⟨ns, i, h, rfl⟩ <;> exact ⟨ns, i, h, by rw [fold_below (h.path.names hT)]⟩

/-- **C106, without loops.** If no directory is below itself, just all there is is listed. -/
theorem C106_acyclic {T : Disk} (hT : T.Proper) (ha : T.Acyclic) {arg : Bytes} {t : Target} (hn : NUL ∉ arg) (h0 : arg ≠ []) {ps : List Bytes} {log : List ListMsg}
    (h : listPath T none arg t = some (ps, log)) (p : Bytes) : p ∈ ps ↔ ∃ ns i, T.Path t ns (.to i) ∧ p = below arg ns := by
  obtain ⟨ps', log', h1, -, h2, -⟩ := C106_lists hT (t := t) hn h0
  rw [h] at h1
  cases h1
  obtain ⟨height, ha⟩ := ha
  rw [h2]
  exact ⟨fun ⟨ns, i, h, e⟩ => ⟨ns, i, h.path, e⟩, fun ⟨ns, i, h, e⟩ => ⟨ns, i, acyclic_simple ha h [] fun _ _ _ h => (nomatch h), e⟩⟩

/-- **C106, with loops.** Whatever links there are, listing ends, and each file that can be reached at all is listed by one of its names. -/
theorem C106_everything {T : Disk} (hT : T.Proper) {arg : Bytes} {t : Target} (hn : NUL ∉ arg) (h0 : arg ≠ []) {ps : List Bytes} {log : List ListMsg}
    (h : listPath T none arg t = some (ps, log)) {ns : List Bytes} {i : Nat} (hp : T.Path t ns (.to i)) : ∃ ms, T.Path t ms (.to i) ∧ below arg ms ∈ ps := by
  obtain ⟨ps', log', h1, -, h2, -⟩ := C106_lists hT (t := t) hn h0
  rw [h] at h1
  cases h1
  obtain ⟨ms, hm⟩ := path_simple hp (.here _ _)
  exact ⟨ms, hm.path, (h2 _).2 ⟨ms, i, hm, rfl⟩⟩

/-- **C106, order.** Directories come before what is in them. -/
theorem C106_directories_first {T : Disk} (hT : T.Proper) {arg : Bytes} {t : Target} (hn : NUL ∉ arg) (h0 : arg ≠ []) {ps : List Bytes} {log : List ListMsg}
    (h : listPath T none arg t = some (ps, log)) {ns ms : List Bytes} (hm : ms ≠ []) {i : Nat} (hs : T.Simple [] t (ns ++ ms) (.to i)) :
    [below arg ns, below arg (ns ++ ms)].Sublist ps := by
  rw [listPath_eq hn h0] at h
  cases h
  cases ms with
  | nil => exact (hm rfl).elim
  | cons m ms =>
    have hok := hs.path.names hT
    have := found_before hs arg
    rwa [fold_below hok, fold_below fun x hx => hok x (List.mem_append_left _ hx)] at this

/-- **C106, order of reading.** If the system gives the entries of directories in another order, the same is listed in another order, and what is linked from the objects of what is
listed, or of a part of it chosen by name, goes to the same place. -/
theorem C106_order_of_reading {T T' : Disk} (h : T.Reordered T') {arg : Bytes} {t : Target} (hn : NUL ∉ arg) (h0 : arg ≠ []) {ps ps' : List Bytes} {log log' : List ListMsg}
    (h1 : listPath T none arg t = some (ps, log)) (h2 : listPath T' none arg t = some (ps', log')) :
    ps.Perm ps' ∧ ∀ (sg : Bool) (out : Bytes) (ar : Bool) (want : Bytes → Bool),
      linkCookie sg out ar ((ps.filter want).map fun p => genCookie sg out p b!"o") = linkCookie sg out ar ((ps'.filter want).map fun p => genCookie sg out p b!"o") := by
  rw [listPath_eq hn h0] at h1 h2
  cases h1
  cases h2
  have hp := found_reordered h [] arg t
  exact ⟨hp, fun sg out ar want => C12_link_order_irrelevant sg out ar ((hp.filter want).map _)⟩

/-- **C106, what is not there.** Listing a path that stands for nothing is no failure: the listing is empty, and a message is printed. -/
theorem C106_missing (T : Disk) {arg : Bytes} (hn : NUL ∉ arg) (h0 : arg ≠ []) : listPath T none arg .unknown = some ([], [.failed arg]) := by
  rw [listPath_eq hn h0]
  unfold found logged
  rw [ftsWalk]
  rfl

/-- **C106 is false** if failing to list should fail: neither a path that is not there, nor a directory that cannot be read, nor an error of `fts_read` makes it fail, and the last of these
is not even reported. -/
theorem C106_failures_noticed_false :
    ¬ (∀ T arg, listPath T none arg .unknown = none) ∧
    ¬ (∀ (T : Disk) arg i, T.node i = .dir none → listPath T none arg (.to i) = none) ∧
    ∀ (T : Disk) (n : Nat) (arg : Bytes) (t : Target) (ps : List Bytes) (log : List ListMsg), NUL ∉ arg → arg ≠ [] → listPath T none arg t = some (ps, log) →
      ∃ k l, listPath T (some n) arg t = some (ps.take k, log.take l) := by
  refine ⟨fun h => ?_, fun h => ?_, fun T n arg t ps log hn h0 h => ?_⟩
  · have := h ⟨fun _ => .file, [], fun _ _ h => (nomatch h)⟩ b!"src"
    rw [C106_missing _ (by decide) (by decide)] at this
    cases this
  · have hl : ∀ i es, (if i = 0 then Node.dir none else .file) = .dir es → i ∈ [0] := by
      intro i es hi
      split at hi
      · simp [*]
      · cases hi
    have := h ⟨fun i => if i = 0 then .dir none else .file, [0], hl⟩ b!"src" 0 rfl
    rw [listPath_eq (by decide) (by decide)] at this
    cases this
  · rw [listPath_eq hn h0] at h
    cases h
    simp only [listPath]
    rw [cstr_eq_self hn, if_neg h0, listLoop_eq]
    have key : ∀ {β : Type} (f : FtsEnt → Option β) (es : List FtsEnt) (n : Nat), ∃ k, (es.take n).filterMap f = (es.filterMap f).take k := by
      intro β f es
      induction es with
      | nil => exact fun n => ⟨0, by simp⟩
      | cons e es ih =>
        intro n
        cases n with
        | zero => exact ⟨0, by simp⟩
        | succ n =>
          obtain ⟨k, hk⟩ := ih n
          rw [List.take_succ_cons, List.filterMap_cons, List.filterMap_cons, hk]
          cases f e with
          | none => exact ⟨k, rfl⟩
          | some b => exact ⟨k + 1, by simp⟩
    obtain ⟨k, hk⟩ := key FtsEnt.item (ftsWalk T [] arg t) n
    obtain ⟨l, hl⟩ := key FtsEnt.msg (ftsWalk T [] arg t) n
    exact ⟨k, l, by rw [hk, hl]; rfl⟩

/-! ## A sample -/

/-- `src` with a file, a directory that holds a file and a link back to `src`, a link to nothing, and a directory that cannot be read. -/
def sampleDisk : Disk where
  node i :=
    if i = 0 then .dir (some [(b!"main.c", .to 2), (b!"lib", .to 1), (b!"gone", .broken), (b!"secret", .to 4)])
    else if i = 1 then .dir (some [(b!"a.c", .to 3), (b!"up", .to 0)])
    else if i = 4 then .dir none
    else .file
  dirs := [0, 1, 4]
  listed i es h := by
    by_cases h0 : i = 0
    · simp [h0]
    by_cases h1 : i = 1
    · simp [h1]
    by_cases h4 : i = 4
    · simp [h4]
    simp [h0, h1, h4] at h

theorem sampleDisk_proper : sampleDisk.Proper := by
  intro i es h
  simp only [sampleDisk] at h
  split at h
  · cases h; decide
  split at h
  · cases h; decide
  split at h
  · cases h
  · cases h

example : listPath sampleDisk none b!"src" (.to 0) =
    some ([b!"src", b!"src/main.c", b!"src/lib", b!"src/lib/a.c", b!"src/lib/up", b!"src/secret"], [.symlink, .failed b!"src/secret"]) := by
  decide +kernel

end Bob.Fts
