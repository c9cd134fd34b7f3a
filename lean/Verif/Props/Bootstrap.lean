import Verif.Spec.Bootstrap
import Verif.Props.FtsShown
/-!
# C116: `bootstrap.sh` makes bob from the sources that bob's own script compiles
-/

namespace Bob.Boot
open Bob.Fts Bob.Fl

/-! ## Words -/

theorem words_cons {c : UInt8} (h : blank c = true) (b : Bytes) : ∀ a acc, words acc (a ++ c :: b) = words acc a ++ words [] b
  | [], acc => by
    simp only [List.nil_append, words, h, if_true]
    split <;> simp
  | d :: a, acc => by
    simp only [List.cons_append, words]
    split
    · split
      · exact words_cons h b a []
      · rw [words_cons h b a []]; rfl
    · exact words_cons h b a _

theorem words_plain : ∀ (a acc : Bytes), (∀ c ∈ a, blank c = false) → acc ++ a ≠ [] → words acc a = [acc ++ a]
  | [], acc, _, h => by
    simp only [List.append_nil] at h
    simp [words, h]
  | c :: a, acc, hc, _ => by
    simp only [words]
    rw [if_neg (by rw [hc c (by simp)]; decide), words_plain a (acc ++ [c]) (fun d hd => hc d (by simp [hd])) (by simp)]
    simp

theorem words_lines {ps : List Bytes} (h : ∀ p ∈ ps, p ≠ [] ∧ ∀ c ∈ p, blank c = false) : words [] (ps.flatMap (· ++ [10])) = ps := by
  induction ps with
  | nil => rfl
  | cons p ps ih =>
    have hp := h p (by simp)
    rw [List.flatMap_cons, List.append_assoc, List.singleton_append, words_cons (by decide), words_plain p [] hp.2 (by simpa using hp.1), ih fun q hq => h q (by simp [hq])]
    rfl

theorem chomp_split (s : Bytes) : ∃ n, s = chomp s ++ List.replicate n 10 := by
  unfold chomp
  refine ⟨(s.reverse.takeWhile (· == 10)).length, ?_⟩
  have h := List.takeWhile_append_dropWhile (p := (· == (10 : UInt8))) (l := s.reverse)
  have hr : s.reverse.takeWhile (· == 10) = List.replicate (s.reverse.takeWhile (· == 10)).length 10 := by
    rw [List.eq_replicate_iff]
    refine ⟨rfl, fun b hb => ?_⟩
    simpa using List.all_eq_true.1 (List.all_takeWhile (l := s.reverse) (p := (· == (10 : UInt8)))) b hb
  have := congrArg List.reverse h
  rw [List.reverse_append, List.reverse_reverse, hr, List.reverse_replicate] at this
  simpa using this.symm

theorem words_newlines (n : Nat) (acc : Bytes) : words acc (List.replicate n 10) = words acc [] := by
  induction n generalizing acc with
  | zero => rfl
  | succ n ih =>
    rw [List.replicate_succ]
    simp only [words]
    rw [if_pos (by decide), ih []]
    simp only [words]
    split <;> rfl

theorem words_trail (n : Nat) : ∀ a acc, words acc (a ++ List.replicate n 10) = words acc a := by
  cases n with
  | zero => intro a acc; simp
  | succ n =>
    intro a acc
    rw [List.replicate_succ, words_cons (by decide), words_newlines]
    simp [words]

theorem words_chomp (s x : Bytes) : words [] (chomp s ++ 32 :: x) = words [] s ++ words [] x := by
  obtain ⟨n, hn⟩ := chomp_split s
  refine (words_cons (c := 32) (by decide) x (chomp s) []).trans ?_
  conv_rhs => rw [hn, words_trail]

/-! ## Paths -/

theorem join_eq {path : Bytes} (h : path.getLast? ≠ some SLASH) (n : Bytes) : joinPath path n = path ++ SLASH :: n := by
  unfold joinPath
  rw [if_neg h, List.append_assoc]
  rfl

theorem suffix_join {path n : Bytes} (h : path.getLast? ≠ some SLASH) (hn : n ≠ []) : b!".c".isSuffixOf (joinPath path n) = b!".c".isSuffixOf n := by
  rw [Bool.eq_iff_iff, List.isSuffixOf_iff_suffix, List.isSuffixOf_iff_suffix, join_eq h]
  constructor
  · intro hs
    match n, hn with
    | [c], _ =>
      exfalso
      obtain ⟨a, ha⟩ := hs
      have : a ++ b!".c" = path ++ [SLASH, c] := ha
      have h2 := (List.append_inj' this rfl).2
      exact absurd h2 (by intro h2; exact absurd (List.cons.inj h2).1 (by decide))
    | c :: d :: n, _ =>
      refine List.suffix_of_suffix_length_le hs ?_ ?_
      · exact ⟨path ++ [SLASH], by simp⟩
      · simp
  · intro hs
    exact hs.trans ⟨path ++ [SLASH], by simp⟩

/-- Nothing at or below the path begins like the directory that is left out. -/
def Out (path : Bytes) : Prop := ¬ b!"src/flamingo" <+: path ∧ ∀ s, ¬ b!"src/flamingo" <+: path ++ SLASH :: s

theorem Out.join {path n : Bytes} (h : Out path) (hp : path.getLast? ≠ some SLASH) : Out (joinPath path n) := by
  rw [join_eq hp]
  exact ⟨h.2 n, fun s => by rw [List.append_assoc]; exact h.2 (n ++ SLASH :: s)⟩

theorem own_out {path : Bytes} (h : Out path) : ownSource path = b!".c".isSuffixOf path := by
  unfold ownSource
  rw [show b!"src/flamingo".isPrefixOf path = false from by rw [Bool.eq_false_iff, ne_eq, List.isPrefixOf_iff_prefix]; exact h.1]
  simp

/-! ## The walks -/

theorem both_false {a b : Expr} {e : Seen} {q : Bool} (h : a.eval e = (false, q)) : (Expr.both a b).eval e = (false, q) := by
  show (if (a.eval e).1 then ((b.eval e).1, (a.eval e).2 || (b.eval e).2) else a.eval e) = _
  rw [h]
  rfl

theorem either_eval {a b : Expr} {e : Seen} {p q : Bool} (ha : a.eval e = (p, false)) (hb : b.eval e = (false, q)) : (Expr.either a b).eval e = (p, !p && q) := by
  show (if (a.eval e).1 then a.eval e else ((b.eval e).1, (a.eval e).2 || (b.eval e).2)) = _
  rw [ha, hb]
  cases p <;> cases q <;> rfl

theorem eval_out {path name : Bytes} (f : Bool) (h : b!"src/flamingo" ≠ path) : sourceExpr.eval ⟨path, name, f⟩ = (b!".c".isSuffixOf name, false) := by
  have hp : (Expr.path b!"src/flamingo").eval ⟨path, name, f⟩ = (false, false) := by
    show (decide (b!"src/flamingo" = path), false) = _
    rw [decide_eq_false h]
  refine (either_eval (a := .name b!".c") rfl (both_false (both_false hp))).trans ?_
  rw [Bool.and_false]

theorem find_dir {T : Disk} {L : Links} {x : Expr} {anc : List Nat} {path name : Bytes} {i : Nat} {es : List (Bytes × Target)} (h : T.node i = .dir (some es)) (hi : i ∉ anc)
    (hx : (x.eval ⟨path, name, false⟩).2 = false) :
    findWalk T L x anc path name false (.to i) = shown (x.eval ⟨path, name, false⟩) path ++ es.flatMap fun e => findWalk T L x (i :: anc) (joinPath path e.1) e.1 (L i e.1) e.2 := by
  rw [findWalk]
  split
  · rename_i h'; cases h'
  · split
    · rename_i h'; rw [h] at h'; cases h'
    · rename_i h'; rw [h] at h'; cases h'
    · rename_i es' h'
      rw [h] at h'
      cases h'
      rw [if_neg (by rw [hx]; decide)]

theorem find_leaf {T : Disk} {L : Links} {x : Expr} {anc : List Nat} {path name : Bytes} {i : Nat} (h : ∀ es, T.node i ≠ .dir es) :
    ∃ f, findWalk T L x anc path name false (.to i) = shown (x.eval ⟨path, name, f⟩) path := by
  rw [findWalk]
  split
  · rename_i h'; cases h'
  · split
    · exact ⟨_, rfl⟩
    · exact ⟨_, rfl⟩
    · rename_i h'; exact (h _ h').elim

/-- The directory that is left out. -/
theorem find_pruned {T : Disk} {L : Links} {anc : List Nat} {i : Nat} (hf : T.node i ≠ .file) (hi : i ∉ anc) : findWalk T L sourceExpr anc b!"src/flamingo" b!"flamingo" false (.to i) = [] := by
  rw [findWalk]
  split
  · rename_i h'; cases h'
  · split
    · rename_i h'; exact (hf h').elim
    · rfl
    · rfl

/-- What must hold below for the walks to agree. -/
structure Even (T : Disk) (L : Links) (t : Target) : Prop where
  unlinked : ∀ ns i es n t', T.Path t ns (.to i) → T.node i = .dir (some es) → (n, t') ∈ es → L i n = false
  readable : ∀ ns t', T.Path t ns t' → ∃ i, t' = .to i ∧ T.node i ≠ .dir none

theorem Even.down {T : Disk} {L : Links} {i : Nat} {es : List (Bytes × Target)} (h : Even T L (.to i)) (hd : T.node i = .dir (some es)) {e : Bytes × Target} (he : e ∈ es) : Even T L e.2 :=
  ⟨fun ns j es' n t' hp hd' he' => h.unlinked (e.1 :: ns) j es' n t' (.down hd he hp) hd' he', fun ns t' hp => h.readable (e.1 :: ns) t' (.down hd he hp)⟩

theorem find_found {T : Disk} {L : Links} (hT : T.Proper) {height : Nat → Nat} (hh : ∀ i es, T.node i = .dir (some es) → ∀ e ∈ es, ∀ j, e.2 = .to j → height j < height i) :
    ∀ anc path t, ∀ name, Even T L t → (∀ j, t = .to j → ∀ a ∈ anc, height j < height a) → Out path → path.getLast? ≠ some SLASH → b!".c".isSuffixOf path = b!".c".isSuffixOf name →
      findWalk T L sourceExpr anc path name false t = ((found T anc path t).filter ownSource).map .print := by
  have hne : ∀ {path : Bytes}, Out path → b!"src/flamingo" ≠ path := fun ho e => ho.1 (e ▸ List.prefix_refl _)
  refine walk_induct (T := T) ?_ ?_ ?_ ?_
  · intro anc path name hE
    obtain ⟨i, h, -⟩ := hE.readable [] _ (.here _)
    cases h
  · intro anc path name hE
    obtain ⟨i, h, -⟩ := hE.readable [] _ (.here _)
    cases h
  · intro anc path i h name hE ha ho hs hn
    rw [found_leaf h]
    have hi : i ∉ anc := fun hi => absurd (ha i rfl i hi) (Nat.lt_irrefl _)
    have hd : ∀ es, T.node i ≠ .dir es := by
      intro es hes
      cases es with
      | none =>
        obtain ⟨j, hj, hr⟩ := hE.readable [] _ (.here _)
        cases hj
        exact hr hes
      | some es => exact h.elim hi fun h => h es hes
    obtain ⟨f, hf⟩ := find_leaf (L := L) (x := sourceExpr) (anc := anc) (path := path) (name := name) hd
    rw [hf, eval_out f (hne ho), ← hn, ← own_out ho]
    unfold shown
    by_cases hp : ownSource path = true <;> simp [hp]
  · intro anc path i es hd hi ih name hE ha ho hs hn
    rw [found_dir hd hi, find_dir hd hi (by rw [eval_out false (hne ho)]), eval_out false (hne ho), ← hn, ← own_out ho]
    have hrest : (es.flatMap fun e => findWalk T L sourceExpr (i :: anc) (joinPath path e.1) e.1 (L i e.1) e.2) =
        ((es.flatMap fun e => found T (i :: anc) (joinPath path e.1) e.2).filter ownSource).map .print := by
      rw [List.filter_flatMap, List.map_flatMap]
      refine List.flatMap_congr fun e he => ?_
      have hp := (hT _ _ hd).2 e he
      rw [hE.unlinked [] i es e.1 e.2 (.here _) hd he]
      refine ih e he e.1 (hE.down hd he) ?_ (ho.join hs) (joinPath_last hp.1 hp.2.1) (suffix_join hs hp.1)
      intro j hj a haa
      rcases List.mem_cons.1 haa with rfl | haa
      · exact hh _ _ hd e he j hj
      · exact Nat.lt_trans (hh _ _ hd e he j hj) (ha i rfl a haa)
    rw [hrest, List.filter_cons]
    unfold shown
    by_cases hp : ownSource path = true <;> simp [hp]

theorem fold_prefix (ns : List Bytes) : ∀ path : Bytes, path <+: ns.foldl joinPath path := by
  induction ns with
  | nil => exact fun _ => List.prefix_refl _
  | cons n ns ih =>
    intro path
    refine List.IsPrefix.trans ?_ (ih (joinPath path n))
    unfold joinPath
    split
    · exact List.prefix_append _ _
    · rw [List.append_assoc]; exact List.prefix_append _ _

theorem found_pruned {T : Disk} (anc : List Nat) (t : Target) : (found T anc b!"src/flamingo" t).filter ownSource = [] := by
  rw [List.filter_eq_nil_iff]
  intro p hp
  obtain ⟨ns, i, -, rfl⟩ := (mem_found _ _ _).1 hp
  unfold ownSource
  rw [List.isPrefixOf_iff_prefix.2 (fold_prefix ns _)]
  simp

theorem top_out {n : Bytes} (h : ¬ b!"flamingo" <+: n) : Out (joinPath b!"src" n) := by
  rw [join_eq (by decide)]
  have hp : ∀ x : Bytes, b!"src/flamingo" <+: b!"src" ++ SLASH :: x → b!"flamingo" <+: x := by
    intro x hx
    have : b!"src/" ++ b!"flamingo" <+: b!"src/" ++ x := hx
    rwa [List.prefix_append_right_inj] at this
  refine ⟨fun hx => h (hp _ hx), fun s hx => ?_⟩
  rw [List.append_assoc] at hx
  have hx := hp _ hx
  rcases Nat.lt_or_ge n.length (b!"flamingo").length with hl | hl
  · have h1 : n ++ [SLASH] <+: b!"flamingo" := by
      refine List.prefix_of_prefix_length_le (l₃ := n ++ SLASH :: s) ⟨s, by simp⟩ hx ?_
      simp only [List.length_append, List.length_singleton]
      exact hl
    exact absurd (h1.subset (show SLASH ∈ n ++ [SLASH] by simp)) (by decide)
  · exact h (List.prefix_of_prefix_length_le hx (List.prefix_append _ _) hl)

theorem clean_below {ns : List Bytes} (h : ∀ n ∈ ns, ∀ c ∈ n, c ∉ b!" \t\n*?[") : ∀ c ∈ below b!"src" ns, blank c = false := by
  have hb : ∀ {c : UInt8}, c ∉ b!" \t\n*?[" → blank c = false := by
    intro c hc
    unfold blank
    have h1 : c ≠ 32 := by rintro rfl; exact hc (by decide)
    have h2 : c ≠ 9 := by rintro rfl; exact hc (by decide)
    have h3 : c ≠ 10 := by rintro rfl; exact hc (by decide)
    simp [h1, h2, h3]
  cases ns with
  | nil => decide
  | cons n ns =>
    intro c hc
    simp only [below] at hc
    rw [if_neg (by decide)] at hc
    rcases List.mem_append.1 hc with hc | hc
    · rcases List.mem_append.1 hc with hc | hc
      · exact (show ∀ c ∈ b!"src" ++ b!"/", blank c = false by decide) c hc
      · exact hb (h n (by simp) c hc)
    · obtain ⟨m, hm, hc⟩ := List.mem_flatMap.1 hc
      rcases List.mem_cons.1 hc with rfl | hc
      · decide
      · exact hb (h m (by simp [hm]) c hc)

theorem find_src {T : Disk} {L : Links} {t : Target} (hT : T.Proper) (ha : T.Acyclic) (ht : Tidy T L t) :
    findWalk T L sourceExpr [] b!"src" b!"src" false t = ((found T [] b!"src" t).filter ownSource).map .print := by
  obtain ⟨height, hh⟩ := ha
  have hE : Even T L t := ⟨ht.unlinked, ht.readable⟩
  obtain ⟨i, rfl, hr⟩ := hE.readable [] _ (.here _)
  by_cases hd : ∃ es, T.node i = .dir es
  · obtain ⟨es, hd⟩ := hd
    cases es with
    | none => exact (hr hd).elim
    | some es =>
      rw [found_dir hd List.not_mem_nil, find_dir hd List.not_mem_nil (by rw [eval_out false (by decide)]), eval_out false (by decide), List.filter_cons]
      show [] ++ _ = _
      rw [List.nil_append, if_neg (by decide), List.filter_flatMap, List.map_flatMap]
      refine List.flatMap_congr fun e he => ?_
      have hp := (hT _ _ hd).2 e he
      have hpath : T.Path (.to i) [e.1] e.2 := .down hd he (.here _)
      rw [hE.unlinked [] i es e.1 e.2 (.here _) hd he]
      by_cases hf : b!"flamingo" <+: e.1
      · have hn := ht.flamingo e.1 e.2 hpath hf
        obtain ⟨j, hj, -⟩ := ht.readable _ _ hpath
        rw [hn, hj] at hpath
        have hji : j ∉ [i] := by
          intro h
          have := hh _ _ hd e he j hj
          rw [List.mem_singleton.1 h] at this
          exact absurd this (Nat.lt_irrefl _)
        rw [hn, hj]
        show findWalk T L sourceExpr [i] b!"src/flamingo" b!"flamingo" false (.to j) = ((found T [i] b!"src/flamingo" (.to j)).filter ownSource).map .print
        rw [find_pruned (ht.directory j hpath) hji, found_pruned]
        rfl
      · refine find_found hT hh _ _ _ e.1 (hE.down hd he) ?_ (top_out hf) (joinPath_last hp.1 hp.2.1) (suffix_join (by decide) hp.1)
        intro j hj a haa
        rw [List.mem_singleton.1 haa]
        exact hh _ _ hd e he j hj
  · have hd' : ∀ es, T.node i ≠ .dir es := fun es h => hd ⟨es, h⟩
    obtain ⟨f, hf⟩ := find_leaf (L := L) (x := sourceExpr) (anc := []) (path := b!"src") (name := b!"src") hd'
    rw [hf, eval_out f (by decide), found_leaf (.inr fun es => hd' _)]
    rfl

/-- **C116, in part.** In a tidy tree of sources `bootstrap.sh` compiles just the files, in the same order, that bob's own script selects from what `Fs.list` lists. -/
theorem C116_same_sources_partial {T : Disk} {L : Links} {t : Target} (hT : T.Proper) (ha : T.Acyclic) (ht : Tidy T L t) {ps : List Bytes} {log : List ListMsg}
    (hl : listPath T none b!"src" t = some (ps, log)) : sources T L t = some (ownSources ps) := by
  rw [listPath_eq (by decide) (by decide)] at hl
  cases hl
  unfold sources
  simp only [find_src hT ha ht]
  rw [if_neg (by simp)]
  congr 1
  rw [List.flatMap_map]
  refine (words_chomp _ b!"src/flamingo/flamingo.c").trans ?_
  rw [show words [] b!"src/flamingo/flamingo.c" = [b!"src/flamingo/flamingo.c"] from by decide]
  unfold ownSources
  congr 1
  refine words_lines fun p hp => ?_
  obtain ⟨ns, i, hs, rfl⟩ := (mem_found _ _ _).1 (List.mem_filter.1 hp).1
  have hc := clean_below (ht.names ns _ hs.path)
  rw [fold_below (hs.path.names hT)]
  refine ⟨?_, hc⟩
  intro h0
  have := List.IsPrefix.length_le (fold_prefix ns b!"src")
  rw [fold_below (hs.path.names hT), h0] at this
  exact absurd this (by decide)

/-- **C116, in part, for bob's own script.** What the script of bob asks to be compiled on that disk is what `bootstrap.sh` compiles. -/
theorem C116_own_partial {w : World} {T : Disk} {at_ : Bytes → Target} {L : Links} (hd : OnDisk w T at_) (hT : T.Proper) (ha : T.Acyclic) (ht : Tidy T L (at_ b!"src")) :
    ∃ srcs ρ fl lf, sources T L (at_ b!"src") = some srcs ∧
      Runs w [b!"install", b!"run"] bobNames ownBuild.tail ρ [.compile fl srcs, .link false lf (srcs.map w.object)] [] := by
  obtain ⟨ps, log, hl, -⟩ := C106_lists hT (arg := b!"src") (t := at_ b!"src") (by decide) (by decide)
  have hw : w.list b!"src" = some ps := by rw [hd, hl]; rfl
  obtain ⟨ρ, hr, -⟩ := own_means hw
  exact ⟨_, ρ, _, _, C116_same_sources_partial hT ha ht hl, hr⟩

/-! ## Compiling and linking -/

theorem object_inj {a b : Bytes} (h : object a = object b) : a = b := by
  unfold object at h
  exact List.append_cancel_left (List.append_cancel_right h)

theorem compiled_fold (tc : Toolchain) (fs : FS) (now : Nat) (p : Bytes) : ∀ (srcs : List Bytes) (f : FS),
    (∀ s o, s ∈ srcs → p = object s → tc.obj fs s flags = some o → srcs.foldl (fun f s => match tc.obj fs s flags with
      | some o => f.set (object s) (some ⟨o, now⟩)
      | none => f) f p = some ⟨o, now⟩) ∧
    ((∀ s ∈ srcs, p = object s → tc.obj fs s flags = none) → srcs.foldl (fun f s => match tc.obj fs s flags with
      | some o => f.set (object s) (some ⟨o, now⟩)
      | none => f) f p = f p) := by
  intro srcs
  induction srcs with
  | nil => exact fun f => ⟨fun s o h => (nomatch h), fun _ => rfl⟩
  | cons a srcs ih =>
    intro f
    simp only [List.foldl_cons]
    refine ⟨fun s o hs hp ho => ?_, fun h => ?_⟩
    · by_cases hm : s ∈ srcs
      · exact (ih _).1 s o hm hp ho
      · have hsa : s = a := by
          rcases List.mem_cons.1 hs with h | h
          · exact h
          · exact (hm h).elim
        subst hsa
        refine ((ih _).2 fun s' hs' hp' => ?_).trans ?_
        · rw [hp] at hp'
          exact (hm (object_inj hp' ▸ hs')).elim
        · rw [ho]
          show (if p = object s then _ else _) = _
          rw [if_pos hp]
    · refine ((ih _).2 fun s hs => h s (List.mem_cons_of_mem _ hs)).trans ?_
      cases ho : tc.obj fs a flags with
      | none => rfl
      | some o =>
        show (if p = object a then _ else _) = _
        rw [if_neg]
        intro hp
        rw [h a (by simp) hp] at ho
        cases ho

theorem object_prefix (s : Bytes) : b!".bootstrap/" <+: object s := by
  unfold object
  rw [List.append_assoc]
  exact List.prefix_append _ _

theorem cleaned_none {fs : FS} {p : Bytes} (h : b!".bootstrap/" <+: p) : cleaned fs p = none := by
  unfold cleaned
  rw [List.isPrefixOf_iff_prefix.2 h]
  rfl

theorem objects_compiled {tc : Toolchain} {fs : FS} {now : Nat} {srcs objs : List Bytes} (h : Objects (compiled tc (cleaned fs) now srcs) objs) (hn : srcs.Nodup) :
    objs.Perm ((srcs.filter fun s => (tc.obj (cleaned fs) s flags).isSome).map object) := by
  rw [List.perm_ext_iff_of_nodup h.1 ((hn.filter _).map object fun a b hab e => hab (object_inj e))]
  intro p
  rw [h.2, List.mem_map]
  constructor
  · rintro ⟨h1, -, h3⟩
    by_contra hc
    have : compiled tc (cleaned fs) now srcs p = cleaned fs p := (compiled_fold tc (cleaned fs) now p srcs (cleaned fs)).2 fun s hs hp => by
      cases ho : tc.obj (cleaned fs) s flags with
      | none => rfl
      | some o => exact (hc ⟨s, List.mem_filter.2 ⟨hs, by rw [ho]; rfl⟩, hp.symm⟩).elim
    rw [this, cleaned_none h1] at h3
    cases h3
  · rintro ⟨s, hs, rfl⟩
    obtain ⟨hs, ho⟩ := List.mem_filter.1 hs
    obtain ⟨o, ho⟩ := Option.isSome_iff_exists.1 ho
    refine ⟨object_prefix s, List.suffix_append _ _, ?_⟩
    have : compiled tc (cleaned fs) now srcs (object s) = some ⟨o, now⟩ := (compiled_fold tc (cleaned fs) now (object s) srcs (cleaned fs)).1 s o hs rfl ho
    rw [this]
    rfl

/-- **C116, in part.** If `bootstrap.sh` succeeds, the bob it leaves is linked from the objects of just the sources that could be compiled, and nothing that was in `.bootstrap` before
has a part in it. -/
theorem C116_linked_partial {tc : Toolchain} {fs fs' : FS} {now : Nat} {srcs : List Bytes} (hn : srcs.Nodup) (h : Run tc fs now srcs fs' true) :
    ∃ bob fs₂, fs' b!".bootstrap/bob" = some ⟨bob, now⟩ ∧ (∀ p, ¬ b!".bootstrap/" <+: p → fs₂ p = cleaned fs p) ∧
      LinkedFrom tc (cleaned fs) fs₂ (srcs.filter fun s => (tc.obj (cleaned fs) s flags).isSome) bob := by
  cases h with
  | linked ho hl =>
    rename_i objs bob
    refine ⟨bob, compiled tc (cleaned fs) now srcs, if_pos rfl, fun p hp => ?_, objs, hl, objects_compiled ho hn, fun s hs => ?_⟩
    · exact (compiled_fold tc (cleaned fs) now p srcs (cleaned fs)).2 fun s _ e => (hp (e ▸ object_prefix s)).elim
    · obtain ⟨hs, hs'⟩ := List.mem_filter.1 hs
      obtain ⟨o, ho'⟩ := Option.isSome_iff_exists.1 hs'
      rw [ho']
      have := (compiled_fold tc (cleaned fs) now (object s) srcs (cleaned fs)).1 s o hs rfl ho'
      exact congrArg (Option.map (·.content)) this

/-- **C116, in part, all of it.** In a tidy tree in which every source compiles, a bob that `bootstrap.sh` made is linked from the objects of just the sources bob's own script selects. -/
theorem C116_bootstrapped_partial {T : Disk} {L : Links} {t : Target} (hT : T.Proper) (ha : T.Acyclic) (ht : Tidy T L t) {ps : List Bytes} {log : List ListMsg}
    (hl : listPath T none b!"src" t = some (ps, log)) {tc : Toolchain} {fs fs' : FS} {now : Nat} {srcs : List Bytes} (hs : sources T L t = some srcs)
    (hc : ∀ s ∈ srcs, (tc.obj (cleaned fs) s flags).isSome) (h : Run tc fs now srcs fs' true) :
    ∃ bob fs₂, fs' b!".bootstrap/bob" = some ⟨bob, now⟩ ∧ (∀ p, ¬ b!".bootstrap/" <+: p → fs₂ p = cleaned fs p) ∧ LinkedFrom tc (cleaned fs) fs₂ (ownSources ps) bob := by
  have e := C116_same_sources_partial hT ha ht hl
  rw [hs] at e
  cases e
  obtain ⟨ps', log', hl', hnd, -⟩ := C106_lists hT (arg := b!"src") (t := t) (by decide) (by decide)
  rw [hl] at hl'
  cases hl'
  have hn : (ownSources ps).Nodup := by
    unfold ownSources
    rw [List.nodup_append]
    refine ⟨hnd.filter _, by simp, fun a ha b hb e => ?_⟩
    rw [List.mem_singleton.1 hb] at e
    have := (List.mem_filter.1 ha).2
    rw [e] at this
    exact absurd this (by decide)
  have := C116_linked_partial hn h
  rwa [List.filter_eq_self.2 hc] at this

end Bob.Boot
