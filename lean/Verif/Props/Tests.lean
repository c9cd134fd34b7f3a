import Verif.Props.Bootstrap
import Verif.Spec.Tests
/-!
# C122: `tests.sh`
-/

namespace Bob.Boot
open Bob.Fts

/-! ## Which tests are run -/

theorem lines_plain : ∀ (a acc b : Bytes), (∀ c ∈ a, c ≠ 10) → linesOf acc (a ++ 10 :: b) = (acc ++ a) :: linesOf [] b
  | [], acc, b, _ => by rw [List.nil_append, linesOf, if_pos rfl, List.append_nil]
  | c :: a, acc, b, h => by
    rw [List.cons_append, linesOf, if_neg (h c (List.mem_cons_self ..)), lines_plain a _ _ fun d hd => h d (List.mem_cons_of_mem _ hd)]
    simp

theorem lines_ls : ∀ {es : List (Bytes × Bool)}, Plain es → linesOf [] (lsOut es) = es.map fun e => e.1 ++ (if e.2 then [SLASH] else [])
  | [], _ => rfl
  | e :: es, h => by
    have h1 := (h e (List.mem_cons_self ..)).2
    have : lsOut (e :: es) = (e.1 ++ (if e.2 then [SLASH] else [])) ++ 10 :: lsOut es := by simp [lsOut]
    rw [this, lines_plain, lines_ls fun x hx => h x (List.mem_cons_of_mem _ hx)]
    · rfl
    · intro c hc e10
      subst e10
      rcases List.mem_append.1 hc with hc | hc
      · exact h1 _ hc (by decide)
      · split at hc
        · exact absurd hc (by decide)
        · cases hc

theorem plain_slash {es : List (Bytes × Bool)} (h : Plain es) : (es.map fun e => e.1 ++ (if e.2 then [SLASH] else [])).filter (fun l => !l.contains SLASH) = (es.filter fun e => !e.2).map (·.1) := by
  induction es with
  | nil => rfl
  | cons e es ih =>
    have h1 := (h e (List.mem_cons_self ..)).2
    have ih := ih fun x hx => h x (List.mem_cons_of_mem _ hx)
    obtain ⟨n, d⟩ := e
    cases d with
    | true =>
      rw [List.map_cons, List.filter_cons_of_neg (by simp), List.filter_cons_of_neg (by simp), ih]
    | false =>
      have hn : (n.contains SLASH) = false := by
        rw [← Bool.not_eq_true, List.contains_iff_mem]
        exact fun hm => h1 _ hm (by decide)
      rw [List.map_cons, List.filter_cons_of_pos (by simpa using hn), List.filter_cons_of_pos (by simp), ih]
      simp

theorem chomp_words (s : Bytes) : words [] (chomp s) = words [] s := by
  obtain ⟨n, hn⟩ := chomp_split s
  conv => rhs; rw [hn]
  exact (words_trail n _ _).symm

theorem plain_words {es : List (Bytes × Bool)} (h : Plain es) : loopWords es = (es.filter fun e => !e.2).map (·.1) := by
  rw [loopWords, chomp_words, grepOut, lines_ls h, plain_slash h]
  refine words_lines fun p hp => ?_
  obtain ⟨e, he, rfl⟩ := List.mem_map.1 hp
  have := h e (List.mem_filter.1 he).1
  refine ⟨this.1, fun c hc => ?_⟩
  have hc := this.2 c hc
  simp only [blank, Bool.or_eq_false_iff, beq_eq_false_iff_ne, ne_eq]
  refine ⟨⟨?_, ?_⟩, ?_⟩ <;> (rintro rfl; exact hc (by decide))

theorem tidied_spec (fs : FS) (p : Bytes) : (b!".bob" = p ∨ b!".bob/" <+: p ∨ b!".test-out" = p ∨ b!".test-out/" <+: p → tidied fs p = none) ∧
    (¬ (b!".bob" = p ∨ b!".bob/" <+: p ∨ b!".test-out" = p ∨ b!".test-out/" <+: p) → tidied fs p = fs p) := by
  have key : (b!".bob/".isPrefixOf p || p == b!".bob" || b!".test-out/".isPrefixOf p || p == b!".test-out") = true ↔
      (b!".bob" = p ∨ b!".bob/" <+: p ∨ b!".test-out" = p ∨ b!".test-out/" <+: p) := by
    simp only [Bool.or_eq_true, List.isPrefixOf_iff_prefix, beq_iff_eq, eq_comm (a := p)]
    tauto
  unfold tidied
  exact ⟨fun h => if_pos (key.2 h), fun h => if_neg fun h' => h (key.1 h')⟩

theorem run_inTurn {h : Host} : ∀ {ns : List Bytes} {fs : FS}, (∀ fs, ∀ n ∈ ns, h.isDir fs n = false) → InTurn h fs (ns.filter (· != b!"common.sh")) (runTests h ns fs)
  | [], _, _ => .nil
  | n :: ns, fs, hd => by
    have ih : ∀ fs, InTurn h fs (ns.filter (· != b!"common.sh")) (runTests h ns fs) := fun fs => run_inTurn fun f m hm => hd f m (List.mem_cons_of_mem _ hm)
    rw [runTests]
    by_cases hc : n = b!"common.sh"
    · rw [if_pos hc, List.filter_cons_of_neg (by simp [hc])]
      exact ih fs
    · rw [if_neg hc, if_neg (by rw [hd fs n (List.mem_cons_self ..)]; exact Bool.false_ne_true), List.filter_cons_of_pos (by simpa using hc)]
      exact .cons (tidied_spec fs) rfl (ih _)

/-- **C122 (part).** If the names of the tests are plain, and none is also that of a directory beside `tests.sh`, then all tests are run in turn, and the script succeeds exactly if all of them do.
(Whether bob was bootstrapped and installed is not looked at.) -/
theorem C122_all_tests_count_partial (h : Host) (fs : FS) (hp : Plain (h.entries (installed h fs))) (hd : ∀ fs', ∀ n ∈ wanted (h.entries (installed h fs)), h.isDir fs' n = false)
    (hc : ∀ fs', h.isDir fs' b!"common.sh" = false) :
    InTurn h (installed h fs) (wanted (h.entries (installed h fs))) (testsFrom h fs).tests ∧ ((testsFrom h fs).status = 0 ↔ ∀ r ∈ (testsFrom h fs).tests, r.passed = true) := by
  have hw : wanted (h.entries (installed h fs)) = (loopWords (h.entries (installed h fs))).filter (· != b!"common.sh") := by
    rw [plain_words hp, wanted, List.filter_map, List.filter_filter]
    congr 1
    exact List.filter_congr fun e _ => by rw [Bool.and_comm]; rfl
  refine ⟨?_, ?_⟩
  · have := run_inTurn (h := h) (ns := loopWords (h.entries (installed h fs))) (fs := installed h fs) fun f n hn => by
      by_cases e : n = b!"common.sh"
      · rw [e]; exact hc f
      · exact hd f n (by rw [hw]; exact List.mem_filter.2 ⟨hn, by simpa using e⟩)
    rw [hw]
    exact this
  · simp only [testsFrom, ← List.all_eq_true]
    split <;> simp_all

/-- **C122 (part).** Whatever there is in `tests`: if the script succeeds then every test that it has run has passed, and each was run without what is in `.bob` and `.test-out`. -/
theorem C122_success_partial (h : Host) (T : Disk) (L : Links) (t : Target) (tc : Toolchain) (fs : FS) (now : Nat) (r : Report) (hr : TestsSh h T L t tc fs now r) :
    (r.status = 0 → ∀ x ∈ r.tests, x.passed = true) ∧ ∀ x ∈ r.tests, ∀ p, b!".bob/" <+: p ∨ b!".test-out/" <+: p → x.start p = none := by
  cases hr with
  | noRoot _ => exact ⟨fun h => (nomatch h), fun _ h => (nomatch h)⟩
  | @run fs' ok _ hb =>
    refine ⟨fun h0 => ?_, ?_⟩
    · simp only [testsFrom] at h0 ⊢
      split at h0
      · rename_i ha; exact List.all_eq_true.1 ha
      · cases h0
    · suffices ∀ (ns : List Bytes) (f : FS), ∀ x ∈ runTests h ns f, ∀ p, b!".bob/" <+: p ∨ b!".test-out/" <+: p → x.start p = none from this _ _
      intro ns
      induction ns with
      | nil => intro f x hx; cases hx
      | cons n ns ih =>
        intro f x hx p hp
        rw [runTests] at hx
        split at hx
        · exact ih _ x hx p hp
        · split at hx
          · exact ih _ x hx p hp
          · rcases List.mem_cons.1 hx with rfl | hx
            · exact (tidied_spec f p).1 (hp.elim (fun h => .inr (.inl h)) fun h => .inr (.inr (.inr h)))
            · exact ih _ x hx p hp

/-! ## Which bob is tested -/

theorem compiled_other {tc : Toolchain} {fs : FS} {now : Nat} {p : Bytes} (hp : ∀ s, object s ≠ p) (srcs : List Bytes) : compiled tc fs now srcs p = fs p := by
  unfold compiled
  suffices ∀ f : FS, (srcs.foldl (fun f s => match tc.obj fs s flags with | some o => f.set (object s) (some ⟨o, now⟩) | none => f) f) p = f p from this fs
  induction srcs with
  | nil => exact fun _ => rfl
  | cons s srcs ih =>
    intro f
    rw [List.foldl_cons, ih]
    cases tc.obj fs s flags with
    | some o => exact if_neg fun e => hp s e.symm
    | none => rfl

theorem object_not_bob (s : Bytes) : object s ≠ b!".bootstrap/bob" := fun e => by
  have := congrArg List.getLast? e
  have h2 : (object s).getLast? = some 111 := by
    rw [object, List.getLast?_append]; rfl
  rw [h2] at this
  exact absurd this (by decide)

theorem cleaned_outside {fs : FS} {p : Bytes} (h : ¬ b!".bootstrap" <+: p) : cleaned fs p = fs p := by
  unfold cleaned
  refine if_neg fun e => h ?_
  rw [Bool.or_eq_true, List.isPrefixOf_iff_prefix, beq_iff_eq] at e
  rcases e with e | rfl
  · exact (List.prefix_append _ _ : b!".bootstrap" <+: b!".bootstrap" ++ b!"/").trans e
  · exact List.prefix_rfl

/-- **C122 (part).** If bootstrapping fails, nothing is installed: the tests that are run are run with the files there were before, such as the bob that was installed some time ago. -/
theorem C122_old_bob_partial (h : Host) (T : Disk) (L : Links) (t : Target) (tc : Toolchain) (fs fs' : FS) (now : Nat) (hb : Boots T L t tc fs now fs' false) :
    installed h fs' = fs' ∧ ∀ p, ¬ b!".bootstrap" <+: p → fs' p = fs p := by
  have key : fs' b!".bootstrap/bob" = none ∧ ∀ p, ¬ b!".bootstrap" <+: p → fs' p = fs p := by
    cases hb with
    | unread _ => exact ⟨cleaned_none (by decide), fun p hp => cleaned_outside hp⟩
    | run _ hr => cases hr with
      | failed ho hl =>
        refine ⟨?_, fun p hp => ?_⟩
        · rw [compiled_other object_not_bob]
          exact cleaned_none (by decide)
        · rw [compiled_other fun s e => hp ?_]
          · exact cleaned_outside hp
          · rw [← e]
            exact (List.prefix_append _ _ : b!".bootstrap" <+: b!".bootstrap" ++ b!"/").trans (object_prefix s)
  refine ⟨?_, key.2⟩
  unfold installed
  rw [key.1]
  rfl

/-- **C122 (part).** If bootstrapping succeeds, the bob it has linked is what installs, and the tests are run with the files that leaves (`C122_all_tests_count_partial`). -/
theorem C122_new_bob_partial (h : Host) (T : Disk) (L : Links) (t : Target) (tc : Toolchain) (fs fs' : FS) (now : Nat) (hb : Boots T L t tc fs now fs' true) :
    installed h fs' = (h.install fs').1 ∧ ∃ objs bob fs₁, tc.link false fs₁ objs flags = some bob ∧ fs' = fs₁.set b!".bootstrap/bob" (some ⟨bob, now⟩) := by
  cases hb with
  | run _ hr => cases hr with
    | @linked objs bob ho hl => exact ⟨if_pos rfl, objs, bob, _, hl, rfl⟩

end Bob.Boot
