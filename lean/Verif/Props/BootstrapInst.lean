import Verif.Props.Bootstrap
/-!
# C116: sample cases, and where it is false
-/

namespace Bob.Boot
open Bob.Fts Bob.Fl

/-! ## A tidy tree -/

theorem found_file {T : Disk} {anc : List Nat} {path : Bytes} {i : Nat} (h : T.node i = .file) : found T anc path (.to i) = [path] :=
  found_leaf (.inr fun es e => by rw [h] at e; cases e)

def noLinks : Links := fun _ _ => false

theorem tidy_of {T : Disk} {i : Nat} (hd : ∀ i es, T.node i = .dir es → ∃ l, es = some l ∧ ∀ e ∈ l, (∃ j, e.2 = .to j) ∧ ∀ c ∈ e.1, c ∉ b!" \t\n*?[")
    (hf : ∀ es, T.node i = .dir (some es) → ∀ e ∈ es, b!"flamingo" <+: e.1 → e.1 = b!"flamingo" ∧ ∀ j, e.2 = .to j → T.node j ≠ .file) : Tidy T noLinks (.to i) := by
  have ht : ∀ {t ns t'}, T.Path t ns t' → (∃ j, t = .to j) → (∃ j, t' = .to j) ∧ ∀ n ∈ ns, ∀ c ∈ n, c ∉ b!" \t\n*?[" := by
    intro t ns t' h
    induction h with
    | here => exact fun h => ⟨h, fun _ h => nomatch h⟩
    | down hn he _ ih =>
      intro _
      obtain ⟨l, hl, hes⟩ := hd _ _ hn
      cases hl
      have hi := ih (hes _ he).1
      refine ⟨hi.1, fun m hm => ?_⟩
      rcases List.mem_cons.1 hm with rfl | hm
      · exact (hes _ he).2
      · exact hi.2 m hm
  refine ⟨fun _ _ _ _ _ _ _ _ => rfl, fun ns t' h => ?_, fun ns t' h => (ht h ⟨_, rfl⟩).2, fun n t' h hn => ?_, fun j h => ?_⟩
  · obtain ⟨j, hj⟩ := (ht h ⟨_, rfl⟩).1
    refine ⟨j, hj, fun hc => ?_⟩
    obtain ⟨l, hl, -⟩ := hd _ _ hc
    cases hl
  · cases h with
    | down hn' he _ => exact (hf _ hn' _ he hn).1
  · cases h with
    | down hn' he h =>
      cases h
      exact (hf _ hn' _ he (List.prefix_refl _)).2 j rfl

/-- A small part of bob's own tree. -/
def ownDisk : Disk where
  node i := if i = 0 then .dir (some [(b!"main.c", .to 3), (b!"class", .to 1), (b!"flamingo", .to 2)]) else if i = 1 then .dir (some [(b!"cc.c", .to 4), (b!"class.h", .to 5)])
    else if i = 2 then .dir (some [(b!"flamingo.c", .to 6), (b!"parser.c", .to 7)]) else .file
  dirs := [0, 1, 2]
  listed i es h := by
    by_cases h0 : i = 0
    · simp [h0]
    by_cases h1 : i = 1
    · simp [h1]
    by_cases h2 : i = 2
    · simp [h2]
    simp [h0, h1, h2] at h

theorem ownDisk_proper : ownDisk.Proper := by
  intro i es h
  simp only [ownDisk] at h
  split at h
  · cases h; decide
  split at h
  · cases h; decide
  split at h
  · cases h; decide
  · cases h

theorem ownDisk_acyclic : ownDisk.Acyclic := by
  refine ⟨fun i => if i = 0 then 2 else if i ≤ 2 then 1 else 0, fun i es h e he j hj => ?_⟩
  simp only [ownDisk] at h
  split at h
  · cases h
    subst i
    simp only [List.mem_cons, List.not_mem_nil, or_false] at he
    rcases he with rfl | rfl | rfl <;> cases hj <;> decide
  split at h
  · cases h
    subst i
    simp only [List.mem_cons, List.not_mem_nil, or_false] at he
    rcases he with rfl | rfl <;> cases hj <;> decide
  split at h
  · cases h
    subst i
    simp only [List.mem_cons, List.not_mem_nil, or_false] at he
    rcases he with rfl | rfl <;> cases hj <;> decide
  · cases h

theorem ownDisk_tidy : Tidy ownDisk noLinks (.to 0) := by
  refine tidy_of (fun i es h => ?_) (fun es h e he hp => ?_)
  · simp only [ownDisk] at h
    split at h
    · cases h
      refine ⟨_, rfl, fun e he => ?_⟩
      simp only [List.mem_cons, List.not_mem_nil, or_false] at he
      rcases he with rfl | rfl | rfl <;> exact ⟨⟨_, rfl⟩, by decide⟩
    split at h
    · cases h
      refine ⟨_, rfl, fun e he => ?_⟩
      simp only [List.mem_cons, List.not_mem_nil, or_false] at he
      rcases he with rfl | rfl <;> exact ⟨⟨_, rfl⟩, by decide⟩
    split at h
    · cases h
      refine ⟨_, rfl, fun e he => ?_⟩
      simp only [List.mem_cons, List.not_mem_nil, or_false] at he
      rcases he with rfl | rfl <;> exact ⟨⟨_, rfl⟩, by decide⟩
    · cases h
  · cases h
    simp only [List.mem_cons, List.not_mem_nil, or_false] at he
    rcases he with rfl | rfl | rfl
    · exact absurd hp (by decide)
    · exact absurd hp (by decide)
    · refine ⟨rfl, fun j hj => ?_⟩
      cases hj
      exact fun h => by cases h

/-- The hypotheses are met by that tree, where three files are compiled. -/
example : ∃ ps log, listPath ownDisk none b!"src" (.to 0) = some (ps, log) ∧ ps.length = 8 ∧
    sources ownDisk noLinks (.to 0) = some [b!"src/main.c", b!"src/class/cc.c", b!"src/flamingo/flamingo.c"] := by
  have hf : found ownDisk [] b!"src" (.to 0) = [b!"src", b!"src/main.c", b!"src/class", b!"src/class/cc.c", b!"src/class/class.h", b!"src/flamingo", b!"src/flamingo/flamingo.c",
      b!"src/flamingo/parser.c"] := by
    rw [found_dir (i := 0) rfl List.not_mem_nil]
    simp only [List.flatMap_cons, List.flatMap_nil]
    rw [found_file (i := 3) rfl, found_dir (i := 1) rfl (by decide), found_dir (i := 2) rfl (by decide)]
    simp only [List.flatMap_cons, List.flatMap_nil]
    rw [found_file (i := 4) rfl, found_file (i := 5) rfl, found_file (i := 6) rfl,
      found_file (i := 7) rfl]
    decide
  have hl := listPath_eq (T := ownDisk) (arg := b!"src") (t := .to 0) (by decide) (by decide)
  refine ⟨_, _, hl, by rw [hf]; rfl, ?_⟩
  rw [C116_same_sources_partial ownDisk_proper ownDisk_acyclic ownDisk_tidy hl, hf]
  decide

/-! ## Trees that are not tidy -/

/-- A directory with files in it. -/
def flat (es : List (Bytes × Target)) : Disk where
  node i := if i = 0 then .dir (some es) else .file
  dirs := [0]
  listed i es h := by
    by_cases h0 : i = 0
    · simp [h0]
    · simp [h0] at h

theorem find_file {T : Disk} {L : Links} {x : Expr} {anc : List Nat} {path name : Bytes} {i : Nat} (h : T.node i = .file) :
    findWalk T L x anc path name false (.to i) = shown (x.eval ⟨path, name, true⟩) path := by
  rw [findWalk]
  split
  · rename_i h'; cases h'
  · split
    · rfl
    · rename_i h'; rw [h] at h'; cases h'
    · rename_i h'; rw [h] at h'; cases h'

theorem find_link {T : Disk} {L : Links} {x : Expr} {anc : List Nat} {path name : Bytes} {t : Target} :
    findWalk T L x anc path name true t = shown (x.eval ⟨path, name, false⟩) path := by
  rw [findWalk.eq_def]
  rfl

theorem flat_one {n : Bytes} : found (flat [(n, .to 1)]) [] b!"src" (.to 0) = [b!"src", joinPath b!"src" n] ∧
    findWalk (flat [(n, .to 1)]) noLinks sourceExpr [] b!"src" b!"src" false (.to 0) = shown (sourceExpr.eval ⟨joinPath b!"src" n, n, true⟩) (joinPath b!"src" n) := by
  constructor
  · rw [found_dir (i := 0) rfl List.not_mem_nil]
    simp only [List.flatMap_cons, List.flatMap_nil]
    rw [found_file (i := 1) rfl]
    rfl
  · rw [find_dir (i := 0) rfl List.not_mem_nil rfl]
    simp only [List.flatMap_cons, List.flatMap_nil]
    show _ ++ (findWalk _ _ _ _ _ _ false _ ++ _) = _
    rw [find_file (i := 1) rfl, List.append_nil]
    rfl

/-- **C116 is false** if something beside the directory begins like it: `src/flamingoes.c` is compiled by `bootstrap.sh`, and left out by bob's own script. -/
theorem C116_prefix_false : ∃ ps log, listPath (flat [(b!"flamingoes.c", .to 1)]) none b!"src" (.to 0) = some (ps, log) ∧ ownSources ps = [b!"src/flamingo/flamingo.c"] ∧
    sources (flat [(b!"flamingoes.c", .to 1)]) noLinks (.to 0) = some [b!"src/flamingoes.c", b!"src/flamingo/flamingo.c"] := by
  refine ⟨_, _, listPath_eq (by decide) (by decide), ?_, ?_⟩
  · rw [flat_one.1]; decide
  · unfold sources
    rw [flat_one.2]
    decide

/-- **C116 is false** for names with blanks: `src/two words.c` is one source to bob, and two to `bootstrap.sh`, neither of which exists. -/
theorem C116_blanks_false : ∃ ps log, listPath (flat [(b!"two words.c", .to 1)]) none b!"src" (.to 0) = some (ps, log) ∧ ownSources ps = [b!"src/two words.c", b!"src/flamingo/flamingo.c"] ∧
    sources (flat [(b!"two words.c", .to 1)]) noLinks (.to 0) = some [b!"src/two", b!"words.c", b!"src/flamingo/flamingo.c"] := by
  refine ⟨_, _, listPath_eq (by decide) (by decide), ?_, ?_⟩
  · rw [flat_one.1]; decide
  · unfold sources
    rw [flat_one.2]
    decide

/-- **C116 is false** if there are links: bob follows them, `bootstrap.sh` does not. -/
theorem C116_links_false : ∃ ps log, listPath treeDisk none b!"src" (.to 0) = some (ps, log) ∧ ownSources ps = [b!"src/main.c", b!"src/lib/a.c", b!"src/flamingo/flamingo.c"] ∧
    sources treeDisk (fun _ n => n = b!"lib") (.to 0) = some [b!"src/main.c", b!"src/flamingo/flamingo.c"] := by
  refine ⟨_, _, listPath_eq (by decide) (by decide), ?_, ?_⟩
  · rw [found_dir (i := 0) rfl List.not_mem_nil]
    simp only [List.flatMap_cons, List.flatMap_nil]
    rw [found_file (i := 2) rfl, found_dir (i := 1) rfl (by decide)]
    simp only [List.flatMap_cons, List.flatMap_nil]
    rw [found_file (i := 3) rfl]
    decide
  · unfold sources
    rw [find_dir (i := 0) rfl List.not_mem_nil rfl]
    simp only [List.flatMap_cons, List.flatMap_nil]
    rw [show decide (b!"main.c" = b!"lib") = false from rfl, show decide True = true from rfl, find_file (i := 2) rfl, find_link]
    decide

/-- **C116 is false** if a directory cannot be read: `bootstrap.sh` ends without having compiled anything, bob goes on without what is in there. -/
theorem C116_unreadable_false : ∃ T : Disk, T.Proper ∧ T.Acyclic ∧ (∃ ps log, listPath T none b!"src" (.to 0) = some (ps, log) ∧ ownSources ps = [b!"src/flamingo/flamingo.c"]) ∧
    sources T noLinks (.to 0) = none := by
  have hl : ∀ i es, (if i = 0 then Fts.Node.dir none else .file) = .dir es → i ∈ [0] := by
    intro i es hi
    split at hi
    · simp [*]
    · cases hi
  have hT : ∀ i es, (if i = 0 then Fts.Node.dir none else .file) ≠ .dir (some es) := by
    intro i es h
    split at h <;> cases h
  refine ⟨⟨fun i => if i = 0 then .dir none else .file, [0], hl⟩, fun i es h => (hT i es h).elim, ⟨fun _ => 0, fun i es h => (hT i es h).elim⟩, ⟨_, _, listPath_eq (by decide) (by decide), ?_⟩, ?_⟩
  · rw [found_leaf (i := 0) (.inr fun es => hT 0 es)]
    decide
  · unfold sources
    rw [if_pos]
    rw [findWalk]
    split
    · rename_i h'; cases h'
    · split
      · rename_i h'; cases h'
      · rename_i h'; cases h'
      · rename_i es h'
        cases h'
        exact List.mem_singleton_self Act.fail

/-! ## Sources that do not compile -/

/-- A compiler that knows all sources but one, and a linker that needs nothing from its object. -/
def pickyTool : Toolchain where
  deps _ _ _ := some []
  obj _ s _ := if s = b!"src/broken.c" then none else some s
  diag _ _ _ := []
  objFailRemoves _ _ _ := false
  link _ _ os _ := some (os.flatMap id)
  linkDiag _ _ _ _ := []
  linkFailRemoves _ _ _ _ := false

/-- **C116 is false** if a bootstrap that succeeds should have compiled every source: what `wait` waited for may have failed, and the program is linked without it. -/
theorem C116_failures_noticed_false : ∃ fs', Run pickyTool (fun _ => none) 5 [b!"src/main.c", b!"src/broken.c"] fs' true ∧ pickyTool.obj (cleaned fun _ => none) b!"src/broken.c" flags = none ∧
    fs' b!".bootstrap/bob" = some ⟨b!".bootstrap/src/main.c.o", 5⟩ := by
  refine ⟨_, .linked (objs := [b!".bootstrap/src/main.c.o"]) (bob := b!".bootstrap/src/main.c.o") ⟨by simp, fun p => ?_⟩ rfl, rfl, rfl⟩
  have hc : cleaned (fun _ => none) p = none := by unfold cleaned; split <;> rfl
  have he : compiled pickyTool (cleaned fun _ => none) 5 [b!"src/main.c", b!"src/broken.c"] p = if p = object b!"src/main.c" then some ⟨b!"src/main.c", 5⟩ else cleaned (fun _ => none) p := rfl
  rw [he, hc, List.mem_singleton]
  constructor
  · rintro rfl
    exact ⟨by decide, by decide, by decide⟩
  · rintro ⟨-, -, h⟩
    split at h
    · assumption
    · cases h

/-- The hypotheses of `C116_linked_partial` are met there. -/
example : ∃ bob fs₂, LinkedFrom pickyTool (cleaned fun _ => none) fs₂ [b!"src/main.c"] bob := by
  obtain ⟨fs', h, -⟩ := C116_failures_noticed_false
  obtain ⟨bob, fs₂, -, -, h⟩ := C116_linked_partial (by decide) h
  exact ⟨bob, fs₂, h⟩

end Bob.Boot
