import Verif.Props.TreeInstall
import Verif.Props.TreeBuildInst
import Verif.Props.SelfTestInst
import Verif.Props.WholeInst
/-!
# A sample for C110: bob, made of two files, is installed
-/

namespace Bob.Fl

def tiReqs : List Req := oneReqs true b!"out" ownProj.flags ownProj.linkFlags (ownSources selfSrc)

theorem ti_srcs : ownSources selfSrc = selfSrc := by decide +kernel

def tiMain : Bytes := objOf true b!"out" b!"src/main.c"
def tiFlamingo : Bytes := objOf true b!"out" b!"src/flamingo/flamingo.c"
def tiProg : Bytes := progOf true b!"out" selfSrc

def tiWrites : List Bytes :=
  [tiMain, depsPath tiMain, flagsPath tiMain, logPath tiMain, tiFlamingo, depsPath tiFlamingo, flagsPath tiFlamingo, logPath tiFlamingo, tiProg, flagsPath tiProg, logPath tiProg]

/-- The names in use. -/
def tiNames : List Bytes := selfSrc ++ tiWrites ++ [b!"/usr/local/bin/bob"]

def tiTc : Toolchain := { selfTc true with deps := fun _ src _ => if src ∈ selfSrc then some [(false, src)] else none }

def tiEnv : TEnv := { deny := noDeny, cwd := [b!"p"], absOut := b!"/p/out", pre := some b!"/usr/local", map := ownProj.map true b!"out" (ownSources selfSrc), known := fun s => tiNames.contains s }

def tiPath (s : Bytes) : Path := if s.head? = some SLASH then (strsepAll SLASH s).tail else b!"p" :: strsepAll SLASH s

/-- The project, with an output directory, and what there is in the prefix. -/
def tiTree (l : List (Path × Node)) : Tree := treeOf (l ++ [([], .dir 1), ([b!"p"], .dir 5), ([b!"p", b!"src"], .dir 1), ([b!"p", b!"src", b!"main.c"], .file b!"int main" 1),
  ([b!"p", b!"src", b!"flamingo"], .dir 1), ([b!"p", b!"src", b!"flamingo", b!"flamingo.c"], .file b!"int flamingo" 1),
  ([b!"p", b!"import"], .dir 1), ([b!"p", b!"import", b!"bob.fl"], .file b!"class" 4), ([b!"p", b!"skeletons"], .dir 3), ([b!"p", b!"skeletons", b!"c"], .dir 3),
  ([b!"p", b!"skeletons", b!"c", b!"build.fl"], .file b!"import bob" 3),
  ([b!"p", b!"out"], .dir 5), ([b!"p", b!"out", b!"bob"], .dir 5), ([b!"usr"], .dir 1), ([b!"usr", b!"local"], .dir 1)])

def ti0 (l : List (Path × Node)) : TStore := { tree := tiTree l, now := 6, trace := [], buf := fun _ => [] }

theorem ti_known {s : Bytes} : tiEnv.known s = true ↔ s ∈ tiNames := by simp [tiEnv]

theorem ti_job {j : CJob} (h : CJobIn tiReqs j) : j = ⟨b!"src/main.c", tiMain, ownProj.flags⟩ ∨ j = ⟨b!"src/flamingo/flamingo.c", tiFlamingo, ownProj.flags⟩ := by
  obtain ⟨jobs, h1, h2⟩ := h
  simp only [tiReqs, oneReqs, ti_srcs, List.mem_cons, Req.compile.injEq, List.not_mem_nil, or_false, reduceCtorEq] at h1
  subst h1
  simpa [selfSrc, tiMain, tiFlamingo] using h2

theorem ti_link {j : LJob} (h : Req.link j ∈ tiReqs) : j = ⟨false, [tiMain, tiFlamingo], tiProg, ownProj.linkFlags⟩ := by
  simp only [tiReqs, oneReqs, ti_srcs, List.mem_cons, reduceCtorEq, Req.link.injEq, List.not_mem_nil, or_false, false_or] at h
  exact h

theorem ti_writes {w : Bytes} (h : Writes tiReqs w) : w ∈ tiWrites := by
  unfold tiWrites
  rcases h with ⟨j, hj, h⟩ | ⟨j, hj, h⟩
  · rcases ti_job hj with rfl | rfl <;> simp only [List.mem_cons, List.not_mem_nil, or_false] at h ⊢ <;> rcases h with h | h | h | h <;> simp [h]
  · rw [ti_link hj] at h
    simp only [List.mem_cons, List.not_mem_nil, or_false] at h ⊢
    rcases h with h | h | h <;> simp [h]

theorem ti_outs : outsOf tiReqs = [tiMain, tiFlamingo, tiProg] := by
  unfold tiReqs
  rw [outs_one, ti_srcs]
  rfl

theorem ti_prePath : Denotes tiEnv.cwd b!"/usr/local" [b!"usr", b!"local"] :=
  ⟨[b!"usr", b!"local"], by simp, by unfold Bob.Plain; decide, Or.inr ⟨by decide, rfl⟩⟩

def tiEnts : List Ent :=
  [⟨tiProg, b!"bin/bob", tiPath tiProg, [b!"usr", b!"local", b!"bin", b!"bob"]⟩,
   ⟨b!"import/bob.fl", b!"share/flamingo/import/bob.fl", [b!"p", b!"import", b!"bob.fl"], [b!"usr", b!"local", b!"share", b!"flamingo", b!"import", b!"bob.fl"]⟩,
   ⟨b!"skeletons", b!"share/bob/skeletons", [b!"p", b!"skeletons"], [b!"usr", b!"local", b!"share", b!"bob", b!"skeletons"]⟩]

theorem ti_denotes : ∀ s, tiEnv.known s = true → Denotes tiEnv.cwd s (tiPath s) := by
  intro s hs
  have : ∀ s ∈ tiNames, if s.head? = some SLASH then (strsepAll SLASH s).tail ≠ [] ∧ (∀ c ∈ (strsepAll SLASH s).tail, Bob.Plain c) ∧ s = b!"/" ++ joinP (strsepAll SLASH s).tail
      else strsepAll SLASH s ≠ [] ∧ (∀ c ∈ strsepAll SLASH s, Bob.Plain c) ∧ s = joinP (strsepAll SLASH s) := by unfold Bob.Plain; decide +kernel
  have := this s (ti_known.1 hs)
  unfold tiPath
  split at this
  · rename_i h
    rw [if_pos h]
    exact ⟨_, this.1, this.2.1, Or.inr ⟨this.2.2, rfl⟩⟩
  · rename_i h
    rw [if_neg h]
    exact ⟨_, this.1, this.2.1, Or.inl ⟨this.2.2, rfl⟩⟩

theorem ti_placed : Placed tiEnv tiPath tiTc tiReqs where
  denotes := ti_denotes
  apart := by
    intro s s' h h'
    rw [ti_known] at h h'
    revert s s'
    have : ∀ s ∈ tiNames, ∀ s' ∈ tiNames, tiPath s <+: tiPath s' → s = s' := by decide +kernel
    exact fun s s' h h' => this s h s' h'
  writes := by
    intro w hw
    have := ti_writes hw
    rw [ti_known]
    simp [tiNames, this]
  srcs := by
    intro j hj
    rcases ti_job hj with rfl | rfl <;> rw [ti_known] <;> simp [tiNames, selfSrc]
  linkSrcs := by
    intro j hj
    rw [ti_link hj]
    intro s hs
    rw [ti_known]
    simp only [List.mem_cons, List.not_mem_nil, or_false] at hs
    rcases hs with rfl | rfl <;> simp [tiNames, tiWrites]
  tools := by
    intro t src F items h
    simp only [tiTc] at h
    split at h
    · rename_i hc
      injection h with h; subst h
      clear F
      have : ∀ src ∈ selfSrc, ∀ d ∈ readDeps (depsText (ruleText [(false, src)])), tiEnv.known d = true := by decide +kernel
      exact this src hc
    · cases h
  outs := by
    intro j hj o ho
    rw [ti_outs] at ho
    have : ∀ o ∈ [tiMain, tiFlamingo, tiProg], o ≠ depsPath tiMain ∧ o ≠ depsPath tiFlamingo := by decide +kernel
    rcases ti_job hj with rfl | rfl
    · exact (this o ho).1
    · exact (this o ho).2
  dest := by
    intro o ho pre v hp hf
    cases hp
    rw [ti_outs] at ho
    have h1 : ∀ o ∈ [tiMain, tiFlamingo, tiProg], ∀ x, tiEnv.map.find? (fun x => x.1 == o) = some x → o = tiProg ∧ x.2 = b!"bin/bob" := by
      have : ∀ o ∈ [tiMain, tiFlamingo, tiProg], (tiEnv.map.find? (fun x => x.1 == o)).all (fun x => o = tiProg ∧ x.2 = b!"bin/bob") = true := by decide +kernel
      intro o ho x hx
      have := this o ho
      rw [hx] at this
      simpa using this
    obtain ⟨rfl, rfl⟩ := h1 o ho _ hf
    refine ⟨by decide +kernel, by decide +kernel, ?_, by decide +kernel, [b!"usr", b!"local"], ti_prePath, ?_, ?_⟩
    · intro j hj
      rcases ti_job hj with rfl | rfl <;> clear hj <;> dsimp only <;> decide +kernel
    · exact ti_denotes _ (by decide +kernel)
    · exact ⟨[b!"bin"], b!"bob", by unfold Bob.Plain; decide, by unfold Bob.Plain; decide, by decide, by decide +kernel⟩

theorem ti_ord : Ord tiReqs where
  nodup := by rw [ti_outs]; decide +kernel
  ordered := by
    intro pre j post he p hp
    have hj := ti_link (j := j) (by rw [he]; simp)
    have hpost : post = [] ∧ pre.length = 1 := by
      have hl : tiReqs = [.compile (selfSrc.map fun p => ⟨p, objOf true b!"out" p, ownProj.flags⟩), .link ⟨false, [tiMain, tiFlamingo], tiProg, ownProj.linkFlags⟩] := by
        unfold tiReqs oneReqs; rw [ti_srcs]; rfl
      rw [hl] at he
      rcases pre with _ | ⟨a, _ | ⟨b, pre⟩⟩
      · cases he
      · injection he with _ he
        injection he with _ he
        exact ⟨he.symm, rfl⟩
      · injection he with _ he
        injection he with _ he
        simp at he
    rw [hpost.1, hj]
    rw [hj] at hp
    have : ∀ p ∈ [tiMain, tiFlamingo], p ≠ tiProg := by decide +kernel
    simpa [outsOf, Req.outs] using this p hp

theorem ti_map (times : Nat → Nat) : TMapOk tiEnv tiPath tiReqs b!"/usr/local" [b!"usr", b!"local"] (timed times tiEnts) where
  pre_ := rfl
  prePath_ := ti_prePath
  map := by
    show ownProj.map _ _ _ = _
    rw [ti_srcs]
    rfl
  keys := by
    show ([tiProg, b!"import/bob.fl", b!"skeletons"] : List Bytes).Nodup
    decide +kernel
  ents := by
    have hin : ∀ x ∈ timed times tiEnts, x.1 ∈ tiEnts := by
      intro x hx
      simp only [timed, tiEnts, List.zipIdx_cons, List.zipIdx_nil, List.map_cons, List.map_nil, List.mem_cons, List.not_mem_nil, or_false] at hx ⊢
      rcases hx with rfl | rfl | rfl <;> simp
    refine ⟨fun x hx => ?_, fun x hx y hy => ?_, ?_⟩
    · have := hin x hx
      simp only [tiEnts, List.mem_cons, List.not_mem_nil, or_false] at this
      rcases this with h | h | h <;> rw [h]
      · exact ⟨ti_denotes _ (by decide +kernel), [b!"bin"], b!"bob", by unfold Bob.Plain; decide, by unfold Bob.Plain; decide, by decide, by decide⟩
      · exact ⟨⟨[b!"import", b!"bob.fl"], by simp, by unfold Bob.Plain; decide, Or.inl ⟨by decide, rfl⟩⟩, [b!"share", b!"flamingo", b!"import"], b!"bob.fl", by unfold Bob.Plain; decide,
          by unfold Bob.Plain; decide, by decide, by decide⟩
      · exact ⟨⟨[b!"skeletons"], by simp, by unfold Bob.Plain; decide, Or.inl ⟨by decide, rfl⟩⟩, [b!"share", b!"bob"], b!"skeletons", by unfold Bob.Plain; decide,
          by unfold Bob.Plain; decide, by decide, by decide⟩
    · have : ∀ x ∈ tiEnts, ∀ y ∈ tiEnts, Bob.Apart x.src y.dst := by unfold Bob.Apart; decide +kernel
      exact this _ (hin x hx) _ (hin y hy)
    · have : tiEnts.Pairwise fun x y => Bob.Apart x.dst y.dst := by unfold Bob.Apart; decide +kernel
      have h2 : (timed times tiEnts).map (·.1) = tiEnts := rfl
      rw [← h2, List.pairwise_map] at this
      exact this
  other := by
    intro x hx ho w hw
    have hx : x.1 ∈ tiEnts := by
      simp only [timed, tiEnts, List.zipIdx_cons, List.zipIdx_nil, List.map_cons, List.map_nil, List.mem_cons, List.not_mem_nil, or_false] at hx ⊢
      rcases hx with rfl | rfl | rfl <;> simp
    rw [ti_outs] at ho
    have : ∀ x ∈ tiEnts, x.key ∉ [tiMain, tiFlamingo, tiProg] → ∀ w ∈ tiNames, Bob.Apart x.src (tiPath w) ∧ Bob.Apart x.dst (tiPath w) := by unfold Bob.Apart; decide +kernel
    exact this _ hx ho w (ti_known.1 hw)

theorem ti_ready {l : List (Path × Node)} (h1 : (tiTree l).Wf) (h2 : ∀ s ∈ tiNames, (tiTree l (tiPath s)).any Node.isDir = false)
    (h3 : ∀ w ∈ tiWrites, (tiTree l (tiPath w).dropLast).any Node.isDir = true)
    (h4 : ∀ o ∈ [tiMain, tiFlamingo], (tiTree l).fileAt tiEnv.cwd (depsPath o) = none) :
    Ready False tiEnv tiPath tiReqs (tiTree l) where
  wf := h1
  files := fun s hs => td_notDir (h2 s (ti_known.1 hs))
  dirs := fun w hw => td_isDir (h3 w (ti_writes hw))
  deps := by
    intro j hj text ht
    rcases ti_job hj with rfl | rfl
    · rw [h4 tiMain (by simp)] at ht; cases ht
    · rw [h4 tiFlamingo (by simp)] at ht; cases ht
  open_ := False.elim

theorem ti_dests : DestsApart tiEnv.flat tiReqs where
  managed := by
    intro o ho d hd o' ho'
    rw [ti_outs] at ho ho'
    have : ∀ o ∈ [tiMain, tiFlamingo, tiProg], (tiEnv.flat.dest o).all (fun d => ∀ o' ∈ [tiMain, tiFlamingo, tiProg], ¬ (d = o' ∨ d = depsPath o' ∨ d = flagsPath o' ∨ d = logPath o')) = true := by
      decide +kernel
    have := this o ho
    rw [hd] at this
    exact of_decide_eq_true this o' ho'
  inj := by
    intro o ho o' ho' d h h'
    rw [ti_outs] at ho ho'
    have : ∀ o ∈ [tiMain, tiFlamingo, tiProg], ∀ o' ∈ [tiMain, tiFlamingo, tiProg], tiEnv.flat.dest o ≠ none → tiEnv.flat.dest o = tiEnv.flat.dest o' → o = o' := by decide +kernel
    exact this o ho o' ho' (by rw [h]; simp) (h.trans h'.symm)

/-! ## Running it -/

/-- The schedule with one worker. -/
def tStep (e : TEnv) (tc : Toolchain) : TCfg → Option TCfg
  | .pooling tasks rest p =>
    match workStep (tTaskProg e tc tasks) p 0 with
    | some p' => some (.pooling tasks rest p')
    | none => if p.pc 0 = .done then some (tAfter rest (p.store, p.waitOk)) else none
  | cfg => tSeqNext e tc cfg

def tRun (e : TEnv) (tc : Toolchain) : Nat → TCfg → TCfg
  | 0, cfg => cfg
  | k + 1, cfg => match tStep e tc cfg with
    | some cfg' => tRun e tc k cfg'
    | none => cfg

theorem tStep_next {e : TEnv} {tc : Toolchain} {a b : TCfg} (h : tStep e tc a = some b) : TBuildNext e tc 1 a b := by
  unfold tStep at h
  split at h
  · rename_i tasks rest p
    split at h
    · rename_i p' hp
      injection h with h; subst h
      exact .pool (.work 0 (by omega) hp)
    · split at h
      · rename_i hd
        injection h with h; subst h
        refine .join ?_
        intro w hw
        have : w = 0 := by omega
        subst this; exact hd
      · cases h
  · exact .seq h

theorem tRun_reaches {e : TEnv} {tc : Toolchain} {reqs : List Req} {s : TStore} (k : Nat) (cfg : TCfg) (h : TBuildReaches e tc 1 reqs s cfg) : TBuildReaches e tc 1 reqs s (tRun e tc k cfg) := by
  induction k generalizing cfg with
  | zero => exact h
  | succ k ih =>
    simp only [tRun]
    cases hs : tStep e tc cfg with
    | none => exact h
    | some cfg' => exact ih cfg' (.tail h (tStep_next hs))

def _root_.Bob.TCfg.isDone : TCfg → Bool
  | .finished true _ => true
  | _ => false

theorem tRun_done {e : TEnv} {tc : Toolchain} {reqs : List Req} {s : TStore} {k : Nat} (h : Bob.TCfg.isDone (tRun e tc k (.idle reqs s)) = true) :
    TBuildReaches e tc 1 reqs s (.finished true (tRun e tc k (.idle reqs s)).store) := by
  have h2 := tRun_reaches (reqs := reqs) (s := s) k (.idle reqs s) (Steps.refl (R := TBuildNext e tc 1) _)
  generalize tRun e tc k (.idle reqs s) = c at h h2
  cases c with
  | finished ok s' =>
    cases ok with
    | true => exact h2
    | false => cases h
  | _ => cases h

/-- What is left after the build, after installing, and after the second build. -/
def ti1 (l : List (Path × Node)) : TStore := (tRun tiEnv tiTc 60 (.idle tiReqs (ti0 l))).store

def tiInst (l : List (Path × Node)) : AllRes := installAll (tiEnv.inst b!"/usr/local") (asEntries (timed (fun _ => 9) tiEnts)) (ti1 l).tree []

def _root_.Bob.AllRes.isOk : AllRes → Bool
  | .ok _ _ => true
  | _ => false

def tiAfter (l : List (Path × Node)) : Tree := match tiInst l with
  | .ok t _ => t
  | _ => fun _ => none

def ti2 (l : List (Path × Node)) : TStore := { tree := tiAfter l, now := 12, trace := [], buf := fun _ => [] }

def ti3 (l : List (Path × Node)) : TStore := (tRun { tiEnv with pre := none } tiTc 60 (.idle tiReqs (ti2 l))).store

/-- bob's own script asks for that. -/
theorem own_asks_there {w : World} {paths : List Bytes} {sg : Bool} {out : Bytes} {fs : FS} {ps : List Bytes} (hw : Shown w paths sg out fs ps) (pre : Option Bytes) :
    AsksFor w paths ownBuild pre (oneReqs sg out ownProj.flags ownProj.linkFlags (ownSources ps)) ⟨some (ownProj.map sg out (ownSources ps)), pre⟩ := by
  obtain ⟨ρ, h1, h2, -⟩ := own_means hw.list
  obtain ⟨st, N, k1, k2, -, k4⟩ := C72_script_means (A := [b!"install", b!"run"]) hw.only.ok (by decide +kernel) hw.bob h1
  obtain ⟨v', hv'⟩ := Option.isSome_iff_exists.1 (h1.knows (x := b!"__bob_has_been_imported__") rfl)
  rw [← hw.signed, ← hw.outPath]
  refine ⟨N, st, k1 N (Nat.le_refl N), congrArg some (lookup_any (k4 _ _ hv')), ?_, k2⟩
  unfold setupInstallMap
  rw [find_lookup (k4 _ _ h2)]
  rfl

theorem ti_shown : Shown (plainWorld selfSrc) bobPaths true b!"out" (fun p => if p ∈ selfSrc then some ⟨[], 1⟩ else none) selfSrc where
  signed := rfl
  outPath := rfl
  only := by
    refine ⟨bobWorld_only.file, fun path qs h => ?_, bobWorld_only.out⟩
    simp only [plainWorld] at h
    split at h
    · cases h; decide
    · cases h
  bob := by
    have : importPath (plainWorld selfSrc) false b!"bob.fl" bobPaths = importPath bobWorld false b!"bob.fl" bobPaths := rfl
    rw [this]
    have h : bobWorld.file (importPath bobWorld false b!"bob.fl" bobPaths) = .src bobFl := by
      have hp : importPath bobWorld false b!"bob.fl" bobPaths = b!"import/bob.fl" := by decide +kernel
      rw [hp]
      rfl
    exact h
  list := rfl
  nodup := by decide
  all := by
    intro p _ h
    by_contra hn
    rw [if_neg hn] at h
    cases h
  below := by decide

/-- The test is run, if its commands succeed. -/
theorem ti_test {l : List (Path × Node)} (h1 : Bob.TCfg.isDone (tRun tiEnv tiTc 60 (.idle tiReqs (ti0 l))) = true) (h2 : (tiInst l).isOk = true)
    (h3 : Bob.TCfg.isDone (tRun { tiEnv with pre := none } tiTc 60 (.idle tiReqs (ti2 l))) = true) :
    InstallTest tiEnv tiTc (plainWorld selfSrc) (plainWorld selfSrc) bobPaths bobPaths ownBuild 1 1 b!"/usr/local" (fun _ => 9) (ti0 l) (ti3 l) := by
  have ha : ∃ copied, tiInst l = .ok (tiAfter l) copied := by
    unfold tiAfter
    cases h : tiInst l with
    | ok t c => exact ⟨c, rfl⟩
    | _ => rw [h] at h2; cases h2
  obtain ⟨copied, ha⟩ := ha
  refine ⟨ti1 l, ti2 l, tiAfter l, ⟨rfl, tiReqs, _, copied, own_asks_there ti_shown _, rfl, tRun_done h1, ?_⟩, rfl, rfl, tiReqs, _, own_asks_there ti_shown _, rfl, tRun_done h3⟩
  rw [← ha]
  unfold tiInst
  rw [asEntries_timed]
  have hm : tiEnts.map (fun x => (x.key, x.val)) = ownProj.map true b!"out" (ownSources selfSrc) := by rw [ti_srcs]; rfl
  rw [hm]
  rfl

theorem ti_wf : (tiTree []).Wf := treeOf_wf (td_isDir (by decide +kernel)) (by decide +kernel)

/-- Instance: the test is run and passes. -/
example : InstallPasses [b!"usr", b!"local"] (ti3 []).tree := by
  refine C110_install_test_partial ti_shown ti_shown ti_placed (s := ti0 []) (ti_ready ti_wf (by decide +kernel) (by decide +kernel) (by decide +kernel)) ti_ord ti_dests (by decide)
    (ti_map (fun _ => 9)) ?_ ?_ ?_ (ti_test (by decide +kernel) (by decide +kernel) (by decide +kernel))
  · intro x hx c m hc
    have hx : x.1 ∈ tiEnts := by
      have hx := (List.mem_filter.mp hx).1
      simp only [timed, tiEnts, List.zipIdx_cons, List.zipIdx_nil, List.map_cons, List.map_nil, List.mem_cons, List.not_mem_nil, or_false] at hx ⊢
      rcases hx with rfl | rfl | rfl <;> simp
    have : ∀ x ∈ tiEnts, (tiTree [] x.dst).any Node.isDir = false := by decide +kernel
    exact td_notDir (this _ hx)
  · intro q hq
    have : q = [b!"p", b!"skeletons"] := denotes_unique hq ⟨[b!"skeletons"], by simp, by unfold Bob.Plain; decide, Or.inl ⟨by decide, rfl⟩⟩
    subst this
    exact ⟨td_isDir (by decide +kernel), by decide +kernel⟩
  · intro c m h
    have : tiTree [] ([b!"usr", b!"local"] ++ [b!"share", b!"bob", b!"skeletons"]) = none := by decide +kernel
    have h : tiTree [] ([b!"usr", b!"local"] ++ [b!"share", b!"bob", b!"skeletons"]) = _ := h
    rw [this] at h
    cases h

/-- A file where `skeletons` is to be installed, newer than `skeletons`. -/
def tiBad : List (Path × Node) := [([b!"usr", b!"local", b!"share"], .dir 1), ([b!"usr", b!"local", b!"share", b!"bob"], .dir 1), ([b!"usr", b!"local", b!"share", b!"bob", b!"skeletons"], .file b!"x" 4)]

/-- **C110**: that the commands in `tests/install.sh` succeed is not enough for the test to pass.  With a newer file where `skeletons` is to be installed, `bob install` succeeds and leaves it there. -/
theorem C110_install_test_false : ∃ (e : TEnv) (path : Bytes → Path) (tc : Toolchain) (w : World) (paths : List Bytes) (fs : FS) (ps : List Bytes) (pre : Bytes) (prePath : Path) (times : Nat → Nat) (es : List Ent)
    (s s2 : TStore), Shown w paths true b!"out" fs ps ∧ Placed e path tc (oneReqs true b!"out" ownProj.flags ownProj.linkFlags (ownSources ps)) ∧
    Ready False e path (oneReqs true b!"out" ownProj.flags ownProj.linkFlags (ownSources ps)) s.tree ∧
    TMapOk e path (oneReqs true b!"out" ownProj.flags ownProj.linkFlags (ownSources ps)) pre prePath (timed times es) ∧ (∀ q, Denotes e.cwd b!"skeletons" q → s.tree.IsDir q) ∧
    InstallTest e tc w w paths paths ownBuild 1 1 pre times s s2 ∧ ¬ InstallPasses prePath s2.tree := by
  refine ⟨tiEnv, tiPath, tiTc, plainWorld selfSrc, bobPaths, _, selfSrc, b!"/usr/local", [b!"usr", b!"local"], fun _ => 9, tiEnts, ti0 tiBad, ti3 tiBad, ti_shown, ti_placed,
    ti_ready (treeOf_wf (td_isDir (by decide +kernel)) (by decide +kernel)) (by decide +kernel) (by decide +kernel) (by decide +kernel), ti_map _, ?_,
    ti_test (by decide +kernel) (by decide +kernel) (by decide +kernel), fun h => ?_⟩
  · intro q hq
    have : q = [b!"p", b!"skeletons"] := denotes_unique hq ⟨[b!"skeletons"], by simp, by unfold Bob.Plain; decide, Or.inl ⟨by decide, rfl⟩⟩
    subst this
    exact td_isDir (by decide +kernel)
  · exact td_notDir (t := (ti3 tiBad).tree) (by decide +kernel) h.1

end Bob.Fl

namespace Bob

/-! ## The copy is the product -/

theorem td_fs : ((td0 []).flat tdEnv).fs = demoStore.fs := by
  funext p
  by_cases h : p ∈ tdNames
  · have : ∀ p ∈ tdNames, ((td0 []).flat tdEnv).fs p = demoStore.fs p := by decide +kernel
    exact this p h
  · have h1 : ((td0 []).flat tdEnv).fs p = if tdEnv.known p then (td0 []).tree.fileAt tdEnv.cwd p else none := rfl
    rw [h1, if_neg (by rw [td_known]; exact h)]
    have h2 : ∀ q ∈ [b!"a.c", b!"b.c", b!"h.h"], p ≠ q := fun q hq he => h (he ▸ by
      have : ∀ q ∈ [b!"a.c", b!"b.c", b!"h.h"], q ∈ tdNames := by decide +kernel
      exact this q hq)
    simp only [List.mem_cons, List.not_mem_nil, or_false, forall_eq_or_imp, forall_eq] at h2
    simp [demoStore, h2]

def tdEnts : List (Ent × Nat) := [(⟨outL, b!"bin/prog", tdPath outL, tdPath b!".bob/prefix/bin/prog"⟩, 9)]

theorem td_mapOk (F : List Bytes) : TMapOk tdEnv tdPath (demoReqs F) b!".bob/prefix" [b!"p", b!".bob", b!"prefix"] tdEnts where
  pre_ := rfl
  prePath_ := ⟨[b!".bob", b!"prefix"], by simp, by unfold Plain; decide, Or.inl ⟨by decide, rfl⟩⟩
  map := rfl
  keys := by simp [tdEnts]
  ents := by
    refine ⟨?_, ?_, by simp [tdEnts]⟩
    · intro x hx
      rw [List.mem_singleton.mp hx]
      exact ⟨(td_placed F).denotes outL (by decide +kernel), [b!"bin"], b!"prog", by unfold Plain; decide, by unfold Plain; decide, by decide, by decide +kernel⟩
    · intro x hx y hy
      rw [List.mem_singleton.mp hx, List.mem_singleton.mp hy]
      unfold Apart; decide +kernel
  other := by
    intro x hx ho
    rw [List.mem_singleton.mp hx] at ho
    exact (ho (by simp [demoReqs, outsOf, Req.outs])).elim

def td1 : TStore := (Fl.tRun tdEnv demoTc 60 (.idle (demoReqs flagO) (td0 []))).store

/-- Instance of `C110_exact_copies`: in a new checkout. -/
example : ∃ t' copied, installAll (tdEnv.inst b!".bob/prefix") (asEntries tdEnts) td1.tree [] = .ok t' copied ∧
    ∃ c m m', t' (tdPath outL) = some (.file c m) ∧ t' (tdPath b!".bob/prefix/bin/prog") = some (.file c m') := by
  have h : (installAll (tdEnv.inst b!".bob/prefix") (asEntries tdEnts) td1.tree []).isOk = true := by decide +kernel
  cases ha : installAll (tdEnv.inst b!".bob/prefix") (asEntries tdEnts) td1.tree [] with
  | ok t' copied =>
    refine ⟨t', copied, rfl, ?_⟩
    refine C110_exact_copies (td_placed flagO) (td_ready0 flagO) (by omega : 0 < 1) (td_mapOk flagO) ?_ demoDestOk (S := demoStore) (.start demoPristine ?_) ?_ ?_ demoLayoutOk'
      (demoReqsOk _ cleanO) (fun _ _ => Or.inl rfl) (Fl.tRun_done (by decide +kernel)) ha _ (List.mem_singleton.mpr rfl) ?_
    · intro x hx
      obtain ⟨h1, h2⟩ := List.mem_filter.mp hx
      rw [List.mem_singleton.mp h1] at h2
      simp [demoReqs, outsOf, Req.outs] at h2
    · intro o d _ h
      rw [demo_dest_eq h]; decide
    · exact ⟨by decide, fun p _ => Or.inl (by rw [td_fs]), fun o _ p _ => Or.inl (by rw [td_fs])⟩
    · exact fun o d _ _ => Or.inl (by rw [td_fs])
    · simp [demoReqs, outsOf, Req.outs]
  | _ => rw [ha] at h; cases h

end Bob
