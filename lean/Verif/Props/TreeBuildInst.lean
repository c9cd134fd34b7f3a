import Verif.Props.TreeBuild
import Verif.Props.Replay
/-!
# A sample for C109: two sources and a header, built and installed on a file system with directories
-/

namespace Bob

/-- The names in use. -/
def tdNames : List Bytes :=
  [b!"a.c", b!"b.c", b!"h.h", outA, depsPath outA, flagsPath outA, logPath outA, outB, depsPath outB, flagsPath outB, logPath outB, outL, flagsPath outL, logPath outL,
    b!".bob/prefix/bin/prog"]

def tdEnv : TEnv := { deny := noDeny, cwd := [b!"p"], absOut := b!"/p/.bob", pre := demoInst.pre, map := demoInst.map, known := fun s => tdNames.contains s }

def tdPath (s : Bytes) : Path := b!"p" :: strsepAll SLASH s

/-- The project, with an output directory and a prefix, and what there is in the prefix. -/
def tdTree (l : List (Path × Node)) : Tree := treeOf (l ++ [([], .dir 1), ([b!"p"], .dir 5), ([b!"p", b!"a.c"], .file b!"A" 1), ([b!"p", b!"b.c"], .file b!"B" 1), ([b!"p", b!"h.h"], .file b!"H" 1),
  ([b!"p", b!".bob"], .dir 5), ([b!"p", b!".bob", b!"bob"], .dir 5), ([b!"p", b!".bob", b!"prefix"], .dir 5)])

def td0 (l : List (Path × Node)) : TStore := { tree := tdTree l, now := 6, trace := [], buf := fun _ => [] }

theorem td_known {s : Bytes} : tdEnv.known s = true ↔ s ∈ tdNames := by simp [tdEnv]

theorem td_job {F : List Bytes} {j : CJob} (h : CJobIn (demoReqs F) j) : j = ⟨b!"a.c", outA, F⟩ ∨ j = ⟨b!"b.c", outB, F⟩ := by
  obtain ⟨jobs, h1, h2⟩ := h
  simp only [demoReqs, List.mem_cons, Req.compile.injEq, List.not_mem_nil, or_false, reduceCtorEq] at h1
  subst h1
  simpa using h2

theorem td_link {F : List Bytes} {j : LJob} (h : Req.link j ∈ demoReqs F) : j = ⟨false, [outA, outB], outL, []⟩ := by
  simpa [demoReqs] using h

theorem td_writes {F : List Bytes} {w : Bytes} (h : Writes (demoReqs F) w) :
    w ∈ [outA, depsPath outA, flagsPath outA, logPath outA, outB, depsPath outB, flagsPath outB, logPath outB, outL, flagsPath outL, logPath outL] := by
  rcases h with ⟨j, hj, h⟩ | ⟨j, hj, h⟩
  · rcases td_job hj with rfl | rfl <;> simp only [List.mem_cons, List.not_mem_nil, or_false] at h ⊢ <;> rcases h with h | h | h | h <;> simp [h]
  · rw [td_link hj] at h
    simp only [List.mem_cons, List.not_mem_nil, or_false] at h ⊢
    rcases h with h | h | h <;> simp [h]

theorem td_placed (F : List Bytes) : Placed tdEnv tdPath demoTc (demoReqs F) where
  denotes := by
    intro s hs
    have : ∀ s ∈ tdNames, strsepAll SLASH s ≠ [] ∧ (∀ c ∈ strsepAll SLASH s, Plain c) ∧ s = joinP (strsepAll SLASH s) := by unfold Plain; decide +kernel
    obtain ⟨h1, h2, h3⟩ := this s (td_known.1 hs)
    exact ⟨strsepAll SLASH s, h1, h2, Or.inl ⟨h3, rfl⟩⟩
  apart := by
    intro s s' h h'
    rw [td_known] at h h'
    revert s s'
    have : ∀ s ∈ tdNames, ∀ s' ∈ tdNames, tdPath s <+: tdPath s' → s = s' := by decide +kernel
    exact fun s s' h h' => this s h s' h'
  writes := by
    intro w hw
    have := td_writes hw
    rw [td_known]
    revert w
    have : ∀ w ∈ [outA, depsPath outA, flagsPath outA, logPath outA, outB, depsPath outB, flagsPath outB, logPath outB, outL, flagsPath outL, logPath outL], w ∈ tdNames := by decide +kernel
    exact fun w _ h => this w h
  srcs := by
    intro j hj
    rcases td_job hj with rfl | rfl <;> clear hj <;> dsimp only <;> decide +kernel
  linkSrcs := by
    intro j hj
    rw [td_link hj]
    decide +kernel
  tools := by
    intro t src F items h
    simp only [demoTc] at h
    split at h
    · rename_i hc
      injection h with h; subst h
      rw [hc.1]
      decide +kernel
    · split at h
      · rename_i hc
        injection h with h; subst h
        rw [hc.1]
        decide +kernel
      · cases h
  outs := by
    intro j hj o ho
    have ho : o ∈ [outA, outB, outL] := ho
    have : ∀ o ∈ [outA, outB, outL], o ≠ depsPath outA ∧ o ≠ depsPath outB := by decide +kernel
    rcases td_job hj with rfl | rfl
    · exact (this o ho).1
    · exact (this o ho).2
  dest := by
    intro o ho pre v hp hf
    simp only [tdEnv, demoInst, Option.some.injEq] at hp
    subst hp
    simp only [tdEnv, demoInst, List.find?] at hf
    split at hf
    · simp only [Option.some.injEq, Prod.mk.injEq] at hf
      obtain ⟨rfl, rfl⟩ := hf
      refine ⟨by decide +kernel, by decide +kernel, ?_, by decide +kernel, [b!"p", b!".bob", b!"prefix"], ?_, ?_, ?_⟩
      · intro j hj
        rcases td_job hj with rfl | rfl <;> clear hj <;> dsimp only <;> decide +kernel
      · exact ⟨[b!".bob", b!"prefix"], by simp, by unfold Plain; decide, Or.inl ⟨by decide, rfl⟩⟩
      · exact ⟨[b!".bob", b!"bob", b!"prog.l"], by simp, by unfold Plain; decide, Or.inl ⟨by decide, by decide +kernel⟩⟩
      · exact ⟨[b!"bin"], b!"prog", by unfold Plain; decide, by unfold Plain; decide, by decide, by decide +kernel⟩
    · cases hf

theorem td_notDir {t : Tree} {p : Path} (h : (t p).any Node.isDir = false) : ¬ t.IsDir p := by
  rintro ⟨m, hm⟩
  rw [hm] at h
  cases h

theorem td_isDir {t : Tree} {p : Path} (h : (t p).any Node.isDir = true) : t.IsDir p := by
  cases e : t p with
  | none => rw [e] at h; cases h
  | some n =>
    cases n with
    | dir m => exact ⟨m, e⟩
    | file c m => rw [e] at h; cases h

theorem td_ready {free : Prop} {l : List (Path × Node)} {F : List Bytes} (h1 : (tdTree l).Wf) (h2 : ∀ s ∈ tdNames, (tdTree l (tdPath s)).any Node.isDir = false)
    (h3 : ∀ w ∈ tdNames.drop 3 |>.take 11, (tdTree l (tdPath w).dropLast).any Node.isDir = true)
    (h4 : ∀ o ∈ [outA, outB], (tdTree l).fileAt tdEnv.cwd (depsPath o) = none) (h5 : free → Free tdEnv tdPath (tdTree l)) :
    Ready free tdEnv tdPath (demoReqs F) (tdTree l) where
  wf := h1
  files := fun s hs => td_notDir (h2 s (td_known.1 hs))
  dirs := fun w hw => td_isDir (h3 w (td_writes hw))
  deps := by
    intro j hj text ht
    rcases td_job hj with rfl | rfl
    · rw [h4 outA (by simp)] at ht; cases ht
    · rw [h4 outB (by simp)] at ht; cases ht
  open_ := h5

theorem td_free : Free tdEnv tdPath (tdTree []) where
  mkdir := fun _ => rfl
  copy := fun _ _ => rfl
  prefix_ := by
    intro pre p hp hd
    cases hp
    have e : Denotes tdEnv.cwd b!".bob/prefix" [b!"p", b!".bob", b!"prefix"] := ⟨[b!".bob", b!"prefix"], by simp, by unfold Plain; decide, Or.inl ⟨by decide, rfl⟩⟩
    have : p = [b!"p", b!".bob", b!"prefix"] := by
      have hw : (tdTree []).Wf := treeOf_wf (td_isDir (by decide +kernel)) (by decide +kernel)
      exact (((resolve_denotes hw hd).1 _ ((resolve_denotes hw e).2 (td_isDir (by decide +kernel)))).1).symm
    subst this
    exact td_isDir (by decide +kernel)
  above := by
    intro s hs q hq hne c m
    have : ∀ s ∈ tdNames, ∀ k ∈ List.range (tdPath s).length, (tdTree [] ((tdPath s).take k)).all Node.isDir = true := by decide +kernel
    intro h
    have hk : q.length < (tdPath s).length := Nat.lt_of_le_of_ne hq.length_le fun hl => hne (hq.eq_of_length hl)
    have := this s (td_known.1 hs) q.length (List.mem_range.2 hk)
    rw [← List.prefix_iff_eq_take.1 hq] at this
    rw [h] at this
    cases this

theorem td_wf : (tdTree []).Wf := treeOf_wf (td_isDir (by decide +kernel)) (by decide +kernel)

theorem td_ready0 (F : List Bytes) : Ready True tdEnv tdPath (demoReqs F) (td0 []).tree :=
  td_ready td_wf (by decide +kernel) (by decide +kernel) (by decide +kernel) fun _ => td_free

/-- The program is built and installed, and the directory for it is made. -/
example : ∃ s', TBuildReaches tdEnv demoTc 1 (demoReqs flagO) (td0 []) (.finished true s') ∧ s'.tree [b!"p", b!".bob", b!"prefix", b!"bin", b!"prog"] = some (.file b!"AH-OB-O" 6) ∧
    s'.tree.IsDir [b!"p", b!".bob", b!"prefix", b!"bin"] := by
  have h : BuildReaches demoTc tdEnv.flat 1 (demoReqs flagO) ((td0 []).flat tdEnv) (.finished true (autoBuild demoTc tdEnv.flat (demoReqs flagO) ((td0 []).flat tdEnv)).store) :=
    autoBuild_reaches (by decide +kernel)
  have hf : (autoBuild demoTc tdEnv.flat (demoReqs flagO) ((td0 []).flat tdEnv)).store.fs b!".bob/prefix/bin/prog" = some ⟨b!"AH-OB-O", 6⟩ := by decide +kernel
  obtain ⟨cfg, h1, h2⟩ := C109_complete (td_placed flagO) (td_ready0 flagO) h
  cases cfg with
  | finished ok s' =>
    injection h2 with h2 h3
    subst h2
    rw [← h3] at hf
    have hk : tdEnv.known b!".bob/prefix/bin/prog" = true := by decide +kernel
    have hw := (C109_succeeds (td_placed flagO) (td_ready0 flagO) h1).1.wf
    have hf : (if tdEnv.known b!".bob/prefix/bin/prog" then s'.tree.fileAt tdEnv.cwd b!".bob/prefix/bin/prog" else none) = some ⟨b!"AH-OB-O", 6⟩ := hf
    rw [if_pos hk] at hf
    unfold Tree.fileAt at hf
    split at hf
    · rename_i p c m hs
      cases hf
      obtain ⟨e1, e2⟩ := (stat_denotes hw ((td_placed flagO).denotes _ hk)).1 _ _ hs
      have e3 : tdPath b!".bob/prefix/bin/prog" = [b!"p", b!".bob", b!"prefix", b!"bin"] ++ [b!"prog"] := by decide +kernel
      rw [e3] at e2
      exact ⟨s', h1, e2, hw.parent _ _ (by rw [e2]; simp)⟩
    · cases hf
  | _ => cases h2

/-! ## Something in the way -/

theorem outsOf_mono {reqs reqs' : List Req} (h : ∀ r ∈ reqs', r ∈ reqs) {o : Bytes} (ho : o ∈ outsOf reqs') : o ∈ outsOf reqs := by
  unfold outsOf at ho ⊢
  rw [List.mem_flatMap] at ho ⊢
  obtain ⟨r, hr, h1⟩ := ho
  exact ⟨r, h r hr, h1⟩

theorem Placed.mono {e : TEnv} {path : Bytes → Path} {tc : Toolchain} {reqs reqs' : List Req} (hP : Placed e path tc reqs) (h : ∀ r ∈ reqs', r ∈ reqs) : Placed e path tc reqs' := by
  have hc : ∀ j, CJobIn reqs' j → CJobIn reqs j := fun j ⟨jobs, h1, h2⟩ => ⟨jobs, h _ h1, h2⟩
  exact {
    denotes := hP.denotes
    apart := hP.apart
    writes := fun w hw => hP.writes w (hw.imp (fun ⟨j, h1, h2⟩ => ⟨j, hc j h1, h2⟩) fun ⟨j, h1, h2⟩ => ⟨j, h _ h1, h2⟩)
    srcs := fun j hj => hP.srcs j (hc j hj)
    linkSrcs := fun j hj => hP.linkSrcs j (h _ hj)
    tools := hP.tools
    outs := fun j hj o ho => hP.outs j (hc j hj) o (outsOf_mono h ho)
    dest := fun o ho pre v h1 h2 => by
      obtain ⟨a, b, c, d⟩ := hP.dest o (outsOf_mono h ho) pre v h1 h2
      exact ⟨a, b, fun j hj => c j (hc j hj), d⟩ }

/-- Following the main thread. -/
def tAuto (e : TEnv) (tc : Toolchain) : Nat → TCfg → TCfg
  | 0, a => a
  | k + 1, a => match tSeqNext e tc a with
    | some b => tAuto e tc k b
    | none => a

theorem tAuto_reaches {e : TEnv} {tc : Toolchain} {n : Nat} {reqs : List Req} {s : TStore} (k : Nat) (a : TCfg) (h : TBuildReaches e tc n reqs s a) :
    TBuildReaches e tc n reqs s (tAuto e tc k a) := by
  induction k generalizing a with
  | zero => exact h
  | succ k ih =>
    simp only [tAuto]
    split
    · rename_i b hb
      exact ih b (.tail h (.seq hb))
    · exact h

def tdLink : List Req := [.link ⟨false, [outA, outB], outL, []⟩]

/-- The objects, and a file where a directory has to be made. -/
def tdInWay : List (Path × Node) :=
  [([b!"p", b!".bob", b!"bob", b!"a.o"], .file b!"AH" 5), ([b!"p", b!".bob", b!"bob", b!"b.o"], .file b!"B" 5), ([b!"p", b!".bob", b!"prefix", b!"bin"], .file b!"x" 5)]

def TCfg.isFailed : TCfg → Bool
  | .finished false _ => true
  | _ => false

/-- **C109** is not true without the exception: with a file in the prefix where a directory has to be made, the build fails, and the one without directories succeeds. -/
theorem C109_in_the_way_false : ∃ (e : TEnv) (path : Bytes → Path) (tc : Toolchain) (reqs : List Req) (s : TStore), Placed e path tc reqs ∧ Ready False e path reqs s.tree ∧
    (∃ s', TBuildReaches e tc 1 reqs s (.finished false s')) ∧ ∃ S, BuildReaches tc e.flat 1 reqs (s.flat e) (.finished true S) := by
  refine ⟨tdEnv, tdPath, demoTc, tdLink, td0 tdInWay, (td_placed []).mono (by simp [tdLink, demoReqs]), ?_, ?_, _, autoBuild_reaches (by decide +kernel)⟩
  · have h : Ready False tdEnv tdPath (demoReqs []) (td0 tdInWay).tree :=
      td_ready (treeOf_wf (td_isDir (by decide +kernel)) (by decide +kernel)) (by decide +kernel) (by decide +kernel) (by decide +kernel) False.elim
    refine ⟨h.wf, h.files, fun w hw => h.dirs w ?_, ?_, False.elim⟩
    · rcases hw with ⟨j, ⟨jobs, h1, -⟩, -⟩ | ⟨j, h1, h2⟩
      · simp [tdLink] at h1
      · exact Or.inr ⟨j, by simpa [tdLink, demoReqs] using h1, h2⟩
    · rintro j ⟨jobs, h1, -⟩
      simp [tdLink] at h1
  · have h : (tAuto tdEnv demoTc 10 (.idle tdLink (td0 tdInWay))).isFailed = true := by decide +kernel
    have h2 := tAuto_reaches (n := 1) 10 _ (Steps.refl (R := TBuildNext tdEnv demoTc 1) (TCfg.idle tdLink (td0 tdInWay)))
    generalize tAuto tdEnv demoTc 10 (.idle tdLink (td0 tdInWay)) = c at h h2
    cases c with
    | finished ok s' =>
      cases ok with
      | false => exact ⟨s', h2⟩
      | true => cases h
    | _ => cases h

end Bob
