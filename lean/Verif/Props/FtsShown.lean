import Verif.Props.Fts
import Verif.Props.FlTexts
/-!
# C106: what scripts see of a disk
-/

namespace Bob.Fl
open Bob.Fts

/-- Scripts see that disk: `Fs.list` walks over it.  `at_` tells what paths stand for. -/
def OnDisk (w : World) (T : Disk) (at_ : Bytes → Target) : Prop := ∀ p, w.list p = (listPath T none p (at_ p)).map (·.1)

/-- The files of a build below a directory are on the disk. -/
def Holds (T : Disk) (t : Target) (root : Bytes) (fs : FS) : Prop := ∀ p, root ++ b!"/" <+: p → (fs p).isSome → ∃ ns i, T.Path t ns (.to i) ∧ p = below root ns

theorem below_prefix {root : Bytes} (h : root.getLast? ≠ some SLASH) (ns : List Bytes) : below root ns = root ∨ root ++ b!"/" <+: below root ns := by
  cases ns with
  | nil => exact .inl rfl
  | cons n ns =>
    refine .inr ?_
    simp only [below]
    rw [if_neg h, List.append_assoc]
    exact List.prefix_append _ _

theorem nul_below {root : Bytes} (h : NUL ∉ root) {ns : List Bytes} (hn : NamesOk ns) : NUL ∉ below root ns := by
  cases ns with
  | nil => exact h
  | cons n ns =>
    simp only [below, List.mem_append, List.mem_flatMap, List.mem_cons, not_or, not_exists, not_and]
    refine ⟨⟨?_, (hn n (by simp)).2.2⟩, fun x hx => ⟨by decide, (hn x (List.mem_cons_of_mem _ hx)).2.2⟩⟩
    split
    · exact h
    · simp only [List.mem_append, not_or]
      exact ⟨h, by decide⟩

theorem cstr_nul (s : Bytes) : NUL ∉ cstr s := by
  induction s with
  | nil => exact fun h => nomatch h
  | cons c s ih =>
    unfold cstr
    split
    · exact fun h => nomatch h
    · rename_i hc
      simp only [List.mem_cons, not_or]
      exact ⟨fun h => hc h.symm, ih⟩

theorem onDisk_names {w : World} {T : Disk} {at_ : Bytes → Target} (hT : T.Proper) (h : OnDisk w T at_) : ∀ path ps, w.list path = some ps → ∀ p ∈ ps, NUL ∉ p := by
  intro path ps hps p hp
  rw [h path, Option.map_eq_some_iff] at hps
  obtain ⟨⟨ps', log⟩, h1, rfl⟩ := hps
  have hc := cstr_nul path
  have e : listPath T none path (at_ path) = listPath T none (cstr path) (at_ path) := by
    simp only [listPath]
    rw [cstr_eq_self hc]
  have h0 : cstr path ≠ [] := by
    intro h
    simp only [listPath, h, if_true] at h1
    cases h1
  obtain ⟨ps2, log2, h2, -, h3, -⟩ := C106_lists hT (t := at_ path) hc h0
  rw [e, h2] at h1
  cases h1
  obtain ⟨ns, i, hs, rfl⟩ := (h3 p).1 hp
  exact nul_below hc (hs.path.names hT)

/-- **C106, for scripts.** A script that runs where a disk without loops holds the files of the build sees them as C75 and C101 need: everything below `src` is listed, once. -/
theorem C106_shown {w : World} {paths : List Bytes} {T : Disk} {at_ : Bytes → Target} {fs : FS} (hT : T.Proper) (ha : T.Acyclic) (hw : OnDisk w T at_) (hh : Holds T (at_ b!"src") b!"src" fs)
    (only : ∀ path p, w.file path = .src p → ReadAs bobText p) (outName : NUL ∉ w.outPath) (bob : ∃ p, w.file (importPath w false b!"bob.fl" paths) = .src p) :
    ∃ ps, ShownText w paths w.signed w.outPath fs ps ∧ ∀ p, p ∈ ps ↔ ∃ ns i, T.Path (at_ b!"src") ns (.to i) ∧ p = below b!"src" ns := by
  obtain ⟨ps, log, h1, h2, -, -⟩ := C106_lists hT (arg := b!"src") (t := at_ b!"src") (by decide) (by decide)
  have h3 := C106_acyclic hT ha (by decide) (by decide) h1
  refine ⟨ps, ⟨rfl, rfl, only, onDisk_names hT hw, outName, bob, by rw [hw, h1]; rfl, h2, fun p hp hs => (h3 p).2 (hh p hp hs), fun p hp => ?_⟩, h3⟩
  obtain ⟨ns, i, -, rfl⟩ := (h3 p).1 hp
  exact below_prefix (by decide) ns

/-- **C106, with C101.** The C skeleton on a disk: if `bob build` succeeds, the program is linked from the objects of just the C files that are on the disk below `src`. -/
theorem C106_skeleton {tc : Toolchain} {P : Plan} {w : World} {paths : List Bytes} {pre : Option Bytes} {bad : Bytes → Bool} {n : Nat} {T : Disk} {at_ : Bytes → Target}
    (hT : T.Proper) (ha : T.Acyclic) (hd : OnDisk w T at_) (only : ∀ path p, w.file path = .src p → ReadAs bobText p) (outName : NUL ∉ w.outPath)
    (bob : ∃ p, w.file (importPath w false b!"bob.fl" paths) = .src p) (hP : P.Ok w.signed w.outPath) (hTc : ToolOk tc (P.layout w.signed w.outPath))
    {s s1 s2 : Store} (h : LifeText tc skeletonProj skeletonText P w.signed w.outPath s) (he : Edit (P.layout w.signed w.outPath) s s1) (hh : Holds T (at_ b!"src") b!"src" s1.fs)
    (hl : ∀ ps, w.list b!"src" = some ps → P.lists (skeletonProj.sources ps) ∧ PlaceOk P w.outPath ⟨pre, skeletonProj.map w.signed w.outPath (skeletonProj.sources ps), bad⟩)
    (hn : 0 < n) (hb : BobBuildText tc w paths skeletonText pre bad n s1 (.finished true s2)) :
    ∃ qs : List Bytes, qs.Nodup ∧ (∀ p, p ∈ qs ↔ b!".c" <:+ p ∧ ∃ ns i, T.Path (at_ b!"src") ns (.to i) ∧ p = below b!"src" ns) ∧
      Linked tc s2.fs [b!"-std=c99", b!"-Wall", b!"-Wextra", b!"-Werror"] [] qs (linkCookie w.signed w.outPath false (qs.map fun p => genCookie w.signed w.outPath p b!"o")) := by
  obtain ⟨ps, hw, hps⟩ := C106_shown (paths := paths) hT ha hd hh only outName bob
  obtain ⟨hl1, hl2⟩ := hl ps hw.list
  obtain ⟨h1, -⟩ := C75_program_right skeleton_right hP hTc (h.life skeletonProj_reads) he hw.shown hl1 hl2 hn ((C101_build_from_text hw skeletonProj_reads).1 hb)
  refine ⟨skeletonProj.sources ps, hw.nodup.filter _, fun p => ?_, h1⟩
  rw [show skeletonProj.sources ps = ps.filter b!".c".isSuffixOf from rfl, List.mem_filter, hps p, isSuffix_iff]
  exact ⟨fun h => ⟨h.2, h.1⟩, fun h => ⟨h.2, h.1⟩⟩

/-- **C106, what is not there.** In a project made from the C skeleton whose `src` is not there, or is a link to nothing, the script does not fail: bob goes on and links a program from nothing. -/
theorem C106_no_sources {w : World} {T : Disk} {at_ : Bytes → Target} (hd : OnDisk w T at_) (hW : w.OnlyBob) {paths : List Bytes}
    (hb : w.file (importPath w false b!"bob.fl" paths) = .src bobFl) (hs : at_ b!"src" = .unknown ∨ at_ b!"src" = .broken) :
    ∃ s N, (∀ n, N ≤ n → runScript w n paths skeletonBuild = .ok () s) ∧
      s.requests = some [.compile [], .link { archive := false, srcs := [], out := linkCookie w.signed w.outPath false [], flags := [] }] := by
  have hl : w.list b!"src" = some [] := by
    rw [hd, listPath_eq (by decide) (by decide)]
    rcases hs with hs | hs <;> rw [hs]
    · rw [found_unknown]; rfl
    · rw [found_broken]; rfl
  obtain ⟨s, N, h1, -, h2, -⟩ := C72_skeleton_build hW hb hl
  exact ⟨s, N, h1, h2⟩

/-! ## A sample -/

/-- `src` with a file and a directory that holds a file. -/
def treeDisk : Disk where
  node i := if i = 0 then .dir (some [(b!"main.c", .to 2), (b!"lib", .to 1)]) else if i = 1 then .dir (some [(b!"a.c", .to 3)]) else .file
  dirs := [0, 1]
  listed i es h := by
    by_cases h0 : i = 0
    · simp [h0]
    by_cases h1 : i = 1
    · simp [h1]
    simp [h0, h1] at h

theorem treeDisk_proper : treeDisk.Proper := by
  intro i es h
  simp only [treeDisk] at h
  split at h
  · cases h; decide
  split at h
  · cases h; decide
  · cases h

theorem treeDisk_acyclic : treeDisk.Acyclic := by
  refine ⟨fun i => if i = 0 then 2 else if i = 1 then 1 else 0, fun i es h e he j hj => ?_⟩
  simp only [treeDisk] at h
  split at h
  · cases h
    simp only [List.mem_cons, List.not_mem_nil, or_false] at he
    rcases he with rfl | rfl <;> cases hj <;> subst i <;> decide
  split at h
  · cases h
    simp only [List.mem_cons, List.not_mem_nil, or_false] at he
    subst he
    cases hj
    subst i
    decide
  · cases h

def treeAt (p : Bytes) : Target := if p = b!"src" then .to 0 else .unknown

/-- A world that sees it. -/
def treeWorld (w : World) : World := { w with list := fun p => (listPath treeDisk none p (treeAt p)).map (·.1) }

example (w : World) : OnDisk (treeWorld w) treeDisk treeAt := fun _ => rfl

example (f : File) : Holds treeDisk (treeAt b!"src") b!"src" (fun p => if p = b!"src/main.c" ∨ p = b!"src/lib/a.c" then some f else none) := by
  intro p _ h
  beta_reduce at h
  split at h
  · rename_i hp
    rcases hp with rfl | rfl
    · exact ⟨[b!"main.c"], 2, .down (i := 0) rfl (by simp) (.here _), by decide⟩
    · exact ⟨[b!"lib", b!"a.c"], 3, .down (i := 0) rfl (by simp) (.down (i := 1) (t := .to 3) rfl (by simp) (.here _)), by decide⟩
  · cases h

example (w : World) : (treeWorld w).list b!"src" = some [b!"src", b!"src/main.c", b!"src/lib", b!"src/lib/a.c"] := by
  show (listPath treeDisk none b!"src" (treeAt b!"src")).map (·.1) = _
  decide +kernel

end Bob.Fl
