import Verif.Props.Archive
import Verif.Props.Cookie
/-!
# Cases for C108: a library of two objects
-/

namespace Bob

/-! ## A format -/

def encStr : Bytes → Bytes → Bytes
  | [], t => 0 :: t
  | b :: bs, t => 1 :: b :: encStr bs t

def decStr : Bytes → Option (Bytes × Bytes)
  | [] => none
  | [x] => if x = 0 then some ([], []) else none
  | x :: b :: t => if x = 0 then some ([], b :: t) else (decStr t).map fun r => (b :: r.1, r.2)

def encMembers : List (Bytes × Bytes) → Bytes
  | [] => []
  | m :: ms => encStr m.1 (encStr m.2 (encMembers ms))

def decMembers : Nat → Bytes → Option (List (Bytes × Bytes))
  | 0, _ => none
  | n + 1, t => if t = [] then some [] else
    (decStr t).bind fun r => (decStr r.2).bind fun r' => (decMembers n r'.2).map fun ms => (r.1, r'.1) :: ms

theorem decStr_enc (s t : Bytes) : decStr (encStr s t) = some (s, t) := by
  induction s with
  | nil => cases t <;> rfl
  | cons b s ih => simp [encStr, decStr, ih]

theorem encStr_length (s t : Bytes) : t.length < (encStr s t).length := by
  induction s with
  | nil => simp [encStr]
  | cons b s ih => simp only [encStr, List.length_cons]; omega

theorem decMembers_enc (ms : List (Bytes × Bytes)) : ∀ n, (encMembers ms).length < n → decMembers n (encMembers ms) = some ms := by
  induction ms with
  | nil =>
    intro n hn
    cases n with
    | zero => omega
    | succ n => rfl
  | cons m ms ih =>
    intro n hn
    cases n with
    | zero => omega
    | succ n =>
      have h1 := encStr_length m.1 (encStr m.2 (encMembers ms))
      have h2 := encStr_length m.2 (encMembers ms)
      simp only [encMembers] at hn ⊢
      have hne : encStr m.1 (encStr m.2 (encMembers ms)) ≠ [] := by
        intro h
        rw [h] at h1
        simp at h1
      simp only [decMembers, if_neg hne, decStr_enc, Option.bind_some]
      rw [ih n (by omega)]
      rfl

def demoFmt : ArFormat where
  enc := encMembers
  dec t := decMembers (t.length + 1) t
  dec_enc ms := decMembers_enc ms _ (Nat.lt_succ_self _)

/-! ## The library -/

def demoArch : List Bytes → Bytes := linkCookie true b!".bob" true

def outAr : Bytes := demoArch [outA, outB]

def arL : Layout where
  user p := p ∈ [b!"a.c", b!"b.c", b!"h.h"]
  isOut p := p ∈ [outA, outB, outAr]
  kind p := if p = outA then .compile b!"a.c" else if p = outB then .compile b!"b.c" else .link true [outA, outB]


def arTc : Toolchain := demoTc.withAr demoFmt demoArch

/-- The objects, and an archive of some files. -/
def arReqs (srcs F : List Bytes) : List Req := [.compile [⟨b!"a.c", outA, flagO⟩, ⟨b!"b.c", outB, flagO⟩], .link ⟨true, srcs, outAr, F⟩]

theorem outAr_eq : outAr = b!".bob/bob/linker.archive.cookie.3c43.a" := by decide +kernel

theorem arLayoutOk : LayoutOk arL noInst where
  ext := by
    intro o ho
    simp only [arL, List.mem_cons, List.not_mem_nil, or_false] at ho
    rcases ho with rfl | rfl | rfl
    · exact ⟨b!".bob/bob/a", 111, by decide, by decide⟩
    · exact ⟨b!".bob/bob/b", 111, by decide, by decide⟩
    · exact ⟨b!".bob/bob/linker.archive.cookie.3c43", 97, by decide, outAr_eq⟩
  linkSrcs := by
    intro o a srcs ho hk p hp
    simp only [arL] at hk
    split at hk
    · cases hk
    · split at hk
      · cases hk
      · injection hk with _ h
        subst h
        right
        simp only [arL, List.mem_cons, List.not_mem_nil, or_false] at hp ⊢
        rcases hp with rfl | rfl <;> simp
  outNotUser := by
    intro o p ho hp hu
    simp only [arL, List.mem_cons, List.not_mem_nil, or_false] at ho hu
    rw [outAr_eq] at ho
    rcases ho with rfl | rfl | rfl <;> rcases hu with rfl | rfl | rfl <;> revert hp <;> decide
  destNotUser := by intro o d h; cases h
  destNotManaged := by intro o d h; cases h

theorem arToolOk : ToolOk demoTc arL :=
  ⟨demoToolOk.depsOk, demoToolOk.depsLaw, demoToolOk.objDeps, demoToolOk.linkLaw, demoToolOk.linkExists⟩

theorem arArchOk : ArchOk arL demoArch := by
  intro o srcs ho hk
  simp only [arL, List.mem_cons, List.not_mem_nil, or_false] at ho hk
  rcases ho with rfl | rfl | rfl
  · cases hk
  · cases hk
  · have : srcs = [outA, outB] := by
      split at hk
      · cases hk
      · split at hk
        · cases hk
        · injection hk with _ h; exact h.symm
    rw [this]
    rfl

theorem arReqsOk : ReqsOk arL (arReqs [outA, outB] []) where
  jobs := by
    intro r hr
    simp only [arReqs, List.mem_cons, List.not_mem_nil, or_false] at hr
    rcases hr with rfl | rfl
    · intro j hj
      simp only [List.mem_cons, List.not_mem_nil, or_false] at hj
      rcases hj with rfl | rfl
      · exact ⟨by simp [arL], rfl, by simp [arL], cleanO⟩
      · exact ⟨by simp [arL], rfl, by simp [arL], cleanO⟩
    · refine ⟨by simp [arL], ?_, by simp [arL], by simp⟩
      have h1 : outAr ≠ outA := by rw [outAr_eq]; decide
      have h2 : outAr ≠ outB := by rw [outAr_eq]; decide
      simp [arL, h1, h2]
  nodup := by
    have : outsOf (arReqs [outA, outB] []) = [outA, outB, outAr] := rfl
    rw [this, outAr_eq]; decide
  ordered := by
    intro pre j post h p hp
    match pre, h with
    | [], h => simp [arReqs] at h
    | [_], h =>
      simp only [arReqs, List.cons_append, List.nil_append, List.cons.injEq, Req.link.injEq] at h
      obtain ⟨_, rfl, rfl⟩ := h
      simp only [outsOf, List.flatMap_cons, List.flatMap_nil, Req.outs, List.append_nil, List.mem_singleton]
      simp only [List.mem_cons, List.not_mem_nil, or_false] at hp
      rw [outAr_eq]
      rcases hp with rfl | rfl <;> decide
    | [_, _], h => simp [arReqs] at h
    | _ :: _ :: _ :: _, h => simp [arReqs] at h

theorem arPlain : PlainArchives (arReqs [outA, outB] []) := by
  intro j hj _
  simp only [arReqs, List.mem_cons, List.not_mem_nil, or_false, reduceCtorEq, false_or, Req.link.injEq] at hj
  rw [hj]

theorem arPristine : Pristine arL demoStore where
  user := demoPristine.user
  managed := by
    intro o ho p hp
    simp only [arL, List.mem_cons, List.not_mem_nil, or_false] at ho
    rw [outAr_eq] at ho
    have : p ≠ b!"a.c" ∧ p ≠ b!"b.c" ∧ p ≠ b!"h.h" := by
      unfold Managed at hp
      rcases ho with rfl | rfl | rfl <;> rcases hp with rfl | rfl | rfl | rfl <;> decide
    simp [demoStore, this]

def ar1 : Store := (autoBuild arTc noInst (arReqs [outA, outB] []) (demoStore.later 1)).store
def ar2 : Store := (ar1.later 1).write b!"h.h" b!"K"
def ar3 : Store := (autoBuild arTc noInst (arReqs [outA, outB] []) ar2).store

theorem ar1_hist : ArHist arTc arL true ar1 :=
  .built (cfg := autoBuild arTc noInst (arReqs [outA, outB] []) (demoStore.later 1)) (.start arPristine) (edit_later _ 1 (by omega)) arLayoutOk arReqsOk arPlain (by omega : 0 < 1)
    (autoRun_reaches 100 _ (.refl _))

/-- The library is built, a header is edited, and it is built again: the hypotheses of `C108_archives_present` hold, and the archive has the new object where the old one was. -/
theorem C108_sample : (∃ ms, ar3.fs.members [outA, outB] = some ms ∧ ar3.fs.content outAr = some (demoFmt.enc ms)) ∧
    ar1.fs.content outAr = some (demoFmt.enc [(b!"a.o", b!"AH-O"), (b!"b.o", b!"B-O")]) ∧ ar3.fs.content outAr = some (demoFmt.enc [(b!"a.o", b!"AK-O"), (b!"b.o", b!"B-O")]) :=
  ⟨C108_archives_present arArchOk arToolOk ar1_hist (edit_write arLayoutOk _ 1 (by omega) _ _ (by simp [arL])) arLayoutOk arReqsOk arPlain (by omega)
    (autoBuild_reaches (c := noInst) (by decide +kernel)) ⟨true, [outA, outB], outAr, []⟩ (by simp [arReqs]) rfl, by decide +kernel, by decide +kernel⟩

/-! ## What stays -/

/-- A checkout with an object of others. -/
def withExtra : Store := demoStore.write b!"lib/x.o" b!"X"

/-- **C108 is false** for archives that are asked for with flags: these are files for `ar`, and the one taken out of the flags stays a member.  (The change of flags is noticed, so the archive is
made again.) -/
theorem C108_flags_false : ∃ s s1 s2, Pristine arL s ∧ BuildReaches arTc noInst 1 (arReqs [outA, outB] [b!"lib/x.o"]) s (.finished true s1) ∧
    BuildReaches arTc noInst 1 (arReqs [outA, outB] []) (s1.later 1) (.finished true s2) ∧
    s2.fs.content outAr = some (demoFmt.enc [(b!"a.o", b!"AH-O"), (b!"b.o", b!"B-O"), (b!"x.o", b!"X")]) ∧
    .linked outAr [outA, outB] [] ∈ s2.trace := by
  refine ⟨withExtra, (autoBuild arTc noInst (arReqs [outA, outB] [b!"lib/x.o"]) withExtra).store,
    (autoBuild arTc noInst (arReqs [outA, outB] []) ((autoBuild arTc noInst (arReqs [outA, outB] [b!"lib/x.o"]) withExtra).store.later 1)).store, ⟨?_, ?_⟩,
    autoBuild_reaches (by decide +kernel), autoBuild_reaches (by decide +kernel), by decide +kernel, by decide +kernel⟩
  · intro p hp f hf
    refine arPristine.user p hp f ?_
    have : p ≠ b!"lib/x.o" := by
      rintro rfl
      revert hp
      show ¬ (_ ∈ _)
      decide
    simpa [withExtra, Store.write, FS.set, this] using hf
  · intro o ho p hp
    have : p ≠ b!"lib/x.o" := by
      rintro rfl
      simp only [arL, List.mem_cons, List.not_mem_nil, or_false] at ho
      rw [outAr_eq] at ho
      revert hp
      rcases ho with rfl | rfl | rfl <;> decide
    have h := arPristine.managed o ho p hp
    simpa [withExtra, Store.write, FS.set, this] using h

/-- **C108 is false** for lists of files that have the same archive, which are those in which files are given twice (C13): a file that is no longer given stays a member, twice, when the archive
is made again. -/
theorem C108_given_twice_false : demoArch [outA, outB, b!"lib/x.o", b!"lib/x.o"] = outAr ∧
    ∃ s s1 s2 s3, BuildReaches arTc noInst 1 (arReqs [outA, outB, b!"lib/x.o", b!"lib/x.o"] []) s (.finished true s1) ∧ Edit arL s1 s2 ∧
      BuildReaches arTc noInst 1 (arReqs [outA, outB] []) s2 (.finished true s3) ∧
      s3.fs.content outAr = some (demoFmt.enc [(b!"a.o", b!"AK-O"), (b!"b.o", b!"B-O"), (b!"x.o", b!"X"), (b!"x.o", b!"X")]) := by
  refine ⟨by decide +kernel, withExtra, (autoBuild arTc noInst (arReqs [outA, outB, b!"lib/x.o", b!"lib/x.o"] []) withExtra).store, _,
    (autoBuild arTc noInst (arReqs [outA, outB] []) (((autoBuild arTc noInst (arReqs [outA, outB, b!"lib/x.o", b!"lib/x.o"] []) withExtra).store.later 1).write b!"h.h" b!"K")).store,
    autoBuild_reaches (by decide +kernel), edit_write arLayoutOk _ 1 (by omega) b!"h.h" b!"K" (by simp [arL]), autoBuild_reaches (by decide +kernel), by decide +kernel⟩

end Bob
