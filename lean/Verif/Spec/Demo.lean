import Verif.Spec.Build
/-!
# A small toolchain and project, for concrete cases
-/

namespace Bob

/-- A compiler whose objects are the source, the header it includes, and the flags; `a.c` includes `h.h`, `b.c` includes
nothing, files starting with `!` are in error.  Its output mentions the flags `-W`. -/
def demoTc : Toolchain where
  deps fs src _ :=
    if src = b!"a.c" ∧ (fs src).isSome ∧ (fs b!"h.h").isSome then some [(false, src), (true, b!"h.h")]
    else if src = b!"b.c" ∧ (fs src).isSome then some [(false, src)]
    else none
  obj fs src F :=
    if src = b!"a.c" then
      (fs.content src).bind fun x => (fs.content b!"h.h").bind fun h => if x.head? = some 33 then none else some (x ++ h ++ F.flatten)
    else if src = b!"b.c" then (fs.content src).bind fun x => if x.head? = some 33 then none else some (x ++ F.flatten)
    else none
  diag fs src F :=
    if (src = b!"a.c" ∧ (fs src).isSome ∧ (fs b!"h.h").isSome ∨ src = b!"b.c" ∧ (fs src).isSome) ∧ b!"-W" ∈ F then
      b!"warning in " ++ src else []
  objFailRemoves _ _ _ := false
  link _ fs srcs F := if srcs.all (fun p => (fs p).isSome) then some (srcs.flatMap (fun p => (fs.content p).getD []) ++ F.flatten) else none
  linkDiag _ _ _ _ := []
  linkFailRemoves _ _ _ _ := true

def outA : Bytes := b!".bob/bob/a.o"
def outB : Bytes := b!".bob/bob/b.o"
def outL : Bytes := b!".bob/bob/prog.l"

def demoL : Layout where
  user p := p ∈ [b!"a.c", b!"b.c", b!"h.h"]
  isOut p := p ∈ [outA, outB, outL]
  kind p := if p = outA then .compile b!"a.c" else if p = outB then .compile b!"b.c" else .link false [outA, outB]

/-- Building without a prefix. -/
def noInst : InstCfg := ⟨none, [], fun _ => false⟩

/-- Building for a prefix. -/
def demoInst : InstCfg := ⟨some b!".bob/prefix", [(outL, b!"bin/prog")], fun _ => false⟩

instance (o p : Bytes) : Decidable (Managed o p) := by unfold Managed; infer_instance

theorem demoLayoutOk : LayoutOk demoL noInst where
  ext := by
    intro o ho
    simp only [demoL, List.mem_cons, List.not_mem_nil, or_false] at ho
    rcases ho with rfl | rfl | rfl
    · exact ⟨b!".bob/bob/a", 111, by decide, by decide⟩
    · exact ⟨b!".bob/bob/b", 111, by decide, by decide⟩
    · exact ⟨b!".bob/bob/prog", 108, by decide, by decide⟩
  linkSrcs := by
    intro o a srcs ho hk p hp
    simp only [demoL] at hk
    split at hk
    · cases hk
    · split at hk
      · cases hk
      · injection hk with _ h
        subst h
        right
        simp only [demoL, List.mem_cons, List.not_mem_nil, or_false] at hp ⊢
        rcases hp with rfl | rfl <;> simp
  outNotUser := by
    intro o p ho hp hu
    simp only [demoL, List.mem_cons, List.not_mem_nil, or_false] at ho hu
    rcases ho with rfl | rfl | rfl <;> rcases hu with rfl | rfl | rfl <;> revert hp <;> decide
  destNotUser := by intro o d h; cases h
  destNotManaged := by intro o d h; cases h

theorem demoLayoutOk' : LayoutOk demoL demoInst where
  ext := demoLayoutOk.ext
  linkSrcs := demoLayoutOk.linkSrcs
  outNotUser := demoLayoutOk.outNotUser
  destNotUser := by
    intro o d h hu
    simp only [InstCfg.dest, demoInst, Option.bind_some, List.find?] at h
    split at h
    · simp only [Option.map_some, Option.some.injEq] at h
      subst h
      revert hu
      show ¬ (_ ∈ _)
      decide
    · cases h
  destNotManaged := by
    intro o d h o' ho' hm
    simp only [InstCfg.dest, demoInst, Option.bind_some, List.find?] at h
    split at h
    · simp only [Option.map_some, Option.some.injEq] at h
      subst h
      simp only [demoL, List.mem_cons, List.not_mem_nil, or_false] at ho'
      rcases ho' with rfl | rfl | rfl <;> revert hm <;> decide
    · cases h

theorem content_isSome (fs : FS) (p : Bytes) : (fs.content p).isSome = (fs p).isSome := by simp [FS.content]

theorem demoToolOk : ToolOk demoTc demoL where
  depsOk := by
    intro fs src F items h
    simp only [demoTc] at h
    split at h
    · rename_i hc
      injection h with h; subst h
      refine ⟨hc.2.1, ?_⟩
      intro it hit
      simp only [List.mem_cons, List.not_mem_nil, or_false] at hit
      rcases hit with rfl | rfl
      · rw [hc.1]; exact ⟨by decide, by simp [demoL], by rw [← hc.1]; exact hc.2.1⟩
      · exact ⟨by decide, by simp [demoL], hc.2.2⟩
    · split at h
      · rename_i hc
        injection h with h; subst h
        refine ⟨hc.2, ?_⟩
        intro it hit
        simp only [List.mem_singleton] at hit
        subst hit
        rw [hc.1]; exact ⟨by decide, by simp [demoL], by rw [← hc.1]; exact hc.2⟩
      · cases h
  depsLaw := by
    intro fs fs' src F items h hsame
    simp only [demoTc] at h
    split at h
    · rename_i hc
      injection h with h; subst h
      have h1 := hsame src (by simp)
      have h2 := hsame b!"h.h" (by simp)
      have e1 : (fs' src).isSome = true := by rw [← content_isSome, h1, content_isSome]; exact hc.2.1
      have e2 : (fs' b!"h.h").isSome = true := by rw [← content_isSome, h2, content_isSome]; exact hc.2.2
      obtain ⟨rfl, hc1, hc2⟩ := hc
      refine ⟨by simp [demoTc, e1, e2], by simp only [demoTc]; rw [h1, h2], ?_⟩
      simp [demoTc, e1, e2, hc1, hc2]
    · split at h
      · rename_i hc
        injection h with h; subst h
        have h1 := hsame src (by simp)
        have e1 : (fs' src).isSome = true := by rw [← content_isSome, h1, content_isSome]; exact hc.2
        obtain ⟨rfl, hc1⟩ := hc
        refine ⟨by simp [demoTc, e1], ?_, ?_⟩
        · simp only [demoTc]; rw [h1]; simp
        · simp [demoTc, e1, hc1]
      · cases h
  objDeps := by
    intro fs src F o h
    simp only [demoTc] at h
    split at h
    · rename_i hs
      subst hs
      cases h1 : fs.content b!"a.c" with
      | none => rw [h1] at h; cases h
      | some x =>
        cases h2 : fs.content b!"h.h" with
        | none => rw [h1, h2] at h; cases h
        | some y =>
          refine ⟨[(false, b!"a.c"), (true, b!"h.h")], ?_⟩
          have e1 : (fs b!"a.c").isSome = true := by rw [← content_isSome, h1]; rfl
          have e2 : (fs b!"h.h").isSome = true := by rw [← content_isSome, h2]; rfl
          show (if _ then _ else _) = _
          rw [if_pos ⟨rfl, e1, e2⟩]
    · split at h
      · rename_i hs
        subst hs
        cases h1 : fs.content b!"b.c" with
        | none => rw [h1] at h; cases h
        | some x =>
          have e1 : (fs b!"b.c").isSome = true := by rw [← content_isSome, h1]; rfl
          refine ⟨[(false, b!"b.c")], ?_⟩
          simp [demoTc, e1]
      · cases h
  linkLaw := by
    intro a fs fs' srcs F h
    refine ⟨?_, rfl⟩
    have e1 : srcs.all (fun p => (fs' p).isSome) = srcs.all (fun p => (fs p).isSome) := by
      rw [Bool.eq_iff_iff]
      simp only [List.all_eq_true]
      refine forall_congr' fun p => forall_congr' fun hp => ?_
      rw [← content_isSome, ← content_isSome, h p hp]
    have e2 : srcs.flatMap (fun p => (fs'.content p).getD []) = srcs.flatMap (fun p => (fs.content p).getD []) := by
      simp only [List.flatMap_def]
      congr 1
      exact List.map_congr_left fun p hp => by rw [h p hp]
    simp only [demoTc]
    rw [e1, e2]
  linkExists := by
    intro a fs srcs F o h p hp
    simp only [demoTc] at h
    split at h
    · rename_i hc
      rw [List.all_eq_true] at hc
      exact hc p hp
    · cases h

/-- The project: two sources with the given flags, linked. -/
def demoReqs (F : List Bytes) : List Req :=
  [.compile [⟨b!"a.c", outA, F⟩, ⟨b!"b.c", outB, F⟩], .link ⟨false, [outA, outB], outL, []⟩]

theorem demoReqsOk (F : List Bytes) (hF : ∀ f ∈ F, CleanFlag f) : ReqsOk demoL (demoReqs F) where
  jobs := by
    intro r hr
    simp only [demoReqs, List.mem_cons, List.not_mem_nil, or_false] at hr
    rcases hr with rfl | rfl
    · intro j hj
      simp only [List.mem_cons, List.not_mem_nil, or_false] at hj
      rcases hj with rfl | rfl
      · exact ⟨by simp [demoL], rfl, by simp [demoL], hF⟩
      · exact ⟨by simp [demoL], rfl, by simp [demoL], hF⟩
    · exact ⟨by simp [demoL], by decide, by simp [demoL], by simp⟩
  nodup := by
    have : outsOf (demoReqs F) = [outA, outB, outL] := rfl
    rw [this]; decide
  ordered := by
    intro pre j post h p hp
    match pre, h with
    | [], h => simp [demoReqs] at h
    | [_], h =>
      simp only [demoReqs, List.cons_append, List.nil_append, List.cons.injEq, Req.link.injEq] at h
      obtain ⟨_, rfl, rfl⟩ := h
      simp only [outsOf, List.flatMap_cons, List.flatMap_nil, Req.outs, List.append_nil, List.mem_singleton]
      simp only [List.mem_cons, List.not_mem_nil, or_false] at hp
      rcases hp with rfl | rfl <;> decide
    | [_, _], h => simp [demoReqs] at h
    | _ :: _ :: _ :: _, h => simp [demoReqs] at h

/-- A checkout of the project. -/
def demoStore : Store where
  fs p := if p = b!"a.c" then some ⟨b!"A", 1⟩ else if p = b!"b.c" then some ⟨b!"B", 1⟩ else if p = b!"h.h" then some ⟨b!"H", 1⟩ else none
  now := 5
  trace := []
  buf _ := []

theorem demoPristine : Pristine demoL demoStore where
  user := by
    intro p hp f hf
    simp only [demoStore] at hf ⊢
    split at hf
    · injection hf with h; subst h; decide
    · split at hf
      · injection hf with h; subst h; decide
      · split at hf
        · injection hf with h; subst h; decide
        · cases hf
  managed := by
    intro o ho p hp
    simp only [demoL, List.mem_cons, List.not_mem_nil, or_false] at ho
    have : p ≠ b!"a.c" ∧ p ≠ b!"b.c" ∧ p ≠ b!"h.h" := by
      unfold Managed at hp
      rcases ho with rfl | rfl | rfl <;> rcases hp with rfl | rfl | rfl | rfl <;> decide
    simp [demoStore, this]

/-! ## Running builds -/

/-- The schedule with one worker. -/
def autoStep (tc : Toolchain) (c : InstCfg) : Cfg → Option Cfg
  | .pooling tasks rest p =>
    match workStep (taskProg tc c tasks) p 0 with
    | some p' => some (.pooling tasks rest p')
    | none => if p.pc 0 = .done then some (afterStep rest (p.store, p.waitOk)) else none
  | cfg => seqNext tc c cfg

def autoRun (tc : Toolchain) (c : InstCfg) : Nat → Cfg → Cfg
  | 0, cfg => cfg
  | k + 1, cfg => match autoStep tc c cfg with
    | some cfg' => autoRun tc c k cfg'
    | none => cfg

theorem autoStep_next {tc : Toolchain} {c : InstCfg} {a b : Cfg} (h : autoStep tc c a = some b) : BuildNext tc c 1 a b := by
  unfold autoStep at h
  split at h
  · rename_i tasks rest p
    split at h
    · rename_i p' hp
      injection h with h; subst h
      exact .pool (.work 0 (by omega) hp)
    · split at h
      · rename_i hd
        injection h with h; subst h
        refine .join ?_
        intro w hw
        have : w = 0 := by omega
        subst this; exact hd
      · cases h
  · exact .seq h

theorem autoRun_reaches {tc : Toolchain} {c : InstCfg} {reqs : List Req} {s : Store} (k : Nat) (cfg : Cfg)
    (h : BuildReaches tc c 1 reqs s cfg) : BuildReaches tc c 1 reqs s (autoRun tc c k cfg) := by
  induction k generalizing cfg with
  | zero => exact h
  | succ k ih =>
    simp only [autoRun]
    cases hs : autoStep tc c cfg with
    | none => exact h
    | some cfg' => exact ih cfg' (.tail h (autoStep_next hs))

/-- The build of `reqs` from `s`, with one worker. -/
def autoBuild (tc : Toolchain) (c : InstCfg) (reqs : List Req) (s : Store) : Cfg := autoRun tc c 100 (.idle reqs s)

theorem autoBuild_reaches {tc : Toolchain} {c : InstCfg} {reqs : List Req} {s : Store} {ok : Bool}
    (h : (autoBuild tc c reqs s).result = some ok) :
    BuildReaches tc c 1 reqs s (.finished ok (autoBuild tc c reqs s).store) := by
  rw [← result_finished h]
  exact autoRun_reaches 100 _ (.refl _)

/-- Time passes, and a file is written. -/
def Store.later (s : Store) (dt : Nat) : Store := { s with now := s.now + dt }

theorem edit_later {L : Layout} (s : Store) (dt : Nat) (h : 0 < dt) : Edit L s (s.later dt) :=
  ⟨by simp [Store.later]; omega, fun _ _ => Or.inl rfl, fun _ _ _ _ => Or.inl rfl⟩

theorem edit_write {L : Layout} {c : InstCfg} (hL : LayoutOk L c) (s : Store) (dt : Nat) (h : 0 < dt) (p content : Bytes)
    (hp : L.user p) : Edit L s ((s.later dt).write p content) := by
  refine ⟨by simp [Store.later, Store.write]; omega, ?_, ?_⟩
  · intro q hq
    by_cases e : q = p
    · refine Or.inr (Or.inr ⟨⟨content, s.now + dt⟩, ?_, ?_, ?_⟩)
      · simp [Store.write, FS.set, e, Store.later]
      · simp; omega
      · simp [Store.write, Store.later]
    · exact Or.inl (by simp [Store.write, FS.set, e, Store.later])
  · intro o ho q hq
    have : q ≠ p := fun e => hL.outNotUser o q ho hq (e ▸ hp)
    exact Or.inl (by simp [Store.write, FS.set, this, Store.later])

end Bob
