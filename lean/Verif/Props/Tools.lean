import Verif.Model.Tools
import Verif.Props.Cmd
import Verif.Props.Rebuild
/-!
# The commands of a build (C73), and changes of tools (C74)
-/

namespace Bob

/-! ## C73 -/

theorem holds_flags {c : CmdArgs} {l : List Bytes} (h : Holds c l) : ∀ flags : List Bytes, Holds (addFlags flags c) (l ++ flags.map cstr)
  | [] => by simpa [addFlags] using h
  | f :: fs => by
    have h1 := holds_add h (f.take f.length)
    have h2 := holds_flags h1 fs
    rw [List.take_length] at h2
    unfold addFlags at h2 ⊢
    rw [List.foldl_cons]
    unfold cmdAddf at h2 ⊢
    rw [List.take_length]
    simpa using h2

theorem holds_srcs {c : CmdArgs} {l : List Bytes} (h : Holds c l) : ∀ srcs : List Bytes, Holds (srcs.foldl (fun c s => cmdAdd s c) c) (l ++ srcs.map cstr)
  | [] => by simpa using h
  | f :: fs => by
    rw [List.foldl_cons]
    simpa using holds_srcs (holds_add h f) fs

theorem holds_os {c : CmdArgs} {l : List Bytes} (h : Holds c l) : osArgv c.args = some l := by rw [h.2, osArgv_holds]

/-- A text that can be passed to a program. -/
def Plainly (l : List Bytes) : Prop := ∀ b ∈ l, NUL ∉ b

theorem plainly_map {l : List Bytes} (h : Plainly l) : l.map cstr = l := by
  conv => rhs; rw [← List.map_id l]
  exact List.map_congr_left fun b hb => cstr_eq_self (h b hb)

/-- The compiler in use: `$CC` or `cc`. -/
def IsCc (e : ToolEnv) (p : Bytes) : Prop := e.cc = some p ∨ e.cc = none ∧ p = b!"cc"

/-- The archiver in use: `$AR` or `ar`. -/
def IsAr (e : ToolEnv) (p : Bytes) : Prop := e.ar = some p ∨ e.ar = none ∧ p = b!"ar"

theorem isCc (e : ToolEnv) : IsCc e e.ccName := by
  unfold IsCc ToolEnv.ccName
  cases e.cc <;> simp

theorem isAr (e : ToolEnv) : IsAr e e.arName := by
  unfold IsAr ToolEnv.arName
  cases e.ar <;> simp

/-- **C73.**  What the compiler is given: the source, where to put the object, and after that exactly the flags, in order.  It is asked for the
dependencies with the same flags. -/
theorem C73_compile_command (e : ToolEnv) (j : CJob) (he : NUL ∉ e.ccName) (hp : Plainly (j.src :: j.out :: j.flags)) :
    ∃ p, IsCc e p ∧ osArgv (compileCmd e j).args = some ([p, b!"-fdiagnostics-color=always", b!"-c", j.src, b!"-o", j.out] ++ j.flags) ∧
      osArgv (depsCmd e j).args = some ([p, b!"-fdiagnostics-color=always", b!"-MM", b!"-MT", [], j.src] ++ j.flags) := by
  have hf : Plainly j.flags := fun b hb => hp b (List.mem_cons_of_mem _ (List.mem_cons_of_mem _ hb))
  have hs : NUL ∉ j.src := hp _ List.mem_cons_self
  have ho : NUL ∉ j.out := hp _ (List.mem_cons_of_mem _ List.mem_cons_self)
  refine ⟨e.ccName, isCc e, ?_, ?_⟩
  · have := holds_os (holds_flags (holds_create [e.ccName, b!"-fdiagnostics-color=always", b!"-c", j.src, b!"-o", j.out]) j.flags)
    rw [plainly_map hf, plainly_map (l := [_, _, _, _, _, _]) (by
      intro b hb
      simp only [List.mem_cons, List.not_mem_nil, or_false] at hb
      rcases hb with rfl | rfl | rfl | rfl | rfl | rfl <;> first | assumption | decide)] at this
    exact this
  · have := holds_os (holds_flags (holds_create [e.ccName, b!"-fdiagnostics-color=always", b!"-MM", b!"-MT", b!"", j.src]) j.flags)
    rw [plainly_map hf, plainly_map (l := [_, _, _, _, _, _]) (by
      intro b hb
      simp only [List.mem_cons, List.not_mem_nil, or_false] at hb
      rcases hb with rfl | rfl | rfl | rfl | rfl | rfl <;> first | assumption | decide)] at this
    exact this

/-- **C73.**  What the linker is given: where to put the product, where to look for libraries of the prefix, the inputs in order, and after that exactly the flags, in order. -/
theorem C73_link_command (e : ToolEnv) (j : LJob) (ha : j.archive = false) (he : NUL ∉ e.ccName) (hpre : ∀ p, e.pre = some p → NUL ∉ p) (hp : Plainly (j.out :: (j.srcs ++ j.flags))) :
    ∃ p, IsCc e p ∧ osArgv (linkCmd e j).args =
      some ([p, b!"-fdiagnostics-color=always", b!"-o", j.out] ++ (e.pre.toList.map fun p => b!"-L" ++ p ++ b!"/lib") ++ j.srcs ++ j.flags) := by
  have hf : Plainly j.flags := fun b hb => hp b (List.mem_cons_of_mem _ (List.mem_append_right _ hb))
  have hs : Plainly j.srcs := fun b hb => hp b (List.mem_cons_of_mem _ (List.mem_append_left _ hb))
  have ho : NUL ∉ j.out := hp _ List.mem_cons_self
  refine ⟨e.ccName, isCc e, ?_⟩
  have h0 := holds_create [e.ccName, b!"-fdiagnostics-color=always", b!"-o", j.out]
  rw [plainly_map (l := [_, _, _, _]) (by
      intro b hb
      simp only [List.mem_cons, List.not_mem_nil, or_false] at hb
      rcases hb with rfl | rfl | rfl | rfl <;> first | assumption | decide)] at h0
  unfold linkCmd
  rw [ha]
  cases hq : e.pre with
  | none =>
    have := holds_os (holds_flags (holds_srcs h0 j.srcs) j.flags)
    rw [plainly_map hf, plainly_map hs] at this
    simpa using this
  | some pre =>
    have := holds_os (holds_flags (holds_srcs (holds_add h0 (b!"-L" ++ pre ++ b!"/lib")) j.srcs) j.flags)
    rw [plainly_map hf, plainly_map hs, cstr_eq_self (by
      have := hpre pre hq
      simp only [List.mem_append, not_or]
      exact ⟨⟨by decide, this⟩, by decide⟩)] at this
    simpa using this

/-- **C73.**  What the archiver is given. -/
theorem C73_archive_command (e : ToolEnv) (j : LJob) (ha : j.archive = true) (he : NUL ∉ e.arName) (hp : Plainly (j.out :: (j.srcs ++ j.flags))) :
    ∃ p, IsAr e p ∧ osArgv (linkCmd e j).args = some ([p, b!"-rcs", j.out] ++ j.srcs ++ j.flags) := by
  have hf : Plainly j.flags := fun b hb => hp b (List.mem_cons_of_mem _ (List.mem_append_right _ hb))
  have hs : Plainly j.srcs := fun b hb => hp b (List.mem_cons_of_mem _ (List.mem_append_left _ hb))
  have ho : NUL ∉ j.out := hp _ List.mem_cons_self
  refine ⟨e.arName, isAr e, ?_⟩
  have h0 := holds_create [e.arName, b!"-rcs", j.out]
  rw [plainly_map (l := [_, _, _]) (by
      intro b hb
      simp only [List.mem_cons, List.not_mem_nil, or_false] at hb
      rcases hb with rfl | rfl | rfl <;> first | assumption | decide)] at h0
  unfold linkCmd
  rw [ha]
  have := holds_os (holds_flags (holds_srcs h0 j.srcs) j.flags)
  rw [plainly_map hf, plainly_map hs] at this
  simpa using this

/-- **C73.**  A command line of the compiler tells source, object and flags apart: two jobs with the same command line are the same job. -/
theorem C73_compile_unambiguous (e : ToolEnv) (i j : CJob) (he : NUL ∉ e.ccName) (hi : Plainly (i.src :: i.out :: i.flags)) (hj : Plainly (j.src :: j.out :: j.flags))
    (h : osArgv (compileCmd e i).args = osArgv (compileCmd e j).args) : i = j := by
  obtain ⟨p, hp, h1, -⟩ := C73_compile_command e i he hi
  obtain ⟨q, hq, h2, -⟩ := C73_compile_command e j he hj
  rw [h1, h2] at h
  injection h with h
  simp only [List.cons_append, List.nil_append, List.cons.injEq, true_and] at h
  obtain ⟨-, h3, h4, h5⟩ := h
  cases i
  cases j
  cases h3
  cases h4
  cases h5
  rfl

/-- **C73** does not hold for links: inputs and flags are not told apart. -/
theorem C73_link_ambiguous_false (e : ToolEnv) : ∃ i j : LJob, i ≠ j ∧ osArgv (linkCmd e i).args = osArgv (linkCmd e j).args :=
  ⟨⟨false, [b!"a.o", b!"-lm"], b!"x", []⟩, ⟨false, [b!"a.o"], b!"x", [b!"-lm"]⟩, by decide, rfl⟩

example : osArgv (linkCmd ⟨some b!"clang", none, some b!".bob/prefix"⟩ ⟨false, [b!"a.o", b!"b.o"], b!"x.l", [b!"-lm", b!"-lpthread"]⟩).args =
    some [b!"clang", b!"-fdiagnostics-color=always", b!"-o", b!"x.l", b!"-L.bob/prefix/lib", b!"a.o", b!"b.o", b!"-lm", b!"-lpthread"] := by decide
example : osArgv (compileCmd ⟨none, none, none⟩ ⟨b!"a.c", b!"a.o", [b!"-O2", b!"-g"]⟩).args =
    some [b!"cc", b!"-fdiagnostics-color=always", b!"-c", b!"a.c", b!"-o", b!"a.o", b!"-O2", b!"-g"] := by decide

/-! ## C74 -/

variable {tc tc' : Toolchain} {L : Layout} {c c' : InstCfg} {n n' : Nat} {reqs : List Req}

/-- No command ran: what exists was used and perhaps installed. -/
def Spared (s a : Store) : Prop := ∃ es, a.trace = s.trace ++ es ∧ ∀ e ∈ es, (∃ o l, e = .already o l) ∨ ∃ o d, e = .installed o d

/-- Only files at which products are installed were touched. -/
def OnlyInst (c : InstCfg) (reqs : List Req) (s a : Store) : Prop := ∀ p, (∀ o ∈ outsOf reqs, c.dest o ≠ some p) → a.fs p = s.fs p

theorem install_spared {s a a' : Store} {o : Bytes} {ok : Bool} (ho : o ∈ outsOf reqs) (h1 : OnlyInst c reqs s a) (h2 : Spared s a)
    (h : installCookie c o a = (a', ok)) : OnlyInst c reqs s a' ∧ Spared s a' := by
  unfold installCookie at h
  split at h
  · cases h; exact ⟨h1, h2⟩
  · rename_i d hd
    split at h
    · cases h; exact ⟨h1, h2⟩
    · split at h
      · cases h; exact ⟨h1, h2⟩
      · split at h
        · cases h; exact ⟨h1, h2⟩
        · cases h; exact ⟨h1, h2⟩
        · cases h
          refine ⟨fun p hp => ?_, ?_⟩
          · rw [← h1 p hp]
            have : p ≠ d := fun e => hp o ho (by rw [e]; exact hd)
            simp [Store.emit, Store.write, FS.set, this]
          · obtain ⟨es, h3, h4⟩ := h2
            refine ⟨es ++ [.installed o d], by simp [Store.emit, Store.write, h3], fun e he => ?_⟩
            rcases List.mem_append.mp he with he | he
            · exact h4 e he
            · exact Or.inr ⟨o, d, List.mem_singleton.mp he⟩

/-- What a build with other tools and for another prefix does where nothing is to be done. -/
theorem spared_flow (hL : LayoutOk L c') (hR : ReqsOk L reqs) {s : Store} (h : AllDone c reqs s)
    (hd : ∀ o, L.isOut o → ∀ d, s.fs (depsPath o) = some d → ∀ p ∈ readDeps d.content, L.user p) :
    Flow tc' c' reqs (fun a => OnlyInst c' reqs s a ∧ Spared s a) (fun _ st _ => st = .todo ∨ st = .done ∨ st = .failed) := by
  have user : ∀ {a : Store}, OnlyInst c' reqs s a → ∀ p, L.user p → a.fs p = s.fs p :=
    fun ha p hp => ha p fun o _ e => hL.destNotUser o p e hp
  have man : ∀ {a : Store}, OnlyInst c' reqs s a → ∀ o, L.isOut o → ∀ p, Managed o p → a.fs p = s.fs p :=
    fun ha o ho p hp => ha p fun o' _ e => hL.destNotManaged o' p e o ho hp
  have ends : ∀ P ∈ prodsOf reqs, ∀ (a a' : Store) (ok : Bool), OnlyInst c' reqs s a → Spared s a →
      installCookie c' P.out (a.emit (.already P.out (a.fs.content (logPath P.out)))) = (a', ok) → OnlyInst c' reqs s a' ∧ Spared s a' := by
    intro P hP a a' ok h1 h2 hi
    refine install_spared (by rw [← prodsOf_out]; exact List.mem_map_of_mem hP) (a := a.emit (.already P.out (a.fs.content (logPath P.out)))) (fun p hp => h1 p hp) ?_ hi
    obtain ⟨es, h3, h4⟩ := h2
    refine ⟨es ++ [.already P.out (a.fs.content (logPath P.out))], by simp [Store.emit, h3], fun e he => ?_⟩
    rcases List.mem_append.mp he with he | he
    · exact h4 e he
    · exact Or.inl ⟨_, _, List.mem_singleton.mp he⟩
  have okst : ∀ ok, okStat ok = .todo ∨ okStat ok = .done ∨ okStat ok = .failed := by
    intro ok
    cases ok
    · exact Or.inr (Or.inr rfl)
    · exact Or.inr (Or.inl rfl)
  refine ⟨?_, fun _ _ _ _ _ _ h => h, ?_, fun _ _ _ _ _ _ _ _ _ _ _ _ _ _ h => h⟩
  · rintro a b ⟨t, _, rfl⟩ h; exact h
  · intro P hP st a st' b ha hG hQ
    have hP' := h P hP
    have cval : ∀ {j : CJob}, P = .c j → ∃ a', validate j a = (a', .skip) := by
      rintro j rfl
      have hj := prod_cok hR hP
      exact validate_skip_iff.mpr (cskip_same hj (man hG.1 _ hj.isOut) (user hG.1) (hd _ hj.isOut) hP'.2)
    have lval : ∀ {j : LJob}, P = .l j → ∃ a', linkCheck j a = (a', false) := by
      rintro j rfl
      have hj := (prod_lok hR hP).1
      refine linkCheck_false_iff.mpr ((lskip_iff (s0 := s) (man hG.1 _ hj.isOut _ (managed_out _)) (man hG.1 _ hj.isOut _ (managed_flags _))).mpr ?_)
      obtain ⟨h1, o, h2, h3⟩ := hP'.2
      refine ⟨h1, o, h2, fun p hp => ?_⟩
      obtain ⟨f, h4, h5⟩ := h3 p hp
      refine ⟨f, ?_, h5⟩
      rcases hj.srcs p hp with hu | hu
      · rw [user hG.1 p hu]; exact h4
      · rw [man hG.1 p hu p (managed_out _)]; exact h4
    cases ha with
    | compile h' => obtain ⟨a', e⟩ := cval rfl; rw [h'] at e; cases e
    | err h' => obtain ⟨a', e⟩ := cval rfl; rw [h'] at e; cases e
    | skip h' hi =>
      rcases validate_cases h' with ⟨rfl, _⟩ | ⟨_, e, _⟩
      rotate_left
      · cases e
      exact ⟨ends _ hP _ _ _ hG.1 hG.2 hi, okst _⟩
    | linkYes h' => obtain ⟨a', e⟩ := lval rfl; rw [h'] at e; cases e
    | linkSkip h' hi =>
      rcases linkCheck_cases h' with ⟨rfl, _⟩ | ⟨_, e, _⟩
      rotate_left
      · cases e
      exact ⟨ends _ hP _ _ _ hG.1 hG.2 hi, okst _⟩
    | task => rcases hQ with h | h | h <;> cases h
    | taskOk => rcases hQ with h | h | h <;> cases h
    | linkRun => rcases hQ with h | h | h <;> cases h
    | linkLog => rcases hQ with h | h | h <;> cases h
    | linkFail => rcases hQ with h | h | h <;> cases h
    | linkInst => rcases hQ with h | h | h <;> cases h

/-- **C74, what bob does instead.**  After a successful build, a build with any other tools (another `$CC` or `$AR`, other libraries, another directory to look for
libraries in), for any other prefix, runs no command, at whatever time and with however many workers; every file other than the installed ones stays as it is.  The products,
and what is installed, remain those of the old tools. -/
theorem C74_tools_not_noticed (hT : ToolOk tc L) (hL : LayoutOk L c) (hD : DestInj L c) (hR : ReqsOk L reqs) (hn : 0 < n) (hn' : 0 < n') (hL' : LayoutOk L c')
    {s s1 s2 s3 : Store} (hp : Past tc L s) (he : Edit L s s1) (hb : BuildReaches tc c n reqs s1 (.finished true s2))
    (hsame : s3.fs = s2.fs) {cfg : Cfg} (hb' : BuildReaches tc' c' n' reqs s3 cfg) :
    OnlyInst c' reqs s2 cfg.store ∧ Spared s3 cfg.store := by
  have hall : AllDone c reqs s3 := by
    have := allDone_of_success hL hD hT (hp.settled hT he) hR hn hb
    intro P hP
    have := this P hP
    rw [hsame]
    refine ⟨this.1, ?_⟩
    cases P with
    | c j => exact this.2
    | l j =>
      obtain ⟨h1, h2⟩ := this.2
      unfold LSkip
      rw [hsame]
      exact ⟨h1, h2⟩
  have hpast : Past tc L s2 := .built hp he hL hR hn hb
  have hdep := (hpast.settled hT (edit_later s2 1 (by omega))).deps
  have key := FlowInv.reach (spared_flow (tc' := tc') hL' hR hall (by rw [hsame]; exact hdep)) hR.ord hn' ⟨fun _ _ => rfl, [], by simp, by simp⟩ (fun P _ => Or.inl rfl) hb'
  obtain ⟨h1, h2⟩ := key.any.1
  exact ⟨fun p hp => (h1 p hp).trans (by rw [hsame]), h2⟩

/-- Another compiler: its objects end differently. -/
def demoTc2 : Toolchain := { demoTc with obj := fun fs src F => (demoTc.obj fs src F).map (· ++ b!"/2") }

theorem demoToolOk2 : ToolOk demoTc2 demoL where
  depsOk := demoToolOk.depsOk
  depsLaw := by
    intro fs fs' src F items h hs
    obtain ⟨h1, h2, h3⟩ := demoToolOk.depsLaw fs fs' src F items h hs
    exact ⟨h1, by simp only [demoTc2]; rw [h2], h3⟩
  objDeps := by
    intro fs src F o h
    simp only [demoTc2, Option.map_eq_some_iff] at h
    obtain ⟨o', h, -⟩ := h
    exact demoToolOk.objDeps fs src F o' h
  linkLaw := demoToolOk.linkLaw
  linkExists := demoToolOk.linkExists

/-- **C74** as stated: a successful build leaves what the present tools make of the present files, even if other tools were used earlier. -/
def ToolsNoticed : Prop :=
  ∀ (tc tc' : Toolchain) (L : Layout) (c : InstCfg) (n : Nat) (reqs : List Req) (s s1 s2 s3 s4 : Store), ToolOk tc L → ToolOk tc' L → LayoutOk L c → DestInj L c → ReqsOk L reqs →
    0 < n → Builds tc L s → Edit L s s1 → BuildReaches tc c n reqs s1 (.finished true s2) → Edit L s2 s3 → BuildReaches tc' c n reqs s3 (.finished true s4) → ProjFresh tc' s4.fs reqs

/-- **C74** does not hold: after `CC=other bob build` the objects are still those of the first compiler. -/
theorem C74_tools_noticed_false : ¬ ToolsNoticed := by
  intro h
  have hb : BuildReaches demoTc2 noInst 1 (demoReqs flagO) (case1.later 1) (.finished true (autoBuild demoTc2 noInst (demoReqs flagO) (case1.later 1)).store) :=
    autoBuild_reaches (by rfl)
  have h1 := h demoTc demoTc2 demoL noInst 1 (demoReqs flagO) demoStore (demoStore.later 1) case1 (case1.later 1) _ demoToolOk demoToolOk2 demoLayoutOk
    (fun _ _ _ _ _ h => nomatch h) (demoReqsOk _ cleanO) (by omega) (.start demoPristine) (edit_later _ 1 (by omega)) (autoBuild_reaches (by rfl)) (edit_later _ 1 (by omega)) hb
  have h2 := h1 _ (List.mem_cons_self ..) ⟨b!"a.c", outA, flagO⟩ (List.mem_cons_self ..)
  revert h2
  rintro ⟨o, h2, h3⟩
  rw [← h2] at h3
  revert h3
  decide +kernel

/-- The second build only reports what there is, while the second compiler would have made something else. -/
example : let s := autoBuild demoTc2 demoInst (demoReqs flagO) (case1.later 1)
    s.result = some true ∧ s.store.trace.drop case1.trace.length = [.already outA none, .already outB none, .already outL none, .installed outL b!".bob/prefix/bin/prog"] ∧
    s.store.fs.content outA = case1.fs.content outA ∧ demoTc2.obj s.store.fs b!"a.c" flagO ≠ s.store.fs.content outA := by decide +kernel

example {cfg : Cfg} (h : BuildReaches demoTc2 demoInst 2 (demoReqs flagO) (case1.later 3) cfg) : cfg.store.fs outL = case1.fs outL :=
  (C74_tools_not_noticed (tc := demoTc) (c := noInst) demoToolOk demoLayoutOk (fun _ _ _ _ _ h => nomatch h) (demoReqsOk _ cleanO) (by omega : 0 < 1) (by omega : 0 < 2) demoLayoutOk'
    (.start demoPristine) (edit_later demoStore 1 (by omega)) (s2 := case1) (s3 := case1.later 3) (autoBuild_reaches (by rfl)) rfl h).1 outL (by
      intro o _ e
      have := demoLayoutOk'.destNotManaged o outL e outL (by simp [demoL])
      exact this (managed_out _))

end Bob
