import Verif.Spec.Archive
import Verif.Props.Owner
import Verif.Props.Build
/-!
# C108: archives hold the present objects
-/

namespace Bob

/-! ## `ar` -/

theorem arPut1_done (done : List ArMember) (hd : ∀ m ∈ done, m.old = false) (n x y : Bytes) (rest : List ArMember) :
    arPut1 (done ++ ⟨true, n, x⟩ :: rest) (n, y) = done ++ ⟨false, n, y⟩ :: rest := by
  induction done with
  | nil => simp [arPut1]
  | cons m done ih =>
    have : m.old = false := hd m (by simp)
    simp only [List.cons_append, arPut1, this, Bool.false_eq_true, false_and, if_false]
    rw [ih fun m hm => hd m (by simp [hm])]

/-- **C108.** Given files of the names an archive has, in that order, `ar` leaves exactly them. -/
theorem C108_ar_same {ms files : List (Bytes × Bytes)} (h : ms.map (·.1) = files.map (·.1)) : arPut ms files = files := by
  have key : ∀ (files ms : List (Bytes × Bytes)) (done : List ArMember), (∀ m ∈ done, m.old = false) → ms.map (·.1) = files.map (·.1) →
      files.foldl arPut1 (done ++ ms.map fun m => ⟨true, m.1, m.2⟩) = done ++ files.map fun m => ⟨false, m.1, m.2⟩ := by
    intro files
    induction files with
    | nil =>
      intro ms done _ h
      rw [List.map_eq_nil_iff.1 h]
      rfl
    | cons f files ih =>
      intro ms done hd h
      cases ms with
      | nil => cases h
      | cons m ms =>
        obtain ⟨n, x⟩ := m
        obtain ⟨n', y⟩ := f
        simp only [List.map_cons, List.cons.injEq] at h
        obtain ⟨rfl, h⟩ := h
        simp only [List.map_cons, List.foldl_cons]
        rw [arPut1_done done hd]
        have := ih ms (done ++ [⟨false, n, y⟩]) (by
          intro m hm
          rcases List.mem_append.1 hm with hm | hm
          · exact hd m hm
          · cases List.mem_singleton.1 hm; rfl) h
        simpa using this
  unfold arPut
  have := key files ms [] (by simp) h
  simp only [List.nil_append] at this
  rw [this, List.map_map]
  exact (List.map_congr_left (fun _ _ => rfl)).trans (List.map_id _)

/-- **C108.** So it does with an archive that does not exist. -/
theorem C108_ar_new (files : List (Bytes × Bytes)) : arPut [] files = files := by
  have key : ∀ (files : List (Bytes × Bytes)) (done : List ArMember), (∀ m ∈ done, m.old = false) →
      files.foldl arPut1 done = done ++ files.map fun m => ⟨false, m.1, m.2⟩ := by
    intro files
    induction files with
    | nil => intro done _; simp
    | cons f files ih =>
      intro done hd
      have h1 : arPut1 done f = done ++ [⟨false, f.1, f.2⟩] := by
        clear ih
        induction done with
        | nil => rfl
        | cons m done ih =>
          have : m.old = false := hd m (by simp)
          simp only [arPut1, this, Bool.false_eq_true, false_and, if_false, List.cons_append]
          rw [ih fun m hm => hd m (by simp [hm])]
      rw [List.foldl_cons, h1, ih _ (by
        intro m hm
        rcases List.mem_append.1 hm with hm | hm
        · exact hd m hm
        · cases List.mem_singleton.1 hm; rfl)]
      simp
  unfold arPut
  rw [List.map_nil, key files [] (by simp), List.nil_append, List.map_map]
  exact (List.map_congr_left (fun _ _ => rfl)).trans (List.map_id _)

theorem arPut1_cases (st : List ArMember) (n y : Bytes) :
    (∃ pre x post, st = pre ++ ⟨true, n, x⟩ :: post ∧ arPut1 st (n, y) = pre ++ ⟨false, n, y⟩ :: post) ∨
    (∀ m ∈ st, m.old = true → m.name ≠ n) ∧ arPut1 st (n, y) = st ++ [⟨false, n, y⟩] := by
  induction st with
  | nil => exact .inr ⟨by simp, rfl⟩
  | cons m st ih =>
    by_cases h : m.old ∧ m.name = n
    · obtain ⟨o, n', x⟩ := m
      obtain ⟨rfl, rfl⟩ := h
      exact .inl ⟨[], x, st, rfl, if_pos ⟨rfl, rfl⟩⟩
    · have he : arPut1 (m :: st) (n, y) = m :: arPut1 st (n, y) := if_neg h
      rcases ih with ⟨pre, x, post, h1, h2⟩ | ⟨h1, h2⟩
      · exact .inl ⟨m :: pre, x, post, by rw [h1]; rfl, by rw [he, h2]; rfl⟩
      · refine .inr ⟨fun m' hm' ho => ?_, by rw [he, h2]; rfl⟩
        rcases List.mem_cons.1 hm' with rfl | hm'
        · exact fun hn => h ⟨ho, hn⟩
        · exact h1 m' hm' ho

/-- **C108.** Given files of the names an archive has, in any order, `ar` leaves exactly them, in some order. -/
theorem C108_ar_members {ms files : List (Bytes × Bytes)} (h : (ms.map (·.1)).Perm (files.map (·.1))) : (arPut ms files).Perm files := by
  have key : ∀ (files : List (Bytes × Bytes)) (st : List ArMember), ((st.filter (·.old)).map (·.name)).Perm (files.map (·.1)) →
      ((files.foldl arPut1 st).map fun m => (m.name, m.content)).Perm ((st.filter (!·.old)).map (fun m => (m.name, m.content)) ++ files) := by
    intro files
    induction files with
    | nil =>
      intro st h
      have h0 : st.filter (·.old) = [] := List.map_eq_nil_iff.1 (List.perm_nil.1 h)
      have h1 : st.filter (!·.old) = st := by
        rw [List.filter_eq_self]
        intro m hm
        have := List.filter_eq_nil_iff.1 h0 m hm
        simpa using this
      rw [h1, List.append_nil]
      exact .refl _
    | cons f files ih =>
      intro st h
      obtain ⟨n, y⟩ := f
      rcases arPut1_cases st n y with ⟨pre, x, post, rfl, h2⟩ | ⟨h1, h2⟩
      · rw [List.foldl_cons, h2]
        have hp : (((pre ++ ⟨false, n, y⟩ :: post).filter (·.old)).map (·.name)).Perm (files.map (·.1)) := by
          simp only [List.filter_append, List.filter_cons, if_true, List.map_append, List.map_cons, Bool.false_eq_true, if_false] at h ⊢
          exact (List.perm_middle.symm.trans h).cons_inv
        refine (ih _ hp).trans ?_
        simp only [List.filter_append, List.filter_cons, Bool.not_false, Bool.not_true, if_true, List.map_append, List.map_cons, Bool.false_eq_true, if_false, List.append_assoc, List.cons_append]
        refine .append_left _ ?_
        exact List.perm_middle.symm
      · exfalso
        have hm : n ∈ (st.filter (·.old)).map (·.name) := h.symm.subset (by simp)
        obtain ⟨m, hm', hn⟩ := List.mem_map.1 hm
        obtain ⟨hm', ho⟩ := List.mem_filter.1 hm'
        exact h1 m hm' ho hn
  have hf : ∀ ms : List (Bytes × Bytes), (ms.map fun m => (⟨true, m.1, m.2⟩ : ArMember)).filter (·.old) = ms.map fun m => ⟨true, m.1, m.2⟩ := by
    intro ms
    rw [List.filter_eq_self]
    intro m hm
    obtain ⟨_, -, rfl⟩ := List.mem_map.1 hm
    rfl
  have hg : ∀ ms : List (Bytes × Bytes), (ms.map fun m => (⟨true, m.1, m.2⟩ : ArMember)).filter (!·.old) = [] := by
    intro ms
    rw [List.filter_eq_nil_iff]
    intro m hm
    obtain ⟨_, -, rfl⟩ := List.mem_map.1 hm
    simp
  have := key files (ms.map fun m => ⟨true, m.1, m.2⟩) (by rw [hf, List.map_map]; exact h)
  rw [hg] at this
  exact this

/-! ## Builds -/

variable {tc : Toolchain} {L : Layout} {c : InstCfg} {n : Nat} {fmt : ArFormat} {arch : List Bytes → Bytes}

theorem members_names {fs : FS} {ps : List Bytes} {ms : List (Bytes × Bytes)} (h : fs.members ps = some ms) : ms.map (·.1) = ps.map memberName := by
  induction ps generalizing ms with
  | nil => cases h; rfl
  | cons p ps ih =>
    simp only [FS.members, Option.bind_eq_some_iff, Option.map_eq_some_iff] at h
    obtain ⟨x, -, ms', h', rfl⟩ := h
    simp [ih h']

/-- Where there is an archive, it has the names of what it is made from. -/
def ArInv (L : Layout) (fmt : ArFormat) (fs : FS) : Prop :=
  ∀ o srcs f, L.isOut o → L.kind o = .link true srcs → fs o = some f → ∃ ms : List (Bytes × Bytes), ms.map (·.1) = srcs.map memberName ∧ f.content = fmt.enc ms

/-- The link and compile steps ahead are in order. -/
def JobsIn (L : Layout) : Cfg → Prop
  | .idle rest _ => (∀ r ∈ rest, ReqOk L r) ∧ PlainArchives rest
  | .validating todo tasks rest _ => (∀ j ∈ todo, CJobOk L j) ∧ (∀ j ∈ tasks, CJobOk L j) ∧ (∀ r ∈ rest, ReqOk L r) ∧ PlainArchives rest
  | .pooling tasks rest _ => (∀ j ∈ tasks, CJobOk L j) ∧ (∀ r ∈ rest, ReqOk L r) ∧ PlainArchives rest
  | .linking j rest _ | .linkRan _ j rest _ | .linked j rest _ => LJobOk L j ∧ (j.archive = true → j.flags = []) ∧ (∀ r ∈ rest, ReqOk L r) ∧ PlainArchives rest
  | .finished _ _ => True

/-- Nothing but these files changes, if not removed. -/
def Touches (c : InstCfg) (d : Option Bytes) (a b : Store) : Prop := ∀ p, b.fs p = a.fs p ∨ b.fs p = none ∨ d = some p ∨ ∃ out, c.dest out = some p

theorem Touches.same {d : Option Bytes} {a b : Store} (h : b.fs = a.fs) : Touches c d a b := fun p => .inl (by rw [h])

theorem Touches.write {p content : Bytes} {a a' b : Store} (ha : a'.fs = a.fs) (h : b = a'.write p content) : Touches c (some p) a b := by
  intro q
  subst h
  by_cases hq : q = p
  · exact .inr (.inr (.inl (by rw [hq])))
  · exact .inl (by simp only [Store.write, FS.set, hq, if_false, ha])

theorem Touches.remove {p : Bytes} {d : Option Bytes} {a a' b : Store} (ha : a'.fs = a.fs) (h : b = a'.remove p) : Touches c d a b := by
  intro q
  subst h
  by_cases hq : q = p
  · exact .inr (.inl (by simp [Store.remove, FS.set, hq]))
  · exact .inl (by simp only [Store.remove, FS.set, hq, if_false, ha])

theorem Touches.failed {p : Bytes} {d : Option Bytes} {a a' : Store} {r : Bool} (ha : a'.fs = a.fs) : Touches c d a (if r = true then a'.remove p else a') := by
  cases r
  · exact .same ha
  · exact .remove ha rfl

theorem touches_install {d : Option Bytes} {out : Bytes} {a a' : Store} (ha : a'.fs = a.fs) : Touches c d a (installCookie c out a').1 := by
  unfold installCookie
  split
  · exact .same ha
  · rename_i dst hd
    split
    · exact .same ha
    · split
      · exact .same ha
      · split
        · exact .same ha
        · exact .same ha
        · intro q
          by_cases hq : q = dst
          · exact .inr (.inr (.inr ⟨out, by rw [hd, hq]⟩))
          · exact .inl (by simp only [Store.emit, Store.write, FS.set, hq, if_false, ha])

theorem touches_log {out output : Bytes} {a : Store} : Touches c (some (logPath out)) a (writeLog out output a) := by
  unfold writeLog
  split
  · exact .remove rfl rfl
  · exact .write rfl rfl

theorem touches_flags {out : Bytes} {flags : List Bytes} {a : Store} : Touches c (some (flagsPath out)) a (checkFlags out flags a).1 := by
  unfold checkFlags
  rcases frugalFlags (a.fs.content (flagsPath out)) true flags with ⟨_ | _, _ | rec⟩
  · exact .same rfl
  · exact .same rfl
  · exact .same rfl
  · exact .write rfl rfl

theorem Touches.trans {d : Option Bytes} {a b b' : Store} (h1 : Touches c d a b) (h2 : Touches c none b b') : Touches c d a b' := by
  intro p
  rcases h2 p with h | h | h | h
  · rw [h]; exact h1 p
  · exact .inr (.inl h)
  · cases h
  · exact .inr (.inr (.inr h))

/-- Archives do not change by that. -/
theorem ArInv.touch (hL : LayoutOk L c) {d : Option Bytes} {a b : Store} (h : ArInv L fmt a.fs) (ht : Touches c d a b)
    (hd : ∀ o srcs, L.isOut o → L.kind o = .link true srcs → d ≠ some o) : ArInv L fmt b.fs := by
  intro o srcs f ho hk hf
  rcases ht o with h1 | h1 | h1 | ⟨out, h1⟩
  · exact h o srcs f ho hk (by rw [← h1]; exact hf)
  · rw [h1] at hf; cases hf
  · exact (hd o srcs ho hk h1).elim
  · exact (hL.destNotManaged _ _ h1 o ho (.inl rfl)).elim

/-- Records are not products. -/
theorem out_not_record (hL : LayoutOk L c) {o : Bytes} (ho : L.isOut o) (p : Bytes) : depsPath p ≠ o ∧ flagsPath p ≠ o ∧ logPath p ≠ o := by
  obtain ⟨base, e, he, rfl⟩ := hL.ext o ho
  have key : ∀ x : Bytes, ∀ q r : UInt8, (x ++ [q, r]) = base ++ [DOT, e] → q = DOT := by
    intro x q r h
    have := congrArg List.reverse h
    simp at this
    exact this.2.1
  refine ⟨fun h => ?_, fun h => ?_, fun h => ?_⟩
  · exact absurd (key (p ++ b!".de") 112 115 (by rw [← h]; simp [depsPath])) (by decide)
  · exact absurd (key (p ++ b!".fla") 103 115 (by rw [← h]; simp [flagsPath])) (by decide)
  · exact absurd (key (p ++ b!".l") 111 103 (by rw [← h]; simp [logPath])) (by decide)

/-- Where archives have the right names, `ar` leaves what making them anew leaves. -/
theorem ar_fresh (hA : ArchOk L arch) {fs : FS} (h : ArInv L fmt fs) {o : Bytes} {srcs : List Bytes} (ho : L.isOut o) (hk : L.kind o = .link true srcs) :
    arRun fmt fs (arch srcs) srcs = (fs.members srcs).map fmt.enc := by
  unfold arRun
  rw [hA o srcs ho hk]
  cases hm : fs.members srcs with
  | none => rfl
  | some new =>
    simp only [Option.bind_some, Option.map_some]
    cases hf : fs o with
    | none => simp only [FS.content, hf, Option.map_none, C108_ar_new]
    | some f =>
      obtain ⟨ms, h1, h2⟩ := h o srcs f ho hk hf
      simp only [FS.content, hf, Option.map_some, h2, fmt.dec_enc]
      rw [C108_ar_same (h1.trans (members_names hm).symm)]

theorem link_fresh (hA : ArchOk L arch) {s : Store} (h : ArInv L fmt s.fs) {j : LJob} (hj : LJobOk L j) (hF : j.archive = true → j.flags = []) :
    linkOp (tc.withAr fmt arch) j s = linkOp (tc.withFresh fmt) j s := by
  have : (tc.withAr fmt arch).link j.archive s.fs j.srcs j.flags = (tc.withFresh fmt).link j.archive s.fs j.srcs j.flags := by
    simp only [Toolchain.withAr, Toolchain.withFresh]
    cases ha : j.archive with
    | false => rfl
    | true =>
      have hk := hj.kind
      rw [ha] at hk
      simp only [if_true]
      rw [hF ha, List.append_nil, ar_fresh hA h hj.isOut hk]
      simp
  unfold linkOp
  rw [this]
  rfl

/-- Linking keeps the names of archives. -/
theorem link_inv (hL : LayoutOk L c) {s : Store} (h : ArInv L fmt s.fs) {j : LJob} (hj : LJobOk L j) (hF : j.archive = true → j.flags = []) :
    ArInv L fmt (linkOp (tc.withFresh fmt) j s).1.fs := by
  unfold linkOp
  cases hl : (tc.withFresh fmt).link j.archive s.fs j.srcs j.flags with
  | none => exact h.touch hL (d := none) (.failed (a' := (s.emit _).capture _ _) rfl) (fun _ _ _ _ h => (nomatch h))
  | some x =>
    intro o srcs f ho hk hf
    by_cases hq : o = j.out
    · subst hq
      rw [hj.kind] at hk
      injection hk with ha hs
      simp only [Store.write, FS.set, if_true, Option.some.injEq] at hf
      rw [ha, hF ha, hs] at hl
      simp only [Toolchain.withFresh, and_self, if_true, Option.map_eq_some_iff] at hl
      obtain ⟨ms, hm, rfl⟩ := hl
      subst hf
      exact ⟨ms, members_names hm, rfl⟩
    · refine h o srcs f ho hk ?_
      simp only [Store.write, FS.set, hq, if_false] at hf
      exact hf

theorem afterStep_jobs {rest : List Req} (h : (∀ r ∈ rest, ReqOk L r) ∧ PlainArchives rest) (r : Store × Bool) : JobsIn L (afterStep rest r) := by
  unfold afterStep
  split
  · exact h
  · trivial

theorem seq_ar (hL : LayoutOk L c) (hA : ArchOk L arch) {a b : Cfg} (h : seqNext (tc.withAr fmt arch) c a = some b) (hj : JobsIn L a) (hi : ArInv L fmt a.store.fs) :
    seqNext (tc.withFresh fmt) c a = some b ∧ JobsIn L b ∧ ArInv L fmt b.store.fs := by
  have hflags : ∀ out : Bytes, ∀ o srcs, L.isOut o → L.kind o = .link true srcs → some (flagsPath out) ≠ some o := fun out o _ ho _ he =>
    (out_not_record hL ho out).2.1 (Option.some.inj he)
  have hlog : ∀ out : Bytes, ∀ o srcs, L.isOut o → L.kind o = .link true srcs → some (logPath out) ≠ some o := fun out o _ ho _ he =>
    (out_not_record hL ho out).2.2 (Option.some.inj he)
  have hnone : ∀ o srcs, L.isOut o → L.kind o = .link true srcs → (none : Option Bytes) ≠ some o := fun _ _ _ _ h => (nomatch h)
  cases a with
  | idle rest s =>
    cases rest with
    | nil => cases h; exact ⟨rfl, trivial, hi⟩
    | cons r rest =>
      have hrest : (∀ r ∈ rest, ReqOk L r) ∧ PlainArchives rest := ⟨fun r hr => hj.1 r (by simp [hr]), fun j hm => hj.2 j (by simp [hm])⟩
      cases r with
      | compile jobs => cases h; exact ⟨rfl, ⟨hj.1 (.compile jobs) (by simp), by simp, hrest⟩, hi⟩
      | link j =>
        refine ⟨h, ?_⟩
        simp only [seqNext] at h
        have hs := linkCheck_store j s
        rcases hc : linkCheck j s with ⟨s', ok⟩
        rw [hc] at h hs
        change s' = _ at hs
        have ht : Touches c (some (flagsPath j.out)) s s' := by rw [hs]; exact touches_flags
        cases ok with
        | true => cases h; exact ⟨⟨hj.1 (.link j) (by simp), hj.2 j (by simp), hrest⟩, hi.touch hL ht (hflags _)⟩
        | false =>
          cases h
          refine ⟨afterStep_jobs hrest _, ?_⟩
          rw [afterStep_store]
          exact hi.touch hL (ht.trans (touches_install (a' := s'.emit _) rfl)) (hflags _)
  | validating todo tasks rest s =>
    cases todo with
    | nil => cases h; exact ⟨rfl, hj.2, hi⟩
    | cons j todo =>
      refine ⟨h, ?_⟩
      simp only [seqNext] at h
      have hs := validate_store j s
      rcases hc : validate j s with ⟨s', v⟩
      rw [hc] at h hs
      change s' = _ at hs
      have ht : Touches c (some (flagsPath j.out)) s s' := by rw [hs]; exact touches_flags
      have htodo : ∀ j ∈ todo, CJobOk L j := fun j hm => hj.1 j (by simp [hm])
      cases v with
      | err => cases h; exact ⟨trivial, hi.touch hL ht (hflags _)⟩
      | compile =>
        cases h
        refine ⟨⟨htodo, fun k hk => ?_, hj.2.2⟩, hi.touch hL ht (hflags _)⟩
        rcases List.mem_append.1 hk with hk | hk
        · exact hj.2.1 k hk
        · cases List.mem_singleton.1 hk; exact hj.1 _ (by simp)
      | skip =>
        simp only at h
        have hm : Touches c (some (flagsPath j.out)) s (installCookie c j.out (s'.emit (.already j.out (s'.fs.content (logPath j.out))))).1 := ht.trans (touches_install rfl)
        rcases hi' : installCookie c j.out (s'.emit (.already j.out (s'.fs.content (logPath j.out)))) with ⟨s'', ok⟩
        rw [hi'] at h hm
        cases ok
        · cases h; exact ⟨trivial, hi.touch hL hm (hflags _)⟩
        · cases h; exact ⟨⟨htodo, hj.2⟩, hi.touch hL hm (hflags _)⟩
  | pooling tasks rest p => cases h
  | linking j rest s =>
    obtain ⟨h1, h2, h3⟩ := hj
    have he := link_fresh (tc := tc) hA hi h1 h2
    have := link_inv (tc := tc) hL hi h1 h2
    change linkOp _ j s = _ at he
    simp only [seqNext] at h ⊢
    rw [he] at h
    refine ⟨h, ?_⟩
    cases h
    exact ⟨⟨h1, h2, h3⟩, this⟩
  | linkRan ok j rest s =>
    cases ok
    · cases h; exact ⟨rfl, trivial, hi.touch hL touches_log (hlog _)⟩
    · cases h; exact ⟨rfl, hj, hi.touch hL touches_log (hlog _)⟩
  | linked j rest s =>
    refine ⟨h, ?_⟩
    cases h
    refine ⟨afterStep_jobs hj.2.2 _, ?_⟩
    rw [afterStep_store]
    exact hi.touch hL (d := none) (touches_install rfl) hnone
  | finished => cases h

theorem task_ar (hL : LayoutOk L c) {j : CJob} (hj : CJobOk L j) {k : Nat} {op : TaskOp Store} (h : (compileTask tc c j)[k]? = some op) (f : Bool) (s : Store) (hi : ArInv L fmt s.fs) :
    ArInv L fmt (op f s).1.fs := by
  match k, h with
  | 0, h =>
    cases h
    unfold depsOp
    split
    · exact hi
    · exact hi.touch hL (.write rfl rfl) fun o _ ho _ he => (out_not_record hL ho j.out).1 (Option.some.inj he)
  | 1, h =>
    cases h
    unfold objOp
    simp only
    split
    · refine hi.touch hL (.write (a' := ((s.emit _).capture _ _)) rfl rfl) fun o srcs ho hk he => ?_
      rw [← Option.some.inj he, hj.kind] at hk
      cases hk
    · exact hi.touch hL (d := none) (.failed (a' := ((s.emit _).capture _ _)) rfl) fun _ _ _ _ h => (nomatch h)
  | 2, h =>
    cases h
    exact hi.touch hL touches_log fun o _ ho _ he => (out_not_record hL ho j.out).2.2 (Option.some.inj he)
  | 3, h =>
    cases h
    unfold instOp
    split
    · exact hi
    · exact hi.touch hL (d := none) (touches_install rfl) fun _ _ _ _ h => (nomatch h)
  | k + 4, h => simp [compileTask] at h

theorem work_ar (hL : LayoutOk L c) {tasks : List CJob} (hj : ∀ j ∈ tasks, CJobOk L j) {p p' : Pool Store} {w : Nat} (h : workStep (taskProg tc c tasks) p w = some p')
    (hi : ArInv L fmt p.store.fs) : ArInv L fmt p'.store.fs := by
  unfold workStep at h
  split at h
  case h_7 i k f hp =>
    cases ht : tasks[i]? with
    | none =>
      simp only [taskProg, ht, List.getElem?_nil, Option.some.injEq] at h
      subst h
      exact hi
    | some j =>
      simp only [taskProg, ht] at h
      split at h
      · rename_i op ho
        simp only [Option.some.injEq] at h
        subst h
        exact task_ar hL (hj j (List.mem_of_getElem? ht)) ho f p.store hi
      · simp only [Option.some.injEq] at h
        subst h
        exact hi
  all_goals
    first
    | (simp only [Option.some.injEq] at h; subst h; exact hi)
    | (split at h <;> first | (simp only [Option.some.injEq] at h; subst h; exact hi) | cases h)
    | cases h

theorem next_ar (hL : LayoutOk L c) (hA : ArchOk L arch) {a b : Cfg} (h : BuildNext (tc.withAr fmt arch) c n a b) (hj : JobsIn L a) (hi : ArInv L fmt a.store.fs) :
    BuildNext (tc.withFresh fmt) c n a b ∧ JobsIn L b ∧ ArInv L fmt b.store.fs := by
  cases h with
  | seq h =>
    obtain ⟨h1, h2⟩ := seq_ar hL hA h hj hi
    exact ⟨.seq h1, h2⟩
  | tick t h =>
    refine ⟨.tick t h, ?_, by rw [withNow_fs]; exact hi⟩
    cases a <;> exact hj
  | @pool tasks rest p p' h =>
    refine ⟨.pool h, hj, ?_⟩
    cases h with
    | work w hw h => exact work_ar hL hj.1 h hi
    | env s' h => exact h.elim
  | join h => exact ⟨.join h, afterStep_jobs hj.2 _, by rw [afterStep_store]; exact hi⟩

/-- A build with `ar` is one that makes archives anew. -/
theorem reaches_ar (hL : LayoutOk L c) (hA : ArchOk L arch) {reqs : List Req} (hR : ReqsOk L reqs) (hF : PlainArchives reqs) {s : Store} {cfg : Cfg} (hi : ArInv L fmt s.fs)
    (h : BuildReaches (tc.withAr fmt arch) c n reqs s cfg) : BuildReaches (tc.withFresh fmt) c n reqs s cfg ∧ ArInv L fmt cfg.store.fs := by
  suffices H : ∀ x, Steps (BuildNext (tc.withAr fmt arch) c n) (.idle reqs s) x → BuildReaches (tc.withFresh fmt) c n reqs s x ∧ JobsIn L x ∧ ArInv L fmt x.store.fs from
    ⟨(H cfg h).1, (H cfg h).2.2⟩
  intro x hx
  induction hx with
  | refl => exact ⟨.refl _, ⟨hR.jobs, hF⟩, hi⟩
  | tail _ r ih =>
    obtain ⟨h1, h2, h3⟩ := ih
    obtain ⟨h4, h5⟩ := next_ar hL hA r h2 h3
    exact ⟨.tail h1 h4, h5⟩

theorem edit_ar {s s' : Store} (h : ArInv L fmt s.fs) (he : Edit L s s') : ArInv L fmt s'.fs := by
  intro o srcs f ho hk hf
  rcases he.managed o ho o (.inl rfl) with h1 | h1
  · exact h o srcs f ho hk (by rw [← h1]; exact hf)
  · rw [h1] at hf; cases hf

theorem hist_ar (hA : ArchOk L arch) {ok : Bool} {s : Store} (h : ArHist (tc.withAr fmt arch) L ok s) :
    ArInv L fmt s.fs ∧ Past (tc.withFresh fmt) L s ∧ (ok = true → Builds (tc.withFresh fmt) L s) := by
  induction h with
  | start h =>
    refine ⟨fun o srcs f ho _ hf => ?_, .start h, fun _ => .start h⟩
    rw [h.managed o ho o (.inl rfl)] at hf
    cases hf
  | @built ok s s1 cfg c n reqs _ he hL hR hF hn hb ih =>
    obtain ⟨h1, h2, h3⟩ := ih
    obtain ⟨h4, h5⟩ := reaches_ar hL hA hR hF (edit_ar h1 he) hb
    refine ⟨h5, .built h2 he hL hR hn h4, fun hok => ?_⟩
    rw [Bool.and_eq_true, beq_iff_eq] at hok
    have hc := result_finished hok.2
    rw [hc] at h4
    exact .built (h3 hok.1) he hL hR hn h4

theorem members_congr {fs fs' : FS} {ps : List Bytes} (h : ∀ p ∈ ps, fs'.content p = fs.content p) : fs'.members ps = fs.members ps := by
  induction ps with
  | nil => rfl
  | cons p ps ih =>
    simp only [FS.members]
    rw [h p (by simp), ih fun q hq => h q (by simp [hq])]

theorem members_isSome {fs : FS} {ps : List Bytes} {ms : List (Bytes × Bytes)} (h : fs.members ps = some ms) : ∀ p ∈ ps, (fs p).isSome := by
  induction ps generalizing ms with
  | nil => simp
  | cons p ps ih =>
    simp only [FS.members, Option.bind_eq_some_iff, Option.map_eq_some_iff] at h
    obtain ⟨x, h1, ms', h', rfl⟩ := h
    intro q hq
    rcases List.mem_cons.1 hq with rfl | hq
    · rw [← content_isSome_iff, h1]; rfl
    · exact ih h' q hq

theorem toolOk_fresh (h : ToolOk tc L) : ToolOk (tc.withFresh fmt) L where
  depsOk := h.depsOk
  depsLaw := h.depsLaw
  objDeps := h.objDeps
  linkLaw a fs fs' srcs F hs := by
    refine ⟨?_, (h.linkLaw a fs fs' srcs F hs).2⟩
    simp only [Toolchain.withFresh]
    rw [members_congr hs, (h.linkLaw a fs fs' srcs F hs).1]
  linkExists a fs srcs F o ho := by
    simp only [Toolchain.withFresh] at ho
    split at ho
    · obtain ⟨ms, hm, -⟩ := Option.map_eq_some_iff.1 ho
      exact members_isSome hm
    · exact h.linkExists a fs srcs F o ho

/-! ## The claim -/

/-- **C108.** After any history of edits and builds in which archives are asked for without flags, a build that succeeds leaves archives that have exactly the present files
they are asked for with as their members, in that order, even though `ar` keeps members and only replaces some. -/
theorem C108_archives_present (hA : ArchOk L arch) (hT : ToolOk tc L) {s s1 s2 : Store} (h : ArHist (tc.withAr fmt arch) L true s) (he : Edit L s s1) (hL : LayoutOk L c)
    {reqs : List Req} (hR : ReqsOk L reqs) (hF : PlainArchives reqs) (hn : 0 < n) (hb : BuildReaches (tc.withAr fmt arch) c n reqs s1 (.finished true s2)) :
    ∀ j, .link j ∈ reqs → j.archive = true → ∃ ms, s2.fs.members j.srcs = some ms ∧ s2.fs.content j.out = some (fmt.enc ms) := by
  obtain ⟨h1, -, h3⟩ := hist_ar hA h
  obtain ⟨h4, -⟩ := reaches_ar hL hA hR hF (edit_ar h1 he) hb
  intro j hj ha
  obtain ⟨o, h5, h6⟩ := (C04_incremental_build_up_to_date (toolOk_fresh hT) (h3 rfl) he hL hR hn h4).1 _ hj
  rw [ha, hF j hj ha] at h5
  simp only [Toolchain.withFresh, and_self, if_true, Option.map_eq_some_iff] at h5
  obtain ⟨ms, h7, rfl⟩ := h5
  exact ⟨ms, h7, h6⟩

/-- **C108.** What is left after such a history, whether the builds succeeded or not, could also have been left by an archiver that makes every archive anew.  So what has been shown for such
archivers holds for `ar`. -/
theorem C108_as_if_anew (hA : ArchOk L arch) {ok : Bool} {s : Store} (h : ArHist (tc.withAr fmt arch) L ok s) :
    Past (tc.withFresh fmt) L s ∧ (ok = true → Builds (tc.withFresh fmt) L s) := (hist_ar hA h).2

/-- **C108.** So a build leaves the same products as a build of a fresh checkout of the same files. -/
theorem C108_same_as_clean (hA : ArchOk L arch) (hT : ToolOk tc L) {s s1 s2 k1 k2 : Store} (h : ArHist (tc.withAr fmt arch) L true s) (he : Edit L s s1) {c' : InstCfg} {n' : Nat}
    (hL : LayoutOk L c) (hL' : LayoutOk L c') {reqs : List Req} (hR : ReqsOk L reqs) (hF : PlainArchives reqs) (hn : 0 < n) (hn' : 0 < n')
    (hb : BuildReaches (tc.withAr fmt arch) c n reqs s1 (.finished true s2)) (hk : Pristine L k1) (hu : ∀ p, L.user p → k1.fs.content p = s1.fs.content p)
    (hb' : BuildReaches (tc.withAr fmt arch) c' n' reqs k1 (.finished true k2)) : ∀ o ∈ outsOf reqs, s2.fs.content o = k2.fs.content o := by
  obtain ⟨h1, -, h3⟩ := hist_ar hA h
  have hk1 : ArInv L fmt k1.fs := (hist_ar (tc := tc) (fmt := fmt) hA (.start hk)).1
  exact C04_same_as_clean_build (toolOk_fresh hT) (h3 rfl) he hL hL' hR hn hn' (reaches_ar hL hA hR hF (edit_ar h1 he) hb).1 hk hu (reaches_ar hL' hA hR hF hk1 hb').1

end Bob
