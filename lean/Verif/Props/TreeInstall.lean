import Verif.Spec.TreeInstall
import Verif.Props.TreeBuild
import Verif.Props.Whole
import Verif.Props.Replay
/-!
# C110: building and installing
-/

namespace Bob

variable {tc : Toolchain} {c : InstCfg} {n : Nat} {reqs : List Req}

/-! ## After a successful build there are the copies -/

theorem installed_there {o d : Bytes} (hd : c.dest o = some d) {s s' : Store} (h : installCookie c o s = (s', true)) : (s'.fs d).isSome := by
  unfold installCookie at h
  rw [hd] at h
  dsimp only at h
  split at h
  · cases h
  · split at h
    · cases h
    · split at h
      · cases h
      · rename_i hf
        cases h
        unfold frugalMtime at hf
        cases e : s.fs d with
        | none => simp [FS.stat, e] at hf
        | some f => rfl
      · cases h
        show ((Store.write _ _ _).fs d).isSome
        rw [write_same]; rfl

def ThereAt (c : InstCfg) (P : Prod) (st : PStat) (s : Store) : Prop := st = .done ∨ st = .task 4 false → ∀ d, c.dest P.out = some d → (s.fs d).isSome

theorem there_flow (hD : DestsApart c reqs) : Flow tc c reqs (fun _ => True) (ThereAt c) := by
  have hout : ∀ P ∈ prodsOf reqs, P.out ∈ outsOf reqs := fun P hP => by rw [← prodsOf_out]; exact List.mem_map_of_mem hP
  refine ⟨fun _ _ _ _ => trivial, ?_, ?_, ?_⟩
  · rintro P st s s' ⟨t, -, rfl⟩ - h
    exact h
  · intro P hP st s st' s' ha _ hQ
    refine ⟨trivial, ?_⟩
    intro hst d hd
    cases ha with
    | compile h => simp at hst
    | err h => simp at hst
    | @skip _ _ _ _ ok h hi =>
      cases ok with
      | false => simp [okStat] at hst
      | true => exact installed_there hd hi
    | @task j k f op _ hop =>
      rcases compileTask_cases hop with ⟨rfl, rfl⟩ | ⟨rfl, rfl⟩ | ⟨rfl, rfl⟩ | ⟨rfl, rfl⟩
      · simp at hst
      · simp at hst
      · simp at hst
      · rcases hi : installCookie c j.out s with ⟨s2, ok⟩
        cases f with
        | true => simp [instOp] at hst
        | false =>
          have e : instOp c j false s = (s2, !ok) := by unfold instOp; rw [hi]; rfl
          rw [e] at hst ⊢
          cases ok with
          | false => simp at hst
          | true => exact installed_there hd hi
    | taskOk => exact hQ (Or.inr rfl) d hd
    | linkYes h => simp at hst
    | @linkSkip _ _ _ _ ok h hi =>
      cases ok with
      | false => simp [okStat] at hst
      | true => exact installed_there hd hi
    | linkRun h => simp at hst
    | linkLog => simp at hst
    | linkFail => simp at hst
    | @linkInst _ _ _ ok h =>
      cases ok with
      | false => simp [okStat] at hst
      | true => exact installed_there hd h
  · intro P hP P' hP' hne st s st' s' ha _ _ q _ hq hst d hd
    rw [(act_touch ha).same d ?_]
    · exact hq hst d hd
    · rintro (h | h)
      · exact hD.managed _ (hout _ hP') d hd _ (hout _ hP) h
      · exact hne (hD.inj _ (hout _ hP') _ (hout _ hP) d hd h)

/-- **C110.** After a successful build there is a file at the destination of every product, whatever was there before. -/
theorem C110_copies_there (hD : DestsApart c reqs) (hO : Ord reqs) (hn : 0 < n) {s s' : Store} (h : BuildReaches tc c n reqs s (.finished true s')) :
    ∀ o ∈ outsOf reqs, ∀ d, c.dest o = some d → (s'.fs d).isSome := by
  intro o ho d hd
  have := (flow_success (there_flow (tc := tc) hD) hO hn trivial (fun P _ h => by simp at h) h).2
  rw [← prodsOf_out] at ho
  obtain ⟨P, hP, rfl⟩ := List.mem_map.mp ho
  exact this P hP (Or.inl rfl) d hd

/-! ## Building and installing -/

theorem denotes_unique {cwd : Path} {s : Bytes} {p p' : Path} (h : Denotes cwd s p) (h' : Denotes cwd s p') : p = p' := by
  obtain ⟨ks, h1, h2, h3⟩ := h
  obtain ⟨ks', h1', h2', h3'⟩ := h'
  have inj : joinP ks = joinP ks' → ks = ks' := fun he => by rw [← strsepAll_joinP h1 h2, ← strsepAll_joinP h1' h2', he]
  have abs : ∀ {ks ks' : List Bytes}, ks ≠ [] → (∀ c ∈ ks, Plain c) → joinP ks ≠ b!"/" ++ joinP ks' := by
    intro ks ks' h h' he
    obtain ⟨b, bs, e1, e2⟩ := joinP_head h h'
    rw [e1] at he
    injection he with he
    exact e2 he
  rcases h3 with ⟨rfl, rfl⟩ | ⟨rfl, rfl⟩ <;> rcases h3' with ⟨h4, rfl⟩ | ⟨h4, rfl⟩
  · rw [inj h4]
  · exact (abs h1 h2 h4).elim
  · exact (abs h1' h2' h4.symm).elim
  · exact inj (List.append_cancel_left h4)

/-- Installing everything leaves the copies of products alone. -/
theorem product_kept {e : InstEnv} {pre : Path} {es : List (Ent × Nat)} (hes : EntsOk e pre es) (hpre : Denotes e.cwd e.pre pre)
    {t t' : Tree} (hw : t.Wf) (hnc : NoClash t es) {acc copied : List (Bytes × Bytes)} (h : installAll e (asEntries es) t acc = .ok t' copied) :
    ∀ x ∈ es, x.1.product e → t' x.1.dst = t x.1.dst := by
  induction es generalizing t acc with
  | nil => intro x hx; cases hx
  | cons y es ih =>
    obtain ⟨t1, acc1, h1, hw1, hout, hcase⟩ := all_cons hes hpre hw hnc h
    have hnc1 := rest_noClash hes hout hnc
    have hap := (List.pairwise_cons.mp hes.dsts).1
    intro x hx hp
    rcases List.mem_cons.mp hx with rfl | hx
    · rcases hcase with ⟨-, rfl, -⟩ | ⟨hnp, -⟩ | ⟨hnp, -⟩
      · exact (all_frame hes.tail hpre hw1 hnc1 h1).2 _ fun z hz => hap z hz
      · exact (hnp hp).elim
      · exact (hnp hp).elim
    · exact (ih hes.tail hw1 hnc1 h1 x hx hp).trans (hout _ (hap x hx).symm)

variable {free : Prop} {e : TEnv} {path : Bytes → Path}

theorem changes_known (hP : Placed e path tc reqs) {w : Bytes} (h : Changes e reqs w) : e.known w = true := by
  rcases h with h | ⟨o, ho, pre, v, h1, h2, rfl⟩
  · exact hP.writes w h
  · exact (hP.dest o ho pre v h1 h2).1

theorem writes_managed {w : Bytes} (h : Writes reqs w) : ∃ o ∈ outsOf reqs, Managed o w := by
  rcases h with ⟨j, ⟨jobs, h1, h2⟩, h⟩ | ⟨j, h1, h⟩
  · refine ⟨j.out, List.mem_flatMap.mpr ⟨_, h1, List.mem_map_of_mem h2⟩, ?_⟩
    simpa [Managed] using h
  · refine ⟨j.out, List.mem_flatMap.mpr ⟨_, h1, by simp [Req.outs]⟩, ?_⟩
    simp only [List.mem_cons, List.not_mem_nil, or_false] at h
    rcases h with h | h | h <;> simp [Managed, h]

theorem find_key {es : List (Ent × Nat)} (hk : (es.map fun x => x.1.key).Nodup) {x : Ent × Nat} (hx : x ∈ es) :
    (es.map fun x => (x.1.key, x.1.val)).find? (fun y => y.1 == x.1.key) = some (x.1.key, x.1.val) := by
  induction es with
  | nil => cases hx
  | cons y es ih =>
    simp only [List.map_cons, List.nodup_cons] at hk
    rw [List.map_cons, List.find?_cons]
    rcases List.mem_cons.mp hx with rfl | hx
    · simp
    · have : (y.1.key == x.1.key) = false := by
        simp only [beq_eq_false_iff_ne, ne_eq]
        exact fun he => hk.1 (he ▸ List.mem_map_of_mem hx)
      simp only [this]
      exact ih hk.2 hx

theorem TMapOk.dst {pre : Bytes} {prePath : Path} {es : List (Ent × Nat)} (hM : TMapOk e path reqs pre prePath es) {x : Ent × Nat} (hx : x ∈ es) :
    Denotes e.cwd (pre ++ b!"/" ++ x.1.val) x.1.dst := by
  obtain ⟨vs, last, h1, h2, h3, h4⟩ := (hM.ents.ok x hx).dst
  rw [h3, h4]
  refine denotes_append hM.prePath_ (by simp) ?_
  intro c hc
  rcases List.mem_append.mp hc with hc | hc
  · exact h1 c hc
  · rw [List.mem_singleton.mp hc]; exact h2

theorem TMapOk.product (hP : Placed e path tc reqs) {pre : Bytes} {prePath : Path} {es : List (Ent × Nat)} (hM : TMapOk e path reqs pre prePath es) {x : Ent × Nat} (hx : x ∈ es)
    (ho : x.1.key ∈ outsOf reqs) : x.1.src = path x.1.key ∧ x.1.dst = path (pre ++ b!"/" ++ x.1.val) ∧ e.known (pre ++ b!"/" ++ x.1.val) = true ∧ x.1.product (e.inst pre) ∧
      e.flat.dest x.1.key = some (pre ++ b!"/" ++ x.1.val) := by
  have hf := find_key hM.keys hx
  rw [← hM.map] at hf
  obtain ⟨h1, -, -, h2, -⟩ := hP.dest x.1.key ho pre x.1.val hM.pre_ hf
  have hs := denotes_unique (hM.ents.ok x hx).src (hP.denotes _ (hP.writes _ (writes_out ho).1))
  refine ⟨hs, denotes_unique (hM.dst hx) (hP.denotes _ h1), h1, ?_, ?_⟩
  · unfold Ent.product; rw [hs]; exact h2
  · simp [InstCfg.dest, TEnv.flat, hM.pre_, hf]

/-- Installing the rest changes nothing under the names in use. -/
theorem known_kept (hP : Placed e path tc reqs) {pre : Bytes} {prePath : Path} {es : List (Ent × Nat)} (hM : TMapOk e path reqs pre prePath es) {t t' : Tree} (hw : t.Wf)
    (hnc : NoClash t es) {copied : List (Bytes × Bytes)} (ha : installAll (e.inst pre) (asEntries es) t [] = .ok t' copied) {w : Bytes} (hk : e.known w = true) : t' (path w) = t (path w) := by
  by_cases h : ∃ x ∈ es, x.1.key ∈ outsOf reqs ∧ x.1.dst = path w
  · obtain ⟨x, hx, ho, hd⟩ := h
    rw [← hd]
    exact product_kept hM.ents hM.prePath_ hw hnc ha x hx (hM.product hP hx ho).2.2.2.1
  · refine (all_frame hM.ents hM.prePath_ hw hnc ha).2 _ fun x hx => ?_
    by_cases ho : x.1.key ∈ outsOf reqs
    · obtain ⟨-, h2, h3, -, -⟩ := hM.product hP hx ho
      refine ⟨fun hp => h ⟨x, hx, ho, ?_⟩, fun hp => h ⟨x, hx, ho, ?_⟩⟩
      · rw [h2] at hp ⊢; rw [hP.apart _ _ hk h3 hp]
      · rw [h2] at hp ⊢; rw [hP.apart _ _ h3 hk hp]
    · exact (hM.other x hx ho w hk).2.symm

theorem after_build (hP : Placed e path tc reqs) {t t2 : Tree} {pre : Bytes} {prePath : Path} {es : List (Ent × Nat)} (hM : TMapOk e path reqs pre prePath es)
    (hnc : NoClash t (es.filter fun x => x.1.key ∉ outsOf reqs)) (hR2 : Ready free e path reqs t2) (hfr : Frame e path reqs t t2) :
    (∀ x ∈ es, x.1.key ∉ outsOf reqs → (∀ r, t2 (x.1.src ++ r) = t (x.1.src ++ r)) ∧ ∀ r, t2 (x.1.dst ++ r) = t (x.1.dst ++ r)) ∧ NoClash t2 es := by
  have hknown : ∀ w, Changes e reqs w → e.known w = true := fun _ => changes_known hP
  have hother : ∀ x ∈ es, x.1.key ∉ outsOf reqs → (∀ r, t2 (x.1.src ++ r) = t (x.1.src ++ r)) ∧ ∀ r, t2 (x.1.dst ++ r) = t (x.1.dst ++ r) := by
    intro x hx ho
    exact ⟨fun r => hfr.same _ fun w hw => (apart_below (hM.other x hx ho w (hknown w hw)).1.symm r).2, fun r => hfr.same _ fun w hw => (apart_below (hM.other x hx ho w (hknown w hw)).2.symm r).2⟩
  refine ⟨hother, ?_⟩
  · intro x hx c m hc hdir
    by_cases ho : x.1.key ∈ outsOf reqs
    · obtain ⟨-, h2, h3, -⟩ := hM.product hP hx ho
      rw [h2] at hdir
      exact hR2.files _ h3 hdir
    · obtain ⟨h1, h2⟩ := hother x hx ho
      have h1 := h1 []
      have h2 := h2 []
      simp only [List.append_nil] at h1 h2
      rw [h1] at hc
      obtain ⟨m', hm'⟩ := hdir
      rw [h2] at hm'
      exact hnc x (List.mem_filter.mpr ⟨hx, by simpa using ho⟩) c m hc ⟨m', hm'⟩

/-- **C110.** If building for a prefix and then installing succeed, there is at the destination of every product of the build a file, and every other entry that is not a product has at its
destination what there was at its source before the build, at every depth, unless the destination existed and was at least as new. -/
theorem C110_install (hP : Placed e path tc reqs) {s s2 : TStore} (hR : Ready free e path reqs s.tree) (hO : Ord reqs) (hn : 0 < n) (hD : DestsApart e.flat reqs)
    {pre : Bytes} {prePath : Path} {es : List (Ent × Nat)} (hM : TMapOk e path reqs pre prePath es) (hnc : NoClash s.tree (es.filter fun x => x.1.key ∉ outsOf reqs))
    (hb : TBuildReaches e tc n reqs s (.finished true s2)) {t' : Tree} {copied : List (Bytes × Bytes)} (ha : installAll (e.inst pre) (asEntries es) s2.tree [] = .ok t' copied) :
    t'.Wf ∧ ∀ x ∈ es, (x.1.key ∈ outsOf reqs → x.1.product (e.inst pre) ∧ ∃ c m, t' x.1.dst = some (.file c m) ∧ s2.view e (pre ++ b!"/" ++ x.1.val) = some ⟨c, m⟩) ∧
      (x.1.key ∉ outsOf reqs → ¬ x.1.product (e.inst pre) → (SameData s.tree x.1.src t' x.1.dst ∧ t' x.1.dst ≠ none) ∨
        ((∀ r, t' (x.1.dst ++ r) = s.tree (x.1.dst ++ r)) ∧ ∃ n m, s.tree x.1.src = some n ∧ s.tree x.1.dst = some m ∧ n.mtime ≤ m.mtime)) := by
  obtain ⟨hR2, hflat⟩ := C109_succeeds hP hR hb
  have hfr : Frame e path reqs s.tree s2.tree := by
    rcases C109_frame hP hR hb with ⟨-, hd⟩ | h
    · cases hd
    · exact h
  -- products
  have hprod : ∀ x ∈ es, x.1.key ∈ outsOf reqs → x.1.src = path x.1.key ∧ x.1.dst = path (pre ++ b!"/" ++ x.1.val) ∧ e.known (pre ++ b!"/" ++ x.1.val) = true ∧
      x.1.product (e.inst pre) ∧ e.flat.dest x.1.key = some (pre ++ b!"/" ++ x.1.val) := fun x hx ho => hM.product hP hx ho
  obtain ⟨hother, hnc2⟩ := after_build hP hM hnc hR2 hfr
  have hall := all_frame hM.ents hM.prePath_ hR2.wf hnc2 ha
  refine ⟨hall.1, fun x hx => ⟨fun ho => ?_, fun ho hp => ?_⟩⟩
  · obtain ⟨h1, h2, h3, h4, h5⟩ := hprod x hx ho
    refine ⟨h4, ?_⟩
    have hk := C110_copies_there hD hO hn hflat _ ho _ h5
    obtain ⟨f, hf⟩ := Option.isSome_iff_exists.mp hk
    have hf : s2.view e (pre ++ b!"/" ++ x.1.val) = some f := hf
    have hf' := hf
    unfold TStore.view at hf'
    rw [view_apply, if_pos h3, fileAt_denotes hR2.wf (hP.denotes _ h3), ← h2] at hf'
    have hnode : s2.tree x.1.dst = some (.file f.content f.mtime) := by
      cases en : s2.tree x.1.dst with
      | none => rw [en] at hf'; cases hf'
      | some n =>
        cases n with
        | dir m => rw [en] at hf'; cases hf'
        | file c m => rw [en] at hf'; cases hf'; rfl
    refine ⟨f.content, f.mtime, ?_, hf⟩
    rw [product_kept hM.ents hM.prePath_ hR2.wf hnc2 ha x hx h4]
    exact hnode
  · obtain ⟨h1, h2⟩ := hother x hx ho
    have := C29_install_copies hM.ents hM.prePath_ hR2.wf hnc2 ha x hx hp
    have h10 := h1 []
    have h20 := h2 []
    simp only [List.append_nil] at h10 h20
    refine this.imp (fun ⟨ha, hb⟩ => ⟨fun r => ?_, hb⟩) fun ⟨ha, n, m, h3, h4, h5⟩ => ⟨fun r => (ha r).trans (h2 r), n, m, by rw [← h10]; exact h3, by rw [← h20]; exact h4, h5⟩
    rw [ha r, h1 r]

/-- **C110.** And after any history of edits and builds, the copy of a product is the product. -/
theorem C110_exact_copies (hP : Placed e path tc reqs) {s s2 : TStore} (hR : Ready free e path reqs s.tree) (hn : 0 < n)
    {pre : Bytes} {prePath : Path} {es : List (Ent × Nat)} (hM : TMapOk e path reqs pre prePath es) (hnc : NoClash s.tree (es.filter fun x => x.1.key ∉ outsOf reqs))
    {L : Layout} {dest : Bytes → Option Bytes} (hDO : DestOk L dest) {S : Store} (hS : Installs tc L dest S) (he : Edit L S (s.flat e))
    (hd : ∀ o d, L.isOut o → dest o = some d → (s.flat e).fs d = S.fs d ∨ (s.flat e).fs d = none) (hL : LayoutOk L e.flat) (hQ : ReqsOk L reqs)
    (hc : ∀ o, L.isOut o → e.flat.dest o = dest o ∨ e.flat.dest o = none)
    (hb : TBuildReaches e tc n reqs s (.finished true s2)) {t' : Tree} {copied : List (Bytes × Bytes)} (ha : installAll (e.inst pre) (asEntries es) s2.tree [] = .ok t' copied) :
    ∀ x ∈ es, x.1.key ∈ outsOf reqs → ∃ c m m', t' x.1.src = some (.file c m) ∧ t' x.1.dst = some (.file c m') := by
  intro x hx ho
  obtain ⟨hR2, hflat⟩ := C109_succeeds hP hR hb
  have hfr : Frame e path reqs s.tree s2.tree := by
    rcases C109_frame hP hR hb with ⟨-, hd⟩ | h
    · cases hd
    · exact h
  obtain ⟨-, hnc2⟩ := after_build hP hM hnc hR2 hfr
  obtain ⟨h1, h2, h3, -, h5⟩ := hM.product hP hx ho
  have hko : e.known x.1.key = true := hP.writes _ (writes_out ho).1
  obtain ⟨hs, hcnt⟩ := C30_products_installed_partial hDO hS he hd hL hQ hn hc hflat _ ho _ h5
  rw [h1, h2, known_kept hP hM hR2.wf hnc2 ha hko, known_kept hP hM hR2.wf hnc2 ha h3]
  have view : ∀ w, e.known w = true → ∀ f, (s2.flat e).fs w = some f → s2.tree (path w) = some (.file f.content f.mtime) := by
    intro w hk f hf
    have hf : s2.view e w = some f := hf
    unfold TStore.view at hf
    rw [view_apply, if_pos hk, fileAt_denotes hR2.wf (hP.denotes _ hk)] at hf
    cases en : s2.tree (path w) with
    | none => rw [en] at hf; cases hf
    | some n =>
      cases n with
      | dir m => rw [en] at hf; cases hf
      | file c m => rw [en] at hf; cases hf; rfl
  obtain ⟨f, hf⟩ := Option.isSome_iff_exists.mp hs
  have hof : ∃ g, (s2.flat e).fs x.1.key = some g ∧ g.content = f.content := by
    simp only [FS.content, hf, Option.map_some] at hcnt
    cases hg : (s2.flat e).fs x.1.key with
    | none => rw [hg] at hcnt; cases hcnt
    | some g => rw [hg] at hcnt; exact ⟨g, rfl, by simpa using hcnt.symm⟩
  obtain ⟨g, hg, hgf⟩ := hof
  exact ⟨f.content, g.mtime, f.mtime, by rw [view _ hko g hg, hgf], view _ h3 f hf⟩

/-! ## `tests/install.sh` -/

theorem all_dirs {e : InstEnv} {pre : Path} {es : List (Ent × Nat)} (hes : EntsOk e pre es) (hpre : Denotes e.cwd e.pre pre)
    {t t' : Tree} (hw : t.Wf) (hnc : NoClash t es) {acc copied : List (Bytes × Bytes)} (h : installAll e (asEntries es) t acc = .ok t' copied) :
    ∀ q, (∀ x ∈ es, ¬ x.1.dst <+: q) → t.IsDir q → t'.IsDir q := by
  induction es generalizing t acc with
  | nil =>
    simp only [asEntries, List.map_nil, installAll, AllRes.ok.injEq] at h
    rw [← h.1]
    exact fun _ _ h => h
  | cons y es ih =>
    obtain ⟨t1, acc1, h1, hw1, hout, hcase⟩ := all_cons hes hpre hw hnc h
    intro q hq hd
    refine ih hes.tail hw1 (rest_noClash hes hout hnc) h1 q (fun x hx => hq x (by simp [hx])) ?_
    rcases hcase with ⟨-, rfl, -⟩ | ⟨-, rfl, -⟩ | ⟨-, ⟨k, hk⟩, hin⟩
    · exact hd
    · exact hd
    · by_cases hp : q <+: y.1.dst
      · have hne : q ≠ y.1.dst := fun he => hq y (by simp) (he ▸ List.prefix_rfl)
        have : t1 y.1.dst ≠ none := by
          have := hin []
          simp only [List.append_nil] at this
          rw [this, hk]; simp
        obtain ⟨r, hr⟩ := hp
        rw [← hr] at this
        exact wf_up hw1 q r (fun h => hne (by rw [← hr, h, List.append_nil])) this
      · obtain ⟨m, hm⟩ := hd
        exact ⟨m, (hout q ⟨hp, hq y (by simp)⟩).trans hm⟩

/-- After installing, everything is as it should be for another build. -/
theorem ready_after (hP : Placed e path tc reqs) {t t' : Tree} (hR : Ready free e path reqs t) {pre : Bytes} {prePath : Path} {es : List (Ent × Nat)}
    (hM : TMapOk e path reqs pre prePath es) (hnc : NoClash t es) {copied : List (Bytes × Bytes)} (ha : installAll (e.inst pre) (asEntries es) t [] = .ok t' copied) :
    Ready False e path reqs t' where
  wf := (all_frame hM.ents hM.prePath_ hR.wf hnc ha).1
  files := fun w hw hd => hR.files w hw (by
    obtain ⟨m, hm⟩ := hd
    exact ⟨m, (known_kept hP hM hR.wf hnc ha hw) ▸ hm⟩)
  dirs := by
    intro w hw
    refine all_dirs hM.ents hM.prePath_ hR.wf hnc ha _ (fun x hx hp => ?_) (hR.dirs w hw)
    have hk := hP.writes w hw
    have hp' : x.1.dst <+: path w := hp.trans (List.dropLast_prefix _)
    by_cases ho : x.1.key ∈ outsOf reqs
    · obtain ⟨-, h2, h3, -, -⟩ := hM.product hP hx ho
      rw [h2] at hp hp'
      have := hP.apart _ _ h3 hk hp'
      rw [this] at hp
      have hl := hp.length_le
      obtain ⟨ks, hks, -, h⟩ := hP.denotes w hk
      have hne : path w ≠ [] := by rcases h with ⟨-, h⟩ | ⟨-, h⟩ <;> rw [h] <;> simp [hks]
      have := List.length_pos_iff.mpr hne
      simp only [List.length_dropLast] at hl
      omega
    · exact (hM.other x hx ho w hk).2.1 hp'
  deps := by
    intro j hj text ht
    have hk : e.known (depsPath j.out) = true := hP.writes _ (Or.inl ⟨j, hj, by simp⟩)
    refine hR.deps j hj text ?_
    rw [fileAt_denotes (all_frame hM.ents hM.prePath_ hR.wf hnc ha).1 (hP.denotes _ hk), known_kept hP hM hR.wf hnc ha hk] at ht
    rw [fileAt_denotes hR.wf (hP.denotes _ hk)]
    exact ht
  open_ := False.elim

namespace Fl

/-- What bob's own script asks for. -/
theorem own_asks {w : World} {paths : List Bytes} {sg : Bool} {out : Bytes} {fs : FS} {ps : List Bytes} (hw : Shown w paths sg out fs ps) {pre : Option Bytes} {R : List Req} {g : InstGlobals}
    (h : AsksFor w paths ownBuild pre R g) :
    R = oneReqs sg out ownProj.flags ownProj.linkFlags (ownSources ps) ∧ g = ⟨some (ownProj.map sg out (ownSources ps)), pre⟩ := by
  obtain ⟨ρ, h1, h2, -⟩ := own_means hw.list
  obtain ⟨st, N, k1, k2, -, k4⟩ := C72_script_means (A := [b!"install", b!"run"]) hw.only.ok (by decide +kernel) hw.bob h1
  obtain ⟨depth, st', m1, -, m3, m4⟩ := h
  have e := C64_unique (w := w) (paths := paths) (p := ownBuild) (o := .ok () st) (o' := .ok () st') ⟨(nomatch ·), N, k1 N (Nat.le_refl N)⟩ ⟨(nomatch ·), depth, m1⟩
  injection e with _ e
  subst e
  rw [k2] at m4
  cases m4
  rw [← hw.signed, ← hw.outPath]
  refine ⟨rfl, ?_⟩
  unfold setupInstallMap at m3
  rw [find_lookup (k4 _ _ h2)] at m3
  exact (congrArg Prod.fst m3).symm

theorem asEntries_timed (times : Nat → Nat) (es : List Ent) :
    asEntries (timed times es) = (es.map fun x => (x.key, x.val)).zipIdx.map fun x => (x.1, times x.2) := by
  unfold asEntries timed
  rw [List.zipIdx_map, List.map_map, List.map_map]
  rfl

theorem dst_of {e : InstEnv} {pre : Path} {x : Ent} (h : EntOk e pre x) {ks : List Bytes} (h1 : ks ≠ []) (h2 : ∀ c ∈ ks, Bob.Plain c) (h3 : x.val = joinP ks) : x.dst = pre ++ ks := by
  obtain ⟨vs, last, k1, k2, k3, k4⟩ := h.dst
  rw [k4]
  congr 1
  have k5 : ∀ c ∈ vs ++ [last], Bob.Plain c := by
    intro c hc
    rcases List.mem_append.mp hc with hc | hc
    · exact k1 c hc
    · rw [List.mem_singleton.mp hc]; exact k2
  rw [← strsepAll_joinP (by simp) k5, ← strsepAll_joinP h1 h2, ← k3, ← h3]

/-- **C110.** `tests/install.sh` passes for any prefix, whenever the two commands in it succeed, if `skeletons` is a directory and there was not a file where it is to be installed. -/
theorem C110_install_test_partial {tc : Toolchain} {free : Prop} {e : TEnv} {path : Bytes → Path} {w w' : World} {paths paths' : List Bytes} {sg : Bool} {out : Bytes} {fs fs' : FS} {ps : List Bytes} (hw : Shown w paths sg out fs ps)
    (hw' : Shown w' paths' sg out fs' ps) {s s2 : TStore} (hP : Placed e path tc (oneReqs sg out ownProj.flags ownProj.linkFlags (ownSources ps)))
    (hR : Ready free e path (oneReqs sg out ownProj.flags ownProj.linkFlags (ownSources ps)) s.tree) (hO : Ord (oneReqs sg out ownProj.flags ownProj.linkFlags (ownSources ps)))
    (hD : DestsApart e.flat (oneReqs sg out ownProj.flags ownProj.linkFlags (ownSources ps))) {n n' : Nat} (hn : 0 < n) {pre : Bytes} {prePath : Path} {times : Nat → Nat} {es : List Ent}
    (hM : TMapOk e path (oneReqs sg out ownProj.flags ownProj.linkFlags (ownSources ps)) pre prePath (timed times es))
    (hnc : NoClash s.tree ((timed times es).filter fun x => x.1.key ∉ outsOf (oneReqs sg out ownProj.flags ownProj.linkFlags (ownSources ps))))
    (hsk : ∀ q, Denotes e.cwd b!"skeletons" q → s.tree.IsDir q ∧ isCookie e.absOut (pathStr q) = false)
    (hfile : ∀ c m, s.tree (prePath ++ [b!"share", b!"bob", b!"skeletons"]) ≠ some (.file c m))
    (h : InstallTest e tc w w' paths paths' ownBuild n n' pre times s s2) : InstallPasses prePath s2.tree := by
  obtain ⟨s', s1, t, ⟨-, R, g, copied, hA, hmap, hb, ha⟩, rfl, -, R', g', hA', hmap', hb'⟩ := h
  obtain ⟨rfl, rfl⟩ := own_asks hw hA
  obtain ⟨rfl, rfl⟩ := own_asks hw' hA'
  have hes : es.map (fun x => (x.key, x.val)) = ownProj.map sg out (ownSources ps) := by
    have := hmap.symm.trans hM.map
    unfold timed at this
    rw [List.map_map] at this
    refine Eq.trans ?_ this.symm
    have e1 : (fun x : Ent × Nat => (x.1.key, x.1.val)) ∘ (fun x : Ent × Nat => (x.1, times x.2)) = (fun x : Ent => (x.key, x.val)) ∘ Prod.fst := rfl
    rw [e1, ← List.map_map, List.zipIdx_map_fst]
  have ha : installAll (e.inst pre) (asEntries (timed times es)) s'.tree [] = .ok s1.tree copied := by
    rw [asEntries_timed, hes]
    exact ha
  obtain ⟨hR2, -⟩ := C109_succeeds hP hR hb
  have hfr : Bob.Frame e path (oneReqs sg out ownProj.flags ownProj.linkFlags (ownSources ps)) s.tree s'.tree := by
    rcases C109_frame hP hR hb with ⟨-, hd⟩ | h
    · cases hd
    · exact h
  obtain ⟨-, hnc2⟩ := after_build hP hM hnc hR2 hfr
  have hR3 := ready_after hP hR2 hM hnc2 ha
  obtain ⟨-, hall⟩ := C110_install hP hR hO hn hD hM hnc hb ha
  -- the second build
  let e0 : TEnv := { e with pre := none }
  have hP0 : Placed e0 path tc (oneReqs sg out ownProj.flags ownProj.linkFlags (ownSources ps)) :=
    ⟨hP.denotes, hP.apart, hP.writes, hP.srcs, hP.linkSrcs, hP.tools, hP.outs, fun o _ pre v h => by cases h⟩
  have hR0 : Ready False e0 path (oneReqs sg out ownProj.flags ownProj.linkFlags (ownSources ps)) s1.tree := ⟨hR3.wf, hR3.files, hR3.dirs, hR3.deps, False.elim⟩
  have hfr0 : Bob.Frame e0 path (oneReqs sg out ownProj.flags ownProj.linkFlags (ownSources ps)) s1.tree s2.tree := by
    rcases C109_frame hP0 hR0 hb' with ⟨-, hd⟩ | h
    · cases hd
    · exact h
  -- the entries
  obtain ⟨x1, x2, x3, rfl, h1, h3⟩ : ∃ x1 x2 x3, es = [x1, x2, x3] ∧ (x1.key = progOf sg out (ownSources ps) ∧ x1.val = b!"bin/bob") ∧ x3.key = b!"skeletons" ∧ x3.val = b!"share/bob/skeletons" := by
    rcases es with _ | ⟨x1, _ | ⟨x2, _ | ⟨x3, _ | ⟨x4, es⟩⟩⟩⟩
    · cases hes
    · injection hes with _ hes; cases hes
    · injection hes with _ hes; injection hes with _ hes; cases hes
    · injection hes with e1 hes; injection hes with e2 hes; injection hes with e3 hes
      injection e1 with e1 e1'
      injection e3 with e3 e3'
      exact ⟨x1, x2, x3, rfl, ⟨e1, e1'⟩, e3, e3'⟩
    · injection hes with _ hes; injection hes with _ hes; injection hes with _ hes; cases hes
  have m1 : (x1, times 0) ∈ timed times [x1, x2, x3] := by simp [timed]
  have m3 : (x3, times 2) ∈ timed times [x1, x2, x3] := by simp [timed]
  have d1 : x1.dst = prePath ++ [b!"bin", b!"bob"] := dst_of (hM.ents.ok _ m1) (by simp) (by unfold Bob.Plain; decide) h1.2
  have d3 : x3.dst = prePath ++ [b!"share", b!"bob", b!"skeletons"] := dst_of (hM.ents.ok _ m3) (by simp) (by unfold Bob.Plain; decide) h3.2
  constructor
  · refine hfr0.dirs _ ?_
    have ho : x3.key ∉ outsOf (oneReqs sg out ownProj.flags ownProj.linkFlags (ownSources ps)) := by
      rw [outs_one, h3.1]
      intro hm
      rcases List.mem_append.mp hm with hm | hm
      · obtain ⟨p, -, hp⟩ := List.mem_map.mp hm
        exact (own_right.rest (b!"skeletons", b!"share/bob/skeletons") (by decide) sg out p []).1 hp.symm
      · exact (own_right.rest (b!"skeletons", b!"share/bob/skeletons") (by decide) sg out [] (ownSources ps)).2 (List.mem_singleton.mp hm)
    have hsrc := (hM.ents.ok _ m3).src
    have hsrc : Denotes e.cwd b!"skeletons" x3.src := h3.1 ▸ hsrc
    obtain ⟨hdir, hck⟩ := hsk _ hsrc
    rw [← d3] at hfile ⊢
    rcases (hall _ m3).2 ho (by unfold Ent.product; exact fun h => by rw [show (e.inst pre).absOut = e.absOut from rfl, hck] at h; cases h) with ⟨hsame, -⟩ | ⟨hsame, n, m, -, k2, -⟩
    · have := hsame []
      simp only [List.append_nil] at this
      obtain ⟨m, hm⟩ := hdir
      rw [hm] at this
      cases hk : s1.tree x3.dst with
      | none => rw [hk] at this; cases this
      | some k =>
        cases k with
        | dir m' => exact ⟨m', hk⟩
        | file c m' => rw [hk] at this; cases this
    · have := hsame []
      simp only [List.append_nil] at this
      cases m with
      | dir m' => exact ⟨m', this.trans k2⟩
      | file c m' => exact (hfile c m' k2).elim
  · have ho : x1.key ∈ outsOf (oneReqs sg out ownProj.flags ownProj.linkFlags (ownSources ps)) := by
      rw [outs_one, h1.1]; simp
    obtain ⟨-, c, m, k1, -⟩ := (hall _ m1).1 ho
    rw [← d1]
    refine ⟨c, m, (hfr0.files _ ?_ c m).mpr k1⟩
    rintro w (hw | ⟨o, -, pre, v, hc, -⟩) he
    · obtain ⟨-, k2, k3, -, k5⟩ := hM.product hP m1 ho
      have := hP.apart _ _ k3 (hP.writes w hw) (by rw [← k2]; exact he ▸ List.prefix_rfl)
      obtain ⟨o, hoo, hmo⟩ := writes_managed hw
      rw [← this] at hmo
      exact hD.managed _ ho _ k5 o hoo hmo
    · cases hc

end Fl

end Bob
