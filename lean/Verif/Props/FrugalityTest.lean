import Verif.Spec.FrugalityTest
import Verif.Props.Frugality
import Verif.Props.FlTexts
/-!
# C103: the project's own test of what is made again passes
-/

namespace Bob.Fl.FrugalityTest

variable {tc : Toolchain} {sg : Bool} {bad : Bytes → Bool} {u : Bytes → Prop}

/-- The statements of the script. -/
def frugalityWith (std : Bytes) : List Stmt := [sBob, sLet b!"src1" (eStr b!"src1.c"), sLet b!"src2" (eStr b!"src2.c"),
  sLet b!"obj" (eMeth (eNew b!"Cc" [std]) b!"compile" [.vec [eVar b!"src1", eVar b!"src2"]]),
  sLet b!"linked" (eMeth (eNew b!"Linker" []) b!"link" [eVar b!"obj"]),
  sSet b!"install" (.map [(.index (eVar b!"obj") (eNum b!"0"), eStr b!"obj1.o"), (.index (eVar b!"obj") (eNum b!"1"), eStr b!"obj2.o"), (eVar b!"linked", eStr b!"bin")])]

set_option maxRecDepth 100000 in
theorem reads99 : reads (script std99) (frugalityWith std99) = true := by decide +kernel

set_option maxRecDepth 100000 in
theorem reads11 : reads (script std11) (frugalityWith std11) = true := by decide +kernel

theorem means (w : World) (std : Bytes) :
    ∃ ρ, Runs w [b!"install", b!"run"] bobNames (frugalityWith std).tail ρ
      [.compile [std] [b!"src1.c", b!"src2.c"], .link false [] [w.object b!"src1.c", w.object b!"src2.c"]] [] ∧
      ρ.lookup b!"install" = some (.map [(.str (w.object b!"src1.c"), .str b!"obj1.o"), (.str (w.object b!"src2.c"), .str b!"obj2.o"),
        (.str (linkCookie w.signed w.outPath false [w.object b!"src1.c", w.object b!"src2.c"]), .str b!"bin")]) := by
  have hnum : ∀ {ρ : Names} {t : Bytes} {v : Nat} (u : Val), numeralVal t = v → (∀ c ∈ t, c = 95 ∨ 48 ≤ c ∧ c ≤ 57) → v < 10 → ρ.lookup b!"obj" = some (.strs [w.object b!"src1.c", w.object b!"src2.c"]) →
      [Val.str (w.object b!"src1.c"), .str (w.object b!"src2.c")][v]? = some u → Means w ρ (.index (eVar b!"obj") (eNum t)) u [] := by
    intro ρ t v u hv hc h10 hob hu
    refine .index (r := []) (r' := []) (.ident hob) (.num hc ⟨by omega, by omega⟩) ⟨by omega, by omega⟩ ?_
    unfold pick
    rw [if_pos (by omega), hv]
    exact hu
  refine ⟨_, .decl (r := []) rfl (by decide) (.str _) (.decl (r := []) rfl (by decide) (.str _)
    (.decl (r := [_]) (r' := [_]) rfl (by decide) (.compile (r := []) (r' := []) (ps := [b!"src1.c", b!"src2.c"]) (means_strs _)
      (.vec (.cons (r := []) (.value (.ident rfl)) (.cons (r := []) (.value (.ident rfl)) .nil))))
    (.fixed (r := [_]) (r' := []) rfl (by decide) (by decide) (.link (r := []) (r' := []) (means_strs _) (.ident rfl))
      (.assign (r := []) (r' := []) rfl (.map (.cons (r := []) (r' := []) (r'' := []) (.value (hnum (v := 0) _ rfl (by decide) (by decide) rfl rfl)) (.value (.str _))
          (.cons (r := []) (r' := []) (r'' := []) (.value (hnum (v := 1) _ rfl (by decide) (by decide) rfl rfl)) (.value (.str _))
        (.cons (r := []) (r' := []) (r'' := []) (.value (.ident rfl)) (.value (.str _)) .nil))) ?_ ?_) .nil)))), rfl⟩
  · exact strKeys_proper [(_, _), (_, _), (_, _)]
  · refine strKeys_apart (ks := [(_, _), (_, _), (_, _)]) ?_
    refine .cons ?_ (.cons ?_ (.cons (fun _ h => nomatch h) .nil))
    · intro b hb
      rcases List.mem_cons.1 hb with rfl | hb
      · exact C11_distinct_sources_partial _ _ _ b!"src" b!"1" b!"2" b!".c" (by decide) (by decide)
      · cases List.mem_singleton.1 hb
        exact (C14_kinds_never_clash _ _ _ _ []).1
    · intro b hb
      cases List.mem_singleton.1 hb
      exact (C14_kinds_never_clash _ _ _ _ []).1

/-! ## The names -/

theorem obj1_eq (sg : Bool) : objOf sg b!".bob" b!"src1.c" = cookie1 := by cases sg <;> decide +kernel
theorem obj2_eq (sg : Bool) : objOf sg b!".bob" b!"src2.c" = cookie2 := by cases sg <;> decide +kernel
theorem prog_eq (sg : Bool) : progOf sg b!".bob" [b!"src1.c", b!"src2.c"] = cookieL := by cases sg <;> decide +kernel

/-- What bob is asked for. -/
def reqs (sg : Bool) (std : Bytes) : List Req := oneReqs sg b!".bob" [std] [] [b!"src1.c", b!"src2.c"]

/-- What is installed. -/
def inst (bad : Bytes → Bool) : InstCfg := ⟨some b!".bob/prefix", [(cookie1, b!"obj1.o"), (cookie2, b!"obj2.o"), (cookieL, b!"bin")], bad⟩

theorem outs_eq (sg : Bool) (std : Bytes) : outsOf (reqs sg std) = [cookie1, cookie2, cookieL] := by
  unfold reqs
  rw [outs_one, prog_eq]
  show [objOf sg b!".bob" b!"src1.c", objOf sg b!".bob" b!"src2.c"] ++ _ = _
  rw [obj1_eq, obj2_eq]
  rfl

theorem dests (bad : Bytes → Bool) : (inst bad).dest cookie1 = some inst1 ∧ (inst bad).dest cookie2 = some inst2 ∧ (inst bad).dest cookieL = some instL := by
  have h (b : Bytes → Bool) : (inst b).dest = (inst fun _ => false).dest := rfl
  rw [h]
  decide +kernel

theorem dest_cases {o d : Bytes} (h : (inst bad).dest o = some d) : (o = cookie1 ∧ d = inst1) ∨ (o = cookie2 ∧ d = inst2) ∨ (o = cookieL ∧ d = instL) := by
  have ho : o = cookie1 ∨ o = cookie2 ∨ o = cookieL := by
    unfold InstCfg.dest inst at h
    simp only [Option.bind_some, Option.map_eq_some_iff] at h
    obtain ⟨e, h1, -⟩ := h
    have hm := List.mem_of_find?_eq_some h1
    have he := List.find?_some h1
    have he : e.1 = o := eq_of_beq he
    rw [← he]
    simp only [List.mem_cons, List.not_mem_nil, or_false] at hm
    rcases hm with rfl | rfl | rfl <;> simp
  obtain ⟨h1, h2, h3⟩ := dests bad
  rcases ho with rfl | rfl | rfl
  · exact .inl ⟨rfl, Option.some.inj (h.symm.trans h1)⟩
  · exact .inr (.inl ⟨rfl, Option.some.inj (h.symm.trans h2)⟩)
  · exact .inr (.inr ⟨rfl, Option.some.inj (h.symm.trans h3)⟩)

theorem destInj (L : Layout) : DestInj L (inst bad) := by
  intro o o' d _ _ h h'
  have n1 : inst1 ≠ inst2 := by decide
  have n2 : inst1 ≠ instL := by decide
  have n3 : inst2 ≠ instL := by decide
  rcases dest_cases h with ⟨rfl, rfl⟩ | ⟨rfl, rfl⟩ | ⟨rfl, rfl⟩ <;> rcases dest_cases h' with ⟨rfl, e⟩ | ⟨rfl, e⟩ | ⟨rfl, e⟩ <;>
    first | rfl | exact absurd e (by decide)

theorem planOk (hu : ∀ p, u p → ¬ b!".bob/" <+: p) (hm : ∀ p ∈ [b!"build.fl", b!"src1.c", b!"src2.c", b!"src2.h"], u p) (sg : Bool) : (plan u).Ok sg b!".bob" where
  objects := by
    rintro p q ⟨_, rfl, hp⟩ ⟨_, rfl, hq⟩ e
    simp only [List.mem_cons, List.not_mem_nil, or_false] at hp hq
    rcases hp with rfl | rfl <;> rcases hq with rfl | rfl
    · rfl
    · rw [obj1_eq, obj2_eq] at e; exact absurd e (by decide)
    · rw [obj1_eq, obj2_eq] at e; exact absurd e (by decide)
    · rfl
  programs := by rintro _ _ rfl rfl _; rfl
  user := by
    rintro p ⟨_, rfl, hp⟩
    refine hm p ?_
    simp only [List.mem_cons, List.not_mem_nil, or_false] at hp
    rcases hp with rfl | rfl <;> simp
  outside p hp h := hu p hp (List.IsPrefix.trans ⟨b!"bob/", rfl⟩ h)

theorem placeOk (hu : ∀ p, u p → ¬ b!".bob/" <+: p) : PlaceOk (plan u) b!".bob" (inst bad) := by
  intro d hd e he
  cases hd
  refine ⟨fun h => hu _ h ⟨b!"prefix/" ++ e.2, rfl⟩, fun h => ?_⟩
  obtain ⟨t, ht⟩ := h
  have := congrArg (fun l => l[5]?) ht
  exact absurd this (by simp)

/-! ## The build -/

theorem place_iff {std : Bytes} (hstd : std = std99 ∨ std = std11) {w : World} {paths : List Bytes} (hw : Place sg w paths) {n : Nat} {s : Store} {cfg : Cfg} :
    BobBuildText tc w paths (script std) (some b!".bob/prefix") bad n s cfg ↔ BuildReaches tc (inst bad) n (reqs sg std) s cfg := by
  have hlike := withBob_only hw.only
  have hread : reads (script std) (frugalityWith std) = true := by
    rcases hstd with rfl | rfl
    · exact reads99
    · exact reads11
  have hok : okStmts (assigning [b!"install", b!"run"]) .top (frugalityWith std).tail = true := by
    rcases hstd with rfl | rfl <;> decide +kernel
  obtain ⟨p', h4, h5⟩ := reads_sound hread
  have hbob : w.withBob.file (importPath w.withBob false b!"bob.fl" paths) = .src bobFl := by
    obtain ⟨q, hq⟩ := hw.bob
    rw [hlike.importPath] at hq
    exact withBob_src hq
  have honly : w.withBob.OnlyBob := ⟨withBob_file, hw.names, by show NUL ∉ w.outPath; rw [hw.outPath]; decide⟩
  obtain ⟨ρ, k1, k2⟩ := means w.withBob std
  have e1 : w.withBob.object b!"src1.c" = cookie1 := by
    show genCookie w.signed w.outPath _ _ = _
    rw [hw.outPath]; exact obj1_eq _
  have e2 : w.withBob.object b!"src2.c" = cookie2 := by
    show genCookie w.signed w.outPath _ _ = _
    rw [hw.outPath]; exact obj2_eq _
  have e3 : linkCookie w.withBob.signed w.withBob.outPath false [w.withBob.object b!"src1.c", w.withBob.object b!"src2.c"] = cookieL := by
    show linkCookie w.signed w.outPath false _ = _
    rw [e1, e2, hw.outPath, ← prog_eq w.signed, ← obj1_eq w.signed, ← obj2_eq w.signed]
    rfl
  have ei : (⟨some b!".bob/prefix", [(w.withBob.object b!"src1.c", b!"obj1.o"), (w.withBob.object b!"src2.c", b!"obj2.o"),
      (linkCookie w.withBob.signed w.withBob.outPath false [w.withBob.object b!"src1.c", w.withBob.object b!"src2.c"], b!"bin")], bad⟩ : InstCfg) = inst bad := by
    rw [e3, e1, e2]; rfl
  have er : List.map (Ask.req w.withBob) [.compile [std] [b!"src1.c", b!"src2.c"], .link false [] [w.withBob.object b!"src1.c", w.withBob.object b!"src2.c"]] = reqs sg std := by
    cases hw.signed
    show [Req.compile [⟨b!"src1.c", genCookie w.signed w.outPath b!"src1.c" b!"o", [std]⟩, ⟨b!"src2.c", genCookie w.signed w.outPath b!"src2.c" b!"o", [std]⟩],
      Req.link ⟨false, [genCookie w.signed w.outPath b!"src1.c" b!"o", genCookie w.signed w.outPath b!"src2.c" b!"o"],
        linkCookie w.signed w.outPath false [genCookie w.signed w.outPath b!"src1.c" b!"o", genCookie w.signed w.outPath b!"src2.c" b!"o"], []⟩] = _
    rw [hw.outPath]
    rfl
  rw [← ei, ← er]
  constructor
  · rintro ⟨p, h2, h3⟩
    cases h2.unique h4
    obtain ⟨g, k3, k4⟩ := bobBuild_described (A := [b!"install", b!"run"]) honly.ok hok hbob k1 (bobBuild_like hlike.symm h5.symm h3)
    have k5 := k4 _ k2
    rw [show g = ⟨some _, some b!".bob/prefix"⟩ from (congrArg Prod.fst k5).symm] at k3
    exact k3
  · intro hb
    exact ⟨p', h4, bobBuild_like hlike h5 (bobBuild_of (A := [b!"install", b!"run"]) honly.ok hok hbob k1 k2 (g := ⟨some _, some b!".bob/prefix"⟩) rfl hb)⟩

theorem build_reaches {std : Bytes} (hstd : std = std99 ∨ std = std11) {s s' : Store} (hb : Build tc sg bad s s') (ht : s.fs.content b!"build.fl" = some (script std)) :
    ∃ n, 0 < n ∧ BuildReaches tc (inst bad) n (reqs sg std) s (.finished true s') := by
  obtain ⟨w, paths, n, text, hw, hn, h1, h2⟩ := hb
  cases h1.symm.trans ht
  exact ⟨n, hn, (place_iff hstd hw).1 h2⟩

/-! ## From build to build -/

/-- After a build with that flag, of the project as it is. -/
structure Ready (tc : Toolchain) (sg : Bool) (bad : Bytes → Bool) (u : Bytes → Prop) (std : Bytes) (s : Store) : Prop where
  built : ∃ a b n, Builds tc ((plan u).layout sg b!".bob") a ∧ Edit ((plan u).layout sg b!".bob") a b ∧ 0 < n ∧ BuildReaches tc (inst bad) n (reqs sg std) b (.finished true s) ∧
    ∀ o d, (inst bad).dest o = some d → ∀ g, b.fs d = some g → g.mtime ≤ b.now
  which : std = std99 ∨ std = std11
  src1 : s.fs.content b!"src1.c" = some src1Text
  src2 : s.fs.content b!"src2.c" = some src2Text
  text : s.fs.content b!"build.fl" = some (script std)

/-- What is assumed throughout. -/
structure Setting (tc : Toolchain) (sg : Bool) (u : Bytes → Prop) : Prop where
  outside : ∀ p, u p → ¬ b!".bob/" <+: p
  mine : ∀ p ∈ [b!"build.fl", b!"src1.c", b!"src2.c", b!"src2.h"], u p
  tools : ToolOk tc ((plan u).layout sg b!".bob")
  includes : Includes tc

variable {std std' : Bytes} {s s1 s' : Store}

theorem cleanStd (hstd : std = std99 ∨ std = std11) : ∀ f ∈ [std], CleanFlag f := by
  intro f hf
  cases List.mem_singleton.1 hf
  rcases hstd with rfl | rfl <;> decide

theorem Setting.layout (H : Setting tc sg u) : LayoutOk ((plan u).layout sg b!".bob") (inst bad) := one_layoutOk (planOk H.outside H.mine sg) (placeOk H.outside)

theorem Setting.reqsOk (H : Setting tc sg u) (hstd : std = std99 ∨ std = std11) : ReqsOk ((plan u).layout sg b!".bob") (reqs sg std) :=
  one_reqsOk (planOk H.outside H.mine sg) rfl (by decide) (cleanStd hstd) (fun _ h => nomatch h)

theorem Ready.builds (H : Setting tc sg u) (h : Ready tc sg bad u std s) : Builds tc ((plan u).layout sg b!".bob") s := by
  obtain ⟨a, b, n, h1, h2, h3, h4, -⟩ := h.built
  exact .built h1 h2 (H.layout (bad := bad)) (H.reqsOk h.which) h3 h4

/-- The cookies and what is installed. -/
theorem Ready.files (H : Setting tc sg u) (h : Ready tc sg bad u std s) {o d : Bytes} (hd : (inst bad).dest o = some d) :
    ∃ f g, s.fs o = some f ∧ s.fs d = some g ∧ f.mtime ≤ g.mtime ∧ f.mtime ≤ s.now ∧ g.mtime ≤ s.now := by
  obtain ⟨a, b, n, h1, h2, h3, h4, h5⟩ := h.built
  have ho : o ∈ outsOf (reqs sg std) := by
    rw [outs_eq]
    rcases dest_cases hd with ⟨rfl, -⟩ | ⟨rfl, -⟩ | ⟨rfl, -⟩ <;> simp
  have hAll := allDone_of_success (H.layout (bad := bad)) (destInj _) H.tools (h1.past.settled H.tools h2) (H.reqsOk h.which) h3 h4
  obtain ⟨P, hP, rfl⟩ := req_of_out ho
  obtain ⟨_, f, g, k1, k2, k3⟩ := (hAll P hP).1 d hd
  refine ⟨f, g, k1, k2, k3, ?_, ?_⟩
  · have hpast := ((h.builds H).past.inv H.tools).1
    refine hpast P.out (.inr ?_) f k1
    exact reqs_isOut (H.reqsOk h.which) _ ho
  · have hnew := build_new (H.reqsOk h.which).ord h3 h4
    have hnow : b.now ≤ s.now := hnew.1
    rcases hnew.2 d with e | e | ⟨x, e, _, h6⟩
    · have := h5 _ d hd g (e ▸ k2)
      omega
    · exact nomatch (e.symm.trans k2)
    · cases e.symm.trans k2
      exact h6

/-- The next build. -/
theorem Ready.next (H : Setting tc sg u) (h : Ready tc sg bad u std s) {E : List Bytes} (hE : ∀ p ∈ E, u p) (hs : Saved E s s1) (hb : Build tc sg bad s1 s')
    (h1 : s1.fs.content b!"src1.c" = some src1Text) (h2 : s1.fs.content b!"src2.c" = some src2Text) (h3 : s1.fs.content b!"build.fl" = some (script std')) (hstd : std' = std99 ∨ std' = std11) :
    Ready tc sg bad u std' s' ∧ ∀ o d, (inst bad).dest o = some d →
      (Stale tc s.fs (· ∈ E) (reqs sg std) (reqs sg std') o → updated s.fs s'.fs o d = some true) ∧ (¬ Stale tc s.fs (· ∈ E) (reqs sg std) (reqs sg std') o → updated s.fs s'.fs o d = some false) := by
  obtain ⟨n', hn', hr⟩ := build_reaches hstd hb h3
  have hed : Edited ((plan u).layout sg b!".bob") (· ∈ E) s s1 := ⟨hs.later, fun p hp => ⟨hE p hp, hs.files p hp⟩, hs.rest, hs.fresh⟩
  have hdE : ∀ o d, (inst bad).dest o = some d → s1.fs d = s.fs d := fun o d hd => hs.rest d fun hm => (H.layout (bad := bad)).destNotUser o d hd (hE d hm)
  have hnext : Ready tc sg bad u std' s' := by
    have huser : ∀ p, u p → s'.fs p = s1.fs p := (build_result (H.layout (bad := bad)) (destInj _) H.tools ((h.builds H).past.settled H.tools (hed.edit (H.layout (bad := bad)))) (H.reqsOk hstd) hn' hr).1.user
    refine ⟨⟨s, s1, n', h.builds H, hed.edit (H.layout (bad := bad)), hn', hr, fun o d hd g hg => ?_⟩, hstd, ?_, ?_, ?_⟩
    · rw [hdE o d hd] at hg
      obtain ⟨_, g', _, k2, _, _, k3⟩ := h.files H hd
      cases k2.symm.trans hg
      have := hs.later
      omega
    · rw [content_congr (huser _ (H.mine _ (by simp)))]; exact h1
    · rw [content_congr (huser _ (H.mine _ (by simp)))]; exact h2
    · rw [content_congr (huser _ (H.mine _ (by simp)))]; exact h3
  refine ⟨hnext, fun o d hd => ?_⟩
  obtain ⟨a, b, n, k1, k2, k3, k4, k5⟩ := h.built
  have ho : o ∈ outsOf (reqs sg std') := by
    rw [outs_eq]
    rcases dest_cases hd with ⟨rfl, -⟩ | ⟨rfl, -⟩ | ⟨rfl, -⟩ <;> simp
  obtain ⟨m1, m2⟩ := C102_exactly_what_is_stale H.tools (H.layout (bad := bad)) (destInj _) (H.reqsOk h.which) (H.reqsOk hstd) (fun o ho => by rw [outs_eq] at ho ⊢; exact ho) k3 hn' k1 k2 k4 hed hr
    (fun o _ d hd g hg => k5 o d hd g hg) o ho
  obtain ⟨f, g, f1, f2, f3, f4, f5⟩ := h.files H hd
  obtain ⟨f', g', f1', f2', f3', f4', f5'⟩ := hnext.files H hd
  have e : updated s.fs s'.fs o d = checkPair (f.mtime, g.mtime) (f'.mtime, g'.mtime) := by
    unfold updated times
    rw [f1, f2, f1', f2']
    rfl
  rw [e]
  unfold checkPair
  dsimp only
  refine ⟨fun hst => ?_, fun hst => ?_⟩
  · obtain ⟨x, x1, x2, -⟩ := m1 hst
    cases x1.symm.trans f1'
    rw [if_neg (by omega), if_neg (by omega), if_pos (by omega)]
  · obtain ⟨x1, x2⟩ := m2 hst
    cases (x1.trans f1).symm.trans f1'
    cases ((x2 d hd).trans f2).symm.trans f2'
    rw [if_neg (by omega), if_pos rfl, if_neg (by omega)]

/-! ## What has to be made again -/

theorem mem1 (sg : Bool) (std : Bytes) : Prod.c ⟨b!"src1.c", cookie1, [std]⟩ ∈ prodsOf (reqs sg std) := by
  rw [← obj1_eq sg]
  simp [reqs, oneReqs, prodsOf, Req.prods]

theorem mem2 (sg : Bool) (std : Bytes) : Prod.c ⟨b!"src2.c", cookie2, [std]⟩ ∈ prodsOf (reqs sg std) := by
  rw [← obj2_eq sg]
  simp [reqs, oneReqs, prodsOf, Req.prods]

theorem memL (sg : Bool) (std : Bytes) : Prod.l ⟨false, [cookie1, cookie2], cookieL, []⟩ ∈ prodsOf (reqs sg std) := by
  rw [← obj1_eq sg, ← obj2_eq sg, ← prog_eq sg]
  simp [reqs, oneReqs, prodsOf, Req.prods]

theorem nodup (sg : Bool) (std : Bytes) : (outsOf (reqs sg std)).Nodup := by rw [outs_eq]; decide

/-- With the same flag, what the compiler finds decides. -/
theorem Ready.same (H : Setting tc sg u) (h : Ready tc sg bad u std s) (E : List Bytes) : ∃ i1 i2 : List Bytes,
    b!"src2.c" ∉ i1 ∧ b!"src2.h" ∉ i1 ∧ b!"src1.c" ∉ i2 ∧ b!"src2.h" ∈ i2 ∧
    (Stale tc s.fs (· ∈ E) (reqs sg std) (reqs sg std) cookie1 ↔ ∃ p ∈ b!"src1.c" :: i1, p ∈ E) ∧ (Stale tc s.fs (· ∈ E) (reqs sg std) (reqs sg std) cookie2 ↔ ∃ p ∈ b!"src2.c" :: i2, p ∈ E) ∧
    (Stale tc s.fs (· ∈ E) (reqs sg std) (reqs sg std) cookieL ↔
      (cookie1 ∈ E ∨ cookie2 ∈ E) ∨ Stale tc s.fs (· ∈ E) (reqs sg std) (reqs sg std) cookie1 ∨ Stale tc s.fs (· ∈ E) (reqs sg std) (reqs sg std) cookie2) := by
  obtain ⟨a, b, n, k1, k2, k3, k4, k5⟩ := h.built
  obtain ⟨TL, hh⟩ := builds_history k1
  have hf := (success H.tools (H.layout (bad := bad)) (H.reqsOk h.which) k3 hh k2 k4).2 (.compile [⟨b!"src1.c", objOf sg b!".bob" b!"src1.c", [std]⟩, ⟨b!"src2.c", objOf sg b!".bob" b!"src2.c", [std]⟩])
    (List.mem_cons_self ..)
  obtain ⟨_, -, -, i1, d1, -⟩ := (hf ⟨b!"src1.c", objOf sg b!".bob" b!"src1.c", [std]⟩ (by simp) id).1.obj
  obtain ⟨_, -, -, i2, d2, -⟩ := (hf ⟨b!"src2.c", objOf sg b!".bob" b!"src2.c", [std]⟩ (by simp) id).1.obj
  obtain ⟨q1, q2⟩ := H.includes.src1 _ _ _ h.src1 d1
  obtain ⟨q3, q4⟩ := H.includes.src2 _ _ _ h.src2 d2
  refine ⟨i1.map (·.2), i2.map (·.2), q1, q2, q3, q4, ?_, ?_, ?_⟩
  · rw [stale_object (j := ⟨b!"src1.c", cookie1, [std]⟩) (F := [std]) (nodup sg std) (nodup sg std) (mem1 sg std) (mem1 sg std) d1]
    simp
  · rw [stale_object (j := ⟨b!"src2.c", cookie2, [std]⟩) (F := [std]) (nodup sg std) (nodup sg std) (mem2 sg std) (mem2 sg std) d2]
    simp
  · rw [stale_linked (j := ⟨false, [cookie1, cookie2], cookieL, []⟩) (F := []) (nodup sg std) (nodup sg std) (memL sg std) (memL sg std)]
    simp only [ne_eq, not_true, false_or, List.mem_cons, List.not_mem_nil, or_false]
    constructor
    · rintro ⟨p, rfl | rfl, h1 | h1⟩ <;> simp [h1]
    · rintro ((h1 | h1) | h1 | h1)
      · exact ⟨_, .inl rfl, .inl h1⟩
      · exact ⟨_, .inr rfl, .inl h1⟩
      · exact ⟨_, .inl rfl, .inr h1⟩
      · exact ⟨_, .inr rfl, .inr h1⟩

theorem update_of {p q : FS} {a b c : Bool} (h1 : updated p q cookie1 inst1 = some a) (h2 : updated p q cookie2 inst2 = some b) (h3 : updated p q cookieL instL = some c) :
    update p q = some (a, b, c) := by
  unfold update
  rw [h1, h2, h3]
  rfl

/-- A round of the test in which files are touched. -/
theorem Ready.touch (H : Setting tc sg u) (h : Ready tc sg bad u std s) {E : List Bytes} (hE : ∀ p ∈ E, p ∈ [b!"src1.c", b!"src2.c", b!"src2.h"]) (ht : Touch tc sg bad E s s') :
    Ready tc sg bad u std s' ∧ update s.fs s'.fs = some (decide (b!"src1.c" ∈ E), decide (b!"src2.c" ∈ E ∨ b!"src2.h" ∈ E), decide (E ≠ [])) := by
  obtain ⟨s1, h1, h2, h3⟩ := ht
  have hEu : ∀ p ∈ E, u p := fun p hp => H.mine p (List.mem_cons_of_mem _ (hE p hp))
  obtain ⟨hr, hn⟩ := h.next H hEu h1 h3 (by rw [h2]; exact h.src1) (by rw [h2]; exact h.src2) (by rw [h2]; exact h.text) h.which
  obtain ⟨i1, i2, q1, q2, q3, q4, e1, e2, e3⟩ := h.same H E
  obtain ⟨d1, d2, d3⟩ := dests bad
  have g1 : Stale tc s.fs (· ∈ E) (reqs sg std) (reqs sg std) cookie1 ↔ b!"src1.c" ∈ E := by
    rw [e1]
    constructor
    · rintro ⟨p, hp, hpE⟩
      have := hE p hpE
      simp only [List.mem_cons, List.not_mem_nil, or_false] at this
      rcases List.mem_cons.1 hp with rfl | hp
      · exact hpE
      · rcases this with rfl | rfl | rfl
        · exact hpE
        · exact absurd hp q1
        · exact absurd hp q2
    · exact fun hp => ⟨_, List.mem_cons_self .., hp⟩
  have g2 : Stale tc s.fs (· ∈ E) (reqs sg std) (reqs sg std) cookie2 ↔ b!"src2.c" ∈ E ∨ b!"src2.h" ∈ E := by
    rw [e2]
    constructor
    · rintro ⟨p, hp, hpE⟩
      have := hE p hpE
      simp only [List.mem_cons, List.not_mem_nil, or_false] at this
      rcases List.mem_cons.1 hp with rfl | hp
      · exact .inl hpE
      · rcases this with rfl | rfl | rfl
        · exact absurd hp q3
        · exact .inl hpE
        · exact .inr hpE
    · rintro (hp | hp)
      · exact ⟨_, List.mem_cons_self .., hp⟩
      · exact ⟨_, List.mem_cons_of_mem _ q4, hp⟩
  have g3 : Stale tc s.fs (· ∈ E) (reqs sg std) (reqs sg std) cookieL ↔ E ≠ [] := by
    rw [e3, g1, g2]
    constructor
    · rintro h rfl
      simp at h
    · intro hne
      obtain ⟨p, hp⟩ := List.exists_mem_of_ne_nil _ hne
      have := hE p hp
      simp only [List.mem_cons, List.not_mem_nil, or_false] at this
      rcases this with rfl | rfl | rfl <;> simp [hp]
  refine ⟨hr, update_of ?_ ?_ ?_⟩
  · by_cases hc : b!"src1.c" ∈ E
    · rw [decide_eq_true hc]; exact (hn _ _ d1).1 (g1.2 hc)
    · rw [decide_eq_false hc]; exact (hn _ _ d1).2 (fun hx => hc (g1.1 hx))
  · by_cases hc : b!"src2.c" ∈ E ∨ b!"src2.h" ∈ E
    · rw [decide_eq_true hc]; exact (hn _ _ d2).1 (g2.2 hc)
    · rw [decide_eq_false hc]; exact (hn _ _ d2).2 (fun hx => hc (g2.1 hx))
  · by_cases hc : E ≠ []
    · rw [decide_eq_true hc]; exact (hn _ _ d3).1 (g3.2 hc)
    · rw [decide_eq_false hc]; exact (hn _ _ d3).2 (fun hx => hc (g3.1 hx))

/-- The round with `sed`. -/
theorem Ready.sed (H : Setting tc sg u) (h : Ready tc sg bad u std99 s) (ht : Sed tc sg bad s s') : update s.fs s'.fs = some (true, true, true) := by
  obtain ⟨s1, h1, h2, h3⟩ := ht
  have keep : ∀ p, p ≠ b!"build.fl" → s1.fs.content p = s.fs.content p := fun p hp => content_congr (h1.rest p (by simpa using hp))
  obtain ⟨-, hn⟩ := h.next H (E := [b!"build.fl"]) (fun p hp => H.mine p (by cases List.mem_singleton.1 hp; simp)) h1 h3 (by rw [keep _ (by decide)]; exact h.src1)
    (by rw [keep _ (by decide)]; exact h.src2) h2 (.inr rfl)
  obtain ⟨d1, d2, d3⟩ := dests bad
  obtain ⟨r1, m1, f1, -⟩ := prod_flagsOf (mem1 sg std11)
  obtain ⟨r1', m1', f1', -⟩ := prod_flagsOf (mem1 sg std99)
  obtain ⟨r2, m2, f2, -⟩ := prod_flagsOf (mem2 sg std11)
  obtain ⟨r2', m2', f2', -⟩ := prod_flagsOf (mem2 sg std99)
  obtain ⟨r3, m3, f3, e⟩ := prod_flagsOf (memL sg std11)
  have st1 : Stale tc s.fs (· ∈ [b!"build.fl"]) (reqs sg std99) (reqs sg std11) cookie1 := .flags m1 f1 m1' f1' (by decide)
  have st2 : Stale tc s.fs (· ∈ [b!"build.fl"]) (reqs sg std99) (reqs sg std11) cookie2 := .flags m2 f2 m2' f2' (by decide)
  subst e
  exact update_of ((hn _ _ d1).1 st1) ((hn _ _ d2).1 st2) ((hn _ _ d3).1 (.relinked m3 (List.mem_cons_self ..) st1))

/-- The first build. -/
theorem start_ready (H : Setting tc sg u) (h : Start u s) (hb : Build tc sg bad s s') : Ready tc sg bad u std99 s' := by
  obtain ⟨n, hn, hr⟩ := build_reaches (.inl rfl) hb h.script
  have hpos : 0 < s.now := by
    have := h.src1
    unfold FS.content at this
    obtain ⟨f, hf, -⟩ := Option.map_eq_some_iff.1 this
    exact Nat.lt_of_le_of_lt (Nat.zero_le _) (h.stamps _ (h.mine _ (by simp)) f hf)
  have hbob : ∀ o, ((plan u).layout sg b!".bob").isOut o → ∀ p, Managed o p → s.fs p = none := by
    intro o ho p hp
    refine h.clean p (List.IsPrefix.trans ?_ ((layout_below ho).trans (managed_prefix hp)))
    exact ⟨b!"bob/", rfl⟩
  have hst : Builds tc ((plan u).layout sg b!".bob") { s with now := s.now - 1 } :=
    .start ⟨fun p hp f hf => Nat.le_sub_one_of_lt (h.stamps p hp f hf), hbob⟩
  have hed : Edit ((plan u).layout sg b!".bob") { s with now := s.now - 1 } s := ⟨by show s.now - 1 < s.now; omega, fun _ _ => .inl rfl, fun _ _ _ _ => .inl rfl⟩
  have huser : ∀ p, u p → s'.fs p = s.fs p := (build_result (H.layout (bad := bad)) (destInj _) H.tools (hst.past.settled H.tools hed) (H.reqsOk (.inl rfl)) hn hr).1.user
  refine ⟨⟨_, s, n, hst, hed, hn, hr, fun o d hd g hg => ?_⟩, .inl rfl, ?_, ?_, ?_⟩
  · have : s.fs d = none := by
      refine h.clean d ?_
      rcases dest_cases hd with ⟨-, rfl⟩ | ⟨-, rfl⟩ | ⟨-, rfl⟩ <;> decide
    exact nomatch (this.symm.trans hg)
  · rw [content_congr (huser _ (h.mine _ (by simp)))]; exact h.src1
  · rw [content_congr (huser _ (h.mine _ (by simp)))]; exact h.src2
  · rw [content_congr (huser _ (h.mine _ (by simp)))]; exact h.script

/-- **C103.** The test passes, unless a build fails: after each of its rounds `update` finds nothing wrong, and what it finds updated is what the test asks for. -/
theorem C103_frugality_test_passes (hT : ToolOk tc ((plan u).layout sg b!".bob")) (hI : Includes tc) {s0 s1 s2 s3 s4 s5 s6 : Store} (h0 : Start u s0) (h : Test tc sg bad s0 s1 s2 s3 s4 s5 s6) :
    update s1.fs s2.fs = some (false, true, true) ∧ update s2.fs s3.fs = some (true, true, true) ∧ update s3.fs s4.fs = some (false, false, false) ∧
      update s4.fs s5.fs = some (false, true, true) ∧ update s5.fs s6.fs = some (true, true, true) := by
  have H : Setting tc sg u := ⟨h0.outside, h0.mine, hT, hI⟩
  have r1 := start_ready H h0 h.first
  obtain ⟨r2, u1⟩ := r1.touch H (by simp) h.test1
  obtain ⟨r3, u2⟩ := r2.touch H (by simp) h.test2
  obtain ⟨r4, u3⟩ := r3.touch H (by simp) h.test3
  obtain ⟨r5, u4⟩ := r4.touch H (by simp) h.test4
  exact ⟨u1, u2, u3, u4, r5.sed H h.test5⟩

end Bob.Fl.FrugalityTest
