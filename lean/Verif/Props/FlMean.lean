import Verif.Lemmas.FlMeanBob
import Verif.Props.Cookie
/-!
# Build scripts mean what they say (C72)
-/

namespace Bob.Fl

/-- The discipline for scripts which assign to the names `A` only. -/
def assigning (A : List Bytes) : Discipline where
  assigned := A
  classes := bobClasses

/-- **C72.**  A disciplined build script to which the description of build scripts gives a meaning runs to its end without an error, given enough
time, and bob is left with just the requests it describes, in that order, the lines it describes have been printed, and the variables have the values described. -/
theorem C72_script_means {w : World} {A : List Bytes} (hW : w.Ok (assigning A)) {p : List Stmt} (hp : okStmts (assigning A) .top p = true) {paths : List Bytes}
    (hb : w.file (importPath w false b!"bob.fl" paths) = .src bobFl) {ρ : Names} {r : List Ask} {o : List Bytes} (h : Runs w A bobNames p ρ r o) :
    ∃ s N, (∀ n, N ≤ n → runScript w n paths (sBob :: p) = .ok () s) ∧ s.requests = some (r.map (Ask.req w)) ∧ s.out = o ∧
      ∀ x v, ρ.lookup x = some v → s.scriptVars.lookup x = some v.script := by
  obtain ⟨s, N, h1, h2⟩ := script_means hW rfl rfl hp hb h
  exact ⟨s, N, h1, h2.scene.amb.requests h2.scene.wf, h2.out, fun x v hv => h2.vars hv⟩

theorem lookup_any {name : Bytes} {a : ScriptVal} : ∀ {l : List (Bytes × ScriptVal)}, l.lookup name = some a → (l.any fun v => v.1 == name) = true
  | [], h => nomatch h
  | (k, v) :: l, h => by
    rw [List.lookup_cons] at h
    rw [List.any_cons]
    by_cases he : name = k
    · simp [he]
    · rw [beq_false_of_ne he] at h
      rw [lookup_any h, Bool.or_true]

theorem Runs.knows {w : World} {A : List Bytes} {ρ ρ' : Names} {ss : List Stmt} {r : List Ask} {o : List Bytes} (h : Runs w A ρ ss ρ' r o) {x : Bytes} (hx : (ρ.lookup x).isSome) :
    (ρ'.lookup x).isSome := by
  induction h with
  | nil => exact hx
  | skip _ ih => exact ih hx
  | empty _ _ _ ih => exact ih (by rw [lookup_cons]; split <;> simp [hx])
  | decl _ _ _ _ ih => exact ih (by rw [lookup_cons]; split <;> simp [hx])
  | fixed _ _ _ _ _ ih => exact ih (by rw [lookup_cons]; split <;> simp [hx])
  | assign h1 _ _ ih =>
    refine ih ?_
    rw [lookup_set]
    split
    · rw [h1]; rfl
    · exact hx
  | print _ _ ih => exact ih hx
  | assert _ _ ih => exact ih hx

/-- **C72.**  Such a script is accepted by `setup`. -/
theorem C72_setup {w : World} {A : List Bytes} (hW : w.Ok (assigning A)) {p : List Stmt} (hp : okStmts (assigning A) .top p = true) {paths : List Bytes}
    (hb : w.file (importPath w false b!"bob.fl" paths) = .src bobFl) {ρ : Names} {r : List Ask} {o : List Bytes} (h : Runs w A bobNames p ρ r o) :
    ∃ N, ∀ n, N ≤ n → setup (runScript w n paths (sBob :: p)) = some true := by
  obtain ⟨s, N, h1, -, -, h2⟩ := C72_script_means hW hp hb h
  obtain ⟨v, hv⟩ := Option.isSome_iff_exists.1 (h.knows (x := b!"__bob_has_been_imported__") rfl)
  refine ⟨N, fun n hn => ?_⟩
  rw [h1 n hn]
  exact congrArg some (lookup_any (h2 _ _ hv))

mutual

theorem shows_unique {s : St} : ∀ {v u : Val} {c : Nat}, s.Shows v c → s.Shows u c → v = u
  | .none, u, c, h1, h2 => by
    cases u with
    | none => rfl
    | bool b => cases holds_unique h1 h2
    | int b => cases holds_unique h1 h2
    | str b => obtain ⟨_, _, h2, _⟩ := h2; cases holds_unique h1 h2
    | vec b => obtain ⟨_, h2, _⟩ := h2; cases holds_unique h1 h2
    | map b => obtain ⟨_, h2, _⟩ := h2; cases holds_unique h1 h2
  | .bool b, u, c, h1, h2 => by
    cases u with
    | none => cases holds_unique h1 h2
    | bool b => cases holds_unique h1 h2; rfl
    | int b => cases holds_unique h1 h2
    | str b => obtain ⟨_, _, h2, _⟩ := h2; cases holds_unique h1 h2
    | vec b => obtain ⟨_, h2, _⟩ := h2; cases holds_unique h1 h2
    | map b => obtain ⟨_, h2, _⟩ := h2; cases holds_unique h1 h2
  | .int i, u, c, h1, h2 => by
    cases u with
    | none => cases holds_unique h1 h2
    | bool b => cases holds_unique h1 h2
    | int b => cases holds_unique h1 h2; rfl
    | str b => obtain ⟨_, _, h2, _⟩ := h2; cases holds_unique h1 h2
    | vec b => obtain ⟨_, h2, _⟩ := h2; cases holds_unique h1 h2
    | map b => obtain ⟨_, h2, _⟩ := h2; cases holds_unique h1 h2
  | .str b, u, c, h1, h2 => by
    obtain ⟨buf, full, h1, hf, hp⟩ := h1
    cases u with
    | none => cases holds_unique h1 h2
    | bool b => cases holds_unique h1 h2
    | int b => cases holds_unique h1 h2
    | str b' =>
      obtain ⟨buf', full', h2, hf', hp'⟩ := h2
      have e := holds_unique h1 h2
      injection e with e1 e2
      subst e1
      cases hf.symm.trans hf'
      rw [List.prefix_iff_eq_take.1 hp, List.prefix_iff_eq_take.1 hp', e2]
    | vec b => obtain ⟨_, h2, _⟩ := h2; cases holds_unique h1 h2
    | map b => obtain ⟨_, h2, _⟩ := h2; cases holds_unique h1 h2
  | .vec vs, u, c, h1, h2 => by
    obtain ⟨es, h1, ha⟩ := h1
    cases u with
    | none => cases holds_unique h1 h2
    | bool b => cases holds_unique h1 h2
    | int b => cases holds_unique h1 h2
    | str b => obtain ⟨_, _, h2, _⟩ := h2; cases holds_unique h1 h2
    | vec us =>
      obtain ⟨es', h2, hb⟩ := h2
      cases holds_unique h1 h2
      rw [shows_unique_all ha hb]
    | map b => obtain ⟨_, h2, _⟩ := h2; cases holds_unique h1 h2
  | .map items, u, c, h1, h2 => by
    obtain ⟨es, h1, ha⟩ := h1
    cases u with
    | none => cases holds_unique h1 h2
    | bool b => cases holds_unique h1 h2
    | int b => cases holds_unique h1 h2
    | str b => obtain ⟨_, _, h2, _⟩ := h2; cases holds_unique h1 h2
    | vec b => obtain ⟨_, h2, _⟩ := h2; cases holds_unique h1 h2
    | map items' =>
      obtain ⟨es', h2, hb⟩ := h2
      cases holds_unique h1 h2
      rw [shows_unique_items ha hb]

theorem shows_unique_all {s : St} : ∀ {vs us : List Val} {es : List Nat}, s.ShowsAll vs es → s.ShowsAll us es → vs = us
  | [], [], _, _, _ => rfl
  | [], _ :: _, [], _, h => h.elim
  | [], _ :: _, _ :: _, h, _ => h.elim
  | _ :: _, [], [], h, _ => h.elim
  | _ :: _, [], _ :: _, _, h => h.elim
  | _ :: _, _ :: _, [], h, _ => h.elim
  | v :: vs, u :: us, e :: es, h1, h2 => by rw [shows_unique h1.1 h2.1, shows_unique_all h1.2 h2.2]

theorem shows_unique_items {s : St} : ∀ {vs us : List (Val × Val)} {es : List (Nat × Nat)}, s.ShowsItems vs es → s.ShowsItems us es → vs = us
  | [], [], _, _, _ => rfl
  | [], _ :: _, [], _, h => h.elim
  | [], _ :: _, _ :: _, h, _ => h.elim
  | _ :: _, [], [], h, _ => h.elim
  | _ :: _, [], _ :: _, _, h => h.elim
  | _ :: _, _ :: _, [], h, _ => h.elim
  | (k, v) :: vs, (k', u) :: us, e :: es, h1, h2 => by rw [shows_unique h1.1 h2.1, shows_unique h1.2.1 h2.2.1, shows_unique_items h1.2.2 h2.2.2]

end

/-- **C72.**  The description is not ambiguous: whatever meanings a disciplined script has, they ask for the same, print the same and give names the same values. -/
theorem C72_one_meaning {w : World} {A : List Bytes} (hW : w.Ok (assigning A)) {p : List Stmt} (hp : okStmts (assigning A) .top p = true) {paths : List Bytes}
    (hb : w.file (importPath w false b!"bob.fl" paths) = .src bobFl) {ρ₁ ρ₂ : Names} {r₁ r₂ : List Ask} {o₁ o₂ : List Bytes} (h₁ : Runs w A bobNames p ρ₁ r₁ o₁)
    (h₂ : Runs w A bobNames p ρ₂ r₂ o₂) : r₁.map (Ask.req w) = r₂.map (Ask.req w) ∧ o₁ = o₂ ∧ ∀ x v₁ v₂, ρ₁.lookup x = some v₁ → ρ₂.lookup x = some v₂ → v₁ = v₂ := by
  obtain ⟨s, N, a1, a2⟩ := script_means hW rfl rfl hp hb h₁
  obtain ⟨t, M, b1, b2⟩ := script_means hW rfl rfl hp hb h₂
  have e := (a1 (N + M) (by omega)).symm.trans (b1 (N + M) (by omega))
  injection e with _ e
  subst e
  refine ⟨Option.some.inj ((a2.scene.amb.requests a2.scene.wf).symm.trans (b2.scene.amb.requests a2.scene.wf)), a2.out.symm.trans b2.out, fun x v₁ v₂ g1 g2 => ?_⟩
  obtain ⟨c, ⟨y, hy, hf⟩, hw⟩ := a2.scene.sees x v₁ g1
  obtain ⟨d, ⟨z, hz, hf'⟩, hw'⟩ := b2.scene.sees x v₂ g2
  cases hy.symm.trans hz
  have hf := hf.resolve_right fun h => h.2
  cases hf.unique (hf'.resolve_right fun h => h.2)
  obtain ⟨k, u, k1, k2, k3⟩ := hf
  obtain ⟨y', hy', -⟩ := Was.data hw
  have hl : Live s c := ⟨y', hy', a2.scene.wf.live_var hy (List.mem_of_getElem? k2) k3 hy'⟩
  exact shows_unique (a2.scene.wf.shows hw fun _ => hl) (a2.scene.wf.shows hw' fun _ => hl)

/-! ## The project's own scripts -/

section
variable {w : World} {ρ : Names}

theorem helds_strs : ∀ bs : List Bytes, Helds w ρ (bs.map eStr) (bs.map .str) []
  | [] => .nil
  | b :: bs => .cons (r := []) (.value (.str b)) (helds_strs bs)

theorem means_strs (bs : List Bytes) : Means w ρ (.vec (bs.map eStr)) (.strs bs) [] := .vec (helds_strs bs)

theorem wheres_filter {x : Bytes} {b : Expr} {f : Bytes → Bool} (h : ∀ p, Means w ((x, .str p) :: ρ) b (.bool (f p)) []) :
    ∀ ps : List Bytes, Wheres w ρ x b (ps.map .str) ((ps.filter f).map .str) []
  | [] => .nil
  | p :: ps => by
    have ht := wheres_filter h ps
    have hm := h p
    rw [List.map_cons, List.filter_cons]
    cases hf : f p with
    | true => rw [hf] at hm; exact .yes (r := []) hm ht
    | false => rw [hf] at hm; exact .no (r := []) hm ht

end

theorem link_ne {w : World} {srcs : List Bytes} {y b : Bytes} (hl : b.length = 2) (h : b ≠ b!".l") : linkCookie w.signed w.outPath false srcs ≠ y ++ b := by
  intro e
  unfold linkCookie at e
  rw [List.append_assoc] at e
  exact h (List.append_inj_right' e (by rw [hl]; rfl)).symm

theorem strKeys_proper (ks : List (Bytes × Bytes)) : ∀ a ∈ ks.map fun k => (Val.str k.1, Val.str k.2), a.1.Proper := by
  intro a ha
  obtain ⟨k, -, rfl⟩ := List.mem_map.1 ha
  exact trivial

theorem same_str {a b : Bytes} (h : Val.Same (.str a) (.str b)) : a = b := by
  cases h
  rfl

theorem strKeys_apart {ks : List (Bytes × Bytes)} (h : (ks.map (·.1)).Pairwise (· ≠ ·)) : (ks.map fun k => (Val.str k.1, Val.str k.2)).Pairwise fun a b => ¬ a.1.Same b.1 := by
  rw [List.pairwise_map] at h ⊢
  exact h.imp fun hne hs => hne (same_str hs)

/-- Which of the files in `src` are compiled. -/
def ownSource (p : Bytes) : Bool := b!".c".isSuffixOf p && !b!"src/flamingo".isPrefixOf p

/-- The sources of bob itself. -/
def ownSources (ps : List Bytes) : List Bytes := ps.filter ownSource ++ [b!"src/flamingo/flamingo.c"]

theorem own_means {w : World} {ps : List Bytes} (hl : w.list b!"src" = some ps) :
    ∃ ρ, Runs w [b!"install", b!"run"] bobNames ownBuild.tail ρ
      [.compile [b!"-std=c11", b!"-g", b!"-Wall", b!"-Wextra", b!"-Werror", b!"-Wno-unused-parameter", b!"-Isrc", b!"-Isrc/flamingo/runtime"] (ownSources ps),
       .link false [b!"-lm", b!"-lpthread"] ((ownSources ps).map w.object)] [] ∧
      ρ.lookup b!"install" = some (.map [(.str (linkCookie w.signed w.outPath false ((ownSources ps).map w.object)), .str b!"bin/bob"),
        (.str b!"import/bob.fl", .str b!"share/flamingo/import/bob.fl"), (.str b!"skeletons", .str b!"share/bob/skeletons")]) ∧
      ρ.lookup b!"run" = some (.vec [.str b!"bob"]) := by
  have hsrc : Means w bobNames (.bin .add (eMeth (eMeth (eVar b!"Fs") b!"list" [eStr b!"src"]) b!"where" [.lambda [b!"path"] (.expr (.bin .and (eMeth (eVar b!"path") b!"endswith" [eStr b!".c"])
      (.un .not (eMeth (eVar b!"path") b!"startswith" [eStr b!"src/flamingo"]))))]) (.vec [eStr b!"src/flamingo/flamingo.c"])) (.strs (ownSources ps)) [] := by
    unfold Val.strs ownSources
    rw [List.map_append]
    refine .bin (r₁ := []) (r₂ := []) (.where (r := []) (r' := []) (.list (.str _) hl) (by decide) (wheres_filter (fun p => ?_) ps)) (means_strs [_]) .vecs
    exact .bin (r₁ := []) (r₂ := []) (.endswith (r := []) (r' := []) (.ident (by rw [lookup_cons, if_pos rfl])) (.str _))
      (.un (.startswith (r := []) (r' := []) (.ident (by rw [lookup_cons, if_pos rfl])) (.str _)) .not) .and
  refine ⟨_, .decl (r := []) rfl (by decide) hsrc (.decl (r := [_]) (r' := [_]) rfl (by decide) (.compile (r := []) (r' := []) (means_strs _) (.ident rfl))
    (.fixed (r := [_]) (r' := []) rfl (by decide) (by decide) (.link (r := []) (r' := []) (means_strs _) (.ident rfl))
      (.assign (r := []) (r' := []) rfl (.map (.cons (r := []) (r' := []) (r'' := []) (.value (.ident rfl)) (.value (.str _)) (.cons (r := []) (r' := []) (r'' := []) (.value (.str _)) (.value (.str _))
        (.cons (r := []) (r' := []) (r'' := []) (.value (.str _)) (.value (.str _)) .nil))) ?_ ?_)
        (.assign (r := []) (r' := []) rfl (means_strs [_]) .nil)))), rfl, rfl⟩
  · exact strKeys_proper [(_, _), (_, _), (_, _)]
  · refine strKeys_apart (ks := [(_, _), (_, _), (_, _)]) ?_
    refine .cons ?_ (.cons ?_ (.cons (fun _ h => nomatch h) .nil))
    · intro b hb
      rcases List.mem_cons.1 hb with rfl | hb
      · exact link_ne (y := b!"import/bob.") (b := b!"fl") rfl (by decide)
      · cases List.mem_singleton.1 hb
        exact link_ne (y := b!"skeleto") (b := b!"ns") rfl (by decide)
    · intro b hb
      cases List.mem_singleton.1 hb
      decide

/-- **C72.**  bob's own build script, for every content of `src` and every output directory: the C files in `src` outside of `src/flamingo` and `src/flamingo/flamingo.c` are
compiled, the objects are linked, and the program, `import/bob.fl` and the skeletons are installed. -/
theorem C72_own_build {w : World} (hW : w.OnlyBob) {paths : List Bytes} (hb : w.file (importPath w false b!"bob.fl" paths) = .src bobFl) {ps : List Bytes} (hl : w.list b!"src" = some ps) :
    ∃ s N, (∀ n, N ≤ n → runScript w n paths ownBuild = .ok () s) ∧ s.out = [] ∧
      s.requests = some [
        .compile ((ownSources ps).map fun p => {
          src := p, out := genCookie w.signed w.outPath p b!"o", flags := [b!"-std=c11", b!"-g", b!"-Wall", b!"-Wextra", b!"-Werror", b!"-Wno-unused-parameter", b!"-Isrc", b!"-Isrc/flamingo/runtime"] }),
        .link { archive := false, srcs := (ownSources ps).map w.object, out := linkCookie w.signed w.outPath false ((ownSources ps).map w.object), flags := [b!"-lm", b!"-lpthread"] }] ∧
      s.scriptVars.lookup b!"install" = some (.map [(some (linkCookie w.signed w.outPath false ((ownSources ps).map w.object)), some b!"bin/bob"),
        (some b!"import/bob.fl", some b!"share/flamingo/import/bob.fl"), (some b!"skeletons", some b!"share/bob/skeletons")]) ∧
      s.scriptVars.lookup b!"run" = some (.vec [some b!"bob"]) := by
  obtain ⟨ρ, h, hi, hr⟩ := own_means hl
  obtain ⟨s, N, h1, h2, h3, h4⟩ := C72_script_means (A := [b!"install", b!"run"]) hW.ok (by decide +kernel) hb h
  exact ⟨s, N, h1, h3, h2, h4 _ _ hi, h4 _ _ hr⟩

theorem skeleton_means {w : World} {ps : List Bytes} (hl : w.list b!"src" = some ps) :
    ∃ ρ, Runs w [b!"install", b!"run"] bobNames skeletonBuild.tail ρ
      [.compile [b!"-std=c99", b!"-Wall", b!"-Wextra", b!"-Werror"] (ps.filter b!".c".isSuffixOf), .link false [] ((ps.filter b!".c".isSuffixOf).map w.object)] [] ∧
      ρ.lookup b!"install" = some (.map [(.str (linkCookie w.signed w.outPath false ((ps.filter b!".c".isSuffixOf).map w.object)), .str b!"bin/bob-skeleton-c")]) ∧
      ρ.lookup b!"run" = some (.vec [.str b!"bob-skeleton-c"]) := by
  have hsrc : Means w bobNames (eMeth (eMeth (eVar b!"Fs") b!"list" [eStr b!"src"]) b!"where" [.lambda [b!"path"] (.expr (eMeth (eVar b!"path") b!"endswith" [eStr b!".c"]))])
      (.strs (ps.filter b!".c".isSuffixOf)) [] := by
    refine .where (r := []) (r' := []) (.list (.str _) hl) (by decide) (wheres_filter (fun p => ?_) ps)
    exact .endswith (r := []) (r' := []) (.ident (by rw [lookup_cons, if_pos rfl])) (.str _)
  refine ⟨_, .decl (r := []) rfl (by decide) hsrc (.decl (r := [_]) (r' := [_]) rfl (by decide) (.compile (r := []) (r' := []) (means_strs _) (.ident rfl))
    (.fixed (r := [_]) (r' := []) rfl (by decide) (by decide) (.link (r := []) (r' := []) (means_strs _) (.ident rfl))
      (.assign (r := []) (r' := []) rfl (.map (.cons (r := []) (r' := []) (r'' := []) (.value (.ident rfl)) (.value (.str _)) .nil) (strKeys_proper [(_, _)]) (.cons (fun _ h => nomatch h) .nil))
        (.assign (r := []) (r' := []) rfl (means_strs [_]) .nil)))), rfl, rfl⟩

/-- **C72.**  A project made from the C skeleton: all C files in `src` are compiled and linked into one program. -/
theorem C72_skeleton_build {w : World} (hW : w.OnlyBob) {paths : List Bytes} (hb : w.file (importPath w false b!"bob.fl" paths) = .src bobFl) {ps : List Bytes} (hl : w.list b!"src" = some ps) :
    ∃ s N, (∀ n, N ≤ n → runScript w n paths skeletonBuild = .ok () s) ∧ s.out = [] ∧
      s.requests = some [
        .compile ((ps.filter b!".c".isSuffixOf).map fun p => { src := p, out := genCookie w.signed w.outPath p b!"o", flags := [b!"-std=c99", b!"-Wall", b!"-Wextra", b!"-Werror"] }),
        .link { archive := false, srcs := (ps.filter b!".c".isSuffixOf).map w.object, out := linkCookie w.signed w.outPath false ((ps.filter b!".c".isSuffixOf).map w.object), flags := [] }] ∧
      s.scriptVars.lookup b!"install" = some (.map [(some (linkCookie w.signed w.outPath false ((ps.filter b!".c".isSuffixOf).map w.object)), some b!"bin/bob-skeleton-c")]) ∧
      s.scriptVars.lookup b!"run" = some (.vec [some b!"bob-skeleton-c"]) := by
  obtain ⟨ρ, h, hi, hr⟩ := skeleton_means hl
  obtain ⟨s, N, h1, h2, h3, h4⟩ := C72_script_means (A := [b!"install", b!"run"]) hW.ok (by decide +kernel) hb h
  exact ⟨s, N, h1, h3, h2, h4 _ _ hi, h4 _ _ hr⟩

theorem frugality_means {w : World} :
    ∃ ρ, Runs w [b!"install", b!"run"] bobNames frugalityBuild.tail ρ
      [.compile [b!"-std=c11"] [b!"src1.c", b!"src2.c"], .link false [] [w.object b!"src1.c", w.object b!"src2.c"]] [] ∧
      ρ.lookup b!"install" = some (.map [(.str (w.object b!"src1.c"), .str b!"obj1.o"), (.str (w.object b!"src2.c"), .str b!"obj2.o"),
        (.str (linkCookie w.signed w.outPath false [w.object b!"src1.c", w.object b!"src2.c"]), .str b!"bin")]) := by
  have hnum : ∀ {ρ : Names} {t : Bytes} {v : Nat} (u : Val), numeralVal t = v → (∀ c ∈ t, c = 95 ∨ 48 ≤ c ∧ c ≤ 57) → v < 10 → ρ.lookup b!"obj" = some (.strs [w.object b!"src1.c", w.object b!"src2.c"]) →
      [Val.str (w.object b!"src1.c"), .str (w.object b!"src2.c")][v]? = some u → Means w ρ (.index (eVar b!"obj") (eNum t)) u [] := by
    intro ρ t v u hv hc h10 hob hu
    refine .index (r := []) (r' := []) (.ident hob) (.num hc ⟨by omega, by omega⟩) ⟨by omega, by omega⟩ ?_
    unfold pick
    rw [if_pos (by omega), hv]
    exact hu
  refine ⟨_, .decl (r := []) rfl (by decide) (.str _) (.decl (r := []) rfl (by decide) (.str _)
    (.decl (r := [_]) (r' := [_]) rfl (by decide) (.compile (r := []) (r' := []) (ps := [b!"src1.c", b!"src2.c"]) (means_strs _)
      (.vec (.cons (r := []) (.value (.ident rfl)) (.cons (r := []) (.value (.ident rfl)) .nil))))
    (.fixed (r := [_]) (r' := []) rfl (by decide) (by decide) (.link (r := []) (r' := []) (means_strs _) (.ident rfl))
      (.assign (r := []) (r' := []) rfl (.map (.cons (r := []) (r' := []) (r'' := []) (.value (hnum (v := 0) _ rfl (by decide) (by decide) rfl rfl)) (.value (.str _))
          (.cons (r := []) (r' := []) (r'' := []) (.value (hnum (v := 1) _ rfl (by decide) (by decide) rfl rfl)) (.value (.str _))
        (.cons (r := []) (r' := []) (r'' := []) (.value (.ident rfl)) (.value (.str _)) .nil))) ?_ ?_) .nil)))), rfl⟩
  · exact strKeys_proper [(_, _), (_, _), (_, _)]
  · refine strKeys_apart (ks := [(_, _), (_, _), (_, _)]) ?_
    refine .cons ?_ (.cons ?_ (.cons (fun _ h => nomatch h) .nil))
    · intro b hb
      rcases List.mem_cons.1 hb with rfl | hb
      · exact C11_distinct_sources_partial _ _ _ b!"src" b!"1" b!"2" b!".c" (by decide) (by decide)
      · cases List.mem_singleton.1 hb
        exact (C14_kinds_never_clash _ _ _ _ []).1
    · intro b hb
      cases List.mem_singleton.1 hb
      exact (C14_kinds_never_clash _ _ _ _ []).1

/-- **C72.**  The script of `tests/frugality`. -/
theorem C72_frugality_build {w : World} (hW : w.OnlyBob) {paths : List Bytes} (hb : w.file (importPath w false b!"bob.fl" paths) = .src bobFl) :
    ∃ s N, (∀ n, N ≤ n → runScript w n paths frugalityBuild = .ok () s) ∧ s.out = [] ∧
      s.requests = some [
        .compile [{ src := b!"src1.c", out := w.object b!"src1.c", flags := [b!"-std=c11"] }, { src := b!"src2.c", out := w.object b!"src2.c", flags := [b!"-std=c11"] }],
        .link { archive := false, srcs := [w.object b!"src1.c", w.object b!"src2.c"], out := linkCookie w.signed w.outPath false [w.object b!"src1.c", w.object b!"src2.c"], flags := [] }] ∧
      s.scriptVars.lookup b!"install" = some (.map [(some (w.object b!"src1.c"), some b!"obj1.o"), (some (w.object b!"src2.c"), some b!"obj2.o"),
        (some (linkCookie w.signed w.outPath false [w.object b!"src1.c", w.object b!"src2.c"]), some b!"bin")]) := by
  obtain ⟨ρ, h, hi⟩ := frugality_means (w := w)
  obtain ⟨s, N, h1, h2, h3, h4⟩ := C72_script_means (A := [b!"install", b!"run"]) hW.ok (by decide +kernel) hb h
  exact ⟨s, N, h1, h3, h2, h4 _ _ hi⟩

/-- Such a world: the files of `src` are `src/a.c`, `src/b.c` and a header. -/
example : bobWorld.OnlyBob ∧ bobWorld.file (importPath bobWorld false b!"bob.fl" bobPaths) = .src bobFl ∧ ∃ ps, bobWorld.list b!"src" = some ps ∧ 1 < ps.length :=
  ⟨bobWorld_only, rfl, _, rfl, by decide⟩

/-- Another script: one object per file, what is printed, a variable that changes. -/
def separately : List Stmt := [
  sLet b!"n" (eNum b!"1"),
  sLet b!"objs" (eMeth (eMeth (eVar b!"Fs") b!"list" [eStr b!"src"]) b!"map" [.lambda [b!"p"] (.expr (eMeth (eNew b!"Cc" [b!"-O2"]) b!"compile" [.vec [eVar b!"p"]]))]),
  sSet b!"n" (.bin .add (eVar b!"n") (eMeth (eVar b!"objs") b!"len" [])),
  sPrint (eVar b!"n")]

theorem maps_each {w : World} {ρ : Names} {x : Bytes} {b : Expr} {f : Bytes → Val} {g : Bytes → List Ask} (h : ∀ p, Means w ((x, .str p) :: ρ) b (f p) (g p)) :
    ∀ ps : List Bytes, Maps w ρ x b (ps.map .str) (ps.map f) (ps.flatMap g)
  | [] => .nil
  | p :: ps => .cons (h p) (maps_each h ps)

theorem separately_means {w : World} {ps : List Bytes} (hl : w.list b!"src" = some ps) (hn : ps.length < 1000) :
    ∃ ρ, Runs w [b!"n"] bobNames separately ρ (ps.map fun p => .compile [b!"-O2"] [p]) [(Val.int (1 + ps.length)).line] := by
  have hobjs : ∀ {ρ : Names}, Means w ρ (eMeth (eMeth (eVar b!"Fs") b!"list" [eStr b!"src"]) b!"map" [.lambda [b!"p"] (.expr (eMeth (eNew b!"Cc" [b!"-O2"]) b!"compile" [.vec [eVar b!"p"]]))])
      (.vec (ps.map fun p => .strs [w.object p])) (ps.map fun p => .compile [b!"-O2"] [p]) := by
    intro ρ
    have h := maps_each (w := w) (ρ := ρ) (x := b!"p") (b := eMeth (eNew b!"Cc" [b!"-O2"]) b!"compile" [.vec [eVar b!"p"]]) (f := fun p => .strs [w.object p]) (g := fun p => [.compile [b!"-O2"] [p]])
      (fun p => .compile (r := []) (r' := []) (ps := [p]) (means_strs _) (.vec (.cons (r := []) (.value (.ident (by rw [lookup_cons, if_pos rfl]))) .nil))) ps
    rw [← List.map_eq_flatMap] at h
    exact .each (r := []) (.list (.str _) hl) (by decide) h
  have h : Runs w [b!"n"] ((b!"n", .int 1) :: bobNames) separately.tail _ ((ps.map fun p => .compile [b!"-O2"] [p]) ++ []) [(Val.int (1 + (ps.map fun p => Val.strs [w.object p]).length)).line] :=
    .decl rfl (by decide) hobjs
    (.assign (r := []) (r' := []) (v := .int (1 + (ps.map fun p => Val.strs [w.object p]).length)) rfl (.bin (r₁ := []) (r₂ := []) (.ident rfl) (.lenVec (.ident rfl)) (.add ⟨by omega, by rw [List.length_map]; omega⟩))
      (.print (r := []) (r' := []) (.ident rfl) .nil))
  rw [List.append_nil, List.length_map] at h
  exact ⟨_, .decl (r := []) (v := .int 1) rfl (by decide) (.num (by decide) ⟨by decide, by decide⟩) h⟩

example : okStmts (assigning [b!"n"]) .top separately = true := by decide +kernel

end Bob.Fl
