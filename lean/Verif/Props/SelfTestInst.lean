import Verif.Props.SelfTest
import Verif.Props.RunTestsInst
/-!
# A sample for C107: bob, made of two files, builds itself
-/

namespace Bob.Fl
open Bob.Parse

def selfSrc : List Bytes := [b!"src/main.c", b!"src/flamingo/flamingo.c"]

/-- A compiler and a linker that are content with everything, or (`false`) with nothing. -/
def selfTc (ok : Bool) : Toolchain where
  deps _ src _ := if ok then some [(false, src)] else none
  obj _ _ _ := if ok then some b!"object" else none
  diag _ _ _ := []
  objFailRemoves _ _ _ := false
  link _ _ _ _ := if ok then some b!"program" else none
  linkDiag _ _ _ _ := []
  linkFailRemoves _ _ _ _ := false

def self0 : Store where
  fs p := if p ∈ selfSrc then some ⟨b!"text", 1⟩ else none
  now := 5
  trace := []
  buf _ := []

/-- The requests of bob's script for these files, and its install map. -/
def selfReqs (out : Bytes) : List Req :=
  [.compile (selfSrc.map fun p => { src := p, out := genCookie true out p b!"o", flags := [b!"-std=c11", b!"-g", b!"-Wall", b!"-Wextra", b!"-Werror", b!"-Wno-unused-parameter", b!"-Isrc", b!"-Isrc/flamingo/runtime"] }),
   .link { archive := false, srcs := selfSrc.map (objOf true out), out := progOf true out selfSrc, flags := [b!"-lm", b!"-lpthread"] }]

def selfMap (out : Bytes) : List (Bytes × Bytes) :=
  [(progOf true out selfSrc, b!"bin/bob"), (b!"import/bob.fl", b!"share/flamingo/import/bob.fl"), (b!"skeletons", b!"share/bob/skeletons")]

/-- Where building succeeds. -/
def selfGood (out : Bytes) (pre : Option Bytes) : Bool := pre = none ∨ pre = some (out ++ b!"/prefix")

theorem self_builds {out : Bytes} (ho : out = b!".bob" ∨ out = b!"t1" ∨ out = b!"t2") (pre : Option Bytes) :
    ∃ tc bad n s s', BuildReaches tc ⟨pre, selfMap out, bad⟩ n (selfReqs out) s (.finished (selfGood out pre) s') := by
  cases hg : selfGood out pre with
  | true =>
    simp only [selfGood, decide_eq_true_eq] at hg
    refine ⟨selfTc true, fun _ => false, 1, self0, _, autoBuild_reaches ?_⟩
    rcases hg with rfl | rfl <;> rcases ho with rfl | rfl | rfl <;> decide +kernel
  | false =>
    refine ⟨selfTc false, fun _ => false, 1, self0, _, autoBuild_reaches ?_⟩
    rcases ho with rfl | rfl | rfl <;> rfl

def selfTree (out : Bytes) : Tree := treeOf [([], .dir 1), ([b!"p"], .dir 5), ([b!"p", b!"import"], .dir 1), ([b!"p", b!"import", b!"bob.fl"], .file b!"class" 4),
  ([b!"p", b!"skeletons"], .dir 3), ([b!"p", b!"skeletons", b!"c"], .file b!"int" 3), ([b!"p", out], .dir 5), ([b!"p", out, b!"bob"], .dir 5), ([b!"p", out, b!"prefix"], .dir 5),
  (b!"p" :: strsepAll SLASH (progOf true out selfSrc), .file b!"program" 5)]

def selfEnv (out pre : Bytes) : InstEnv := { deny := noDeny, cwd := [b!"p"], absOut := b!"/p/" ++ out, pre := pre }

theorem self_installs {out : Bytes} (ho : out = b!".bob" ∨ out = b!"t1" ∨ out = b!"t2") (q : Bytes) :
    ∃ e times t, selfGood out (some q) = true ↔ ∃ t' l, installAllG e times ⟨some (selfMap out), some q⟩ t = .ok t' l := by
  cases hg : selfGood out (some q) with
  | true =>
    have hq : q = out ++ b!"/prefix" := by simpa [selfGood] using hg
    subst hq
    refine ⟨selfEnv out, fun _ => 9, selfTree out, fun _ => ?_, fun _ => rfl⟩
    have h : (match installAllG (selfEnv out) (fun _ => 9) ⟨some (selfMap out), some (out ++ b!"/prefix")⟩ (selfTree out) with
      | .ok _ _ => true
      | _ => false) = true := by rcases ho with rfl | rfl | rfl <;> decide +kernel
    split at h
    · rename_i t' l he; exact ⟨t', l, he⟩
    · cases h
  | false =>
    refine ⟨selfEnv out, fun _ => 9, fun _ => none, fun h => (nomatch h), fun ⟨t', l, h⟩ => ?_⟩
    exfalso
    rcases ho with rfl | rfl | rfl <;> cases h

/-- bob's script can be acted on like this. -/
theorem self_acts {w : World} {paths : List Bytes} (only : ∀ path p, w.file path = .src p → ReadAs bobText p) (names : ∀ path ps, w.list path = some ps → ∀ p ∈ ps, NUL ∉ p)
    (hl : w.list b!"src" = some selfSrc) (hs : w.signed = true) (ho : w.outPath = b!".bob" ∨ w.outPath = b!"t1" ∨ w.outPath = b!"t2")
    (bob : ∃ p, w.file (importPath w false b!"bob.fl" paths) = .src p) :
    ∃ p vars, ReadAs ownText p ∧ Acts w paths p (bsysBob true true vars (selfGood w.outPath) (fun q => selfGood w.outPath (some q))) ∧
      ∀ pre, (setupInstallMap vars pre .init).2 = true := by
  have outName : NUL ∉ w.outPath := by rcases ho with h | h | h <;> rw [h] <;> decide
  obtain ⟨p, h1, h2⟩ := reads_sound own_reads
  have hL := withBob_only only
  have hW : w.withBob.OnlyBob := ⟨withBob_file, names, outName⟩
  have hbob : w.withBob.file (importPath w.withBob false b!"bob.fl" paths) = .src bobFl := by
    obtain ⟨x, hx⟩ := bob
    rw [hL.importPath] at hx
    exact withBob_src hx
  obtain ⟨ρ, hr, hi, -⟩ := own_means (w := w.withBob) hl
  obtain ⟨st, N, k1, k2, k3, k4⟩ := C72_script_means (A := [b!"install", b!"run"]) (p := ownBuild.tail) hW.ok (by decide +kernel) hbob hr
  obtain ⟨depth, hd⟩ : Shows w paths p (.ok st.out st.scriptVars st.requests) := shows_like hL h2 ⟨N, by
    show seen (runScript w.withBob N paths (sBob :: ownBuild.tail)) = _
    rw [k1 N (Nat.le_refl N)]; rfl⟩
  have hsrcs : ownSources selfSrc = selfSrc := by decide +kernel
  have hobj : w.withBob.object = objOf true w.outPath := by funext p; simp [World.object, objOf, hs, World.withBob]
  have hmap : ∀ pre, setupInstallMap st.scriptVars pre .init = (⟨some (selfMap w.outPath), pre⟩, true) := by
    intro pre
    unfold setupInstallMap
    rw [find_lookup (k4 _ _ hi), hsrcs, hobj, show w.withBob.signed = true from hs, show w.withBob.outPath = w.outPath from rfl]
    rfl
  generalize hout : runScript w depth paths p = out at hd
  cases out with
  | ok a st' =>
    have hd : Seen.ok st'.out st'.scriptVars st'.requests = .ok st.out st.scriptVars st.requests := Option.some.inj hd
    simp only [Seen.ok.injEq] at hd
    obtain ⟨-, hv, hrq⟩ := hd
    obtain ⟨v', hv'⟩ := Option.isSome_iff_exists.1 (hr.knows (x := b!"__bob_has_been_imported__") rfl)
    have hset : setup (.ok a st') = some true := by
      show some _ = some true
      rw [hv, lookup_any (k4 _ _ hv')]
    refine ⟨p, st'.scriptVars, h1, ⟨depth, selfGood w.outPath, fun q => selfGood w.outPath (some q), ?_, ?_⟩, fun pre => by rw [hv, hmap]⟩
    · rw [hout]
      unfold bsysOf
      rw [hset]
    · intro s hs pre g hg
      rw [hout] at hs
      cases hs
      rw [hv, hmap] at hg
      cases hg
      obtain ⟨tc, bad, n, s, s', h⟩ := self_builds ho pre
      refine ⟨⟨tc, bad, n, s, s', selfReqs w.outPath, ?_, h⟩, fun q hq => ?_⟩
      · rw [hrq, k2]
        simp only [List.map_cons, List.map_nil, Ask.req, hsrcs, hobj, selfReqs, show w.withBob.signed = true from hs, show w.withBob.outPath = w.outPath from rfl]
        rfl
      · subst hq
        exact self_installs ho q
  | err msg s => cases hd
  | abort s => cases hd
  | ub s => cases hd
  | timeout => cases hd

def selfMain (posix : Bool) (b : Bsys) (out : Bytes) (env : Env) : MainWorld where
  posix := posix
  env := env
  realpath _ := true
  chdir _ := true
  root := false
  statDot := true
  mkdir _ := true
  there _ := true
  bsys := [b]
  kind p := if p = out ++ b!"/prefix/bin/bob" then some false else none
  xok _ := true
  execv p _ := p = out ++ b!"/prefix/bin/bob"

theorem self_project {out : Bytes} (ho : out = b!".bob" ∨ out = b!"t1" ∨ out = b!"t2") {isBob : Bytes → Prop} (hb : isBob (out ++ b!"/prefix/bin/bob")) :
    ∃ b, ∀ posix env, OwnProject isBob (selfMain posix b out env) (outOpts out) := by
  obtain ⟨pb, hpb, -⟩ := reads_sound bob_reads
  let w : World := { bobWorld with
    file := fun p => if p = b!"import/bob.fl" then .src pb else .missing b!"No such file or directory"
    list := fun p => if p = b!"src" then some selfSrc else none
    signed := true
    outPath := out }
  have only : ∀ path p, w.file path = .src p → ReadAs bobText p := by
    intro path p hp
    dsimp only [w] at hp
    split at hp
    · cases hp; exact hpb
    · cases hp
  have names : ∀ path ps, w.list path = some ps → ∀ p ∈ ps, NUL ∉ p := by
    intro path ps hps
    dsimp only [w] at hps
    split at hps
    · cases hps; decide
    · cases hps
  have bob : ∃ p, w.file (importPath w false b!"bob.fl" bobPaths) = .src p := ⟨pb, rfl⟩
  obtain ⟨p, vars, h1, h2, h3⟩ := self_acts only names (show w.list b!"src" = some selfSrc from rfl) rfl ho bob
  refine ⟨bsysBob true true vars (selfGood out) fun q => selfGood out (some q), fun posix env => ⟨⟨w, bobPaths, selfSrc, ⟨only, names, ?_, bob, p, _, h1, h2, rfl⟩, rfl, rfl⟩, ⟨rfl, rfl, fun _ => rfl, rfl, rfl, rfl⟩, ?_, ?_, ?_, ⟨?_, rfl⟩, ?_, hb⟩⟩
  · show NUL ∉ out
    rcases ho with rfl | rfl | rfl <;> decide
  · intro b hb
    cases hb
    have hB : ∀ pre, selfGood out pre = true → BuildOk (selfMain posix (bsysBob true true vars (selfGood out) fun q => selfGood out (some q)) out env) (outOpts out)
        (bsysBob true true vars (selfGood out) fun q => selfGood out (some q)) pre := by
      rintro pre hg f hf
      cases hf
      refine ⟨fun _ _ => rfl, ?_⟩
      dsimp only
      rw [if_pos (h3 pre)]
      exact hg
    refine ⟨hB _ rfl, ?_⟩
    intro f hf
    cases hf
    have hg : selfGood out (some (out ++ b!"/prefix")) = true := by simp [selfGood]
    exact ⟨fun _ => rfl, hB _ hg, hg⟩
  · show COLON ∉ out
    rcases ho with rfl | rfl | rfl <;> decide
  · rintro ⟨h, -⟩
    rcases ho with rfl | rfl | rfl <;> cases h
  · rcases ho with rfl | rfl | rfl <;> rfl
  · intro p argv hp
    have := hp.1
    simp only [selfMain] at this ⊢
    split at this
    · rename_i h; simpa using h
    · cases this

/-- The sample: both ways the test passes. -/
theorem C107_sample : ∃ isBob mw mw1 mw2 sys sys1 sys2, OwnProject isBob mw .init ∧ mw.posix = true ∧ Later isBob true sys1 (outOpts b!"t1") ∧ Later isBob true sys2 (outOpts b!"t2") ∧
    OwnProject isBob mw1 (outOpts b!"t1") ∧ mw1.posix = false ∧ OwnProject isBob mw2 (outOpts b!"t2") ∧ mw2.posix = false ∧ Later isBob false sys .init ∧
    (∃ env, Succeeds isBob [(mw, selfArgs1 b!"t1"), (sys1 env, [b!"-o", b!"t1", b!"build"])]) ∧
    (∃ env, Succeeds isBob [(mw1, selfArgs1 b!"t1"), (sys env, [b!"build"])]) := by
  let isBob : Bytes → Prop := fun p => p = b!".bob/prefix/bin/bob" ∨ p = b!"t1/prefix/bin/bob" ∨ p = b!"t2/prefix/bin/bob"
  obtain ⟨b, hb⟩ := self_project (out := b!".bob") (.inl rfl) (isBob := isBob) (.inl rfl)
  obtain ⟨b1, hb1⟩ := self_project (out := b!"t1") (.inr (.inl rfl)) (isBob := isBob) (.inr (.inl rfl))
  obtain ⟨b2, hb2⟩ := self_project (out := b!"t2") (.inr (.inr rfl)) (isBob := isBob) (.inr (.inr rfl))
  have l1 : Later isBob true (selfMain true b1 b!"t1") (outOpts b!"t1") := ⟨fun _ => rfl, fun _ => rfl, hb1 true⟩
  have l2 : Later isBob true (selfMain true b2 b!"t2") (outOpts b!"t2") := ⟨fun _ => rfl, fun _ => rfl, hb2 true⟩
  have l : Later isBob false (selfMain false b b!".bob") .init := ⟨fun _ => rfl, fun _ => rfl, hb false⟩
  obtain ⟨⟨e, -, he⟩, -⟩ := C107_self_test_posix (by decide) (by decide) (by decide) (by decide) rfl (hb true []) l1 l2
  obtain ⟨⟨e', -, he'⟩, -⟩ := C107_self_test_glibc rfl rfl (hb1 false []) (hb2 false []) l l
  exact ⟨isBob, _, _, _, _, _, _, hb true [], rfl, l1, l2, hb1 false [], rfl, hb2 false [], rfl, l, ⟨e, he⟩, ⟨e', he'⟩⟩

end Bob.Fl
