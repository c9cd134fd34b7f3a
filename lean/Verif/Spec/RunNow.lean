import Verif.Spec.SelfTest
import Verif.Props.WholeInst
/-!
# What `bob run` runs

`Verif.Spec.RunTests` says which file bob becomes, `Verif.Spec.Whole` what bob builds.  Here both are about one process: bob is started as `bob run` in a working directory, and while it runs it
builds and installs there.
-/

namespace Bob.Fl

/-- As `InstLife`, where bob is used with the text of the script. -/
inductive InstLifeText (tc : Toolchain) (X : OneProj) (text : Bytes) (P : Plan) (sg : Bool) (out d : Bytes) : List (List Bytes) → Store → Prop where
  | start {s} (h : Pristine (P.layout sg out) s) (hd : s.fs d = none) : InstLifeText tc X text P sg out d [] s
  | built {l s s1 cfg w paths ps pre bad n} (h : InstLifeText tc X text P sg out d l s) (he : Edit (P.layout sg out) s s1)
      (hrec : ∀ o, (P.layout sg out).isOut o → s1.fs (flagsPath o) = s.fs (flagsPath o) ∨ s1.fs o = none) (hd : s1.fs d = s.fs d ∨ s1.fs d = none)
      (hw : ShownText w paths sg out s1.fs ps) (hl : P.lists (X.sources ps)) (hp : PlaceOk P out ⟨pre, X.map sg out (X.sources ps), bad⟩)
      (hpre : ∀ p, pre = some p → p ++ b!"/" ++ X.entry = d) (hn : 0 < n) (hb : BobBuildText tc w paths text pre bad n s1 cfg) :
      InstLifeText tc X text P sg out d (X.sources ps :: l) cfg.store

/-- A process of bob in a directory with these files, whose build script has that text and is recognised first: if it comes to building for the prefix of the project, it builds what the script
asks for with that toolchain and so many workers, and leaves these files; then it installs what the script says. -/
def Process (mw : MainWorld) (tc : Toolchain) (w : World) (paths : List Bytes) (text pre : Bytes) (bad : Bytes → Bool) (n : Nat) (s s' : Store) : Prop :=
  ∃ p b depth steps installs, ReadAs text p ∧ mw.bsys.find? (·.identify) = some b ∧ bsysOf (runScript w depth paths p) steps installs = some b ∧
    ∀ st, runScript w depth paths p = .ok () st → ∀ g, setupInstallMap st.scriptVars (some pre) .init = (g, true) →
      (∃ reqs, st.requests = some reqs ∧ BuildReaches tc ⟨g.pre, g.map.getD [], bad⟩ n reqs s (.finished (steps (some pre)) s')) ∧
      ∃ e times t, installs pre = true ↔ ∃ t' l, installAllG e times g t = .ok t' l

/-- The program of the project is installed in `bin`, under the name that its script says is to be run. -/
structure OneProj.Named (X : OneProj) (name : Bytes) : Prop where
  entry : X.entry = b!"bin/" ++ name
  clean : NUL ∉ name
  script : ∃ p, X.script = sBob :: p ∧ okStmts (assigning [b!"install", b!"run"]) .top p = true ∧
    ∀ (w : World) ps, w.list b!"src" = some ps → ∃ ρ r o, Runs w [b!"install", b!"run"] bobNames p ρ r o ∧ ρ.lookup b!"run" = some (.vec [.str name])

/-- **C118.** `bob run` in a project that has been edited and built before: whatever it becomes is the program of the sources there are.  For the full claim, `here` is false and `ok` always holds; if
`here` is true, there is no program of that name in the directory of the project; `ok` is a condition on the lists of sources bob has seen, the present one first. -/
def RunsThePresent (X : OneProj) (text name : Bytes) (here : Prop) (ok : List (List Bytes) → Prop) : Prop :=
  ∀ (tc : Toolchain) (P : Plan) (sg : Bool) (l : List (List Bytes)) (s s1 s2 : Store) (w : World) (paths ps : List Bytes) (bad : Bytes → Bool) (n : Nat) (mw : MainWorld) (o : Opts)
    (args rest : List Bytes) (file : Bytes) (argv : List Bytes) (env : Env),
    P.Ok sg o.out → ToolOk tc (P.layout sg o.out) → COLON ∉ o.out → (∀ a ∈ rest, NUL ∉ a) →
    -- the project was edited and built before, and edited again
    InstLifeText tc X text P sg o.out (o.out ++ b!"/prefix/" ++ X.entry) l s → Edit (P.layout sg o.out) s s1 →
    (∀ p, (P.layout sg o.out).isOut p → s1.fs (flagsPath p) = s.fs (flagsPath p) ∨ s1.fs p = none) →
    (s1.fs (o.out ++ b!"/prefix/" ++ X.entry) = s.fs (o.out ++ b!"/prefix/" ++ X.entry) ∨ s1.fs (o.out ++ b!"/prefix/" ++ X.entry) = none) →
    -- what is there now
    ShownText w paths sg o.out s1.fs ps → P.lists (X.sources ps) → PlaceOk P o.out ⟨some (o.out ++ b!"/prefix"), X.map sg o.out (X.sources ps), bad⟩ → 0 < n →
    (here → ¬ mw.Program name) → ok (X.sources ps :: l) →
    -- `bob run`
    ReadAsOpts mw.posix args o (b!"run" :: rest) → Process mw tc w paths text (o.out ++ b!"/prefix") bad n s1 s2 → ((s2.fs (o.out ++ b!"/prefix/" ++ X.entry)).isSome → mw.Program (o.out ++ b!"/prefix/" ++ X.entry)) →
    Becomes mw args file argv env →
    Linked tc s2.fs X.flags X.linkFlags (X.sources ps) file ∧ argv = name :: rest.filter (· ≠ b!"--") ∧ Extended o.out mw.env env

end Bob.Fl
