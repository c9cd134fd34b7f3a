import Verif.Spec.Fts
import Verif.Model.Bootstrap
/-!
# What making the first bob should give
-/

namespace Bob.Boot
open Bob.Fts

/-- A tree of sources (`src` stands for `t`) without links, in which everything can be read, whose names mean nothing to a shell, and in which nothing but a directory `flamingo` begins
like it. -/
structure Tidy (T : Disk) (L : Links) (t : Target) : Prop where
  unlinked : ∀ ns i es n t', T.Path t ns (.to i) → T.node i = .dir (some es) → (n, t') ∈ es → L i n = false
  readable : ∀ ns t', T.Path t ns t' → ∃ i, t' = .to i ∧ T.node i ≠ .dir none
  names : ∀ ns t', T.Path t ns t' → ∀ n ∈ ns, ∀ c ∈ n, c ∉ b!" \t\n*?["
  flamingo : ∀ n t', T.Path t [n] t' → b!"flamingo" <+: n → n = b!"flamingo"
  directory : ∀ i, T.Path t [b!"flamingo"] (.to i) → T.node i ≠ .file

/-- That program was linked, among files `fs`, from objects of just those sources, each once, and these objects are what the compiler makes of the sources (which are read from `fs₀`). -/
def LinkedFrom (tc : Toolchain) (fs₀ fs : FS) (srcs : List Bytes) (bob : Bytes) : Prop :=
  ∃ objs, tc.link false fs objs flags = some bob ∧ objs.Perm (srcs.map fun s => b!".bootstrap/" ++ s ++ b!".o") ∧
    ∀ s ∈ srcs, (fs (b!".bootstrap/" ++ s ++ b!".o")).map (·.content) = tc.obj fs₀ s flags

end Bob.Boot
