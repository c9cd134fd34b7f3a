import Verif.Spec.TreeBuild
import Verif.Spec.Whole
/-!
# Building and installing on a file system with directories
-/

namespace Bob

/-- Where products are copied to: not among bob's own files, and different places for different products. -/
structure DestsApart (c : InstCfg) (reqs : List Req) : Prop where
  managed : ∀ o ∈ outsOf reqs, ∀ d, c.dest o = some d → ∀ o' ∈ outsOf reqs, ¬ Managed o' d
  inj : ∀ o ∈ outsOf reqs, ∀ o' ∈ outsOf reqs, ∀ d, c.dest o = some d → c.dest o' = some d → o = o'

/-- The install map of a build, with the files its entries stand for.  The keys are different.  Entries that are not products of this build are apart from the names in use. -/
structure TMapOk (e : TEnv) (path : Bytes → Path) (reqs : List Req) (pre : Bytes) (prePath : Path) (es : List (Ent × Nat)) : Prop where
  pre_ : e.pre = some pre
  prePath_ : Denotes e.cwd pre prePath
  map : e.map = es.map fun x => (x.1.key, x.1.val)
  keys : (es.map fun x => x.1.key).Nodup
  ents : EntsOk (e.inst pre) prePath es
  other : ∀ x ∈ es, x.1.key ∉ outsOf reqs → ∀ w, e.known w = true → Apart x.1.src (path w) ∧ Apart x.1.dst (path w)

/-- Entries, and when each is installed. -/
def timed (times : Nat → Nat) (es : List Ent) : List (Ent × Nat) := es.zipIdx.map fun x => (x.1, times x.2)

namespace Fl

/-- Running the script and reading the install map, for a prefix: what is to be built, and what is kept about installing (`src/bsys/bob/main.c:124-228`). -/
def AsksFor (w : World) (paths : List Bytes) (script : List Stmt) (pre : Option Bytes) (reqs : List Req) (g : InstGlobals) : Prop :=
  ∃ depth st, runScript w depth paths script = .ok () st ∧ setup (.ok () st) = some true ∧ setupInstallMap st.scriptVars pre .init = (g, true) ∧ st.requests = some reqs

/-- `bob build` on a file system with directories, up to some point. -/
def TBobBuild (e : TEnv) (tc : Toolchain) (w : World) (paths : List Bytes) (script : List Stmt) (n : Nat) (s : TStore) (cfg : TCfg) : Prop :=
  e.pre = none ∧ ∃ reqs g, AsksFor w paths script none reqs g ∧ e.map = g.map.getD [] ∧ TBuildReaches e tc n reqs s cfg

/-- `bob install` on a file system with directories, from the beginning to its success: the build for the prefix has left `s'`, and installing the rest `t`. -/
def TBobInstall (e : TEnv) (tc : Toolchain) (w : World) (paths : List Bytes) (script : List Stmt) (n : Nat) (pre : Bytes) (times : Nat → Nat) (s s' : TStore) (t : Tree) : Prop :=
  e.pre = some pre ∧ ∃ reqs g copied, AsksFor w paths script (some pre) reqs g ∧ e.map = g.map.getD [] ∧ TBuildReaches e tc n reqs s (.finished true s') ∧
    installAllG e.inst times g s'.tree = .ok t copied

/-- `tests/install.sh`, lines 8 and 9, for any prefix: `bob install` succeeds, and then `bob build` does.  `s2` is there in the end. -/
def InstallTest (e : TEnv) (tc : Toolchain) (w w' : World) (paths paths' : List Bytes) (script : List Stmt) (n n' : Nat) (pre : Bytes) (times : Nat → Nat) (s s2 : TStore) : Prop :=
  ∃ s' s1 t, TBobInstall e tc w paths script n pre times s s' t ∧ s1.tree = t ∧ TBobBuild { e with pre := none } tc w' paths' script n' s1 (.finished true s2)

/-- The test passes, lines 11 and 12. -/
def InstallPasses (prePath : Path) (t : Tree) : Prop :=
  t.IsDir (prePath ++ [b!"share", b!"bob", b!"skeletons"]) ∧ ∃ c m, t (prePath ++ [b!"bin", b!"bob"]) = some (.file c m)

end Fl

end Bob
