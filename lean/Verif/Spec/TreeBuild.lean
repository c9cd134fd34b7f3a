import Verif.Model.TreeBuild
import Verif.Lemmas.Install
import Verif.Props.Install
import Verif.Spec.Build
/-!
# When directories do not matter to a build
-/

namespace Bob

/-- The install map and the prefix, for the build without directories, in which nothing goes wrong with destinations. -/
def TEnv.flat (e : TEnv) : InstCfg := { pre := e.pre, map := e.map, bad := fun _ => false }

/-- What the build without directories sees. -/
def TStore.flat (e : TEnv) (s : TStore) : Store := { fs := s.view e, now := s.now, trace := s.trace, buf := s.buf }

def Pool.as {S T : Type} (f : S → T) (p : Pool S) : Pool T :=
  { started := p.started, error := p.error, owner := p.owner, pc := p.pc, store := f p.store, hist := p.hist }

def TCfg.flat (e : TEnv) : TCfg → Cfg
  | .idle r s => .idle r (s.flat e)
  | .validating a b r s => .validating a b r (s.flat e)
  | .pooling a r p => .pooling a r (p.as (TStore.flat e))
  | .linking j r s => .linking j r (s.flat e)
  | .linkRan ok j r s => .linkRan ok j r (s.flat e)
  | .linked j r s => .linked j r (s.flat e)
  | .finished ok s => .finished ok (s.flat e)

/-- The sources to compile. -/
def CJobIn (reqs : List Req) (j : CJob) : Prop := ∃ jobs, .compile jobs ∈ reqs ∧ j ∈ jobs

/-- The files a build writes in the output directory. -/
def Writes (reqs : List Req) (w : Bytes) : Prop :=
  (∃ j, CJobIn reqs j ∧ w ∈ [j.out, depsPath j.out, flagsPath j.out, logPath j.out]) ∨ (∃ j, .link j ∈ reqs ∧ w ∈ [j.out, flagsPath j.out, logPath j.out])

/-- The files a build may change: those, and in the prefix the destinations of its products. -/
def Changes (e : TEnv) (reqs : List Req) (w : Bytes) : Prop :=
  Writes reqs w ∨ ∃ o ∈ outsOf reqs, ∃ pre v, e.pre = some pre ∧ e.map.find? (fun x => x.1 == o) = some (o, v) ∧ w = pre ++ b!"/" ++ v

/-- The names in use are different files, none in another, and all names a build uses are in use: those of sources and products, what the compiler reports, and the destinations of products, which
are in the prefix. -/
structure Placed (e : TEnv) (path : Bytes → Path) (tc : Toolchain) (reqs : List Req) : Prop where
  denotes : ∀ s, e.known s = true → Denotes e.cwd s (path s)
  apart : ∀ s s', e.known s = true → e.known s' = true → path s <+: path s' → s = s'
  writes : ∀ w, Writes reqs w → e.known w = true
  srcs : ∀ j, CJobIn reqs j → e.known j.src = true
  linkSrcs : ∀ j, .link j ∈ reqs → ∀ s ∈ j.srcs, e.known s = true
  tools : ∀ (t : Tree) src F items, tc.deps (t.view e.cwd e.known) src F = some items → ∀ d ∈ readDeps (depsText (ruleText items)), e.known d = true
  outs : ∀ j, CJobIn reqs j → ∀ o ∈ outsOf reqs, o ≠ depsPath j.out
  dest : ∀ o ∈ outsOf reqs, ∀ pre v, e.pre = some pre → e.map.find? (fun x => x.1 == o) = some (o, v) →
    e.known (pre ++ b!"/" ++ v) = true ∧ pre ++ b!"/" ++ v ≠ o ∧ (∀ j, CJobIn reqs j → pre ++ b!"/" ++ v ≠ depsPath j.out) ∧
    isCookie e.absOut (pathStr (path o)) = true ∧
    ∃ prePath, Denotes e.cwd pre prePath ∧ EntOk (e.inst pre) prePath { key := o, val := v, src := path o, dst := path (pre ++ b!"/" ++ v) }

/-- Nothing stands in the way of installing: nothing is denied, the prefix is there, and where directories have to be made there are no files. -/
structure Free (e : TEnv) (path : Bytes → Path) (t : Tree) : Prop where
  mkdir : ∀ p, e.deny.mkdir p = false
  copy : ∀ p q, e.deny.copy p q = none
  prefix_ : ∀ pre p, e.pre = some pre → Denotes e.cwd pre p → t.IsDir p
  above : ∀ s, e.known s = true → ∀ q, q <+: path s → q ≠ path s → ∀ c m, t q ≠ some (.file c m)

/-- The tree is one, names in use are not directories, there are directories for what a build writes, and what was recorded about dependencies are names in use.  If it is `free`, nothing stands
in the way of installing. -/
structure Ready (free : Prop) (e : TEnv) (path : Bytes → Path) (reqs : List Req) (t : Tree) : Prop where
  wf : t.Wf
  files : ∀ s, e.known s = true → ¬ t.IsDir (path s)
  dirs : ∀ w, Writes reqs w → t.IsDir (path w).dropLast
  deps : ∀ j, CJobIn reqs j → ∀ text, (t.fileAt e.cwd (depsPath j.out)).map (·.content) = some text → ∀ d ∈ readDeps text, e.known d = true
  open_ : free → Free e path t

/-- What a build leaves alone: whatever is not on the way to a file it may change is the same, with its time, other files are the same, and directories stay. -/
structure Frame (e : TEnv) (path : Bytes → Path) (reqs : List Req) (t t' : Tree) : Prop where
  same : ∀ q, (∀ w, Changes e reqs w → ¬ q <+: path w) → t' q = t q
  files : ∀ q, (∀ w, Changes e reqs w → q ≠ path w) → ∀ c m, t' q = some (.file c m) ↔ t q = some (.file c m)
  dirs : ∀ q, t.IsDir q → t'.IsDir q

/-- It is certain that the build fails. -/
inductive Doomed (n : Nat) : TCfg → Prop where
  | finished (s : TStore) : Doomed n (.finished false s)
  | error {tasks rest p} (h : p.error = true) : Doomed n (.pooling tasks rest p)
  /-- a task has failed at its last action, and its worker has yet to say so -/
  | failed {tasks rest p} (w i : Nat) (hw : w < n) (h : p.pc w = .run i 4 true) : Doomed n (.pooling tasks rest p)
  | setErr {tasks rest p} (w : Nat) (hw : w < n) (h : p.pc w = .setErr) : Doomed n (.pooling tasks rest p)

end Bob
