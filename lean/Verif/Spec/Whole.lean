import Verif.Spec.FlMean
import Verif.Spec.Build
import Verif.Model.Install
import Verif.Props.FlSafe
/-!
# Projects with one program, from the script to the product
-/

namespace Bob

/-- Where the object of a source goes. -/
def objOf (sg : Bool) (out p : Bytes) : Bytes := genCookie sg out p b!"o"

/-- Where the program linked from the objects of these sources goes. -/
def progOf (sg : Bool) (out : Bytes) (qs : List Bytes) : Bytes := linkCookie sg out false (qs.map (objOf sg out))

/-- Compiling these sources and linking the objects. -/
def oneReqs (sg : Bool) (out : Bytes) (flags linkFlags qs : List Bytes) : List Req :=
  [.compile (qs.map fun p => { src := p, out := objOf sg out p, flags := flags }),
   .link { archive := false, srcs := qs.map (objOf sg out), out := progOf sg out qs, flags := linkFlags }]

/-- The lists of sources a project has over time, and the user's files. -/
structure Plan where
  lists : List Bytes → Prop
  user : Bytes → Prop

def Plan.src (P : Plan) (p : Bytes) : Prop := ∃ qs, P.lists qs ∧ p ∈ qs

/-- Names of products tell what they are made from (see C11 and C13), and the user keeps their files out of bob's directory. -/
structure Plan.Ok (P : Plan) (sg : Bool) (out : Bytes) : Prop where
  objects : ∀ p q, P.src p → P.src q → objOf sg out p = objOf sg out q → p = q
  programs : ∀ ps qs, P.lists ps → P.lists qs → progOf sg out ps = progOf sg out qs → ps = qs
  user : ∀ p, P.src p → P.user p
  outside : ∀ p, P.user p → ¬ (out ++ b!"/bob/") <+: p

open Classical in
/-- The files of such a project. -/
noncomputable def Plan.layout (P : Plan) (sg : Bool) (out : Bytes) : Layout where
  user := P.user
  isOut o := (∃ p, P.src p ∧ o = objOf sg out p) ∨ ∃ qs, P.lists qs ∧ o = progOf sg out qs
  kind o :=
    if h : ∃ p, P.src p ∧ o = objOf sg out p then .compile h.choose
    else if h : ∃ qs, P.lists qs ∧ o = progOf sg out qs then .link false (h.choose.map (objOf sg out))
    else .compile []

/-- The file at `prog` is the program linked from the sources `qs`, each compiled as it is now. -/
def Linked (tc : Toolchain) (fs : FS) (flags linkFlags qs : List Bytes) (prog : Bytes) : Prop :=
  ∃ objs : List Bytes, List.Forall₂ (fun q o => ∃ x, tc.obj fs q flags = some x ∧ fs.content o = some x) qs objs ∧
    ∃ x, tc.link false fs objs linkFlags = some x ∧ fs.content prog = some x

end Bob

namespace Bob.Fl

/-- Running `bob build` (without a prefix) or the build of `bob install` and `bob run` (with one) in a directory, up to some point: the script is run, the install map
read, then the build steps run (`src/bsys/bob/main.c:124-228`, `src/bsys.c`). -/
def BobBuild (tc : Toolchain) (w : World) (paths : List Bytes) (script : List Stmt) (pre : Option Bytes) (bad : Bytes → Bool) (n : Nat) (s : Store) (cfg : Cfg) : Prop :=
  ∃ depth st reqs g, runScript w depth paths script = .ok () st ∧ setup (.ok () st) = some true ∧ setupInstallMap st.scriptVars pre .init = (g, true) ∧
    st.requests = some reqs ∧ BuildReaches tc ⟨g.pre, g.map.getD [], bad⟩ n reqs s cfg

/-- The world of a script shows the files there are: `Fs.list("src")` lists everything below `src`, once.  The rest of the world: just `bob.fl` can be imported. -/
structure Shown (w : World) (paths : List Bytes) (sg : Bool) (out : Bytes) (fs : FS) (ps : List Bytes) : Prop where
  signed : w.signed = sg
  outPath : w.outPath = out
  only : w.OnlyBob
  bob : w.file (importPath w false b!"bob.fl" paths) = .src bobFl
  list : w.list b!"src" = some ps
  nodup : ps.Nodup
  all : ∀ p, b!"src/" <+: p → (fs p).isSome → p ∈ ps
  below : ∀ p ∈ ps, p = b!"src" ∨ b!"src/" <+: p

end Bob.Fl
