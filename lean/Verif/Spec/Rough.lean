import Verif.Spec.Times
import Verif.Spec.FlTexts
import Verif.Props.Whole
/-!
# A project in which anything may happen

`Verif.Spec.Torn` is about builds that were described to bob somehow.  Here bob reads the description itself, from the text of a build script.
-/

namespace Bob.Fl

/-- What a bob that was started with a script is to build: the script is run and the install map read (`src/bsys/bob/main.c:124-228`, `src/bsys.c:41-88`). -/
def BobProc (w : World) (paths : List Bytes) (script : List Stmt) (pre : Option Bytes) (bad : Bytes → Bool) (n : Nat) (q : Proc) : Prop :=
  ∃ depth st g, runScript w depth paths script = .ok () st ∧ setup (.ok () st) = some true ∧ setupInstallMap st.scriptVars pre .init = (g, true) ∧
    st.requests = some q.reqs ∧ q.c = ⟨g.pre, g.map.getD [], bad⟩ ∧ q.n = n

/-- A bob that was started in a directory with these files, for a project whose script has that text, and saw these files in `src`. -/
structure Launched (X : OneProj) (text : Bytes) (P : Plan) (sg : Bool) (out : Bytes) (fs : FS) (ls : List Bytes) (q : Proc) : Prop where
  seen : ∃ w paths, ShownText w paths sg out fs ls ∧ ∃ p, ReadAs text p ∧ BobProc w paths p q.c.pre q.c.bad q.n q
  sources : P.lists (X.sources ls)
  /-- it does not install over the user's files, or to where products are -/
  place : PlaceOk P out q.c
  workers : 0 < q.n

/-- The working directory of a project after any number of edits, of uses of bob with edits while it was building, and of times at which several bobs were at work there.  Files that were edited were newer than all products.  Any of these may have ended with
everything being killed while files were being written, if the products that were damaged, or whose record of includes was, were then removed. -/
inductive Rough (tc : Toolchain) (X : OneProj) (text : Bytes) (P : Plan) (sg : Bool) (out : Bytes) : Store → Prop where
  | start {s} (h : ∀ o, (P.layout sg out).isOut o → ∀ p, Managed o p → s.fs p = none) : Rough tc X text P sg out s
  | built {s s1 ls q cfg s2 s3} (h : Rough tc X text P sg out s) (he : Change (P.layout sg out) s s1) (hq : Launched X text P sg out s1.fs ls q)
      (hr : Steps (EditNext tc (MidEdit tc (P.layout sg out)) q.c q.n) (.idle q.reqs s1) cfg) (ht : Torn (Writing q.c cfg) cfg.store.fs cfg.store.now s2)
      (hm : Mended (P.layout sg out) cfg.store.fs s2 s3) : Rough tc X text P sg out s3
  | crowd {s s1 qs m s2 s3} (h : Rough tc X text P sg out s) (he : Change (P.layout sg out) s s1) (hqs : ∀ q ∈ qs, ∃ ls, Launched X text P sg out s1.fs ls q)
      (hr : CrowdReaches tc qs s1 m) (ht : Torn (m.writing qs) m.fs m.now s2) (hm : Mended (P.layout sg out) m.fs s2 s3) : Rough tc X text P sg out s3

end Bob.Fl
