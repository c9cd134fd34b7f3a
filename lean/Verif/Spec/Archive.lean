import Verif.Model.Archive
import Verif.Spec.Build
/-!
# Archives with the right members
-/

namespace Bob

/-- Archives are where `arch` says. -/
def ArchOk (L : Layout) (arch : List Bytes → Bytes) : Prop := ∀ o srcs, L.isOut o → L.kind o = .link true srcs → arch srcs = o

/-- Archives are asked for without flags. -/
def PlainArchives (reqs : List Req) : Prop := ∀ j, .link j ∈ reqs → j.archive = true → j.flags = []

/-- A working directory after edits and builds that ended anywhere, in which archives are asked for without flags.  `ok`: all builds have succeeded. -/
inductive ArHist (tc : Toolchain) (L : Layout) : (ok : Bool) → Store → Prop where
  | start {s} (h : Pristine L s) : ArHist tc L true s
  | built {ok s s1 cfg c n reqs} (h : ArHist tc L ok s) (he : Edit L s s1) (hL : LayoutOk L c) (hR : ReqsOk L reqs) (hA : PlainArchives reqs) (hn : 0 < n)
      (hb : BuildReaches tc c n reqs s1 cfg) : ArHist tc L (ok && cfg.result == some true) cfg.store

end Bob
