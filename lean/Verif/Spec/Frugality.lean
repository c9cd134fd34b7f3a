import Verif.Spec.Build
/-!
# What has to be made again
-/

namespace Bob

/-- What has to be made again after the files in `E` have been edited, where `fs` are the files before: objects of sources that are made from an edited file, what is linked from something edited or made
again, and all that is now asked for with other flags. -/
inductive Stale (tc : Toolchain) (fs : FS) (E : Bytes → Prop) (old new : List Req) : Bytes → Prop where
  | source {jobs j items p} (hr : .compile jobs ∈ new) (hj : j ∈ jobs) (hd : tc.deps fs j.src j.flags = some items) (hp : p ∈ j.src :: items.map (·.2)) (hE : E p) :
      Stale tc fs E old new j.out
  | linked {j p} (hr : .link j ∈ new) (hp : p ∈ j.srcs) (hE : E p) : Stale tc fs E old new j.out
  | relinked {j p} (hr : .link j ∈ new) (hp : p ∈ j.srcs) (h : Stale tc fs E old new p) : Stale tc fs E old new j.out
  | flags {r r' o F F'} (hr : r ∈ new) (hF : r.flagsOf o F) (hr' : r' ∈ old) (hF' : r'.flagsOf o F') (hne : F ≠ F') : Stale tc fs E old new o

/-- The product was made again after `t`, and installed anew if it is to be installed. -/
def Remade (c : InstCfg) (t : Nat) (fs : FS) (o : Bytes) : Prop :=
  ∃ f, fs o = some f ∧ t < f.mtime ∧ ∀ d, c.dest o = some d → ∃ g, fs d = some g ∧ g.content = f.content ∧ f.mtime ≤ g.mtime

/-- Neither the product nor its installed copy was touched. -/
def Left (c : InstCfg) (fs fs' : FS) (o : Bytes) : Prop := fs' o = fs o ∧ ∀ d, c.dest o = some d → fs' d = fs d

end Bob
