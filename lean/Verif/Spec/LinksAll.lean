import Verif.Spec.Links
/-!
# Where installing may write, with symbolic links
-/

namespace Bob.LTree

/-- What copying `key` to `dst` may write. -/
inductive Written (t : LTree) (cwd : Path) (key dst : Bytes) (q : Path) : Prop where
  /-- the destination itself -/
  | itself (h : t.resolve false cwd dst = .ok q)
  /-- what the destination leads to, if it is a link -/
  | through (h : t.resolve true cwd dst = .ok q)
  /-- if a directory is copied: what is below the destination -/
  | below (p : Path) (hk : t.LeadsToDir cwd key) (h : t.resolve false cwd dst = .ok p) (hq : p <+: q)
  /-- if the destination is a directory: what has the name of the key in it, or what that leads to -/
  | inside (d own : Path) (m : Nat) (l : LNode) (h : t.stat true cwd dst = .ok (d, .dir m)) (hk : t.stat false cwd key = .ok (own, l))
      (hq : q = d ++ [own.getLastD []] ∨ t.walk true 40 d [own.getLastD []] = .ok q)

/-- There is no link in a directory, nor is it one. -/
def NoLinks (t : LTree) (dir : Path) : Prop := ∀ q l m, dir <+: q → t q ≠ some (.link l m)

/-- Outside of a directory nothing was made, removed or changed but for the times of directories. -/
def SameOutside (t t' : LTree) (dir : Path) : Prop := ∀ q, ¬ dir <+: q → t' q = t q ∨ ∃ m m', t q = some (.dir m) ∧ t' q = some (.dir m')

end Bob.LTree
