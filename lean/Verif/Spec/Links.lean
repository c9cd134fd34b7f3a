import Verif.Model.Links
/-!
# What is read through links
-/

namespace Bob.LTree

/-- Opening the file and reading it gives this. -/
def Reads (t : LTree) (cwd : Path) (s c : Bytes) : Prop := ∃ p m, t.stat true cwd s = .ok (p, .file c m)

/-- The name is itself a file with these contents, and not a link; there may be links in its directories. -/
def IsFile (t : LTree) (cwd : Path) (s c : Bytes) : Prop := ∃ p m, t.stat false cwd s = .ok (p, .file c m)

/-- The name is itself a link with this target, in this directory. -/
def IsLink (t : LTree) (cwd : Path) (s target : Bytes) (dir : Path) : Prop := ∃ p m, t.stat false cwd s = .ok (p, .link target m) ∧ p.dropLast = dir

/-- The name is a directory, or a link to one. -/
def LeadsToDir (t : LTree) (cwd : Path) (s : Bytes) : Prop := ∃ p m, t.stat true cwd s = .ok (p, .dir m)

end Bob.LTree
