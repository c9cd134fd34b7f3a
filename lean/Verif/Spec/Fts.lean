import Verif.Model.Fts
/-!
# What a listing of a directory should hold
-/

namespace Bob.Fts

/-- Names in directories: not empty, without slashes and NULs, and each there once. -/
def Disk.Proper (T : Disk) : Prop :=
  ∀ i es, T.node i = .dir (some es) → (es.map (·.1)).Nodup ∧ ∀ e ∈ es, e.1 ≠ [] ∧ SLASH ∉ e.1 ∧ NUL ∉ e.1

/-- The names lead from there to there, through directories that can be read. -/
inductive Disk.Path (T : Disk) : Target → List Bytes → Target → Prop where
  | here (t) : T.Path t [] t
  | down {i es n t ns t'} (hd : T.node i = .dir (some es)) (he : (n, t) ∈ es) (h : T.Path t ns t') : T.Path (.to i) (n :: ns) t'

/-- The same, passing through no directory twice, nor through one of `seen`. -/
inductive Disk.Simple (T : Disk) : List Nat → Target → List Bytes → Target → Prop where
  | here (seen t) : T.Simple seen t [] t
  | down {seen i es n t ns t'} (hi : i ∉ seen) (hd : T.node i = .dir (some es)) (he : (n, t) ∈ es) (h : T.Simple (i :: seen) t ns t') : T.Simple seen (.to i) (n :: ns) t'

/-- No directory is below itself: directories have heights. -/
def Disk.Acyclic (T : Disk) : Prop := ∃ height : Nat → Nat, ∀ i es, T.node i = .dir (some es) → ∀ e ∈ es, ∀ j, e.2 = .to j → height j < height i

/-- How a file below a directory is written. -/
def below (root : Bytes) : List Bytes → Bytes
  | [] => root
  | n :: ns => (if root.getLast? = some SLASH then root else root ++ b!"/") ++ n ++ ns.flatMap (SLASH :: ·)

/-- The same files, directories being read in another order. -/
structure Disk.Reordered (T T' : Disk) : Prop where
  dirs : ∀ i es, T.node i = .dir (some es) → ∃ es', T'.node i = .dir (some es') ∧ es.Perm es'
  others : ∀ i, (∀ es, T.node i ≠ .dir (some es)) → T'.node i = T.node i

end Bob.Fts
