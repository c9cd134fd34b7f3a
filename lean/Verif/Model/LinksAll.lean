import Verif.Model.Links
/-!
# Installing all entries of the install map, with symbolic links: `src/install.c`
-/

namespace Bob

/-- The result of `install_all`; after `ok` it returns 0, after `failed` -1. -/
inductive LAllRes where
  | ok (t : LTree)
  | failed (t : LTree)
  | abort

/-- `install_all`, `src/install.c:185-202`, for the entries of the map, each with the time at which it is installed. -/
def linstallAll (e : LInstEnv) : List ((Bytes × Bytes) × Nat) → LTree → LAllRes
  | [], t => .ok t
  | ((key, val), now) :: rest, t =>
    match linstallSingle e key val false now t with
    | .failed t => .failed t
    | .abort => .abort
    | .product => linstallAll e rest t
    | .already t => linstallAll e rest t
    | .copied t => linstallAll e rest t

end Bob
