import Verif.Model.Base
/-!
# Listing directories: `src/class/fs.c:34-86`

The loop over what `fts_read` returns is modelled line by line.  `fts_open` and `fts_read` themselves are the C library's; they are modelled after `fts(3)` for the one way they
are called here: one path, `FTS_LOGICAL`, no comparison function.  Directories are read in the order the system gives.
-/

namespace Bob.Fts

/-- `fts_info`, but for `FTS_W` and `FTS_INIT`, which are not returned. -/
inductive FtsInfo where
  | d | dp | dc | f | default | dnr | err | ns | sl | slnone | dot
deriving DecidableEq, Repr

/-- What is used of an `FTSENT`. -/
structure FtsEnt where
  info : FtsInfo
  path : Bytes
deriving DecidableEq, Repr

/-- What the loop says about an entry it passes over, `src/class/fs.c:53`, `58`, `65`. -/
inductive ListMsg where
  | symlink
  | dot
  | failed (path : Bytes)
deriving DecidableEq, Repr

/-- The loop, `src/class/fs.c:42-84`, over what `fts_read` returns before it returns NULL: the elements of the vector and what is printed.  (`depth` is 0, so that
line 74 is never true.) -/
def listLoop : List FtsEnt → List Bytes → List ListMsg → List Bytes × List ListMsg
  | [], out, log => (out, log)
  | e :: es, out, log =>
    match e.info with
    | .dp => listLoop es out log
    | .sl | .slnone => listLoop es out (log ++ [.symlink])
    | .dot => listLoop es out (log ++ [.dot])
    | .dnr | .err | .ns => listLoop es out (log ++ [.failed e.path])
    | .d | .dc | .f | .default => listLoop es (out ++ [e.path]) log

/-! ## `fts` -/

/-- What a name stands for: `stat`, which follows links, tells what is there (`to`), or else `lstat` tells that the name is a link to nothing (`broken`), or else nothing can
be told (`unknown`). -/
inductive Target where
  | to (i : Nat)
  | broken
  | unknown
deriving DecidableEq, Repr

/-- What is there.  Directories have entries, unless they cannot be read; `.` and `..` are left out. -/
inductive Node where
  | file
  | other
  | dir (entries : Option (List (Bytes × Target)))

/-- Files by the numbers `stat` gives them (device and inode), of which finitely many are directories. -/
structure Disk where
  node : Nat → Node
  dirs : List Nat
  listed : ∀ i es, node i = .dir es → i ∈ dirs

/-- The path of an entry: a slash is put between unless the path ends in one (`NAPPEND` of `fts.c`). -/
def joinPath (path name : Bytes) : Bytes := if path.getLast? = some SLASH then path ++ name else path ++ b!"/" ++ name

theorem filter_shrinks {anc dirs : List Nat} {i : Nat} (h : i ∈ dirs) (hi : i ∉ anc) : (dirs.filter (· ∉ i :: anc)).length < (dirs.filter (· ∉ anc)).length := by
  induction dirs with
  | nil => cases h
  | cons d dirs ih =>
    have hle : ∀ l : List Nat, (l.filter (· ∉ i :: anc)).length ≤ (l.filter (· ∉ anc)).length := by
      intro l
      induction l with
      | nil => simp
      | cons a l ih =>
        simp only [List.filter_cons, decide_not, List.mem_cons, not_or, Bool.not_eq_eq_eq_not, Bool.not_true, decide_eq_false_iff_not] at ih ⊢
        split <;> split <;> simp_all <;> omega
    by_cases hd : d = i
    · subst hd
      have := hle dirs
      rw [List.filter_cons_of_neg (by simp), List.filter_cons_of_pos (by simpa using hi), List.length_cons]
      omega
    · have := ih (by simpa [Ne.symm hd] using h)
      by_cases ha : d ∈ anc
      · rw [List.filter_cons_of_neg (by simp [ha]), List.filter_cons_of_neg (by simp [ha])]; exact this
      · rw [List.filter_cons_of_pos (by simp [ha, hd]), List.filter_cons_of_pos (by simp [ha])]; simp only [List.length_cons]; omega

/-- What successive calls of `fts_read` return for a path and what is below it; `anc` are the directories on the way.  A directory comes before its entries and again after them; one that
is also on the way is returned as a cycle and not entered; one that cannot be read is returned as such the second time. -/
def ftsWalk (T : Disk) (anc : List Nat) (path : Bytes) (t : Target) : List FtsEnt :=
  match t with
  | .broken => [⟨.slnone, path⟩]
  | .unknown => [⟨.ns, path⟩]
  | .to i =>
    match _h : T.node i with
    | .file => [⟨.f, path⟩]
    | .other => [⟨.default, path⟩]
    | .dir es =>
      if _hi : i ∈ anc then [⟨.dc, path⟩]
      else match es with
        | none => [⟨.d, path⟩, ⟨.dnr, path⟩]
        | some es => ⟨.d, path⟩ :: es.flatMap (fun e => ftsWalk T (i :: anc) (joinPath path e.1) e.2) ++ [⟨.dp, path⟩]
termination_by (T.dirs.filter (· ∉ anc)).length
decreasing_by exact filter_shrinks (T.listed i _ _h) _hi

/-- `list`, `src/class/fs.c:18-91`, for a path that stands for `t`.  `fts_open` fails for the empty path alone.  `cut`: after that many entries `fts_read` returns NULL because of an error
(the loop does not tell this from the end). -/
def listPath (T : Disk) (cut : Option Nat) (arg : Bytes) (t : Target) : Option (List Bytes × List ListMsg) :=
  let path := cstr arg
  if path = [] then none
  else
    let es := ftsWalk T [] path t
    some (listLoop (match cut with | none => es | some n => es.take n) [] [])

end Bob.Fts
