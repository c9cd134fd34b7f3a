import Verif.Model.Build
/-!
# Archives: what `ar -rcs` does with an archive that exists

`Verif.Model.Build` takes the archiver to be a function of the files it is given.  The command at `src/class/linker.c:100` is `ar -rcs out files…`, though, which adds to the archive that is
there or replaces members of it.

Simplifications: an archive is the list of the names and contents of its members in some format; times and owners of members are left out (as `ar` does by default on most systems).
A file that is not an archive makes `ar` fail.
-/

namespace Bob

/-- The name of a member: that of the file without its directories. -/
def memberName (p : Bytes) : Bytes := (p.reverse.takeWhile (· != SLASH)).reverse

/-- A member while `ar` is at work.  `old`: it was read from the archive and has not been replaced. -/
structure ArMember where
  old : Bool
  name : Bytes
  content : Bytes
deriving DecidableEq, Repr

/-- `ar -r` with one file: the first old member of that name is replaced where it is; without one the file goes to the end.  (So it is possible to add files of the same name, as with GNU
`ar`.) -/
def arPut1 : List ArMember → Bytes × Bytes → List ArMember
  | [], f => [⟨false, f.1, f.2⟩]
  | m :: ms, f => if m.old ∧ m.name = f.1 then ⟨false, f.1, f.2⟩ :: ms else m :: arPut1 ms f

/-- `ar -r` with files, given by name and content. -/
def arPut (ms files : List (Bytes × Bytes)) : List (Bytes × Bytes) :=
  (files.foldl arPut1 (ms.map fun m => ⟨true, m.1, m.2⟩)).map fun m => (m.name, m.content)

/-- How members are written to a file and read again. -/
structure ArFormat where
  enc : List (Bytes × Bytes) → Bytes
  dec : Bytes → Option (List (Bytes × Bytes))
  dec_enc : ∀ ms, dec (enc ms) = some ms

/-- The members some files make; `none` if one of them is missing. -/
def FS.members (fs : FS) : List Bytes → Option (List (Bytes × Bytes))
  | [] => some []
  | p :: ps => (fs.content p).bind fun c => (fs.members ps).map fun ms => (memberName p, c) :: ms

/-- `ar -rcs arch files`: the archive it leaves. -/
def arRun (fmt : ArFormat) (fs : FS) (arch : Bytes) (files : List Bytes) : Option Bytes :=
  (fs.members files).bind fun new =>
    match fs.content arch with
    | none => some (fmt.enc (arPut [] new))
    | some x => (fmt.dec x).map fun old => fmt.enc (arPut old new)

/-- The tools, with `ar` as the archiver, `src/class/linker.c:97-130`: flags are given to it after the sources, where `ar` expects files.  `arch` says which archive belongs to which sources,
`src/class/linker.c:185-203`. -/
def Toolchain.withAr (tc : Toolchain) (fmt : ArFormat) (arch : List Bytes → Bytes) : Toolchain :=
  { tc with link := fun a fs srcs F => if a then arRun fmt fs (arch srcs) (srcs ++ F) else tc.link a fs srcs F }

/-- The tools, with an archiver that makes every archive anew.  (With flags it is that of `tc`.) -/
def Toolchain.withFresh (tc : Toolchain) (fmt : ArFormat) : Toolchain :=
  { tc with link := fun a fs srcs F => if a ∧ F = [] then (fs.members srcs).map fmt.enc else tc.link a fs srcs F }

end Bob
