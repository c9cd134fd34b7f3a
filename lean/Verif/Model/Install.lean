import Verif.Model.Frugal
/-!
# Installing: `src/install.c` and `src/fsutil.c`

Here the file system is a tree of directories and files, because creating directories matters.  (The build model,
`Verif.Model.Build`, has a flat one.)  There are no symbolic links.  `cp` and `rm` do what POSIX says, or fail for any reason and
leave anything.
-/

namespace Bob

/-- The names from the root to a file, without `.`, `..` and empty ones. -/
abbrev Path := List Bytes

inductive Node where
  | dir (mtime : Nat)
  | file (content : Bytes) (mtime : Nat)
deriving DecidableEq, Repr

abbrev Tree := Path → Option Node

def Node.isDir : Node → Bool
  | .dir _ => true
  | .file _ _ => false

def Node.mtime : Node → Nat
  | .dir m => m
  | .file _ m => m

/-- The same, modified at the given time. -/
def Node.stamp (now : Nat) : Node → Node
  | .dir _ => .dir now
  | .file c _ => .file c now

inductive Errno where
  | noent | notdir
deriving DecidableEq, Repr

/-- Following the components of a path from a directory.  The last one need not exist. -/
def Tree.walk (t : Tree) : Path → List Bytes → Except Errno Path
  | cur, [] => .ok cur
  | cur, c :: cs =>
    match t cur with
    | none => .error .noent
    | some (.file _ _) => .error .notdir
    | some (.dir _) =>
      if c = [] ∨ c = b!"." then Tree.walk t cur cs
      else if c = b!".." then Tree.walk t cur.dropLast cs
      else Tree.walk t (cur ++ [c]) cs

/-- Following a path from the working directory, or from the root. -/
def Tree.resolve (t : Tree) (cwd : Path) (s : Bytes) : Except Errno Path :=
  match s with
  | [] => .error .noent
  | c :: _ => t.walk (if c = SLASH then [] else cwd) (strsepAll SLASH s)

/-- `stat`. -/
def Tree.stat (t : Tree) (cwd : Path) (s : Bytes) : Except Errno (Path × Node) :=
  match t.resolve cwd s with
  | .error e => .error e
  | .ok p => match t p with
    | none => .error .noent
    | some n => .ok (p, n)

def Tree.statRes (t : Tree) (cwd : Path) (s : Bytes) : StatRes :=
  match t.stat cwd s with
  | .error .noent => .enoent
  | .error .notdir => .err
  | .ok (_, n) => .ok n.mtime

/-- The string of a path, as `realpath` gives it. -/
def pathStr : Path → Bytes
  | [] => b!"/"
  | p => p.flatMap (b!"/" ++ ·)

def Tree.set (t : Tree) (p : Path) (n : Node) : Tree := fun q => if q = p then some n else t q

/-- Making or removing an entry of a directory changes the directory's time. -/
def Tree.touch (t : Tree) (p : Path) (now : Nat) : Tree := fun q =>
  if q = p then (t q).map fun n => match n with | .dir _ => .dir now | n => n else t q

/-- What the system may refuse, for instance for lack of permission. -/
structure Deny where
  mkdir : Path → Bool
  /-- `some`: copying between these paths fails, leaving this tree -/
  copy : Path → Path → Option Tree

/-- `mkdir_wrapped`, `src/fsutil.c:127-140`; an existing file is no error.  `none`: it fails. -/
def Tree.mkdir (t : Tree) (d : Deny) (cwd : Path) (now : Nat) (s : Bytes) : Option Tree :=
  match t.resolve cwd s with
  | .error _ => none
  | .ok p => match t p with
    | some _ => some t
    | none => if d.mkdir p then none else some ((t.set p (.dir now)).touch p.dropLast now)

/-- Without its trailing slashes. -/
def rstrip (s : Bytes) : Bytes := (s.reverse.dropWhile (· == SLASH)).reverse

/-- Up to the last slash. -/
def toLastSlash (s : Bytes) : Bytes := (s.reverse.dropWhile (· != SLASH)).reverse

/-- `dirname` of glibc. -/
def dirname (s : Bytes) : Bytes :=
  let r := rstrip s
  if r = [] then (if s = [] then b!"." else b!"/")
  else if SLASH ∉ r then b!"."
  else
    let d := rstrip (toLastSlash r)
    if d = [] then b!"/" else d

/-- The directories that are made for a destination, `src/install.c:107-116`. -/
def destBits (val : Bytes) : List Bytes := (strsepAll SLASH (dirname val)).filter (· ≠ [])

/-- The loop at `src/install.c:113-130`: the tree, and whether it succeeded. -/
def mkdirs (d : Deny) (cwd : Path) (now : Nat) : List Bytes → Bytes → Tree → Tree × Bool
  | [], _, t => (t, true)
  | bit :: bits, accum, t =>
    match t.mkdir d cwd now (accum ++ b!"/" ++ bit) with
    | none => (t, false)
    | some t => mkdirs d cwd now bits (accum ++ b!"/" ++ bit) t

/-- `cp -RP src dst` of a file, with the resolved paths.  `none`: it fails. -/
def cpFile (t : Tree) (content : Bytes) (src dst : Path) (now : Nat) : Option Tree :=
  match t dst with
  | some (.file _ _) => if dst = src then none else some (t.set dst (.file content now))
  | none => some ((t.set dst (.file content now)).touch dst.dropLast now)
  | some (.dir _) =>
    -- into the directory
    let dst := dst ++ [src.getLastD []]
    match t dst with
    | some (.dir _) => none
    | some (.file _ _) => if dst = src then none else some (t.set dst (.file content now))
    | none => some ((t.set dst (.file content now)).touch dst.dropLast now)

/-- `rm -rf dst` and `cp -RP src/ dst` of a directory, `src/fsutil.c:55-65`.  Copying a directory into itself fails, and so does copying a
directory that was just removed. -/
def cpDir (t : Tree) (src dst : Path) (now : Nat) : Option Tree :=
  if src <+: dst ∨ dst <+: src then none
  else some (Tree.touch (fun p => if dst <+: p then (t (src ++ p.drop dst.length)).map (Node.stamp now) else t p) dst.dropLast now)

/-- `copy`, `src/fsutil.c:33-80`; `src` exists: the tree, and whether it succeeded.  (A destination written with a trailing slash is taken to be
an error if it does not exist; for directories `cp` would make it.) -/
def copyNode (d : Deny) (t : Tree) (cwd : Path) (src : Path) (n : Node) (dst : Bytes) (now : Nat) : Tree × Bool :=
  match t.resolve cwd dst with
  | .error _ => (t, false)
  | .ok dst =>
    match d.copy src dst with
    | some junk => (junk, false)
    | none =>
      match n with
      | .file c _ => match cpFile t c src dst now with | some t => (t, true) | none => (t, false)
      | .dir _ => match cpDir t src dst now with | some t => (t, true) | none => (t, false)

/-- What an installation looks like from outside. -/
structure InstEnv where
  deny : Deny
  cwd : Path
  /-- `abs_out_path` -/
  absOut : Bytes
  pre : Bytes

/-- The result of installing an entry. -/
inductive SingleRes where
  | failed (t : Tree)
  /-- an assertion fails -/
  | abort
  /-- a build product, and products are not being installed -/
  | product
  | already (t : Tree)
  | copied (t : Tree)

/-- `is_cookie`, `src/install.c:95`. -/
def isCookie (absOut path : Bytes) : Bool := absOut.isPrefixOf path

/-- `install_single`, `src/install.c:80-183`. -/
def installSingle (e : InstEnv) (key val : Bytes) (installingCookie : Bool) (now : Nat) (t : Tree) : SingleRes :=
  let key := cstr key
  let val := cstr val
  match t.stat e.cwd key with
  | .error _ => .failed t
  | .ok (src, n) =>
    let cookie := isCookie e.absOut (pathStr src)
    if cookie && !installingCookie then .product
    else if cookie != installingCookie then .abort
    else
      match mkdirs e.deny e.cwd now (destBits val) e.pre t with
      | (t, false) => .failed t
      | (t, true) =>
        match frugalMtime (t.statRes e.cwd) [key] (e.pre ++ b!"/" ++ val) with
        | none => .failed t
        | some false => .already t
        | some true =>
          match copyNode e.deny t e.cwd src n (e.pre ++ b!"/" ++ val) now with
          | (t, true) => .copied t
          | (t, false) => .failed t

/-- The result of installing all entries: with the entries that were copied. -/
inductive AllRes where
  | failed (t : Tree)
  | abort
  | ok (t : Tree) (copied : List (Bytes × Bytes))

/-- `install_all`, `src/install.c:185-202`, with an install map and a prefix.  Each entry comes with the time. -/
def installAll (e : InstEnv) : List ((Bytes × Bytes) × Nat) → Tree → List (Bytes × Bytes) → AllRes
  | [], t, copied => .ok t copied
  | ((key, val), now) :: rest, t, copied =>
    match installSingle e key val false now t with
    | .failed t => .failed t
    | .abort => .abort
    | .product => installAll e rest t copied
    | .already t => installAll e rest t copied
    | .copied t => installAll e rest t (copied ++ [(key, val)])

/-! ## The install map -/

/-- A value of a build script, as far as `install` and `run` are concerned.  In vectors and maps, `none` stands for anything that is not a
string. -/
inductive ScriptVal where
  | none
  | vec (elems : List (Option Bytes))
  | map (entries : List (Option Bytes × Option Bytes))
  | other
deriving DecidableEq, Repr

/-- The statics of `src/install.c:16-17`. -/
structure InstGlobals where
  map : Option (List (Bytes × Bytes))
  pre : Option Bytes
deriving DecidableEq, Repr

def InstGlobals.init : InstGlobals := { map := none, pre := none }

/-- The loop at `src/install.c:59-72`. -/
def checkEntries : List (Option Bytes × Option Bytes) → Option (List (Bytes × Bytes))
  | [] => some []
  | (some k, some v) :: rest => (checkEntries rest).map ((k, v) :: ·)
  | _ :: _ => none

/-- `setup_install_map`, `src/install.c:19-78`, with the variables of the outermost scope.  The flag is true if it succeeded. -/
def setupInstallMap (vars : List (Bytes × ScriptVal)) (pre : Option Bytes) (g : InstGlobals) : InstGlobals × Bool :=
  let g := { g with map := none }
  match vars.find? (fun v => v.1 == b!"install") with
  | none => (g, false)
  | some (_, .none) => (g, true)
  | some (_, .map []) => (g, true)
  | some (_, .map entries) =>
    match checkEntries entries with
    | none => (g, false)
    | some l => ({ map := some l, pre := pre }, true)
  | some _ => (g, false)

/-- `install_all` with the globals, `src/install.c:185-188`. -/
def installAllG (e : Bytes → InstEnv) (times : Nat → Nat) (g : InstGlobals) (t : Tree) : AllRes :=
  match g.map, g.pre with
  | some l, some pre => installAll (e pre) (l.zipIdx.map fun x => (x.1, times x.2)) t []
  | _, _ => .ok t []

/-! ## Ownership -/

/-- What `set_owner` knows. -/
structure OwnEnv where
  root : Bool
  owner : Nat
  absOut : Option Bytes
  realpath : Bytes → Option Bytes

/-- `set_owner`, `src/fsutil.c:85-125`: the calls of `chown`. -/
def setOwner (e : OwnEnv) (path : Bytes) : List (Bytes × Nat) :=
  if !e.root then []
  else match e.absOut with
    | none => [(path, e.owner)]
    | some out =>
      match e.realpath path with
      | none => []
      | some full => if isCookie out full then [(path, e.owner)] else []

end Bob
