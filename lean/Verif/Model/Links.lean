import Verif.Model.Install
/-!
# Installing where there are symbolic links: `src/install.c`, `src/fsutil.c`

`Verif.Model.Install` has a file system without symbolic links.  Here it has them: `stat`, `realpath` and `access` follow them, `mkdir` and `rm` do not when they come last in a name,
and `cp -RP` copies a link as a link.
-/

namespace Bob

inductive LNode where
  | dir (mtime : Nat)
  | file (content : Bytes) (mtime : Nat)
  | link (target : Bytes) (mtime : Nat)
deriving DecidableEq, Repr

abbrev LTree := Path → Option LNode

def LNode.isDir : LNode → Bool
  | .dir _ => true
  | _ => false

def LNode.mtime : LNode → Nat
  | .dir m | .file _ m | .link _ m => m

/-- The same, modified at the given time. -/
def LNode.stamp (now : Nat) : LNode → LNode
  | .dir _ => .dir now
  | .file c _ => .file c now
  | .link l _ => .link l now

inductive LErr where
  | noent | notdir | loop
deriving DecidableEq, Repr

namespace LTree

/-- Where the target of a link in a directory is looked for. -/
def start (dir : Path) (target : Bytes) : Path := if target.head? = some SLASH then [] else dir

/-- Following the names of a path from a directory, up to the next link, with which `k` goes on.  `follow`: a link at the end is followed as well. -/
def walkTo (t : LTree) (follow : Bool) (k : Path → List Bytes → Except LErr Path) : Path → List Bytes → Except LErr Path
  | cur, [] => .ok cur
  | cur, c :: cs =>
    match t cur with
    | none => .error .noent
    | some (.dir _) =>
      if c = [] ∨ c = b!"." then walkTo t follow k cur cs
      else if c = b!".." then walkTo t follow k cur.dropLast cs
      else match t (cur ++ [c]) with
        | some (.link target _) => if cs = [] ∧ follow = false then .ok (cur ++ [c]) else k (start cur target) (strsepAll SLASH target ++ cs)
        | _ => walkTo t follow k (cur ++ [c]) cs
    | some _ => .error .notdir

/-- The same with at most so many links. -/
def walk (t : LTree) (follow : Bool) : Nat → Path → List Bytes → Except LErr Path
  | 0 => walkTo t follow fun _ _ => .error .loop
  | n + 1 => walkTo t follow (walk t follow n)

/-- Where a path leads from the working directory, or from the root; Linux follows 40 links. -/
def resolve (t : LTree) (follow : Bool) (cwd : Path) (s : Bytes) : Except LErr Path :=
  match s with
  | [] => .error .noent
  | c :: _ => t.walk follow 40 (if c = SLASH then [] else cwd) (strsepAll SLASH s)

/-- `stat` with `follow`, otherwise `lstat`. -/
def stat (t : LTree) (follow : Bool) (cwd : Path) (s : Bytes) : Except LErr (Path × LNode) :=
  match t.resolve follow cwd s with
  | .error e => .error e
  | .ok p => match t p with
    | none => .error .noent
    | some n => .ok (p, n)

/-- What `frugal_mtime` sees of `stat`. -/
def statRes (t : LTree) (cwd : Path) (s : Bytes) : StatRes :=
  match t.stat true cwd s with
  | .error .noent => .enoent
  | .error _ => .err
  | .ok (_, n) => .ok n.mtime

def set (t : LTree) (p : Path) (n : LNode) : LTree := fun q => if q = p then some n else t q

/-- Making or removing an entry of a directory changes the directory's time. -/
def touch (t : LTree) (p : Path) (now : Nat) : LTree := fun q =>
  if q = p then (t q).map fun n => match n with | .dir _ => .dir now | n => n else t q

end LTree

/-- What the system may refuse. -/
structure LDeny where
  mkdir : Path → Bool
  /-- `some`: copying between these paths fails, leaving this tree -/
  copy : Path → Path → Option LTree

/-- `mkdir_wrapped`, `src/fsutil.c:127-140`; a file, directory or link of that name is no error. -/
def LTree.mkdir (t : LTree) (d : LDeny) (cwd : Path) (now : Nat) (s : Bytes) : Option LTree :=
  match t.resolve false cwd s with
  | .error _ => none
  | .ok p => match t p with
    | some _ => some t
    | none => if d.mkdir p then none else some ((t.set p (.dir now)).touch p.dropLast now)

/-- The loop at `src/install.c:113-130`: the tree, and whether it succeeded. -/
def lmkdirs (d : LDeny) (cwd : Path) (now : Nat) : List Bytes → Bytes → LTree → LTree × Bool
  | [], _, t => (t, true)
  | bit :: bits, accum, t =>
    match t.mkdir d cwd now (accum ++ b!"/" ++ bit) with
    | none => (t, false)
    | some t => lmkdirs d cwd now bits (accum ++ b!"/" ++ bit) t

/-- `cp -RP` of a file to a path: a link there is written through if it leads to a file, at `through` (if it leads nowhere, GNU `cp` refuses).  `own` is the file that is
copied.  `none`: it fails. -/
def lcpFile (t : LTree) (content : Bytes) (own p : Path) (through : Except LErr Path) (now : Nat) : Option LTree :=
  match t p with
  | none => some ((t.set p (.file content now)).touch p.dropLast now)
  | some (.dir _) => none
  | some (.file _ _) => if p = own then none else some (t.set p (.file content now))
  | some (.link _ _) =>
    match through with
    | .error _ => none
    | .ok q => match t q with
      | some (.file _ _) => if q = own then none else some (t.set q (.file content now))
      | _ => none

/-- `cp -RP` of a link to a path: the link is made there, in place of a file or link.  `own` is where the link is that is copied. -/
def lcpLink (t : LTree) (target : Bytes) (own p : Path) (now : Nat) : Option LTree :=
  match t p with
  | some (.dir _) => none
  | _ => if p = own then none else some ((t.set p (.link target now)).touch p.dropLast now)

/-- `rm -rf dst` and `cp -RP src/ dst` of a directory, `src/fsutil.c:55-65`, as `cpDir`.  Links in it are copied as links. -/
def lcpDir (t : LTree) (src dst : Path) (now : Nat) : Option LTree :=
  if src <+: dst ∨ dst <+: src then none
  else some (LTree.touch (fun p => if dst <+: p then (t (src ++ p.drop dst.length)).map (LNode.stamp now) else t p) dst.dropLast now)

/-- Where `cp` writes to, and where that leads: if the destination, at `p`, is a directory, or a link to one, then it is the name in it. -/
def cpPlace (t : LTree) (cwd : Path) (own : Path) (dst : Bytes) (p : Path) : Path × Except LErr Path :=
  match t.stat true cwd dst with
  | .ok (q, .dir _) => (q ++ [own.getLastD []], t.walk true 40 q [own.getLastD []])
  | _ => (p, t.resolve true cwd dst)

/-- What `copy` runs, `src/fsutil.c:44-65`: the source leads to `n` at `real` and is itself `l` at `own`; the destination is at `p`.  That the source is a directory is asked
with `stat`, which follows links.  `none`: it fails. -/
def lcp (t : LTree) (cwd real : Path) (n : LNode) (own : Path) (l : LNode) (dst : Bytes) (p : Path) (now : Nat) : Option LTree :=
  match n, l with
  | .dir _, _ => lcpDir t real p now
  | _, .link target _ => lcpLink t target own (cpPlace t cwd own dst p).1 now
  | .file c _, _ => lcpFile t c own (cpPlace t cwd own dst p).1 (cpPlace t cwd own dst p).2 now
  | .link _ _, _ => none

/-- `copy`, `src/fsutil.c:33-80`: the tree, and whether it succeeded.  (As in `copyNode`, a destination written with a trailing slash is an error if it does not exist; here it
is also taken for the directory if it is a link to one, where `rm` would fail.) -/
def lcopy (d : LDeny) (t : LTree) (cwd : Path) (src dst : Bytes) (now : Nat) : LTree × Bool :=
  match t.stat true cwd src, t.stat false cwd src, t.resolve false cwd dst with
  | .ok (real, n), .ok (own, l), .ok p =>
    match d.copy real p with
    | some junk => (junk, false)
    | none =>
      match lcp t cwd real n own l dst p now with
      | some t => (t, true)
      | none => (t, false)
  | _, _, _ => (t, false)

/-- What an installation looks like from outside. -/
structure LInstEnv where
  deny : LDeny
  cwd : Path
  /-- `abs_out_path` -/
  absOut : Bytes
  pre : Bytes

/-- The result of installing an entry, as `SingleRes`. -/
inductive LSingleRes where
  | failed (t : LTree)
  | abort
  | product
  | already (t : LTree)
  | copied (t : LTree)

/-- `install_single`, `src/install.c:80-183`. -/
def linstallSingle (e : LInstEnv) (key val : Bytes) (installingCookie : Bool) (now : Nat) (t : LTree) : LSingleRes :=
  let key := cstr key
  let val := cstr val
  match t.stat true e.cwd key with
  | .error _ => .failed t
  | .ok (src, _) =>
    let cookie := isCookie e.absOut (pathStr src)
    if cookie && !installingCookie then .product
    else if cookie != installingCookie then .abort
    else
      match lmkdirs e.deny e.cwd now (destBits val) e.pre t with
      | (t, false) => .failed t
      | (t, true) =>
        match frugalMtime (t.statRes e.cwd) [key] (e.pre ++ b!"/" ++ val) with
        | none => .failed t
        | some false => .already t
        | some true =>
          match lcopy e.deny t e.cwd key (e.pre ++ b!"/" ++ val) now with
          | (t, true) => .copied t
          | (t, false) => .failed t

end Bob
