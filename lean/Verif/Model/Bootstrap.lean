import Verif.Model.Fts
import Verif.Model.Build
/-!
# `bootstrap.sh`

The shell script that makes the first bob, where there is none yet.  The part of `find`, of the shell and of `set -e` that it uses are modelled here.

Simplifications: words are not expanded as patterns (`*`, `?`, `[` in names), `$CC` is one word; `rm` and `mkdir` do not fail; the compilers that run beside each other do not read what
is in `.bootstrap`, so each is a function of the files that were there at first (`Toolchain`).
-/

namespace Bob.Boot
open Bob.Fts

/-! ## `find` -/

/-- Which entries of directories are symbolic links (`Disk` has what names stand for, links being followed). -/
abbrev Links := Nat → Bytes → Bool

/-- What `find` looks at: the path, its last part, and whether `lstat` tells a regular file. -/
structure Seen where
  path : Bytes
  name : Bytes
  file : Bool

/-- Expressions of `find`, as far as they are used: `-name "*s"` (`name s`), `-path p`, `-prune`, `-type f`, one after the other (`both`), `-o` (`either`). -/
inductive Expr where
  | name (s : Bytes)
  | path (p : Bytes)
  | prune
  | typeF
  | both (a b : Expr)
  | either (a b : Expr)

/-- Whether the expression is true, and whether `-prune` was met on the way; the second part is looked at just if it matters. -/
def Expr.eval : Expr → Seen → Bool × Bool
  | .name s, e => (s.isSuffixOf e.name, false)
  | .path p, e => (decide (p = e.path), false)
  | .prune, _ => (true, true)
  | .typeF, e => (e.file, false)
  | .both a b, e => if (a.eval e).1 then ((b.eval e).1, (a.eval e).2 || (b.eval e).2) else a.eval e
  | .either a b, e => if (a.eval e).1 then a.eval e else ((b.eval e).1, (a.eval e).2 || (b.eval e).2)

/-- What `find` does about a file: it prints its path, or it complains (and will exit with a failure). -/
inductive Act where
  | print (p : Bytes)
  | fail
deriving DecidableEq, Repr

def shown (r : Bool × Bool) (path : Bytes) : List Act := if r.1 then [.print path] else []

/-- `find` from a path on.  Links are not followed; a directory comes before what is in it. -/
def findWalk (T : Disk) (L : Links) (x : Expr) (anc : List Nat) (path name : Bytes) (link : Bool) (t : Target) : List Act :=
  if link then shown (x.eval ⟨path, name, false⟩) path
  else match t with
    | .broken => [.fail]
    | .unknown => [.fail]
    | .to i =>
      match _h : T.node i with
      | .file => shown (x.eval ⟨path, name, true⟩) path
      | .other => shown (x.eval ⟨path, name, false⟩) path
      | .dir es =>
        if _hi : i ∈ anc then [.fail]
        else if (x.eval ⟨path, name, false⟩).2 then shown (x.eval ⟨path, name, false⟩) path
        else match es with
          | none => shown (x.eval ⟨path, name, false⟩) path ++ [.fail]
          | some es => shown (x.eval ⟨path, name, false⟩) path ++ es.flatMap fun e => findWalk T L x (i :: anc) (joinPath path e.1) e.1 (L i e.1) e.2
termination_by (T.dirs.filter (· ∉ anc)).length
decreasing_by exact filter_shrinks (T.listed i _ _h) _hi

/-- `-name "*.c" -o -path src/flamingo -prune -type f`, `bootstrap.sh:22`. -/
def sourceExpr : Expr := .either (.name b!".c") (.both (.both (.path b!"src/flamingo") .prune) .typeF)

def Act.text : Act → Bytes
  | .print p => p ++ [10]
  | .fail => []

/-! ## The shell -/

/-- Space, tab and line feed: the `IFS` there is at first. -/
def blank (c : UInt8) : Bool := c == 32 || c == 9 || c == 10

/-- Splitting into words; `acc` is what there is of the current one. -/
def words : Bytes → Bytes → List Bytes
  | acc, [] => if acc = [] then [] else [acc]
  | acc, c :: cs => if blank c then (if acc = [] then words [] cs else acc :: words [] cs) else words (acc ++ [c]) cs

/-- `$(…)`: line feeds at the end are removed. -/
def chomp (s : Bytes) : Bytes := (s.reverse.dropWhile (· == 10)).reverse

/-- The words the loop goes through, `bootstrap.sh:22-25`; `none`: `find` failed, and because of `set -e` the script ends there. -/
def sources (T : Disk) (L : Links) (t : Target) : Option (List Bytes) :=
  let acts := findWalk T L sourceExpr [] b!"src" b!"src" false t
  if .fail ∈ acts then none else some (words [] (chomp (acts.flatMap Act.text) ++ b!" src/flamingo/flamingo.c"))

/-! ## Compiling and linking -/

/-- `cc_flags`, `bootstrap.sh:13-20`. -/
def flags : List Bytes := [b!"-std=c11", b!"-g", b!"-O0", b!"-Isrc", b!"-isystem=/usr/local/include", b!"-L/usr/local/lib", b!"-Isrc/flamingo/runtime", b!"-Wall", b!"-Wextra", b!"-Werror",
  b!"-Wno-unused-parameter", b!"-Wno-unused-command-line-argument", b!"-lm", b!"-fsanitize=address", b!"-fno-omit-frame-pointer", b!"-fsanitize=undefined"]

/-- `obj=.bootstrap/$src.o`, `bootstrap.sh:28`. -/
def object (src : Bytes) : Bytes := b!".bootstrap/" ++ src ++ b!".o"

/-- `rm -rf .bootstrap; mkdir -p .bootstrap`, `bootstrap.sh:8-9`. -/
def cleaned (fs : FS) : FS := fun p => if b!".bootstrap/".isPrefixOf p || p == b!".bootstrap" then none else fs p

/-- The loop and `wait`, `bootstrap.sh:25-32`.  `wait` without arguments waits for all and succeeds, whether they did or not. -/
def compiled (tc : Toolchain) (fs : FS) (now : Nat) (srcs : List Bytes) : FS :=
  srcs.foldl (fun f s => match tc.obj fs s flags with
    | some o => f.set (object s) (some ⟨o, now⟩)
    | none => f) fs

/-- `find .bootstrap -name "*.o" -type f`, `bootstrap.sh:36`, in some order. -/
def Objects (fs : FS) (objs : List Bytes) : Prop := objs.Nodup ∧ ∀ p, p ∈ objs ↔ b!".bootstrap/" <+: p ∧ b!".o" <:+ p ∧ (fs p).isSome

/-- What a run of the script can leave, and whether it succeeds, `bootstrap.sh:8-37`; `srcs` are the words the loop goes through. -/
inductive Run (tc : Toolchain) (fs : FS) (now : Nat) (srcs : List Bytes) : FS → Bool → Prop where
  | linked {objs bob} (ho : Objects (compiled tc (cleaned fs) now srcs) objs) (hl : tc.link false (compiled tc (cleaned fs) now srcs) objs flags = some bob) :
      Run tc fs now srcs ((compiled tc (cleaned fs) now srcs).set b!".bootstrap/bob" (some ⟨bob, now⟩)) true
  | failed {objs} (ho : Objects (compiled tc (cleaned fs) now srcs) objs) (hl : tc.link false (compiled tc (cleaned fs) now srcs) objs flags = none) :
      Run tc fs now srcs (compiled tc (cleaned fs) now srcs) false

end Bob.Boot
