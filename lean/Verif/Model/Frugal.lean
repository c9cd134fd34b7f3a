import Verif.Model.Base
/-!
# Frugality checks: `src/frugal.c`, and the dependency files of `src/class/cc.c`
-/

namespace Bob

/-- Outcome of `stat(2)`: a modification time in seconds (`st_mtime`), `ENOENT`, or another error. -/
inductive StatRes where
  | ok (mtime : Nat)
  | enoent
  | err
deriving Repr, DecidableEq

/-- The loop of `frugal_mtime` over the dependencies, `src/frugal.c:111-131`. `t` is the target's time.
`none` is the return value -1; `some b` is return value 0 with `*do_work = b`. -/
def mtimeLoop (stat : Bytes → StatRes) (t : Nat) : List Bytes → Option Bool
  | [] => some false
  | d :: ds =>
    match stat d with
    | .ok m => if m > t then some true else mtimeLoop stat t ds
    | _ => none

/-- `frugal_mtime`, `src/frugal.c:89-132`. -/
def frugalMtime (stat : Bytes → StatRes) (deps : List Bytes) (target : Bytes) : Option Bool :=
  match stat target with
  | .enoent => some true
  | .err => none
  | .ok t => mtimeLoop stat t deps

/-- The C string assembled by `frugal_flags`, `src/frugal.c:23-38`.  A flag containing a NUL byte ends the
string after its line: the next flag is written behind the terminator. -/
def flagText : List Bytes → Bytes
  | [] => []
  | f :: fs => if NUL ∈ f then cstr f ++ [NL] else f ++ [NL] ++ flagText fs

/-- `frugal_flags`, `src/frugal.c:15-87`.  `prev` is the content of `<out>.flags` if it can be opened for
reading, `writable` says whether it can be opened for writing.  Returns whether work is needed, and the
content afterwards. -/
def frugalFlags (prev : Option Bytes) (writable : Bool) (flags : List Bytes) : Bool × Option Bytes :=
  match prev with
  | some p =>
    if cstr p = flagText flags then (false, prev)
    else (true, if writable then some (flagText flags) else prev)
  | none => (true, if writable then some (flagText flags) else none)

/-! ## Dependency files -/

/-- The make rule printed by the compiler for `-MM -MT ""` (not part of bob): an empty target and a colon, then the
prerequisites, each preceded by a blank or (`true`) by a continuation line break. -/
def ruleText (items : List (Bool × Bytes)) : Bytes :=
  b!":" ++ (items.flatMap fun it => (if it.1 then b!" \\\n " else b!" ") ++ it.2) ++ b!"\n"

/-- A file name that survives the syntax of make rules and bob's parser. -/
def CleanName (n : Bytes) : Prop :=
  n ≠ [] ∧ SP ∉ n ∧ NL ∉ n ∧ NUL ∉ n ∧ n.head? ≠ some COLON ∧ n.head? ≠ some BACKSLASH

instance (n : Bytes) : Decidable (CleanName n) := by unfold CleanName; infer_instance

/-- Stripping of one trailing newline, `src/class/cc.c:97-101`. -/
def stripNl (t : Bytes) : Bytes := if t.getLast? = some NL then t.dropLast else t

/-- The tokens skipped by `get_include_deps`, `src/class/cc.c:93`. -/
def skipToken (t : Bytes) : Bool :=
  match t with
  | [] => true
  | c :: _ => c = COLON || c = BACKSLASH

/-- Text written to `<out>.deps` by `get_include_deps` for compiler output `raw`, `src/class/cc.c:89-104`. -/
def depsText (raw : Bytes) : Bytes :=
  ((strsepAll SP (cstr raw)).filter fun t => !skipToken t).flatMap fun t => stripNl t ++ [NL]

/-- Dependencies read from `<out>.deps` by `validate_requirements`, `src/class/cc.c:197-220`. -/
def readDeps (text : Bytes) : List Bytes :=
  (strsepAll NL (cstr text)).filter fun t => !t.isEmpty

/-- What a later build knows about the dependencies of a compilation whose `-MM` output was `raw`. -/
def recordedDeps (raw : Bytes) : List Bytes := readDeps (depsText raw)

end Bob
