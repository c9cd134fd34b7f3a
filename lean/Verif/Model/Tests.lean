import Verif.Model.Bootstrap
/-!
# `tests.sh`

The script that bootstraps bob, installs it, and runs the tests in `tests`.

Simplifications: those of `bootstrap.sh`; words are not expanded as patterns; `rm` and `mkdir` do not fail, and directories without files are not represented; a file that is there can be
run.  What the installation and a test do is any function of the files.
-/

namespace Bob.Boot
open Bob.Fts

/-- What the script finds: whether `tests/common.sh:8-20` finds a way to become root, what is in `tests` (names in the order of `ls`, and whether each is a directory), whether a name stands for
a directory where the script is run, what `bob install` does, and what each test does. -/
structure Host where
  root : Bool
  entries : FS → List (Bytes × Bool)
  isDir : FS → Bytes → Bool
  install : FS → FS × Bool
  test : FS → Bytes → FS × Bool

/-- `sh bootstrap.sh`, `tests.sh:6`: what it leaves and whether it succeeds.  It ends early if `find` fails, because of `set -e`. -/
inductive Boots (T : Disk) (L : Links) (t : Target) (tc : Toolchain) (fs : FS) (now : Nat) : FS → Bool → Prop where
  | unread : sources T L t = none → Boots T L t tc fs now (cleaned fs) false
  | run {srcs : List Bytes} {fs' : FS} {ok : Bool} : sources T L t = some srcs → Run tc fs now srcs fs' ok → Boots T L t tc fs now fs' ok

/-- `SUDO .bootstrap/bob install`, `tests.sh:9`.  Where there is no such file the shell complains, and the script goes on, as there is no `set -e`. -/
def installed (h : Host) (fs : FS) : FS := if (fs b!".bootstrap/bob").isSome then (h.install fs).1 else fs

/-- `ls -p tests`, `tests.sh:15`. -/
def lsOut (es : List (Bytes × Bool)) : Bytes := es.flatMap fun e => e.1 ++ (if e.2 then [SLASH] else []) ++ [10]

/-- Lines of a text; `acc` is what there is of the current one. -/
def linesOf : Bytes → Bytes → List Bytes
  | acc, [] => if acc = [] then [] else [acc]
  | acc, c :: cs => if c = 10 then acc :: linesOf [] cs else linesOf (acc ++ [c]) cs

/-- `grep -v /`, `tests.sh:15`. -/
def grepOut (s : Bytes) : Bytes := ((linesOf [] s).filter fun l => !l.contains SLASH).flatMap (· ++ [10])

/-- What the loop goes through, `tests.sh:15`. -/
def loopWords (es : List (Bytes × Bool)) : List Bytes := words [] (chomp (grepOut (lsOut es)))

/-- `rm -rf .bob $TEST_OUT; mkdir -p $TEST_OUT`, `tests.sh:24-25`, `tests/common.sh:4`. -/
def tidied (fs : FS) : FS := fun p =>
  if b!".bob/".isPrefixOf p || p == b!".bob" || b!".test-out/".isPrefixOf p || p == b!".test-out" then none else fs p

/-- A test that was run: its name, the files there were, and whether it passed. -/
structure Ran where
  name : Bytes
  start : FS
  passed : Bool

/-- The loop, `tests.sh:15-37`. -/
def runTests (h : Host) : List Bytes → FS → List Ran
  | [], _ => []
  | n :: ns, fs =>
    if n = b!"common.sh" then runTests h ns fs
    else if h.isDir fs n then runTests h ns fs
    else ⟨n, tidied fs, (h.test (tidied fs) n).2⟩ :: runTests h ns (h.test (tidied fs) n).1

/-- What becomes of the script: the tests that were run, and its exit status. -/
structure Report where
  tests : List Ran
  status : Nat

/-- `tests.sh:9-44`, from the files that bootstrapping leaves. -/
def testsFrom (h : Host) (fs : FS) : Report :=
  let ts := runTests h (loopWords (h.entries (installed h fs))) (installed h fs)
  ⟨ts, if ts.all (·.passed) then 0 else 1⟩

/-- The script, `tests.sh`.  Nothing looks at the status of `bootstrap.sh`. -/
inductive TestsSh (h : Host) (T : Disk) (L : Links) (t : Target) (tc : Toolchain) (fs : FS) (now : Nat) : Report → Prop where
  | noRoot : h.root = false → TestsSh h T L t tc fs now ⟨[], 1⟩
  | run {fs' : FS} {ok : Bool} : h.root = true → Boots T L t tc fs now fs' ok → TestsSh h T L t tc fs now (testsFrom h fs')

end Bob.Boot
