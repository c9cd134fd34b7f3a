import Verif.Model.Place
/-!
# What the working directory means
-/

namespace Bob

/-- No project directory is given on this command line, as `getopt` reads it. -/
def NoMove (posix : Bool) (args : List Bytes) : Prop := ∀ o rest, getoptScan posix none args .init [] = some (o, rest) → o.project = none

/-- Going to a directory and staying there is the same. -/
def Machine.Stays (m : Machine Dir) (d : Dir) : Prop := m.cd d b!"." = some d

/-- For a process in directory `e`, that name is a file that can be run; `q` is where it is. -/
def RunsAs (t : Tree) (x : Path → Bool) (e : Path) (name : Bytes) (q : Path) : Prop := (∃ c m, t.stat e name = .ok (q, .file c m)) ∧ x q = true

/-- A name in a directory of a list such as `$PATH`, in which the empty name is the working directory (POSIX). -/
def inEntry (dir name : Bytes) : Bytes := if dir = [] then name else dir ++ b!"/" ++ name

/-- What a shell (or any other program that looks for commands, POSIX) in directory `e` finds for a command without slashes: the file in the first directory of the list that has one
which can be run. -/
def Finds (t : Tree) (x : Path → Bool) (e : Path) (list name : Bytes) (q : Path) : Prop :=
  ∃ pre d post, strsepAll COLON list = pre ++ d :: post ∧ RunsAs t x e (inEntry d name) q ∧ ∀ y ∈ pre, ∀ r, ¬ RunsAs t x e (inEntry y name) r

end Bob
