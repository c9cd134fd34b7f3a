import Verif.Spec.FlTexts
import Verif.Model.Cli
/-!
# What `bob run` and `bob sh` become, and the project's tests of them
-/

namespace Bob

/-- A file that can be run. -/
def MainWorld.Program (w : MainWorld) (p : Bytes) : Prop := w.kind p = some false ∧ w.xok p = true

/-- The file a command stands for: the one of that name, or else the one of that name in the first directory of the list that has one. -/
inductive MainWorld.Stands (w : MainWorld) (path name : Bytes) : Bytes → Prop where
  | itself (h : w.Program name) : w.Stands path name name
  | entry {pre post : List Bytes} {d : Bytes} (hn : ¬ w.Program name) (hd : ∀ x ∈ pre ++ d :: post, COLON ∉ x) (hp : path = List.intercalate b!":" (pre ++ d :: post))
      (h : w.Program (d ++ b!"/" ++ name)) (hpre : ∀ x ∈ pre, ¬ w.Program (x ++ b!"/" ++ name)) : w.Stands path name (d ++ b!"/" ++ name)

/-- The last thing bob does is to become that program. -/
def Becomes (w : MainWorld) (args : List Bytes) (file : Bytes) (argv : List Bytes) (env : Env) : Prop :=
  ∃ t, bobMain w args = (t ++ [.exec file argv env], .replaced)

/-- bob fails without becoming another program. -/
def Fails (w : MainWorld) (args : List Bytes) : Prop :=
  (bobMain w args).2 = .exit false ∧ ∀ file argv env, .exec file argv env ∉ (bobMain w args).1

/-- An environment that differs just in what comes first in the two lists of directories. -/
structure Extended (out : Bytes) (env env' : Env) : Prop where
  path : getenv b!"PATH" env' = some (match getenv b!"PATH" env with
    | some p => out ++ b!"/prefix/bin:" ++ p
    | none => out ++ b!"/prefix/bin")
  library : getenv b!"LD_LIBRARY_PATH" env' = some (match getenv b!"LD_LIBRARY_PATH" env with
    | some p => out ++ b!"/prefix/lib:" ++ p
    | none => out ++ b!"/prefix/lib")
  others : ∀ n, n ≠ b!"PATH" → n ≠ b!"LD_LIBRARY_PATH" → getenv n env' = getenv n env

namespace Fl

/-- The build system bob makes of a script: building ends as a build of what the script asks for ends, and installing as installing what it says. -/
def Acts (w : World) (paths : List Bytes) (script : List Stmt) (b : Bsys) : Prop :=
  ∃ depth steps installs, bsysOf (runScript w depth paths script) steps installs = some b ∧
    ∀ st, runScript w depth paths script = .ok () st → ∀ pre g, setupInstallMap st.scriptVars pre .init = (g, true) →
      (∃ tc bad n s s' reqs, st.requests = some reqs ∧ BuildReaches tc ⟨g.pre, g.map.getD [], bad⟩ n reqs s (.finished (steps pre) s')) ∧
      ∀ q, pre = some q → ∃ e times t, installs q = true ↔ ∃ t' l, installAllG e times g t = .ok t' l

/-- bob is started in a directory with a script of that text, which recognises no other build system. -/
structure Started (mw : MainWorld) (w : World) (paths : List Bytes) (text : Bytes) : Prop where
  only : ∀ path p, w.file path = .src p → ReadAs bobText p
  names : ∀ path ps, w.list path = some ps → ∀ p ∈ ps, NUL ∉ p
  outName : NUL ∉ w.outPath
  bob : ∃ p, w.file (importPath w false b!"bob.fl" paths) = .src p
  acts : ∃ p b, ReadAs text p ∧ Acts w paths p b ∧ mw.bsys.find? (·.identify) = some b

/-! ## `tests/run_path_traversal_order.sh` -/

/-- The command line, lines 8, 20 and 28. -/
def orderArgs : List Bytes := [b!"-C", b!"tests/run_path_traversal_order", b!"run"]

/-- The directories of the test, lines 15 and 16: each has a `test_command`, and nothing else there is. -/
structure OrderDirs (mw : MainWorld) (bin1 bin2 : Bytes) : Prop where
  colon1 : COLON ∉ bin1
  colon2 : COLON ∉ bin2
  there1 : mw.Program (bin1 ++ b!"/test_command")
  there2 : mw.Program (bin2 ++ b!"/test_command")
  here : ¬ mw.Program b!"test_command"
  fresh : ¬ mw.Program b!".bob/prefix/bin/test_command"
  runs : ∀ p argv, mw.Program p → mw.execv p argv = true

end Fl

end Bob
