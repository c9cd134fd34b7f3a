import Verif.Spec.RunTests
import Verif.Props.Cli
/-!
# `tests/bob.sh`: bob builds bob
-/

namespace Bob

/-- Processes that are all bob, each becoming the next, in the environment it is given: the last one succeeds.  A process is the system it runs on and its arguments. -/
inductive Succeeds (isBob : Bytes → Prop) : List (MainWorld × List Bytes) → Prop where
  | last {w args} (h : (bobMain w args).2 = .exit true) : Succeeds isBob [(w, args)]
  | next {w args w' name args' file l} (hf : isBob file) (h : Becomes w args file (name :: args') w'.env) (hs : Succeeds isBob ((w', args') :: l)) :
      Succeeds isBob ((w, args) :: (w', args') :: l)

/-- The command line is read like this. -/
def ReadAsOpts (posix : Bool) (args : List Bytes) (o : Opts) (words : List Bytes) : Prop := getoptScan posix none args .init [] = some (o, words)

namespace Fl

/-- bob is started in its own project, with these options.  Its script is that of the project; building and installing into the prefix of the project succeed, and what has been installed
as `bob` is bob. -/
structure OwnProject (isBob : Bytes → Prop) (mw : MainWorld) (o : Opts) : Prop where
  script : ∃ w paths ps, Started mw w paths ownText ∧ w.outPath = o.out ∧ w.list b!"src" = some ps
  checks : ChecksOk mw o
  works : ∀ b, mw.bsys.find? (·.identify) = some b → BuildOk mw o b none ∧ InstallOk mw o b (o.out ++ b!"/prefix") true
  colon : COLON ∉ o.out
  here : ¬ mw.Program b!"bob"
  there : mw.Program (o.out ++ b!"/prefix/bin/bob")
  runs : ∀ p argv, mw.Program p → mw.execv p argv = true
  bob : isBob (o.out ++ b!"/prefix/bin/bob")

/-- A process started later, on the same project, with the environment it is given. -/
structure Later (isBob : Bytes → Prop) (posix : Bool) (sys : Env → MainWorld) (o : Opts) : Prop where
  env : ∀ e, (sys e).env = e
  posix : ∀ e, (sys e).posix = posix
  project : ∀ e, OwnProject isBob (sys e) o

/-- The options that name an output directory. -/
def outOpts (out : Bytes) : Opts := { Opts.init with out := out }

/-- `tests/bob.sh:9`. -/
def selfArgs1 (out : Bytes) : List Bytes := [b!"run", b!"-o", out, b!"build"]

/-- `tests/bob.sh:10`. -/
def selfArgs2 (out out2 : Bytes) : List Bytes := [b!"run", b!"-o", out, b!"run", b!"-o", out2, b!"build"]

end Fl

end Bob
