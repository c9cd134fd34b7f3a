import Verif.Model.Logging
/-!
# What compile tasks print at the same time: `logging_lock` of `src/class/cc.c`

Each worker of a pool runs some of the tasks of a step, one after another; how the tasks are spread over the workers is arbitrary.  Each request (`build_step_state_t`, `src/class/cc.c:30-36`)
has a lock of its own, made in `prep_compile` (`src/class/cc.c:341`), and a step has the tasks of several requests if they were merged.  Printing one message or one output is atomic (each is one call of `fprintf`
or `printf`).
-/

namespace Bob

/-- What a message of a compile task is. -/
inductive LogPart where
  /-- `Compiling...`, `src/class/cc.c:117` -/
  | begins
  /-- the report of `cmd_log`, `src/cmd.c:295-301` -/
  | report
  /-- the output below it, `src/cmd.c:305` -/
  | output
  /-- that the log cannot be written, `src/cmd.c:322` -/
  | noLog
  /-- anything printed without the lock: by `get_include_deps`, `src/class/cc.c:53-108`, by `cmd_exec`, and by `install_cookie`, `src/class/cc.c:147` -/
  | outside
deriving DecidableEq, Repr

/-- A message of a task of a request. -/
structure LogEv where
  req : Nat
  task : Nat
  part : LogPart
  text : Bytes
deriving DecidableEq, Repr

/-- `compile_task`, `src/class/cc.c:110-160`, as far as it prints. -/
structure LogTask where
  req : Nat
  task : Nat
  begins : Bytes
  /-- printed by `get_include_deps` and `cmd_exec` -/
  before : List Bytes
  report : Bytes
  output : Bytes
  noLog : Option Bytes
  /-- printed by `install_cookie` -/
  after : List Bytes
deriving DecidableEq, Repr

/-- What a worker does. -/
inductive LogAct where
  | lock (l : Nat)
  | unlock (l : Nat)
  | say (e : LogEv)
deriving DecidableEq, Repr

def LogTask.say (t : LogTask) (part : LogPart) (text : Bytes) : LogAct := .say { req := t.req, task := t.task, part := part, text := text }

/-- The calls of `compile_task` in order. -/
def LogTask.acts (t : LogTask) : List LogAct :=
  [.lock t.req, t.say .begins t.begins, .unlock t.req] ++ t.before.map (t.say .outside) ++ [.lock t.req, t.say .report t.report, t.say .output t.output]
    ++ (t.noLog.map (t.say .noLog)).toList ++ [.unlock t.req] ++ t.after.map (t.say .outside)

structure LogSt where
  /-- what each worker still has to do -/
  todo : Nat → List LogAct
  /-- who has the lock of a request -/
  owner : Nat → Option Nat
  /-- what was printed, in order -/
  out : List LogEv

def LogSt.init (tasks : Nat → List LogTask) : LogSt where
  todo := fun w => (tasks w).flatMap LogTask.acts
  owner := fun _ => none
  out := []

inductive LogStep : LogSt → LogSt → Prop where
  | lock {s : LogSt} (w : Nat) {l : Nat} {as : List LogAct} (h : s.todo w = .lock l :: as) (hl : s.owner l = none) :
      LogStep s { s with todo := fun v => if v = w then as else s.todo v, owner := fun k => if k = l then some w else s.owner k }
  | unlock {s : LogSt} (w : Nat) {l : Nat} {as : List LogAct} (h : s.todo w = .unlock l :: as) :
      LogStep s { s with todo := fun v => if v = w then as else s.todo v, owner := fun k => if k = l then none else s.owner k }
  | say {s : LogSt} (w : Nat) {e : LogEv} {as : List LogAct} (h : s.todo w = .say e :: as) :
      LogStep s { s with todo := fun v => if v = w then as else s.todo v, out := s.out ++ [e] }

inductive LogReach (tasks : Nat → List LogTask) : LogSt → Prop where
  | init : LogReach tasks (.init tasks)
  | step {a b : LogSt} (h : LogReach tasks a) (hs : LogStep a b) : LogReach tasks b

end Bob
