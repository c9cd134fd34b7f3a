import Verif.Model.Cmd
/-!
# Commands run by several workers at once: the pipes of `src/cmd.c` under `src/pool.c`

Each worker runs one command after another, as the tasks of `src/class/cc.c:110-160` do: it makes a pipe, starts the child, closes its own copy of the end that is
written to, waits for the child, and reads until the end of the file.  `pipe` is called without `O_CLOEXEC` (`src/cmd.c:163`) and
the list of actions for the child only closes the end that is read of its own pipe (`src/cmd.c:182`), so a child keeps open what other workers have open when it is started.
What is read at the end of a pipe is the end of the file only when nobody has the other end open.
-/

namespace Bob

/-- A command. -/
structure PJob where
  /-- how many bytes it prints -/
  bytes : Nat
  /-- the lock taken and given back for a message before it: `src/class/cc.c:116-118` before `get_include_deps`, none before the compiler -/
  gate : Option Nat
  /-- the lock held while its output is read: none for `get_include_deps`, `src/class/cc.c:68`, the one of the request for `cmd_log`, `src/class/cc.c:143-145` -/
  lock : Option Nat
deriving DecidableEq, Repr

/-- Where a worker is with its command. -/
inductive RunPh where
  /-- after `pipe`, `src/cmd.c:163` -/
  | opened
  /-- after `posix_spawnp`, `src/cmd.c:191` -/
  | started
  /-- after `close(cmd->in)`, `src/cmd.c:202`: in `waitpid`, `src/cmd.c:213` -/
  | waiting
  /-- after `waitpid`: about to take the lock, if there is one -/
  | reaped
  /-- in the loop at `src/cmd.c:258` -/
  | reading
deriving DecidableEq, Repr

/-- A command being run. -/
structure Run where
  job : PJob
  ph : RunPh
  /-- the child, if it runs: how many bytes it still has to write -/
  child : Option Nat
  /-- bytes in the pipe -/
  fill : Nat
  /-- bytes read -/
  got : Nat
  /-- the workers whose pipes the child has open for writing -/
  holds : List Nat
deriving DecidableEq, Repr

/-- A worker. -/
structure Hand where
  todo : List PJob
  cur : Option Run
  /-- how many bytes were read from the commands it has run -/
  done : List Nat

structure Crew where
  hand : Nat → Hand
  /-- who has a lock -/
  owner : Nat → Option Nat

def Crew.init (jobs : Nat → List PJob) : Crew :=
  { hand := fun w => { todo := jobs w, cur := none, done := [] }, owner := fun _ => none }

def Crew.put (c : Crew) (w : Nat) (h : Hand) : Crew := { c with hand := fun v => if v = w then h else c.hand v }

def Crew.run (c : Crew) (w : Nat) (r : Run) : Crew := c.put w { c.hand w with cur := some r }

/-- Whether bob has the end of this worker's pipe that is written to open. -/
def Crew.isOpen (c : Crew) (w : Nat) : Bool :=
  match (c.hand w).cur with
  | some r => r.ph == .opened || r.ph == .started
  | none => false

/-- Whether the child of worker `v`, if it runs, has the pipe of worker `w` open. -/
def Crew.keeps (c : Crew) (v w : Nat) : Bool :=
  match (c.hand v).cur with
  | some r => r.child.isSome && r.holds.contains w
  | none => false

/-- `pthread_mutex_lock` and `pthread_mutex_unlock`. -/
def Crew.setOwner (c : Crew) (l w : Option Nat) : Crew :=
  match l with
  | none => c
  | some l => { c with owner := fun k => if k = l then w else c.owner k }

/-- One action of worker `w` or its child, of `n` workers, with pipes of the given capacity. -/
inductive CrewAct (cap n w : Nat) : Crew → Crew → Prop where
  | pipe {c : Crew} {j : PJob} {js : List PJob} (h : (c.hand w).cur = none) (ht : (c.hand w).todo = j :: js) (hl : ∀ l, j.gate = some l → c.owner l = none) :
      CrewAct cap n w c (c.put w { c.hand w with todo := js, cur := some { job := j, ph := .opened, child := none, fill := 0, got := 0, holds := [] } })
  | spawn {c : Crew} {r : Run} (h : (c.hand w).cur = some r) (hp : r.ph = .opened) :
      CrewAct cap n w c (c.run w { r with ph := .started, child := some r.job.bytes, holds := (List.range n).filter c.isOpen })
  | close {c : Crew} {r : Run} (h : (c.hand w).cur = some r) (hp : r.ph = .started) : CrewAct cap n w c (c.run w { r with ph := .waiting })
  | write {c : Crew} {r : Run} {left : Nat} (k : Nat) (h : (c.hand w).cur = some r) (hc : r.child = some left) (hk : 0 < k) (hl : k ≤ left) (hf : r.fill + k ≤ cap) :
      CrewAct cap n w c (c.run w { r with child := some (left - k), fill := r.fill + k })
  | exit {c : Crew} {r : Run} (h : (c.hand w).cur = some r) (hc : r.child = some 0) : CrewAct cap n w c (c.run w { r with child := none })
  | reap {c : Crew} {r : Run} (h : (c.hand w).cur = some r) (hp : r.ph = .waiting) (hc : r.child = none) : CrewAct cap n w c (c.run w { r with ph := .reaped })
  | lock {c : Crew} {r : Run} (h : (c.hand w).cur = some r) (hp : r.ph = .reaped) (hl : ∀ l, r.job.lock = some l → c.owner l = none) :
      CrewAct cap n w c ((c.run w { r with ph := .reading }).setOwner r.job.lock (some w))
  | read {c : Crew} {r : Run} (k : Nat) (h : (c.hand w).cur = some r) (hp : r.ph = .reading) (hk : 0 < k) (hf : k ≤ r.fill) :
      CrewAct cap n w c (c.run w { r with fill := r.fill - k, got := r.got + k })
  | eof {c : Crew} {r : Run} (h : (c.hand w).cur = some r) (hp : r.ph = .reading) (hf : r.fill = 0) (hk : ∀ v, v < n → c.keeps v w = false) :
      CrewAct cap n w c ((c.put w { c.hand w with cur := none, done := (c.hand w).done ++ [r.got] }).setOwner r.job.lock none)

/-- What the workers can come to. -/
inductive CrewReach (cap n : Nat) (jobs : Nat → List PJob) : Crew → Prop where
  | init : CrewReach cap n jobs (.init jobs)
  | step {a b : Crew} (h : CrewReach cap n jobs a) (w : Nat) (hw : w < n) (hs : CrewAct cap n w a b) : CrewReach cap n jobs b

end Bob
