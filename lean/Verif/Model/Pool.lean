/-!
# The worker pool: `src/pool.c`

Workers ("businessmen") and the main thread interleave; one transition is one action of one thread on the
shared state.  Shared variables are read and written atomically and in program order: `pool->error` is a plain
`bool` in C, whose concurrent access is a data race which the model does not treat as undefined behaviour.
-/

namespace Bob

/-- One atomic action of a task on the shared store `S`.  It gets the task's failure flag (`stop` in
`compile_task`) and returns the new one. -/
abbrev TaskOp (S : Type) := Bool → S → S × Bool

/-- Program counter of `businessman`, `src/pool.c:9-55`. -/
inductive PC where
  /-- line 12: about to test `pool->error` -/
  | top
  /-- line 15: about to take the lock -/
  | lock
  /-- lines 16-24: about to look for a task which was not started -/
  | scan
  /-- line 36: found task `i`, about to mark it -/
  | mark (i : Nat)
  /-- line 41: about to release the lock, and to run task `i` -/
  | unlockRun (i : Nat)
  /-- line 28: about to release the lock, and to leave -/
  | unlockNone
  /-- line 43: running task `i`; `k` actions were done, the failure flag is `failed` -/
  | run (i k : Nat) (failed : Bool)
  /-- line 51: about to set `pool->error` -/
  | setErr
  /-- line 54: the thread ended -/
  | done
deriving Repr, DecidableEq

/-- What an observer of the pool sees. -/
inductive PoolEvent where
  | start (w i : Nat)
  /-- action number `k` of task `i` was done -/
  | act (w i k : Nat)
  | finish (w i : Nat) (failed : Bool)
  | error (w : Nat)
deriving Repr, DecidableEq

/-- `pool_t`, the program counters of its threads, the shared store, and the history of events (oldest first),
which is not part of the C program's state. -/
structure Pool (S : Type) where
  /-- `tasks[i].started`; its length is `task_count` -/
  started : List Bool
  error : Bool
  /-- who holds `lock` -/
  owner : Option Nat
  pc : Nat → PC
  store : S
  hist : List PoolEvent

variable {S : Type}

def Pool.setPc (st : Pool S) (w : Nat) (p : PC) : Pool S :=
  { st with pc := fun v => if v = w then p else st.pc v }

/-- `pool_init` and `count` calls of `pool_add_task`, `src/pool.c:57-72, 85-98`. -/
def Pool.init (count : Nat) (s : S) : Pool S :=
  { started := List.replicate count false, error := false, owner := none, pc := fun _ => .top, store := s, hist := [] }

/-- `pool_free` on a pool which was not started: sets `error` before the workers are created,
`src/pool.c:74-76`. -/
def Pool.initCancelled (count : Nat) (s : S) : Pool S := { Pool.init count s with error := true }

/-- One action of worker `w`, `src/pool.c:9-55`; `none` if it ended or waits for the lock.  `prog i` lists the
actions of task `i`. -/
def workStep (prog : Nat → List (TaskOp S)) (st : Pool S) (w : Nat) : Option (Pool S) :=
  match st.pc w with
  | .top => some (st.setPc w (if st.error then .done else .lock))
  | .lock => if st.owner = none then some { st.setPc w .scan with owner := some w } else none
  | .scan =>
    match st.started.findIdx? (· == false) with
    | none => some (st.setPc w .unlockNone)
    | some i => some (st.setPc w (.mark i))
  | .mark i =>
    some { st.setPc w (.unlockRun i) with started := st.started.set i true, hist := st.hist ++ [.start w i] }
  | .unlockRun i => some { st.setPc w (.run i 0 false) with owner := none }
  | .unlockNone => some { st.setPc w .done with owner := none }
  | .run i k failed =>
    match (prog i)[k]? with
    | some op =>
      some { st.setPc w (.run i (k + 1) (op failed st.store).2) with
        store := (op failed st.store).1, hist := st.hist ++ [.act w i k] }
    | none =>
      some { st.setPc w (if failed then .setErr else .top) with hist := st.hist ++ [.finish w i failed] }
  | .setErr => some { st.setPc w .top with error := true, hist := st.hist ++ [.error w] }
  | .done => none

/-- One transition of a pool with `n` workers: an action of a worker, or a change of the store from outside
(`env`). -/
inductive PoolStep (prog : Nat → List (TaskOp S)) (n : Nat) (env : S → S → Prop) : Pool S → Pool S → Prop where
  | work {st st'} (w : Nat) (hw : w < n) (h : workStep prog st w = some st') : PoolStep prog n env st st'
  | env {st} (s' : S) (h : env st.store s') : PoolStep prog n env st { st with store := s' }

/-- The same with `pool_add_task` called by the main thread after the workers were created,
`src/pool.c:85-98`. -/
inductive PoolStepAdd (prog : Nat → List (TaskOp S)) (n : Nat) (env : S → S → Prop) : Pool S → Pool S → Prop where
  | step {st st'} (h : PoolStep prog n env st st') : PoolStepAdd prog n env st st'
  | add {st} (h : st.owner = none) : PoolStepAdd prog n env st { st with started := st.started ++ [false] }

/-- Finite executions. -/
inductive Steps {α : Type} (R : α → α → Prop) : α → α → Prop where
  | refl (a) : Steps R a a
  | tail {a b c} (h : Steps R a b) (r : R b c) : Steps R a c

/-- All threads were joined, `src/pool.c:116-125`. -/
def Pool.Joined (n : Nat) (st : Pool S) : Prop := ∀ w, w < n → st.pc w = .done

/-- Return value of `pool_wait`, `src/pool.c:127`: true stands for 0. -/
def Pool.waitOk (st : Pool S) : Bool := !st.error

/-- `set_max_jobs`, `src/ncpu.c:11-19`. -/
def setMaxJobs (n : Nat) : Option Nat := if n = 0 ∨ n > 1024 then none else some n

/-- `ncpu`, `src/ncpu.c:21-34`; `online` is the result of `sysconf`. -/
def ncpu (maxJobs : Nat) (online : Int) : Nat :=
  if maxJobs > 0 then maxJobs else if online < 0 then 1 else online.toNat

end Bob
