import Verif.Model.Base
/-!
# The threads of a pool, access by access: `src/pool.c`

`Verif.Model.Pool` takes every access to the variables of a pool as atomic, and its workers as given.  This module has the main thread too, with the calls of
`pthread_create` and `pthread_join` and the array `businessmen`, and has one transition for each access to a variable that threads share, so that
it can be asked whether two threads are ever about to access the same variable.
-/

namespace Bob.Threads

/-- The calls that the main thread makes between `pool_init` and `pool_free`. -/
inductive Op where
  /-- `pool_add_task` -/
  | add
  /-- `pool_start` -/
  | start
  /-- `pool_wait` -/
  | wait
deriving DecidableEq, Repr

/-- An element of `pool->businessmen`. -/
inductive Slot where
  /-- as it came from `malloc` -/
  | unset
  | zero
  /-- the handle of the thread that was created for it -/
  | thread
deriving DecidableEq, Repr

/-- Where the main thread is. -/
inductive MainPc where
  /-- between two calls -/
  | next
  /-- `pool_add_task`, before `pthread_mutex_lock`, `src/pool.c:86` -/
  | addLock
  /-- `src/pool.c:88-95` -/
  | addWrite
  | addUnlock
  /-- `pool_free`, `src/pool.c:76` -/
  | setError
  /-- the loop of `pool_start`, `src/pool.c:101-103`, and whether it was called by `pool_wait` -/
  | create (i : Nat) (waiting : Bool)
  /-- the loop of `pool_wait`, `src/pool.c:112-121` -/
  | join (i : Nat)
  /-- `src/pool.c:123` -/
  | result
  /-- `src/pool.c:79-83` -/
  | release
  | freed
deriving DecidableEq, Repr

/-- Where a worker is, `src/pool.c:9-54`. -/
inductive WorkPc where
  /-- not created -/
  | unborn
  /-- `while (!pool->error)` -/
  | test
  /-- before `pthread_mutex_lock` -/
  | lock
  /-- the search for a task, `src/pool.c:18-24`, at task `i` -/
  | scan (i : Nat)
  /-- `src/pool.c:36-39` -/
  | mark (i : Nat)
  /-- `src/pool.c:41` -/
  | unlock
  /-- `src/pool.c:28` -/
  | leave
  /-- in the task -/
  | run
  /-- `src/pool.c:51` -/
  | setError
  | done
deriving DecidableEq, Repr

inductive Tid where
  | main
  | worker (w : Nat)
deriving DecidableEq, Repr

structure St where
  /-- the calls that are left -/
  ops : List Op
  mpc : MainPc
  /-- in `pool_free` -/
  freeing : Bool
  /-- `pool->started` -/
  started : Bool
  slots : Nat → Slot
  wpc : Nat → WorkPc
  /-- who has `pool->lock` -/
  lock : Option Tid
  /-- `pool->task_count` -/
  count : Nat
  /-- `pool->tasks[i].started` -/
  taken : Nat → Bool
  /-- `pool->error` -/
  error : Bool
  /-- how often the thread was joined -/
  joins : Nat → Nat

/-- After `pool_init(&pool, n)`, `src/pool.c:58-73`, with the calls that follow. -/
def St.init (ops : List Op) : St :=
  { ops := ops, mpc := .next, freeing := false, started := false, slots := fun _ => .unset, wpc := fun _ => .unborn, lock := none, count := 0,
    taken := fun _ => false, error := false, joins := fun _ => 0 }

/-- What may happen: the number of workers, and whether `pthread_create` and tasks may fail. -/
structure Cfg where
  n : Nat
  createFails : Bool
  taskFails : Bool

/-- An update at one place. -/
def upd {α : Type} (f : Nat → α) (i : Nat) (x : α) : Nat → α := fun j => if j = i then x else f j

/-- One step of a thread. -/
inductive Step (c : Cfg) : St → St → Prop where
  -- the main thread
  | add {s : St} {r : List Op} (h : s.mpc = .next) (ho : s.ops = .add :: r) : Step c s { s with mpc := .addLock, ops := r }
  | addLock {s : St} (h : s.mpc = .addLock) (hl : s.lock = none) : Step c s { s with mpc := .addWrite, lock := some .main }
  | addWrite {s : St} (h : s.mpc = .addWrite) :
      Step c s { s with mpc := .addUnlock, count := s.count + 1, taken := upd s.taken s.count false }
  | addUnlock {s : St} (h : s.mpc = .addUnlock) : Step c s { s with mpc := .next, lock := none }
  | start {s : St} {r : List Op} (h : s.mpc = .next) (ho : s.ops = .start :: r) :
      Step c s { s with mpc := if s.started then .next else .create 0 false, ops := r }
  | wait {s : St} {r : List Op} (h : s.mpc = .next) (ho : s.ops = .wait :: r) :
      Step c s { s with mpc := if s.started then .join 0 else .create 0 true, ops := r }
  | free {s : St} (h : s.mpc = .next) (ho : s.ops = []) : Step c s { s with mpc := .setError, freeing := true }
  | setError {s : St} (h : s.mpc = .setError) :
      Step c s { s with mpc := if s.started then .join 0 else .create 0 true, error := true }
  | create {s : St} {i : Nat} {b : Bool} (h : s.mpc = .create i b) (hi : i < c.n) :
      Step c s { s with mpc := .create (i + 1) b, slots := upd s.slots i .thread, wpc := upd s.wpc i .test }
  /-- the result of `pthread_create` is not looked at -/
  | createFails {s : St} {i : Nat} {b : Bool} (h : s.mpc = .create i b) (hi : i < c.n) (hf : c.createFails = true) :
      Step c s { s with mpc := .create (i + 1) b }
  | created {s : St} {i : Nat} {b : Bool} (h : s.mpc = .create i b) (hi : ¬ i < c.n) :
      Step c s { s with mpc := if b then .join 0 else .next, started := true }
  | joinSkip {s : St} {i : Nat} (h : s.mpc = .join i) (hi : i < c.n) (hz : s.slots i = .zero) : Step c s { s with mpc := .join (i + 1) }
  | join {s : St} {i : Nat} (h : s.mpc = .join i) (hi : i < c.n) (hz : s.slots i = .thread) (hd : s.wpc i = .done) :
      Step c s { s with mpc := .join (i + 1), slots := upd s.slots i .zero, joins := upd s.joins i (s.joins i + 1) }
  | joined {s : St} {i : Nat} (h : s.mpc = .join i) (hi : ¬ i < c.n) : Step c s { s with mpc := .result }
  | result {s : St} (h : s.mpc = .result) : Step c s { s with mpc := if s.freeing then .release else .next }
  | release {s : St} (h : s.mpc = .release) : Step c s { s with mpc := .freed }
  -- workers
  | test {s : St} {w : Nat} (h : s.wpc w = .test) : Step c s { s with wpc := upd s.wpc w (if s.error then .done else .lock) }
  | lock {s : St} {w : Nat} (h : s.wpc w = .lock) (hl : s.lock = none) :
      Step c s { s with wpc := upd s.wpc w (.scan 0), lock := some (.worker w) }
  | scan {s : St} {w i : Nat} (h : s.wpc w = .scan i) :
      Step c s { s with wpc := upd s.wpc w (if i < s.count then if s.taken i then .scan (i + 1) else .mark i else .leave) }
  | mark {s : St} {w i : Nat} (h : s.wpc w = .mark i) : Step c s { s with wpc := upd s.wpc w .unlock, taken := upd s.taken i true }
  | unlock {s : St} {w : Nat} (h : s.wpc w = .unlock) : Step c s { s with wpc := upd s.wpc w .run, lock := none }
  | leave {s : St} {w : Nat} (h : s.wpc w = .leave) : Step c s { s with wpc := upd s.wpc w .done, lock := none }
  | run {s : St} {w : Nat} (h : s.wpc w = .run) : Step c s { s with wpc := upd s.wpc w .test }
  | runFails {s : St} {w : Nat} (h : s.wpc w = .run) (hf : c.taskFails = true) : Step c s { s with wpc := upd s.wpc w .setError }
  | workError {s : St} {w : Nat} (h : s.wpc w = .setError) : Step c s { s with wpc := upd s.wpc w .test, error := true }

/-- The states that can be reached. -/
inductive Reach (c : Cfg) (ops : List Op) : St → Prop where
  | init : Reach c ops (St.init ops)
  | step {s t : St} (h : Reach c ops s) (hs : Step c s t) : Reach c ops t

/-- The main thread is about to give `pthread_join` a handle which was never set. -/
def St.joinsUnset (c : Cfg) (s : St) : Prop := ∃ i, s.mpc = .join i ∧ i < c.n ∧ s.slots i = .unset

/-! ## Accesses -/

/-- The variables that threads share: `pool->error`, and the tasks (`pool->tasks`, what it points to, and `pool->task_count`) taken together. -/
inductive Loc where
  | error
  | tasks
deriving DecidableEq, Repr

/-- What a thread accesses next, and whether it writes. -/
def St.access (s : St) : Tid → Option (Loc × Bool)
  | .main => match s.mpc with
    | .addWrite => some (.tasks, true)
    | .setError => some (.error, true)
    | .result => some (.error, false)
    | .release => some (.tasks, true)
    | _ => none
  | .worker w => match s.wpc w with
    | .test => some (.error, false)
    | .scan _ => some (.tasks, false)
    | .mark _ => some (.tasks, true)
    | .setError => some (.error, true)
    | _ => none

/-- Two threads are about to access the same variable, and at least one of them writes: a data race, which is undefined behaviour (C11 5.1.2.4p25) for variables
that are not atomic, as these. -/
def St.race (s : St) (l : Loc) : Prop := ∃ t u a b, t ≠ u ∧ s.access t = some (l, a) ∧ s.access u = some (l, b) ∧ (a = true ∨ b = true)

end Bob.Threads
