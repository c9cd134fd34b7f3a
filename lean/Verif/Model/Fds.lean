import Verif.Model.Parallel
/-!
# The descriptors of commands: `pipe`, `close` and `read` of `src/cmd.c`

Any number of workers run any commands one after another, with one table of open files.  The calls that open and close descriptors are events; other threads open
and close files of their own in between.
-/

namespace Bob

/-- What a descriptor is. -/
inductive FdObj where
  /-- the end of a pipe that is read -/
  | rd (p : Nat)
  /-- the end that is written to -/
  | wr (p : Nat)
  /-- anything else -/
  | file
deriving DecidableEq, Repr

/-- Calls with a descriptor that is not negative.  Who calls: a worker, or something else in bob. -/
inductive FdEv where
  | opened (who : Option Nat) (fd : Nat)
  | closed (who : Option Nat) (fd : Nat)
  | read (who : Option Nat) (fd : Nat)
deriving DecidableEq, Repr

/-- Where a worker is with its command. -/
inductive FdPc where
  /-- before `cmd_create` or after `cmd_free` -/
  | idle
  /-- after `cmd_create` -/
  | made
  /-- after `src/cmd.c:160-170` -/
  | piped
  /-- `posix_spawnp` has given a negative number: before `src/cmd.c:195` -/
  | refused
  /-- before `src/cmd.c:201` -/
  | spawned
  /-- `cmd_exec_async` has returned -/
  | ended
  /-- between `src/cmd.c:355-357` and `359-361` -/
  | freed
deriving DecidableEq, Repr

/-- `in` and `out` of `cmd_t`, `src/cmd.h:17-18`, of the command a worker runs.  `pipe` is the last pipe it has made; nothing reads it. -/
structure FdHand where
  pc : FdPc
  inp : Int
  out : Int
  pipe : Nat

structure FdSt where
  tab : Nat → Option FdObj
  hand : Nat → FdHand
  /-- number of pipes made -/
  next : Nat
  /-- what has happened, the latest first -/
  tr : List FdEv

def FdSt.put (s : FdSt) (w : Nat) (h : FdHand) : FdSt := { s with hand := fun v => if v = w then h else s.hand v }

/-- Opening a descriptor. -/
def FdSt.open (s : FdSt) (who : Option Nat) (fd : Nat) (o : FdObj) : FdSt :=
  { s with tab := fun k => if k = fd then some o else s.tab k, tr := .opened who fd :: s.tr }

/-- `close(fd)`.  With a negative number or one that is not open it does nothing (`EBADF`). -/
def FdSt.close (s : FdSt) (who : Option Nat) (fd : Int) : FdSt :=
  if fd < 0 then s else { s with tab := fun k => if k = fd.toNat then none else s.tab k, tr := .closed who fd.toNat :: s.tr }

/-- `read(fd, ...)`. -/
def FdSt.read (s : FdSt) (who : Option Nat) (fd : Int) : FdSt := if fd < 0 then s else { s with tr := .read who fd.toNat :: s.tr }

/-- The actions.  `dbg` is `debugging`. -/
inductive FdStep (dbg : Bool) : FdSt → FdSt → Prop where
  /-- other parts of bob, such as `fopen` and `fclose` -/
  | otherOpen {s : FdSt} (fd : Nat) (h : s.tab fd = none) : FdStep dbg s (s.open none fd .file)
  | otherClose {s : FdSt} (fd : Nat) (h : s.tab fd = some .file) : FdStep dbg s (s.close none fd)
  /-- `cmd_create`, `src/cmd.c:47-48` -/
  | create {s : FdSt} (w : Nat) (h : (s.hand w).pc = .idle) : FdStep dbg s (s.put w { s.hand w with pc := .made, inp := -1, out := -1 })
  /-- `src/cmd.c:153-155` and `163-166` -/
  | fail {s : FdSt} (w : Nat) (h : (s.hand w).pc = .made) : FdStep dbg s (s.put w { s.hand w with pc := .ended })
  /-- `src/cmd.c:160-170`; `pipe` gives descriptors that are not used -/
  | pipe {s : FdSt} (w r i : Nat) (h : (s.hand w).pc = .made) (hd : dbg = false) (hr : s.tab r = none) (hi : s.tab i = none) (hn : r ≠ i) :
      FdStep dbg s ((({ s with next := s.next + 1 }.open (some w) r (.rd s.next)).open (some w) i (.wr s.next)).put w { pc := .piped, inp := i, out := r, pipe := s.next })
  /-- `src/cmd.c:160` when debugging -/
  | noPipe {s : FdSt} (w : Nat) (h : (s.hand w).pc = .made) (hd : dbg = true) : FdStep dbg s (s.put w { s.hand w with pc := .piped })
  /-- `posix_spawnp`, `src/cmd.c:191`, giving 0 or a positive number -/
  | spawn {s : FdSt} (w : Nat) (h : (s.hand w).pc = .piped) : FdStep dbg s (s.put w { s.hand w with pc := .spawned })
  /-- or a negative one -/
  | refuse {s : FdSt} (w : Nat) (h : (s.hand w).pc = .piped) : FdStep dbg s (s.put w { s.hand w with pc := .refused })
  /-- `src/cmd.c:195-196` -/
  | closeOut {s : FdSt} (w : Nat) (h : (s.hand w).pc = .refused) :
      FdStep dbg s ((s.close (some w) (s.hand w).out).put w { s.hand w with pc := .spawned, out := -1 })
  /-- `src/cmd.c:201-204` -/
  | closeIn {s : FdSt} (w : Nat) (h : (s.hand w).pc = .spawned) :
      FdStep dbg s (if dbg then s.put w { s.hand w with pc := .ended } else (s.close (some w) (s.hand w).inp).put w { s.hand w with pc := .ended, inp := -1 })
  /-- a call of `read` in `cmd_read_out`, `src/cmd.c:258`; when debugging there is none, `src/cmd.c:247-249` -/
  | read {s : FdSt} (w : Nat) (h : (s.hand w).pc = .ended) (hd : dbg = false) : FdStep dbg s (s.read (some w) (s.hand w).out)
  /-- `cmd_free`, `src/cmd.c:355-357` -/
  | freeIn {s : FdSt} (w : Nat) (h : (s.hand w).pc = .ended) : FdStep dbg s ((s.close (some w) (s.hand w).inp).put w { s.hand w with pc := .freed })
  /-- `src/cmd.c:359-361` -/
  | freeOut {s : FdSt} (w : Nat) (h : (s.hand w).pc = .freed) : FdStep dbg s ((s.close (some w) (s.hand w).out).put w { s.hand w with pc := .idle })

/-- At first nothing is open; what bob is started with is opened by `otherOpen`. -/
def FdSt.init : FdSt where
  tab := fun _ => none
  hand := fun _ => { pc := .idle, inp := 0, out := 0, pipe := 0 }
  next := 0
  tr := []

inductive FdReach (dbg : Bool) : FdSt → Prop where
  | init : FdReach dbg .init
  | step {a b : FdSt} (h : FdReach dbg a) (hs : FdStep dbg a b) : FdReach dbg b

/-! ## The child -/

/-- `posix_spawn_file_actions_addclose`; closing what is not open is no error. -/
def childClose (t : Nat → Option FdObj) (fd : Int) : Nat → Option FdObj := fun k => if (k : Int) = fd then none else t k

/-- `posix_spawn_file_actions_adddup2`; `none`: it fails, and so does `posix_spawnp`. -/
def childDup2 (t : Nat → Option FdObj) (fd : Int) (to : Nat) : Option (Nat → Option FdObj) :=
  if fd < 0 then none else (t fd.toNat).map fun o k => if k = to then some o else t k

/-- The descriptors a child is started with, `src/cmd.c:178-191`: those of bob (nothing is opened with `O_CLOEXEC`), after the actions. -/
def childTab (dbg : Bool) (tab : Nat → Option FdObj) (inp out : Int) : Option (Nat → Option FdObj) :=
  if dbg then some tab
  else do
    let t ← childDup2 (childClose tab out) inp 1
    childDup2 t inp 2

end Bob
