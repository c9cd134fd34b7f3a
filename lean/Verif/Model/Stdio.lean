import Verif.Model.Logging
/-!
# How what bob prints gets out: the buffers of the two streams

`printf` and `fprintf` put bytes into the buffer of a stream, and the C library decides when they are transmitted.  bob never calls `setvbuf`, and
`fflush` only in the progress bar, which it does not use.  One call transmits and keeps its bytes in one action, as streams are locked.
-/

namespace Bob

/-- C11 7.21.3p3: a stream is fully buffered, line buffered or unbuffered.  Standard error is not fully buffered, and on POSIX systems unbuffered; standard output is
line buffered if it is a terminal and fully buffered otherwise. -/
inductive Buffering where
  | full
  | line
  | none
deriving DecidableEq, Repr

structure StdioCfg where
  mode : Stream → Buffering
  /-- size of a buffer -/
  cap : Nat

/-- What has been transmitted, both streams in the order of time, and what is in the buffers. -/
structure Stdio where
  dev : List (Stream × UInt8)
  buf : Stream → Bytes

def Stdio.init : Stdio := { dev := [], buf := fun _ => [] }

/-- Whether of the bytes in the buffer `sent` are transmitted and `kept` stay. -/
def Buffering.Allows (cap : Nat) (sent kept : Bytes) : Buffering → Prop
  /- not before the buffer is full -/
  | .full => (sent ++ kept).length < cap → sent = []
  /- all complete lines, and no others unless the buffer is full -/
  | .line => NL ∉ kept ∧ ((sent ++ kept).length < cap → sent = [] ∨ sent.getLast? = some NL)
  | .none => kept = []

/-- One call of `printf` or `fprintf`. -/
inductive Puts (c : StdioCfg) (x : Stream) (bs : Bytes) : Stdio → Stdio → Prop where
  | mk {st : Stdio} (sent kept : Bytes) (h : st.buf x ++ bs = sent ++ kept) (ha : (c.mode x).Allows c.cap sent kept) :
      Puts c x bs st { dev := st.dev ++ sent.map (x, ·), buf := fun y => if y = x then kept else st.buf y }

/-- A sequence of calls. -/
inductive PutsAll (c : StdioCfg) : List (Stream × Bytes) → Stdio → Stdio → Prop where
  | nil {st : Stdio} : PutsAll c [] st st
  | cons {x : Stream} {bs : Bytes} {ps : List (Stream × Bytes)} {a b d : Stdio} (h : Puts c x bs a b) (t : PutsAll c ps b d) : PutsAll c ((x, bs) :: ps) a d

/-- How bob ends. -/
inductive Ending where
  /-- `exit`, or returning from `main`: the buffers are transmitted, C11 7.22.4.4p4 -/
  | exit
  /-- `_exit` (`src/cmd.c:112`), `execv` (`src/cmd.c:145`), a failed assertion or a signal: they are not -/
  | gone
deriving DecidableEq, Repr

def Ending.finish : Ending → Stdio → Stdio
  | .exit, st => { dev := st.dev ++ (st.buf .out).map (.out, ·) ++ (st.buf .err).map (.err, ·), buf := fun _ => [] }
  | .gone, st => { dev := st.dev, buf := fun _ => [] }

/-- The calls made for one thing that bob prints: `src/logging.c:78,82` and `src/cmd.c:304`, `src/logging.c:161`. -/
def Said.calls (colour debugging : Bool) (strsignal : Nat → Bytes) : Said → List (Stream × Bytes)
  | .plain l text => [(l.stream, vlog colour l text)]
  | .marked l before after => [(l.stream, vlog colour l (Bob.marked before after))]
  | .ran res pre infinitive past chunks =>
    let out := cmdReadOut debugging chunks res.sig strsignal
    let s := suffix (cstr out ≠ [])
    [if res.rv < 0 then (Level.error.stream, vlog colour .error (prefixed pre (b!"Failed to " ++ infinitive ++ s)))
      else (Level.success.stream, vlog colour .success (prefixed pre (b!"Successfully " ++ past ++ s))), (.out, cstr out)]
  | .already log pre past =>
    (Level.success.stream, vlog colour .success (prefixed pre (b!"Already " ++ past ++ suffix log.isSome))) ::
      (match log with
      | some l => [(.out, cstr l)]
      | none => [])

end Bob
