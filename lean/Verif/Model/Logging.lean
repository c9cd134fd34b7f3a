import Verif.Model.Cli
/-!
# What bob prints: `src/logging.c`, `src/logging.h` and the printing part of `cmd_log` in `src/cmd.c`

Bytes are given in the order in which the program prints them; buffering of the two streams is left out.  The progress bar
(`src/logging.c:87-132`) is never used by the rest of the code and is left out.
-/

namespace Bob

abbrev ESC : UInt8 := 27

/-- `src/logging.h:43-45`. -/
def CLEAR : Bytes := b!"\x1b[0m"
def REGULAR : Bytes := b!"\x1b[0;"
def BOLD : Bytes := b!"\x1b[1;"

inductive Stream where
  | out
  | err
deriving DecidableEq, Repr

/-- The macros `LOG_FATAL` to `LOG_SUCCESS`, `src/logging.h:55-59`. -/
inductive Level where
  | fatal
  | error
  | warn
  | info
  | success
deriving DecidableEq, Repr

def Level.stream : Level → Stream
  | .fatal | .error | .warn => .err
  | .info | .success => .out

/-- The argument `colour` of `vlog`: a picture, `BOLD` or `REGULAR`, and the colour, `src/logging.h:47-59`. -/
def Level.colour : Level → Bytes
  | .fatal => b!"💀 " ++ BOLD ++ b!"35m"
  | .error => b!"🛑 " ++ BOLD ++ b!"31m"
  | .warn => b!"🚸 " ++ REGULAR ++ b!"33m"
  | .info => b!"👷 " ++ REGULAR ++ b!"34m"
  | .success => b!"✅ " ++ REGULAR ++ b!"32m"

/-! ## Are there colours? -/

/-- `strstr(hay, needle) != NULL`. -/
def strstr (needle : Bytes) : Bytes → Bool
  | [] => needle.isEmpty
  | c :: cs => needle.isPrefixOf (c :: cs) || strstr needle cs

/-- `supports_colour`, `src/logging.c:23-56`; `tty` is `isatty`. -/
def supportsColour (env : Env) (tty : Stream → Bool) : Bool :=
  if (getenv b!"CLICOLOR_FORCE" env).isSome then true
  else if !tty .out || !tty .err then false
  else if ((getenv b!"COLORTERM" env).getD []) ≠ [] then true
  else match getenv b!"TERM" env with
    | none => false
    | some term => strstr b!"color" term

/-! ## Messages -/

/-- `vlog`, `src/logging.c:66-85`; `msg` is what `vasprintf` makes. -/
def vlog (colour : Bool) (l : Level) (msg : Bytes) : Bytes :=
  if colour then l.colour ++ cstr msg ++ CLEAR ++ b!"\n" else cstr msg ++ b!"\n"

/-- The text of a message whose format is `"%s" CLEAR …`, with what comes before and after. -/
def marked (before after : Bytes) : Bytes := before ++ CLEAR ++ after

/-- The two arguments `prefix ? prefix : ""` and `prefix ? ": " : ""`, `src/cmd.c:293`, `src/logging.c:158`. -/
def prefixed (pre : Option Bytes) (words : Bytes) : Bytes :=
  match pre with
  | none => marked [] words
  | some p => marked p (b!": " ++ words)

/-- `suffix`, `src/cmd.c:291`, `src/logging.c:156`. -/
def suffix (more : Bool) : Bytes := if more then b!":" else b!"."

/-! ## Results of commands -/

/-- The fields `rv` and `sig` of `cmd_t`, `src/cmd.h:9-19`. -/
structure CmdRes where
  rv : Int
  sig : Nat
deriving DecidableEq, Repr

/-- `cmd_exec`, `src/cmd.c:228-239`, with the fields it sets: its result and the fields afterwards.  `m` is what they were before.  `cmd_create`
(`src/cmd.c:20-49`) does not set them, and `src/class/cc.c:131` and `src/class/linker.c:91` declare the structure without a value, so there `m` is
whatever the memory held.  `none`: bob exits. -/
def cmdExecRes (debugging : Bool) (w : SpawnWorld) (name : Bytes) (m : CmdRes) : Option (Int × CmdRes) :=
  match cmdExecAsync debugging w name with
  | none => none
  | some pid =>
    if pid < 0 then some (-1, m)
    else
      let r := waitForProcess (w.wait pid)
      some (r.1, { rv := r.1, sig := r.2 })

/-- What `cmd_log` prints, `src/cmd.c:288-304`; `out` is the result of `cmd_read_out`. -/
def cmdLogPrint (colour : Bool) (rv : Int) (pre : Option Bytes) (infinitive past out : Bytes) : Bytes :=
  let s := suffix (cstr out ≠ [])
  (if rv < 0 then vlog colour .error (prefixed pre (b!"Failed to " ++ infinitive ++ s))
    else vlog colour .success (prefixed pre (b!"Successfully " ++ past ++ s))) ++ cstr out

/-- What `log_already_done` prints, `src/logging.c:134-163`; `log` is the content of the log file, if it can be opened. -/
def alreadyPrint (colour : Bool) (log : Option Bytes) (pre : Option Bytes) (past : Bytes) : Bytes :=
  vlog colour .success (prefixed pre (b!"Already " ++ past ++ suffix log.isSome)) ++ cstr (log.getD [])

/-- One thing that bob prints. -/
inductive Said where
  /-- a message without `CLEAR` in its format -/
  | plain (l : Level) (text : Bytes)
  /-- `"%s" CLEAR …`: `src/class/cc.c:117`, `src/class/linker.c:135,138`, `src/install.c:146,154,158,180` -/
  | marked (l : Level) (before after : Bytes)
  /-- `cmd_log` of a command with this result, of which `chunks` were read -/
  | ran (res : CmdRes) (pre : Option Bytes) (infinitive past : Bytes) (chunks : List Bytes)
  /-- `log_already_done` -/
  | already (log pre : Option Bytes) (past : Bytes)

/-- What is printed. -/
def Said.print (colour debugging : Bool) (strsignal : Nat → Bytes) : Said → Bytes
  | .plain l text => vlog colour l text
  | .marked l before after => vlog colour l (Bob.marked before after)
  | .ran res pre infinitive past chunks => cmdLogPrint colour res.rv pre infinitive past (cmdReadOut debugging chunks res.sig strsignal)
  | .already log pre past => alreadyPrint colour log pre past

end Bob
