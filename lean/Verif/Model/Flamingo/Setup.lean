import Verif.Model.Flamingo.Interp
import Verif.Model.Build
import Verif.Model.Cli
/-!
# From scripts to builds

What `src/bsys/bob/main.c:124-228`, `src/class/cc.c:240-263` and `src/class/linker.c:43-61` make of the state a script leaves behind.
-/

namespace Bob.Fl

/-- `strndup(val->str.str, val->str.size)`, for a value assumed to be a string; `none`: undefined behaviour. -/
def St.text (s : St) (c : Nat) : Option Bytes :=
  match s.cells[c]? with
  | some x =>
    match x.data with
    | .str buf size =>
      match s.bufs[buf]? with
      | some (some b) => if size ≤ b.length || b.contains NUL then some (cstr (b.take size)) else none
      | _ => none
    | _ => none
  | none => none

/-- The strings of a vector. -/
def St.texts (s : St) (c : Nat) : Option (List Bytes) :=
  match s.cells[c]? with
  | some x =>
    match x.data with
    | .vec es => es.mapM s.text
    | _ => none
  | none => none

/-- `bss->state->flags`; a state is released with its instance, `src/class/cc.c:362-365`. -/
def St.flags (s : St) (state : Option Nat) : Option (List Bytes) :=
  match state with
  | none => none
  | some i =>
    match s.host.states[i]? with
    | some h => if h.freed then none else s.texts h.flags
    | none => none

/-- The sources of one `build_step_state_t`, `src/class/cc.c:240-263`.  With different lengths the assertion at line 242 fails. -/
def St.compileJobs (s : St) (d : ReqData) : Option (List CJob) := do
  let srcs ← s.texts d.srcs
  let outs ← s.texts d.out
  let flags ← s.flags d.state
  if srcs.length = outs.length then some (List.zipWith (fun src out => { src := src, out := out, flags := flags }) srcs outs) else none

/-- `src/class/linker.c:43-61`. -/
def St.linkJob (s : St) (archive : Bool) (d : ReqData) : Option LJob := do
  let out ← s.text d.out
  let srcs ← s.texts d.srcs
  let flags ← s.flags d.state
  some { archive := archive, srcs := srcs, out := out, flags := flags }

/-- One step, as its callback finds it.  (All is read before anything is done; the C code reads each source just before it looks at it, which
is the same as nothing changes the values meanwhile.)  `none`: undefined behaviour or a failed assertion (`src/class/linker.c:44`, for more than one request). -/
def St.request (s : St) (st : BuildStep Uniq StepKind ReqData) : Option Req :=
  match st.kind with
  | .compile => (st.data.mapM s.compileJobs).map fun js => .compile js.flatten
  | k =>
    match st.data with
    | [d] => (s.linkJob (k == .archive) d).map .link
    | _ => none

/-- What `run_build_steps` runs after the script. -/
def St.requests (s : St) : Option (List Req) := s.host.steps.mapM s.request

/-- `flamingo.env->scope_stack[0]`. -/
def St.outer (s : St) : Option Scope :=
  match s.envs[s.eng.env]? with
  | some st =>
    match st.getLast? with
    | some i => s.scopes[i]?
    | none => none
  | none => none

/-- A value as `setup_install_map` and `run` look at it, `src/install.c:34-72`, `src/bsys/bob/main.c:252-282`.  (A string
whose memory was released, which the C code would read nevertheless, counts as something that is not a string.) -/
def St.scriptVal (s : St) (c : Nat) : ScriptVal :=
  match s.cells[c]? with
  | some x =>
    match x.data with
    | .none => .none
    | .vec es => .vec (es.map s.text)
    | .map es => .map (es.map fun e => (s.text e.1, s.text e.2))
    | _ => .other
  | none => .other

/-- The variables of the outermost scope. -/
def St.scriptVars (s : St) : List (Bytes × ScriptVal) :=
  match s.outer with
  | some x => x.vars.map fun v => (v.key, match v.val with
    | some c => s.scriptVal c
    | none => .other)
  | none => []

/-- `setup`, `src/bsys/bob/main.c:124-218`, after reading and parsing: whether it succeeds; `none`: it does not come back. -/
def setup : Out Unit → Option Bool
  | .ok _ s => some (s.scriptVars.any fun v => v.1 == b!"__bob_has_been_imported__")
  | .err _ _ => some false
  | _ => none

/-- `BSYS_BOB` for a script with that outcome, if `setup` comes back. -/
def bsysOf (o : Out Unit) (steps : Option Bytes → Bool) (installs : Bytes → Bool) : Option Bsys :=
  match setup o with
  | some ok =>
    some (bsysBob true ok (match o with
      | .ok _ s => s.scriptVars
      | _ => []) steps installs)
  | none => none

/-- `import/bob.fl`. -/
def bobFl : List Stmt := [
  .line (.decl false b!"__bob_has_been_imported__" none),
  .cls false b!"Fs" [] [.line (.proto true b!"list" [b!"path"])],
  .cls false b!"Cc" [b!"flags"] [.line (.proto false b!"compile" [b!"src"])],
  .cls false b!"Linker" [b!"flags"] [.line (.proto false b!"link" [b!"obj"]), .line (.proto false b!"archive" [b!"obj"])],
  .line (.decl false b!"install" none),
  .line (.decl false b!"run" (some (.vec [])))]

end Bob.Fl
