import Verif.Model.Cmd
/-!
# The command lines of compilers and linkers: `src/class/cc.c`, `src/class/linker.c`

On a system other than macOS.  Lengths of flags fit an `int`.
-/

namespace Bob

/-- What a build looks at besides files: `$CC`, `$AR` and the prefix it is for, if any. -/
structure ToolEnv where
  cc : Option Bytes
  ar : Option Bytes
  pre : Option Bytes

/-- `src/class/cc.c:122-123`, `src/class/linker.c:102-103`. -/
def ToolEnv.ccName (e : ToolEnv) : Bytes := e.cc.getD b!"cc"

/-- `src/class/linker.c:96-97`. -/
def ToolEnv.arName (e : ToolEnv) : Bytes := e.ar.getD b!"ar"

/-- `add_flags`, `src/class/cc.c:45-52`, and the loop at `src/class/linker.c:125-130`. -/
def addFlags (flags : List Bytes) (c : CmdArgs) : CmdArgs := flags.foldl (fun c f => cmdAddf f.length f c) c

/-- `src/class/cc.c:63-65`. -/
def depsCmd (e : ToolEnv) (j : CJob) : CmdArgs :=
  addFlags j.flags (cmdCreate [e.ccName, b!"-fdiagnostics-color=always", b!"-MM", b!"-MT", b!"", j.src])

/-- `src/class/cc.c:131-133`. -/
def compileCmd (e : ToolEnv) (j : CJob) : CmdArgs :=
  addFlags j.flags (cmdCreate [e.ccName, b!"-fdiagnostics-color=always", b!"-c", j.src, b!"-o", j.out])

/-- `src/class/linker.c:93-130`. -/
def linkCmd (e : ToolEnv) (j : LJob) : CmdArgs :=
  let c :=
    if j.archive then cmdCreate [e.arName, b!"-rcs", j.out]
    else
      let c := cmdCreate [e.ccName, b!"-fdiagnostics-color=always", b!"-o", j.out]
      match e.pre with
      | some pre => cmdAdd (b!"-L" ++ pre ++ b!"/lib") c
      | none => c
  addFlags j.flags (j.srcs.foldl (fun c s => cmdAdd s c) c)

end Bob
