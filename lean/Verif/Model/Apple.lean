import Verif.Model.Install
import Verif.Model.CopyErr
/-!
# Install ids on macOS: `src/apple.c` and the part of `src/install.c` for `__APPLE__`

What the linker made gets an "install id" when it is installed: `install_name_tool` is run on the copy.

Simplifications: `install_name_tool` either writes the file or fails and leaves it as it was; given a directory it fails.
-/

namespace Bob

/-- What a run of `install_name_tool` makes of the content of a file and an id; `none`: it fails. -/
abbrev IdTool := Bytes → Bytes → Option Bytes

/-- `dylib`, `src/install.c:172-173`: everything whose name ends like that is taken for a library. -/
def isDylib (key : Bytes) : Bool := b!".l".isSuffixOf key

/-- The argument of `-id`, `src/apple.c:11`. -/
def rpathId (id : Bytes) : Bytes := b!"@rpath/" ++ id

/-- `apple_set_install_id`, `src/apple.c:8-26`: what it does to the files, and whether it succeeds.  `later` is when the tool writes. -/
def setInstallId (tool : IdTool) (cwd : Path) (path id : Bytes) (later : Nat) (t : Tree) : Tree × Bool :=
  match t.stat cwd path with
  | .ok (p, .file c _) =>
    match tool c (rpathId id) with
    | some c' => (t.set p (.file c' later), true)
    | none => (t, false)
  | _ => (t, false)

/-- `install_single` on macOS, `src/install.c:80-183`: the result, and whether there is a warning. -/
def installApple (tool : IdTool) (e : InstEnv) (key val : Bytes) (installingCookie : Bool) (now later : Nat) (t : Tree) : SingleRes × Bool :=
  match installSingle e key val installingCookie now t with
  | .copied t =>
    if isDylib (cstr key) then
      let r := setInstallId tool e.cwd (e.pre ++ b!"/" ++ cstr val) (cstr val) later t
      (.copied r.1, !r.2)
    else (.copied t, false)
  | r => (r, false)

/-- What bob prints if the tool fails, `src/apple.c:16-23`, `src/install.c:175-177`; `w` and `out` are what happens when it is run and what it prints, `m` what was in the memory of `cmd`.
`none`: bob exits. -/
def appleWarning (colour dbg : Bool) (w : SpawnWorld) (m : CmdRes) (out : List Bytes) (strsignal : Nat → Bytes) (path : Bytes) : Option Bytes :=
  match cmdExecRes dbg w b!"install_name_tool" m with
  | none => none
  | some (rv, res) =>
    if rv < 0 then
      some (vlog colour .warn (b!"Failed to set Apple install ID for dylib '" ++ path ++ b!"': " ++ dropNewline (cmdReadOut dbg out res.sig strsignal)))
    else some []

end Bob
