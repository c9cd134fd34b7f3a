import Verif.Model.Logging
/-!
# What bob says when copying fails: `rm` and `copy` in `src/fsutil.c`, and their use in `src/install.c`

`Verif.Model.Install` has what copying does to the files; this file has what `copy` leaves in `err`, and the message made of it.
-/

namespace Bob

/-- What the system does when bob copies something. -/
structure CopyWorld where
  /-- `stat` of a path: `none` if it fails, otherwise whether it is a directory -/
  stat : Bytes → Option Bool
  /-- what happens when `rm` and `cp` are run -/
  rm : SpawnWorld
  cp : SpawnWorld
  /-- what was in the memory of the two structures `cmd`, `src/fsutil.c:20,64` -/
  rmMem : CmdRes
  cpMem : CmdRes
  /-- what is read from the pipes -/
  rmOut : List Bytes
  cpOut : List Bytes
  strsignal : Nat → Bytes

/-- The result and `*err` (`none` is `NULL`). -/
abbrev ErrRes := Int × Option Bytes

/-- `rm`, `src/fsutil.c:17-31`.  `err` is what `*err` is before; `err` itself is never `NULL` here.  `none`: bob exits. -/
def rmErr (dbg : Bool) (w : CopyWorld) (err : Option Bytes) : Option ErrRes :=
  match cmdExecRes dbg w.rm b!"rm" w.rmMem with
  | none => none
  | some (rv, res) => some (rv, if rv < 0 && err.isSome then some (cmdReadOut dbg w.rmOut res.sig w.strsignal) else err)

/-- `src/fsutil.c:71-75`: the last byte of a string is dropped. -/
def dropNewline (out : Bytes) : Bytes := (cstr out).dropLast

/-- `copy`, `src/fsutil.c:33-80`.  The message for a failing `stat` is left out. -/
def copyErr (dbg : Bool) (w : CopyWorld) (src : Bytes) (err : Option Bytes) : Option ErrRes :=
  match w.stat src with
  | none => some (-1, err)
  | some dir =>
    match (if dir then rmErr dbg w err else some (0, err)) with
    | none => none
    | some (r, err) =>
      if r < 0 then some (-1, err)
      else
        match cmdExecRes dbg w.cp b!"cp" w.cpMem with
        | none => none
        | some (rv, res) => some (rv, if rv < 0 then some (dropNewline (cmdReadOut dbg w.cpOut res.sig w.strsignal)) else err)

/-- What comes of copying in `install_single`. -/
inductive Told where
  | exits
  | copied
  /-- `NULL` is given to `%s` -/
  | undefined
  /-- the bytes printed by `LOG_FATAL` -/
  | failed (printed : Bytes)
deriving DecidableEq, Repr

/-- `src/install.c:161-166`. -/
def installCopy (colour dbg : Bool) (w : CopyWorld) (key path : Bytes) : Told :=
  match copyErr dbg w key none with
  | none => .exits
  | some (rv, err) =>
    if rv < 0 then
      match err with
      | none => .undefined
      | some e => .failed (vlog colour .fatal (b!"Failed to copy '" ++ key ++ b!"' to '" ++ path ++ b!"': " ++ e))
    else .copied

end Bob
