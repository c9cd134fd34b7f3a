import Verif.Model.Base
/-!
# Hashes and cookies: `src/str.c`, `src/cookie.h`, `src/class/linker.c` (name part)
-/

namespace Bob

/-- Modulus of `uint64_t`. -/
abbrev M64 : Nat := 2 ^ 64

/-- Conversion of a `char` to `uint64_t` in `hash + str[i]` (`src/str.c:11`).  Whether `char` is signed is
implementation-defined: `signed = true` is x86-64, `signed = false` is the ARM Linux ABI. -/
def charTo64 (signed : Bool) (c : UInt8) : Nat :=
  if signed && decide (128 ≤ c.toNat) then M64 - 256 + c.toNat else c.toNat

/-- `str_hash`, `src/str.c:7-15`: djb2 with 64-bit wrap-around, started from an arbitrary accumulator. -/
def strHashFrom (signed : Bool) : Nat → Bytes → Nat
  | h, [] => h
  | h, c :: cs => strHashFrom signed ((h * 33 + charTo64 signed c) % M64) cs

/-- `str_hash`, `src/str.c:7-15`. -/
def strHash (signed : Bool) (s : Bytes) : Nat := strHashFrom signed 5381 s

/-- The character replacement of `gen_cookie`, `src/cookie.h:23-27`. -/
def foldSlash (c : UInt8) : UInt8 := if c = SLASH then UNDERSCORE else c

/-- `gen_cookie`, `src/cookie.h:16-30`.  Precondition (as in the C code, where the loop would otherwise run
past the string): `path` contains no NUL. -/
def genCookie (signed : Bool) (outPath path ext : Bytes) : Bytes :=
  outPath ++ b!"/bob/" ++ path.map foldSlash ++ b!".cookie." ++ hex (strHash signed path) ++ b!"." ++ ext

/-- The XOR accumulation of `prep_link`, `src/class/linker.c:185-198`. -/
def linkHash (signed : Bool) (srcs : List Bytes) : Nat :=
  srcs.foldl (fun h s => h ^^^ strHash signed s) 0

/-- Product path of `Linker.link` / `Linker.archive`, `src/class/linker.c:163-203`. -/
def linkCookie (signed : Bool) (outPath : Bytes) (archive : Bool) (srcs : List Bytes) : Bytes :=
  outPath ++ b!"/bob/linker." ++ (if archive then b!"archive" else b!"link") ++ b!".cookie." ++
    hex (linkHash signed srcs) ++ b!"." ++ (if archive then b!"a" else b!"l")

end Bob
