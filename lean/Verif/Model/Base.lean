import Lean.Elab.Term
/-!
# Bytes and C strings

Shared vocabulary of the whole model.  A C `char*` together with its length is a list of bytes; a
NUL-terminated C string is a list of bytes read up to the first zero byte (`cstr`).
-/

namespace Bob

/-- A byte buffer (`char*` + size). -/
abbrev Bytes := List UInt8

/-- `b!"text"` is the list of the UTF-8 bytes of `text`, as a literal. -/
macro:max "b!" s:str : term => do
  let bytes := s.getString.toUTF8.toList
  let xs ← bytes.mapM fun (x : UInt8) => `($(Lean.quote x.toNat))
  `(([$(xs.toArray),*] : List UInt8))

/-- The ASCII codes used below. -/
abbrev NUL : UInt8 := 0
abbrev NL : UInt8 := 10
abbrev SP : UInt8 := 32
abbrev SLASH : UInt8 := 47
abbrev COLON : UInt8 := 58
abbrev BACKSLASH : UInt8 := 92
abbrev UNDERSCORE : UInt8 := 95
abbrev DOT : UInt8 := 46

/-- What a C function expecting a NUL-terminated string sees of a buffer: everything before the first
zero byte.  Models `%s`, `%.*s`, `strdup`, `strndup`, `strcmp` on a buffer. -/
def cstr : Bytes → Bytes
  | [] => []
  | c :: cs => if c = NUL then [] else c :: cstr cs

/-- libc `strsep(&s, sep)` called until it returns NULL, with a single separator character: the list of
all (possibly empty) fields.  Used in `src/class/cc.c:92,211`, `src/cmd.c:121`, `src/install.c:113`. -/
def strsepAll (sep : UInt8) : Bytes → List Bytes
  | [] => [[]]
  | c :: cs =>
    if c = sep then [] :: strsepAll sep cs
    else match strsepAll sep cs with
      | [] => [[c]]          -- unreachable: `strsepAll` is never empty
      | f :: fs => (c :: f) :: fs

/-- Digits of `n` in base `base` (most significant first), as `printf` prints them: no leading zeros and
`0` for zero. `digitChar` gives the character of one digit.  The first argument is fuel. -/
def digitsAux (base : Nat) (digitChar : Nat → UInt8) : Nat → Nat → Bytes → Bytes
  | 0, _, acc => acc
  | fuel + 1, n, acc =>
    let acc' := digitChar (n % base) :: acc
    if n / base = 0 then acc' else digitsAux base digitChar fuel (n / base) acc'

/-- `%x` digit. -/
def hexChar (d : Nat) : UInt8 := if d < 10 then UInt8.ofNat (48 + d) else UInt8.ofNat (87 + d)

/-- `%d` digit. -/
def decChar (d : Nat) : UInt8 := UInt8.ofNat (48 + d)

/-- `printf("%x", n)`. -/
def hex (n : Nat) : Bytes := digitsAux 16 hexChar (n + 1) n []

/-- `printf("%zu", n)`. -/
def dec (n : Nat) : Bytes := digitsAux 10 decChar (n + 1) n []

/-- `printf("%" PRId64, i)`. -/
def decInt (i : Int) : Bytes := if i < 0 then b!"-" ++ dec i.natAbs else dec i.natAbs

end Bob
