import Verif.Model.CopyErr
import Verif.Model.Cookie
/-!
# The buffers of bob's own code, byte by byte

The other modules of the model take the strings that bob puts together as lists.  Here the same code is followed at the level of
the memory it works on: blocks of a given size, bytes that have not been written yet, and indices that may lie outside.  Every function is in the
`Option` monad, and `none` is undefined behaviour: a byte outside of a block is read or written, or one is read which was never written.

Different allocations are different blocks, and no allocation fails (as in the C code, which asserts it).  The interpreter's buffers are not here: they
are part of its heap, `Verif.Model.Flamingo.Heap`.
-/

namespace Bob.Mem

/-- A block of memory; `none` is a byte that was not written since it was allocated. -/
abbrev Block := List (Option UInt8)

/-- `malloc(n)`, or a local `char x[n]`. -/
def fresh (n : Nat) : Block := List.replicate n none

/-- `realloc(b, n)`. -/
def grow (b : Block) (n : Nat) : Block := b.take n ++ fresh (n - b.length)

/-- `b[i]`, read. -/
def load (b : Block) (i : Nat) : Option UInt8 := (b[i]?).join

/-- `b[i] = c`. -/
def store (b : Block) (i : Nat) (c : UInt8) : Option Block := if i < b.length then some (b.set i (some c)) else none

/-- `memcpy(b + off, bytes, …)`. -/
def copyTo (b : Block) (off : Nat) : Bytes → Option Block
  | [] => some b
  | c :: cs => do
    let b ← store b off c
    copyTo b (off + 1) cs

/-- Reading the first `n` bytes of a block, as `memcpy` and the loop of `str_hash` do. -/
def loadN : Nat → Block → Option Bytes
  | 0, _ => some []
  | _ + 1, [] => none
  | _ + 1, none :: _ => none
  | n + 1, some c :: b => (loadN n b).map (c :: ·)

/-- The string at the beginning of a block, as `%s`, `strlen` and `strdup` read it. -/
def strAt : Block → Option Bytes
  | [] => none
  | none :: _ => none
  | some c :: b => if c = NUL then some [] else (strAt b).map (c :: ·)

/-- At most `n` bytes of the string at the beginning of a block, as `%.*s` and `strndup` read it. -/
def strnAt : Nat → Block → Option Bytes
  | 0, _ => some []
  | _ + 1, [] => none
  | _ + 1, none :: _ => none
  | n + 1, some c :: b => if c = NUL then some [] else (strnAt n b).map (c :: ·)

/-- `printf("%.*s", (int) size, b)`.  The conversion to `int` wraps around (as defined by the compilers), and a negative precision counts as none. -/
def starAt (size : Nat) (b : Block) : Option Bytes :=
  if size % 4294967296 < 2147483648 then strnAt (size % 4294967296) b else strAt b

/-- The block that `strdup` or `asprintf` make. -/
def ofStr (s : Bytes) : Block := s.map some ++ [some NUL]

/-- The block of a string value of the interpreter: its bytes, with no zero byte behind them (`src/flamingo/grammar/literal.h:87-90`,
`src/flamingo/grammar/binary_expr.h:233-237`, `src/flamingo/flamingo.c:306-310`). -/
def ofVal (s : Bytes) : Block := s.map some

/-- `snprintf(b + off, size, "%s", text)`: at most `size - 1` bytes and a zero byte. -/
def snprintf (b : Block) (off size : Nat) (text : Bytes) : Option Block :=
  if size = 0 then some b else copyTo b off (text.take (size - 1) ++ [NUL])

/-! ## Paths -/

/-- `path` in `frugal_flags`, `src/frugal.c:16-17`, as `fopen` reads it. -/
def flagsPathBuf (out : Bytes) : Option Bytes := do
  let b ← snprintf (fresh (out.length + 7)) 0 (out.length + 7) (out ++ b!".flags")
  strAt b

/-- `deps_path` in `get_include_deps` and `validate_requirements`, `src/class/cc.c:77-78,187-188`. -/
def depsPathBuf (out : Bytes) : Option Bytes := do
  let b ← snprintf (fresh (out.length + 6)) 0 (out.length + 6) (out ++ b!".deps")
  strAt b

/-- The loop of `gen_cookie`, `src/cookie.h:23-27`: `n` bytes from index `i` on. -/
def foldLoop : Nat → Nat → Block → Option Block
  | 0, _, b => some b
  | n + 1, i, b => do
    let c ← load b i
    let b ← if c = SLASH then store b i UNDERSCORE else pure b
    foldLoop n (i + 1) b

/-- `gen_cookie`, `src/cookie.h:16-30`. -/
def genCookieBuf (signed : Bool) (outPath path ext : Bytes) : Option Bytes := do
  let t ← starAt path.length (ofVal path)
  let h ← loadN path.length (ofVal path)
  let b := ofStr (outPath ++ b!"/bob/" ++ t ++ b!".cookie." ++ hex (strHash signed h) ++ b!"." ++ ext)
  let b ← foldLoop path.length (outPath.length + 5) b
  strAt b

/-! ## Flags -/

/-- The loop of `frugal_flags`, `src/frugal.c:28-38`: `flag_str` and `size`. -/
def flagLoop : List Bytes → Block → Nat → Option Block
  | [], b, _ => some b
  | f :: fs, b, size => do
    let extra := f.length + 1
    let b := grow b (size + extra + 1)
    let t ← starAt f.length (ofVal f)
    let b ← snprintf b size (extra + 1) (t ++ [NL])
    flagLoop fs b (size + extra)

/-- `flag_str` of `frugal_flags`, `src/frugal.c:23-38`, as `strcmp` and `fprintf` read it. -/
def flagBuf (flags : List Bytes) : Option Bytes := do
  let b ← flagLoop flags [some NUL] 0
  strAt b

/-! ## Files read whole -/

/-- The files `<out>.flags` (`src/frugal.c:51-58`), `<out>.deps` (`src/class/cc.c:197-205`) and `<cookie>.log` (`src/logging.c:143-151`) are read in the same way.
`told` is what `ftell` says after seeking to the end, -1 if it fails; `content` is what there is to read afterwards.  `size_t` has 64 bits. -/
def slurp (told : Int) (content : Bytes) : Option Block := do
  let size := (told % 18446744073709551616).toNat
  let b := fresh ((size + 1) % 18446744073709551616)
  let b ← copyTo b 0 (content.take size)
  store b size NUL

/-! ## Output of commands -/

/-- The loop of `cmd_read_out`, `src/cmd.c:255-264`.  Each element of the list is what one call of `read` gives. -/
def outLoop : List Bytes → Block → Nat → Option (Block × Nat)
  | [], b, total => some (b, total)
  | c :: cs, b, total => do
    let chunk ← copyTo (fresh 4096) 0 c
    let total := total + c.length
    let b := grow b (total + 1)
    let bytes ← loadN c.length chunk
    let b ← copyTo b (total - c.length) bytes
    outLoop cs b total

/-- `cmd_read_out`, `src/cmd.c:241-286`. -/
def readOutBuf (debugging : Bool) (chunks : List Bytes) (sig : Nat) (strsignal : Nat → Bytes) : Option Block := do
  let b := ofStr []
  if debugging then pure b
  else
    let (b, total) ← outLoop chunks b 0
    if sig ≠ 0 then
      let line := sigLine (strsignal sig)
      let b := grow b (total + line.length + 1)
      let bytes ← loadN line.length (ofStr line)
      let b ← copyTo b total bytes
      store b (total + line.length) NUL
    else store b total NUL

/-- `src/fsutil.c:71-75`: the string is made one byte shorter. -/
def dropNewlineBuf (b : Block) : Option Bytes := do
  let s ← strAt b
  let b ← if 1 ≤ s.length then store b (s.length - 1) NUL else pure b
  strAt b

/-! ## Dependencies -/

/-- `strsep(&p, sep)`: looks for the separator or the end of the string, from index `i` on.  Gives the index, and whether it is a separator. -/
def scan (sep : UInt8) : Block → Nat → Option (Nat × Bool)
  | [], _ => none
  | none :: _, _ => none
  | some c :: b, i => if c = sep then some (i, true) else if c = NUL then some (i, false) else scan sep b (i + 1)

/-- `strsep(&p, sep)` with `p` not `NULL`: the block, and `p` afterwards. -/
def strsep (sep : UInt8) (b : Block) (p : Nat) : Option (Block × Option Nat) := do
  let (i, found) ← scan sep (b.drop p) p
  if found then
    let b ← store b i NUL
    pure (b, some (i + 1))
  else pure (b, none)

/-- The loop of `get_include_deps`, `src/class/cc.c:92-104`.  `p` is `headers`, and `acc` is what has been written to the file.  The first
argument bounds the number of rounds. -/
def depsLoop : Nat → Block → Option Nat → Bytes → Option Bytes
  | 0, _, _, _ => none
  | _ + 1, _, none, acc => some acc
  | fuel + 1, b, some p, acc => do
    let (b, p') ← strsep SP b p
    let c ← load b p
    if c = COLON ∨ c = BACKSLASH ∨ c = NUL then depsLoop fuel b p' acc
    else
      let h ← strAt (b.drop p)
      let last ← load b (p + h.length - 1)
      let b ← if last = NL then store b (p + h.length - 1) NUL else pure b
      let h ← strAt (b.drop p)
      depsLoop fuel b p' (acc ++ h ++ [NL])

/-- `get_include_deps`, `src/class/cc.c:54-108`, from the block with the output of the compiler to the text of the file. -/
def depsBuf (b : Block) : Option Bytes := depsLoop (b.length + 1) b (some 0) []

/-- The loop of `validate_requirements`, `src/class/cc.c:211-220`: the block, and the indices at which `deps` points. -/
def headersLoop : Nat → Block → Option Nat → List Nat → Option (Block × List Nat)
  | 0, _, _, _ => none
  | _ + 1, b, none, deps => some (b, deps)
  | fuel + 1, b, some p, deps => do
    let (b, p') ← strsep NL b p
    let c ← load b p
    headersLoop fuel b p' (if c = NUL then deps else deps ++ [p])

/-- The dependencies that `frugal_mtime` sees, `src/class/cc.c:207-226`: the strings at which `deps` points when it is called. -/
def headersBuf (b : Block) : Option (List Bytes) := do
  let (b, deps) ← headersLoop (b.length + 1) b (some 0) []
  deps.mapM fun p => strAt (b.drop p)

/-! ## Others -/

/-- The file names in `link_step`, `src/class/linker.c:54-62`: `char* srcs[src_count]`.  The size of such an array has to be positive (C11 6.7.6.2p5). -/
def linkSrcs (srcs : List Bytes) : Option (List Bytes) :=
  if srcs.length = 0 then none else srcs.mapM fun s => strnAt s.length (ofVal s)

/-- The name that `usage` prints on Linux, `src/main.c:41-57`.  `strncpy` fills the rest of the array with zero bytes, and adds none if there is no room.
`comm` is what `prctl` gives (16 bytes, the last of which is zero); `none` if it fails. -/
def progNameBuf (initName : Bytes) (comm : Option Bytes) : Option Bytes := do
  let b ← copyTo (fresh 16) 0 ((initName ++ List.replicate 16 NUL).take 16)
  let b ← match comm with
    | some c => copyTo b 0 ((c.take 15 ++ List.replicate 16 NUL).take 16)
    | none => pure b
  strAt b

/-- The message of `install_single` about a file that does not exist, `src/install.c:88`: `%s` with the bytes of a string value. -/
def missingSourceBuf (key : Bytes) : Option Bytes := do
  let s ← strAt (ofVal key)
  pure (b!"Couldn't find source file (from install map): " ++ s)

end Bob.Mem
