import Verif.Spec.FlTexts
/-!
# `tests/frugality.sh`

The project's own test of what is made again, with the files it uses, as they are in `tests/frugality`.
-/

namespace Bob.Fl.FrugalityTest

def std99 : Bytes := b!"-std=c99"
def std11 : Bytes := b!"-std=c11"

/-- `tests/frugality/build.fl`, with the flag that `sed` puts into it (`tests/frugality.sh:10-14,163-167`). -/
def script (std : Bytes) : Bytes :=
  b!"import bob\n\nlet src1 = \"src1.c\"\nlet src2 = \"src2.c\"\n\nlet obj = Cc([\"" ++ std ++
    b!"\"]).compile([src1, src2])\nlet linked = Linker([]).link(obj)\n\ninstall = {\n\tobj[0]: \"obj1.o\",\n\tobj[1]: \"obj2.o\",\n\tlinked: \"bin\",\n}\n"

example : script std11 = frugalityText := by decide +kernel

def src1Text : Bytes := b!"#include <stdio.h>\n\nvoid fn(void) {\n\tprintf(\"B\\n\");\n}\n"
def src2Text : Bytes := b!"#include \"src2.h\"\n#include <stdio.h>\n\nvoid fn(void);\n\nint main(void) {\n\tprintf(STR \"\\n\");\n\tfn();\n\treturn 0;\n}\n"
def src2Head : Bytes := b!"#define STR \"A\"\n"

/-- The names of the cookies, as the test has them (`tests/frugality.sh:33-35`, with `-C tests/frugality`). -/
def cookie1 : Bytes := b!".bob/bob/src1.c.cookie.6531c664ecf.o"
def cookie2 : Bytes := b!".bob/bob/src2.c.cookie.6531c665310.o"
def cookieL : Bytes := b!".bob/bob/linker.link.cookie.33faaddbf5af8a68.l"

/-- `tests/frugality.sh:37-39`. -/
def inst1 : Bytes := b!".bob/prefix/obj1.o"
def inst2 : Bytes := b!".bob/prefix/obj2.o"
def instL : Bytes := b!".bob/prefix/bin"

/-- `get_mtimes`: of a cookie and of what is installed from it (`tests/frugality.sh:32-40`). -/
def times (fs : FS) (cookie inst : Bytes) : Option (Nat × Nat) := (fs cookie).bind fun f => (fs inst).map fun g => (f.mtime, g.mtime)

/-- One cookie in `update`, with the times before and now; nothing if the test is left with status 1, else whether the cookie was updated (`tests/frugality.sh:49-106`). -/
def checkPair (prev now : Nat × Nat) : Option Bool :=
  if now.2 < now.1 then none
  else if now.1 = prev.1 then if prev.2 < now.2 then none else some false
  else if prev.1 < now.1 then some true
  else none

/-- `update` for one cookie, between the files before and now. -/
def updated (prev now : FS) (cookie inst : Bytes) : Option Bool :=
  (times prev cookie inst).bind fun t => (times now cookie inst).bind fun t' => checkPair t t'

/-- `update`: what was updated (`tests/frugality.sh:42-107`). -/
def update (prev now : FS) : Option (Bool × Bool × Bool) :=
  (updated prev now cookie1 inst1).bind fun a => (updated prev now cookie2 inst2).bind fun b => (updated prev now cookieL instL).map fun c => (a, b, c)

/-- Where bob runs: its output goes to `.bob`, and the only script that can be imported is `bob.fl`. -/
structure Place (sg : Bool) (w : World) (paths : List Bytes) : Prop where
  signed : w.signed = sg
  outPath : w.outPath = b!".bob"
  only : ∀ path p, w.file path = .src p → ReadAs bobText p
  names : ∀ path ps, w.list path = some ps → ∀ p ∈ ps, NUL ∉ p
  bob : ∃ p, w.file (importPath w false b!"bob.fl" paths) = .src p

/-- `build`, when it does not leave the test: `bob -C tests/frugality run` ends well (`tests/frugality.sh:23-30`).  What `bob run` does after the build is left out: everything in the install map is a
cookie, so `install_all` passes over it (`src/install.c:95-97`), and there is nothing to run (`src/bsys/bob/main.c:293-296`). -/
def Build (tc : Toolchain) (sg : Bool) (bad : Bytes → Bool) (s s' : Store) : Prop :=
  ∃ w paths n text, Place sg w paths ∧ 0 < n ∧ s.fs.content b!"build.fl" = some text ∧ BobBuildText tc w paths text (some b!".bob/prefix") bad n s (.finished true s')

/-- A second or more passes, and the files in `E` are written. -/
structure Saved (E : List Bytes) (s s' : Store) : Prop where
  later : s.now < s'.now
  files : ∀ p ∈ E, ∃ f, s'.fs p = some f ∧ s.now < f.mtime ∧ f.mtime ≤ s'.now
  rest : ∀ p, p ∉ E → s'.fs p = s.fs p
  fresh : s'.trace = []

/-- `sleep 1`, `touch`, `update` up to the build. -/
def Touch (tc : Toolchain) (sg : Bool) (bad : Bytes → Bool) (E : List Bytes) (s s' : Store) : Prop :=
  ∃ s1, Saved E s s1 ∧ (∀ p, s1.fs.content p = s.fs.content p) ∧ Build tc sg bad s1 s'

/-- `sleep 1`, `sed`, `update` up to the build. -/
def Sed (tc : Toolchain) (sg : Bool) (bad : Bytes → Bool) (s s' : Store) : Prop :=
  ∃ s1, Saved [b!"build.fl"] s s1 ∧ s1.fs.content b!"build.fl" = some (script std11) ∧ Build tc sg bad s1 s'

/-- The directory when the test has cleaned up: the user's files are the ones `u` tells, among them those of the project.  The test does not start in the second in which one of them was written. -/
structure Start (u : Bytes → Prop) (s : Store) : Prop where
  outside : ∀ p, u p → ¬ b!".bob/" <+: p
  mine : ∀ p ∈ [b!"build.fl", b!"src1.c", b!"src2.c", b!"src2.h"], u p
  stamps : ∀ p, u p → ∀ f, s.fs p = some f → f.mtime < s.now
  clean : ∀ p, b!".bob/" <+: p → s.fs p = none
  script : s.fs.content b!"build.fl" = some (script std99)
  src1 : s.fs.content b!"src1.c" = some src1Text
  src2 : s.fs.content b!"src2.c" = some src2Text
  head : s.fs.content b!"src2.h" = some src2Head

/-- The compiler finds the header that `src2.c` includes, and none of the project's other files. -/
structure Includes (tc : Toolchain) : Prop where
  src1 : ∀ fs F items, fs.content b!"src1.c" = some src1Text → tc.deps fs b!"src1.c" F = some items → b!"src2.c" ∉ items.map (·.2) ∧ b!"src2.h" ∉ items.map (·.2)
  src2 : ∀ fs F items, fs.content b!"src2.c" = some src2Text → tc.deps fs b!"src2.c" F = some items → b!"src1.c" ∉ items.map (·.2) ∧ b!"src2.h" ∈ items.map (·.2)

/-- The one project. -/
def plan (u : Bytes → Prop) : Plan where
  lists qs := qs = [b!"src1.c", b!"src2.c"]
  user := u

/-- The whole test, with the files after its six builds; a build that fails ends it. -/
structure Test (tc : Toolchain) (sg : Bool) (bad : Bytes → Bool) (s0 s1 s2 s3 s4 s5 s6 : Store) : Prop where
  first : Build tc sg bad s0 s1
  test1 : Touch tc sg bad [b!"src2.c"] s1 s2
  test2 : Touch tc sg bad [b!"src1.c", b!"src2.c"] s2 s3
  test3 : Touch tc sg bad [] s3 s4
  test4 : Touch tc sg bad [b!"src2.h"] s4 s5
  test5 : Sed tc sg bad s5 s6

end Bob.Fl.FrugalityTest
