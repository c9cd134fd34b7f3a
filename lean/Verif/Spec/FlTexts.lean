import Verif.Model.Parser.Lower
import Verif.Spec.Whole
import Verif.Spec.FlText
/-!
# Scripts as texts

The scripts of the project, as they are in its files, and what it means to use bob with them.
-/

namespace Bob.Fl
open Bob.Parse

/-- The text is accepted by the parser, and these are the statements the interpreter finds in the tree. -/
def ReadAs (text : Bytes) (p : List Stmt) : Prop := ∃ t, Parses text (.tree t) ∧ lower t = .ok p

/-- `import/bob.fl`. -/
def bobText : Bytes := b!"# SPDX-License-Identifier: MIT\n# Copyright (c) 2024 Aymeric Wibo\n\nlet __bob_has_been_imported__\n\nclass Fs {\n\tstatic proto list(path: str) -> vec<str>\n}\n\nclass Cc(flags: vec<str>) {\n\tproto compile(src: vec<str>) -> vec<str>\n}\n\nclass Linker(flags: vec<str>) {\n\tproto link(obj: vec<str>) -> str\n\tproto archive(obj: vec<str>) -> str\n}\n\nlet install: map<str, str>\nlet run: vec<str> = []\n"

/-- `build.fl`. -/
def ownText : Bytes := b!"# SPDX-License-Identifier: MIT\n# Copyright (c) 2024 Aymeric Wibo\n\nimport bob\n\nlet src = Fs.list(\"src\").where(|path| path.endswith(\".c\") && !path.startswith(\"src/flamingo\")) + [\"src/flamingo/flamingo.c\"]\n\nlet obj = Cc([\n\t\"-std=c11\", \"-g\",\n\t\"-Wall\", \"-Wextra\", \"-Werror\",\n\t\"-Wno-unused-parameter\",\n\t\"-Isrc\", \"-Isrc/flamingo/runtime\",\n]).compile(src)\n\nlet cmd = Linker([\"-lm\", \"-lpthread\"]).link(obj)\n\ninstall = {\n\tcmd: \"bin/bob\",\n\t\"import/bob.fl\": \"share/flamingo/import/bob.fl\",\n\t\"skeletons\": \"share/bob/skeletons\",\n}\n\nrun = [\"bob\"]\n"

/-- `skeletons/c/build.fl`. -/
def skeletonText : Bytes := b!"import bob\n\nlet src = Fs.list(\"src\").where(|path| path.endswith(\".c\"))\n\nlet obj = Cc([\"-std=c99\", \"-Wall\", \"-Wextra\", \"-Werror\"]).compile(src)\nlet cmd = Linker([]).link(obj)\n\ninstall = {\n\tcmd: \"bin/bob-skeleton-c\",\n}\n\nrun = [\"bob-skeleton-c\"]\n"

/-- `tests/frugality/build.fl`. -/
def frugalityText : Bytes := b!"import bob\n\nlet src1 = \"src1.c\"\nlet src2 = \"src2.c\"\n\nlet obj = Cc([\"-std=c11\"]).compile([src1, src2])\nlet linked = Linker([]).link(obj)\n\ninstall = {\n\tobj[0]: \"obj1.o\",\n\tobj[1]: \"obj2.o\",\n\tlinked: \"bin\",\n}\n"

/-- `tests/chown/build.fl`. -/
def chownText : Bytes := b!"# SPDX-License-Identifier: MIT\n# Copyright (c) 2024 Aymeric Wibo\n\nimport bob\n\ninstall = {\n\t\"build.fl\": \"share/bob_chown_test.fl\",\n}\n"

/-- `tests/run_path_traversal_order/build.fl`. -/
def orderText : Bytes := b!"# SPDX-License-Identifier: MIT\n# Copyright (c) 2024 Aymeric Wibo\n\nimport bob\n\nrun = [\"test_command\"]\n"

/-- `bob build` with a script in a file of that text. -/
def BobBuildText (tc : Toolchain) (w : World) (paths : List Bytes) (text : Bytes) (pre : Option Bytes) (bad : Bytes → Bool) (n : Nat) (s : Store) (cfg : Cfg) : Prop :=
  ∃ p, ReadAs text p ∧ BobBuild tc w paths p pre bad n s cfg

/-- As `Shown`, where the scripts that can be imported are in files with the text of `import/bob.fl`. -/
structure ShownText (w : World) (paths : List Bytes) (sg : Bool) (out : Bytes) (fs : FS) (ps : List Bytes) : Prop where
  signed : w.signed = sg
  outPath : w.outPath = out
  only : ∀ path p, w.file path = .src p → ReadAs bobText p
  names : ∀ path ps, w.list path = some ps → ∀ p ∈ ps, NUL ∉ p
  outName : NUL ∉ w.outPath
  bob : ∃ p, w.file (importPath w false b!"bob.fl" paths) = .src p
  list : w.list b!"src" = some ps
  nodup : ps.Nodup
  all : ∀ p, b!"src/" <+: p → (fs p).isSome → p ∈ ps
  below : ∀ p ∈ ps, p = b!"src" ∨ b!"src/" <+: p

end Bob.Fl
