import Verif.Spec.Crowd
/-!
# Editing while bob builds
-/

namespace Bob

/-- A worker has written down what the object is made from, and not yet run the compiler (between `src/class/cc.c:127` and
`src/class/cc.c:131`). -/
def Cfg.compiling (a : Cfg) (j : CJob) : Prop :=
  ∃ tasks rest p w i f, a = .pooling tasks rest p ∧ p.pc w = .run i 1 f ∧ tasks[i]? = some j

/-- What the user may do to their files while bob builds: write them at any time, or remove them. -/
structure AnyEdit (L : Layout) (a : Cfg) (fs : FS) : Prop where
  user : ∀ p, L.user p → fs p = a.store.fs p ∨ fs p = none ∨ ∃ f, fs p = some f ∧ f.mtime = a.store.now
  rest : ∀ p, ¬ L.user p → fs p = a.store.fs p

/-- A file that is written gets a time later than that of every product there is. -/
structure LateEdit (L : Layout) (a : Cfg) (fs : FS) : Prop where
  user : ∀ p, L.user p → fs p = a.store.fs p ∨ fs p = none ∨ ∃ f, fs p = some f ∧
    ∀ o, L.isOut o → ∀ x, a.store.fs o = some x → x.mtime < f.mtime
  rest : ∀ p, ¬ L.user p → fs p = a.store.fs p

/-- And no source that is just being compiled gets to include other files. -/
structure MidEdit (tc : Toolchain) (L : Layout) (a : Cfg) (fs : FS) : Prop extends LateEdit L a fs where
  deps : ∀ j, a.compiling j → ∀ items, tc.deps fs j.src j.flags = some items → tc.deps a.store.fs j.src j.flags = some items

/-- Either bob does something or the user. -/
inductive EditNext (tc : Toolchain) (E : Cfg → FS → Prop) (c : InstCfg) (n : Nat) : Cfg → Cfg → Prop where
  | build {a b} (h : BuildNext tc c n a b) : EditNext tc E c n a b
  | edit {a fs} (hr : a.result = none) (h : E a fs) : EditNext tc E c n a (a.onDisk fs a.store.now)

/-- A working directory after any number of edits, of builds with edits while they were running, and of times at which several bobs were
at work without edits.  Builds may have succeeded, failed or been killed at any point. -/
inductive Worked (tc : Toolchain) (L : Layout) (flags : Bytes → List Bytes) : Store → Prop where
  | start {s} (h : Pristine L s) : Worked tc L flags s
  | built {s s1 p cfg} (h : Worked tc L flags s) (he : Edit L s s1) (hp : ProcOk L flags p)
      (hr : Steps (EditNext tc (MidEdit tc L) p.c p.n) (.idle p.reqs s1) cfg) : Worked tc L flags cfg.store
  | crowd {s s1 ps m} (h : Worked tc L flags s) (he : Edit L s s1) (hps : ∀ p ∈ ps, ProcOk L flags p)
      (hr : CrowdReaches tc ps s1 m) : Worked tc L flags m.store

end Bob
