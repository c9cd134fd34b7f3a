import Verif.Spec.MidEdit
/-!
# Being killed while files are being written

In `Verif.Model.Build` a file is written at once, so that a bob that is killed leaves each file either as it was or complete.  In fact files are opened, which empties them, written, and closed.
A tool that is killed together with bob (all processes of a terminal are, on Ctrl-C and when it is closed; and everything is when the machine stops) leaves what it has written so far.
-/

namespace Bob

/-- The files that may be open for writing at a point of a build. -/
inductive Writing (c : InstCfg) : Cfg → Bytes → Prop where
  /-- `src/frugal.c:75-83` -/
  | flags {j todo tasks rest s} : Writing c (.validating (j :: todo) tasks rest s) (flagsPath j.out)
  /-- `src/class/cc.c:272`, `src/install.c:163` -/
  | already {j todo tasks rest s d} (h : c.dest j.out = some d) : Writing c (.validating (j :: todo) tasks rest s) d
  /-- `src/class/cc.c:80-106` -/
  | deps {tasks rest p w i f j} (hw : p.pc w = .run i 0 f) (hj : tasks[i]? = some j) : Writing c (.pooling tasks rest p) (depsPath j.out)
  /-- the compiler, `src/class/cc.c:135` -/
  | obj {tasks rest p w i f j} (hw : p.pc w = .run i 1 f) (hj : tasks[i]? = some j) : Writing c (.pooling tasks rest p) j.out
  /-- `src/cmd.c:288-329` -/
  | log {tasks rest p w i f j} (hw : p.pc w = .run i 2 f) (hj : tasks[i]? = some j) : Writing c (.pooling tasks rest p) (logPath j.out)
  /-- `src/class/cc.c:147` -/
  | inst {tasks rest p w i f j d} (hw : p.pc w = .run i 3 f) (hj : tasks[i]? = some j) (h : c.dest j.out = some d) : Writing c (.pooling tasks rest p) d
  /-- `src/class/linker.c:68` -/
  | linkFlags {j rest s} : Writing c (.idle (.link j :: rest) s) (flagsPath j.out)
  /-- `src/class/linker.c:87` -/
  | linkAlready {j rest s d} (h : c.dest j.out = some d) : Writing c (.idle (.link j :: rest) s) d
  /-- the linker or archiver, `src/class/linker.c:141-145` -/
  | link {j rest s} : Writing c (.linking j rest s) j.out
  /-- `src/class/linker.c:147` -/
  | linkLog {ok j rest s} : Writing c (.linkRan ok j rest s) (logPath j.out)
  /-- `src/class/linker.c:151` -/
  | linkInst {j rest s d} (h : c.dest j.out = some d) : Writing c (.linked j rest s) d

/-- What is there after everything was killed: files that were open for writing may have any content. -/
structure Torn (W : Bytes → Prop) (fs : FS) (t : Nat) (s : Store) : Prop where
  now : s.now = t
  same : ∀ p, ¬ W p → s.fs p = fs p
  time : ∀ p, s.fs p = fs p ∨ s.fs p = none ∨ ∃ f, s.fs p = some f ∧ f.mtime ≤ t

/-- Products that were damaged, or whose record of what they are made from was, are removed.  Other products may be. -/
structure Mended (L : Layout) (fs : FS) (s s' : Store) : Prop where
  now : s'.now = s.now
  files : ∀ p, s'.fs p = s.fs p ∨ L.isOut p ∧ s'.fs p = none
  outs : ∀ o, L.isOut o → s'.fs o = none ∨ s.fs o = fs o ∧ s.fs (depsPath o) = fs (depsPath o)

/-- The files some bob may be writing. -/
def Crowd.writing (ps : List Proc) (m : Crowd) (q : Bytes) : Prop :=
  ∃ (i : Nat) (p : Proc) (a : Cfg), ps[i]? = some p ∧ m.procs[i]? = some a ∧ Writing p.c a q

/-- A working directory after any number of edits, of builds with edits while they were running, and of times at which several bobs were at work, all of which may have ended with everything being
killed while files were being written, if the products that were damaged, or whose record of includes was, were then removed. -/
inductive Survived (tc : Toolchain) (L : Layout) (flags : Bytes → List Bytes) : Store → Prop where
  | start {s} (h : Pristine L s) : Survived tc L flags s
  | built {s s1 p cfg s2 s3} (h : Survived tc L flags s) (he : Edit L s s1) (hp : ProcOk L flags p)
      (hr : Steps (EditNext tc (MidEdit tc L) p.c p.n) (.idle p.reqs s1) cfg) (ht : Torn (Writing p.c cfg) cfg.store.fs cfg.store.now s2)
      (hm : Mended L cfg.store.fs s2 s3) : Survived tc L flags s3
  | crowd {s s1 ps m s2 s3} (h : Survived tc L flags s) (he : Edit L s s1) (hps : ∀ p ∈ ps, ProcOk L flags p)
      (hr : CrowdReaches tc ps s1 m) (ht : Torn (m.writing ps) m.fs m.now s2) (hm : Mended L m.fs s2 s3) : Survived tc L flags s3

/-- The same without removing anything. -/
inductive Damaged (tc : Toolchain) (L : Layout) (flags : Bytes → List Bytes) : Store → Prop where
  | start {s} (h : Pristine L s) : Damaged tc L flags s
  | built {s s1 p cfg s2} (h : Damaged tc L flags s) (he : Edit L s s1) (hp : ProcOk L flags p)
      (hr : BuildReaches tc p.c p.n p.reqs s1 cfg) (ht : Torn (Writing p.c cfg) cfg.store.fs cfg.store.now s2) : Damaged tc L flags s2

end Bob
