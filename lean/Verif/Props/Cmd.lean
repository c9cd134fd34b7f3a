import Verif.Model.Cmd
import Verif.Lemmas.Base
/-!
# Properties of commands: C21 to C26
-/

namespace Bob

/-! ## C21 -/

/-- One way of adding to a command. -/
inductive CmdOp where
  | add (arg : Bytes)
  | addf (size : Nat) (str : Bytes)
  | argv (args : List Bytes)

def CmdOp.run : CmdOp → CmdArgs → CmdArgs
  | .add a => cmdAdd a
  | .addf n s => cmdAddf n s
  | .argv l => cmdAddArgv l

/-- What it should add: strings end at their first NUL. -/
def CmdOp.meant : CmdOp → List Bytes
  | .add a => [cstr a]
  | .addf n s => [cstr (s.take n)]
  | .argv l => (l.map cstr).filter (· ≠ b!"--")

/-- The vector holds exactly these strings and one NULL. -/
def Holds (c : CmdArgs) (l : List Bytes) : Prop := c.len = l.length + 1 ∧ c.args = l.map Slot.str ++ [.null]

theorem holds_add {c : CmdArgs} {l : List Bytes} (h : Holds c l) (a : Bytes) : Holds (cmdAdd a c) (l ++ [cstr a]) := by
  obtain ⟨h1, h2⟩ := h
  refine ⟨by simp [cmdAdd, h1], ?_⟩
  simp only [cmdAdd, h1, h2]
  rw [show l.length + 1 + 1 - 2 = l.length by omega, show l.length + 1 + 1 - 1 = l.length + 1 by omega]
  rw [List.append_assoc, List.set_append_right _ _ (by simp), List.set_append_right _ _ (by simp)]
  simp

theorem holds_create (l : List Bytes) : Holds (cmdCreate l) (l.map cstr) := by
  have gen : ∀ (l : List Bytes) (c : CmdArgs) (k : List Bytes), Holds c k → Holds (l.foldl (fun c a => cmdAdd a c) c) (k ++ l.map cstr) := by
    intro l
    induction l with
    | nil => intro c k h; simpa using h
    | cons a l ih =>
      intro c k h
      have := ih _ _ (holds_add h a)
      simpa using this
  simpa [cmdCreate] using gen l { len := 1, args := [.null] } [] ⟨rfl, rfl⟩

theorem holds_run {c : CmdArgs} {l : List Bytes} (h : Holds c l) (op : CmdOp) : Holds (op.run c) (l ++ op.meant) := by
  cases op with
  | add a => exact holds_add h a
  | addf n s => exact holds_add h _
  | argv args =>
    simp only [CmdOp.run, CmdOp.meant, cmdAddArgv]
    induction args generalizing c l with
    | nil => simpa using h
    | cons a args ih =>
      rw [List.foldl_cons]
      by_cases ha : cstr a = b!"--"
      · rw [if_pos ha]
        have := ih h
        simpa [ha] using this
      · rw [if_neg ha]
        have := ih (holds_add h a)
        simpa [ha] using this

theorem osArgv_holds (l : List Bytes) : osArgv (l.map Slot.str ++ [.null]) = some l := by
  induction l with
  | nil => rfl
  | cons a l ih => simp [osArgv, ih]

/-- **C21.** However a command is put together, the system gets exactly the arguments that were added, in order; no memory is read that was
not written. -/
theorem C21_argv_exact (first : List Bytes) (ops : List CmdOp) :
    osArgv (ops.foldl (fun c op => op.run c) (cmdCreate first)).args = some (first.map cstr ++ ops.flatMap CmdOp.meant) ∧
    (ops.foldl (fun c op => op.run c) (cmdCreate first)).len = (ops.foldl (fun c op => op.run c) (cmdCreate first)).args.length := by
  have gen : ∀ (ops : List CmdOp) (c : CmdArgs) (l : List Bytes), Holds c l → Holds (ops.foldl (fun c op => op.run c) c) (l ++ ops.flatMap CmdOp.meant) := by
    intro ops
    induction ops with
    | nil => intro c l h; simpa using h
    | cons op ops ih =>
      intro c l h
      have := ih _ _ (holds_run h op)
      simpa using this
  have h := gen ops _ _ (holds_create first)
  obtain ⟨h1, h2⟩ := h
  constructor
  · rw [h2]; exact osArgv_holds _
  · rw [h1, h2]; simp; omega

/-- Instance: a link command, with a flag that is cut at its NUL, and an argv. -/
example : osArgv (cmdAddArgv [b!"--", b!"x", b!"--"] (cmdAddf 5 b!"-l\x00zz" (cmdAdd b!"a.o" (cmdCreate [b!"cc", b!"-o", b!"out"])))).args =
    some [b!"cc", b!"-o", b!"out", b!"a.o", b!"-l", b!"x"] := by decide

/-! ## C22 -/

/-- The entries of a colon-separated list: none has a colon, and they make up the list. -/
def IsEntries (path : Bytes) (dirs : List Bytes) : Prop :=
  dirs ≠ [] ∧ (∀ d ∈ dirs, COLON ∉ d) ∧ path = List.intercalate b!":" dirs

theorem strsepAll_ne_nil' (sep : UInt8) (s : Bytes) : strsepAll sep s ≠ [] := by
  cases s with
  | nil => simp [strsepAll]
  | cons c cs =>
    simp only [strsepAll]
    split
    · simp
    · split <;> simp

theorem strsepAll_cons_ne {sep c : UInt8} (h : ¬ c = sep) (cs : Bytes) :
    ∃ f fs, strsepAll sep cs = f :: fs ∧ strsepAll sep (c :: cs) = (c :: f) :: fs := by
  cases he : strsepAll sep cs with
  | nil => exact (strsepAll_ne_nil' sep cs he).elim
  | cons f fs => exact ⟨f, fs, rfl, by simp [strsepAll, h, he]⟩

theorem strsepAll_entries (path : Bytes) : IsEntries path (strsepAll COLON path) := by
  refine ⟨strsepAll_ne_nil' _ _, ?_, ?_⟩
  · induction path with
    | nil => simp [strsepAll]
    | cons c cs ih =>
      by_cases h : c = COLON
      · simp only [strsepAll, h, if_true]
        intro d hd
        rcases List.mem_cons.mp hd with rfl | hd
        · simp
        · exact ih d hd
      · obtain ⟨f, fs, e1, e2⟩ := strsepAll_cons_ne h cs
        rw [e1] at ih
        rw [e2]
        intro d hd
        rcases List.mem_cons.mp hd with rfl | hd
        · have := ih f (by simp)
          simp only [List.mem_cons, not_or]
          exact ⟨fun e => h e.symm, this⟩
        · exact ih d (by simp [hd])
  · induction path with
    | nil => simp [strsepAll, List.intercalate]
    | cons c cs ih =>
      by_cases h : c = COLON
      · simp only [strsepAll, h, if_true]
        cases he : strsepAll COLON cs with
        | nil => exact (strsepAll_ne_nil' _ _ he).elim
        | cons f fs =>
          rw [he] at ih
          rw [ih]
          simp [List.intercalate, List.intersperse]
      · obtain ⟨f, fs, e1, e2⟩ := strsepAll_cons_ne h cs
        rw [e2]
        rw [e1] at ih
        cases fs with
        | nil => simp [List.intercalate, List.intersperse] at ih ⊢; exact ih
        | cons g gs => simp [List.intercalate, List.intersperse] at ih ⊢; exact ih

/-- A non-directory that may be executed. -/
def ExecWorld.Runnable (w : ExecWorld) (p : Bytes) : Prop := w.kind p = some false ∧ w.xok p = true

theorem isExecutable_iff (w : ExecWorld) (p : Bytes) : w.isExecutable p = true ↔ w.Runnable p := by
  unfold ExecWorld.isExecutable ExecWorld.Runnable
  cases h : w.kind p with
  | none => simp
  | some b => cases b <;> simp

theorem searchDirs_spec (w : ExecWorld) (name : Bytes) (dirs : List Bytes) :
    (∃ pre d post, dirs = pre ++ d :: post ∧ w.Runnable (d ++ b!"/" ++ name) ∧ (∀ e ∈ pre, ¬ w.Runnable (e ++ b!"/" ++ name)) ∧
      searchDirs w name dirs = .found (d ++ b!"/" ++ name)) ∨
    ((∀ e ∈ dirs, ¬ w.Runnable (e ++ b!"/" ++ name)) ∧ searchDirs w name dirs = .missing) := by
  induction dirs with
  | nil => right; simp [searchDirs]
  | cons d dirs ih =>
    by_cases h : w.isExecutable (d ++ b!"/" ++ name) = true
    · exact Or.inl ⟨[], d, dirs, rfl, (isExecutable_iff _ _).mp h, by simp, by simp only [searchDirs, h, if_true]⟩
    · have hn : ¬ w.Runnable (d ++ b!"/" ++ name) := fun hh => h ((isExecutable_iff _ _).mpr hh)
      have hs : searchDirs w name (d :: dirs) = searchDirs w name dirs := by simp only [searchDirs, h, Bool.false_eq_true, if_false]
      rcases ih with ⟨pre, e, post, rfl, h1, h2, h3⟩ | ⟨h1, h2⟩
      · refine Or.inl ⟨d :: pre, e, post, rfl, h1, ?_, hs.trans h3⟩
        intro x hx
        rcases List.mem_cons.mp hx with rfl | hx
        · exact hn
        · exact h2 x hx
      · refine Or.inr ⟨?_, hs.trans h2⟩
        intro x hx
        rcases List.mem_cons.mp hx with rfl | hx
        · exact hn
        · exact h1 x hx

/-- **C22.** A command is found under its own name if that can be run, otherwise in the first entry of `$PATH` with a file of that name
that can be run, and otherwise it is missing.  Without `$PATH`, bob ends. -/
theorem C22_find_bin (w : ExecWorld) (name : Bytes) :
    (w.Runnable name → findBin w name = .found name) ∧
    (¬ w.Runnable name → w.path = none → findBin w name = .exit) ∧
    (¬ w.Runnable name → ∀ path, w.path = some path → ∃ dirs, IsEntries path dirs ∧
      ((∃ pre d post, dirs = pre ++ d :: post ∧ w.Runnable (d ++ b!"/" ++ name) ∧ (∀ e ∈ pre, ¬ w.Runnable (e ++ b!"/" ++ name)) ∧
        findBin w name = .found (d ++ b!"/" ++ name)) ∨
      ((∀ d ∈ dirs, ¬ w.Runnable (d ++ b!"/" ++ name)) ∧ findBin w name = .missing))) := by
  refine ⟨fun h => ?_, fun h hp => ?_, fun h path hp => ⟨strsepAll COLON path, strsepAll_entries path, ?_⟩⟩
  · simp [findBin, (isExecutable_iff _ _).mpr h]
  · have : ¬ w.isExecutable name = true := fun e => h ((isExecutable_iff _ _).mp e)
    simp [findBin, this, hp]
  · have hn : ¬ w.isExecutable name = true := fun e => h ((isExecutable_iff _ _).mp e)
    have : findBin w name = searchDirs w name (strsepAll COLON path) := by simp [findBin, hn, hp]
    rw [this]
    exact searchDirs_spec w name _

def demoExec : ExecWorld where
  kind p := if p = b!"/a/cc" then some true else if p = b!"/b/cc" ∨ p = b!"/c/cc" ∨ p = b!"tool" ∨ p = b!"/b/tool" then some false else none
  xok p := p ≠ b!"/b/cc"
  path := some b!"/a:/b::/c"

/-- Instance: the first entry has a directory of that name, the second a file without permission, the third is empty. -/
example : findBin demoExec b!"cc" = .found b!"/c/cc" ∧ findBin demoExec b!"ld" = .missing := by decide

/-- **C22** does not carry over to what is run: bob finds a bare name in the working directory, but `posix_spawnp`, which is given
the bare name, looks in `$PATH`. -/
theorem C22_spawn_runs_another_file_false : ∃ w name, findBin w name = .found name ∧ spawnTarget w name = some b!"/b/tool" ∧ name ≠ b!"/b/tool" :=
  ⟨demoExec, b!"tool", by decide, by decide, by decide⟩

/-- In all other cases the file found is the one run. -/
theorem C22_spawn_runs_found (w : ExecWorld) (name p : Bytes) (h : findBin w name = .found p) (hs : SLASH ∈ name ∨ ¬ w.Runnable name) :
    spawnTarget w p = some p := by
  have key : SLASH ∈ p ∧ w.Runnable p := by
    by_cases hr : w.Runnable name
    · have := (C22_find_bin w name).1 hr
      rw [h] at this; injection this with this
      subst this
      exact ⟨hs.resolve_right (fun h => h hr), hr⟩
    · cases hp : w.path with
      | none => have := (C22_find_bin w name).2.1 hr hp; rw [h] at this; cases this
      | some path =>
        obtain ⟨dirs, _, ⟨pre, d, post, _, h1, _, h2⟩ | ⟨_, h2⟩⟩ := (C22_find_bin w name).2.2 hr path hp
        · rw [h] at h2; injection h2 with h2; subst h2
          exact ⟨by simp, h1⟩
        · rw [h] at h2; cases h2
  unfold spawnTarget
  rw [if_pos key.1, if_pos ((isExecutable_iff _ _).mpr key.2)]

/-! ## C23 -/

/-- How a process ended. -/
inductive Fate where
  | exited (code : Nat)
  | killed (sig : Nat) (core : Bool)

/-- Exit codes have eight bits, signals are from 1 to 126. -/
def Fate.Valid : Fate → Prop
  | .exited code => code < 256
  | .killed sig _ => 0 < sig ∧ sig < 127

/-- The status word `waitpid` gives for it. -/
def Fate.status : Fate → Nat
  | .exited code => code * 256
  | .killed sig core => sig + if core then 128 else 0

/-- **C23.** When `waitpid` gives the status of the process and then finds no more processes, waiting reports success if and only if the
process exited with code 0, and reports the signal if there was one. -/
theorem C23_fate_reported (f : Fate) (hf : f.Valid) :
    ((waitForProcess [some f.status, none]).1 = 0 ↔ f = .exited 0) ∧
    ((waitForProcess [some f.status, none]).1 = 0 ∨ (waitForProcess [some f.status, none]).1 = -1) ∧
    (waitForProcess [some f.status, none]).2 = (match f with | .exited _ => 0 | .killed sig _ => sig) := by
  cases f with
  | exited code =>
    simp only [Fate.Valid] at hf
    have h1 : wTermSig (code * 256) = 0 := by unfold wTermSig; omega
    have h2 : wExitStatus (code * 256) = code := by unfold wExitStatus; omega
    have h3 : waitForProcess [some (Fate.exited code).status, none] = (if code = 0 then 0 else -1, 0) := by
      simp [waitForProcess, waitLoop, Fate.status, wIfSignaled, wIfExited, h1, h2]
    rw [h3]
    by_cases hc : code = 0
    · simp [hc]
    · simp [hc]
  | killed sig core =>
    simp only [Fate.Valid] at hf
    have h1 : wTermSig (sig + if core then 128 else 0) = sig := by
      unfold wTermSig
      cases core
      · simp; omega
      · simp; omega
    have hne : sig ≠ 0 ∧ sig ≠ 127 := by omega
    have h3 : waitForProcess [some (Fate.killed sig core).status, none] = (-1, sig) := by
      simp [waitForProcess, waitLoop, Fate.status, wIfSignaled, h1, hne]
    rw [h3]
    simp

example : waitForProcess [some (Fate.exited 3).status, none] = (-1, 0) ∧ waitForProcess [some (Fate.killed 11 true).status, none] = (-1, 11) := by decide

/-- **C23** is false when waiting fails, for example because a signal for bob interrupts it: that is reported as success of the command. -/
theorem C23_wait_error_false (calls : List (Option Nat)) : waitForProcess (none :: calls) = (0, 0) := by
  simp [waitForProcess, waitLoop, wIfSignaled, wIfExited, wTermSig, wExitStatus]

/-- **C23**, for `cmd_exec`: if the process could be started, its result is the process's fate. -/
theorem C23_exec_result (dbg : Bool) (w : SpawnWorld) (name : Bytes) {p : Bytes} (hf : findBin w.exec name = .found p) (hp : w.pipeOk = true)
    (hs : w.spawnRet = 0) (hc : 0 < w.child) (f : Fate) (hv : f.Valid) (hw : w.wait w.child = [some f.status, none]) :
    ∃ r, cmdExec dbg w name = some r ∧ (r.1 = 0 ↔ f = .exited 0) := by
  have hlt : ¬ w.child < 0 := by omega
  refine ⟨waitForProcess (w.wait w.child), ?_, ?_⟩
  · simp [cmdExec, cmdExecAsync, hf, hp, hs, hlt]
  · rw [hw]; exact (C23_fate_reported f hv).1

/-! ## C24 -/

theorem readLoop_eq (chunks : List Bytes) (out : Bytes) : readLoop chunks (out, out.length) = (out ++ chunks.flatten, (out ++ chunks.flatten).length) := by
  induction chunks generalizing out with
  | nil => simp [readLoop]
  | cons c cs ih =>
    simp only [readLoop]
    have e : out.take (out.length + c.length - c.length) ++ c = out ++ c := by simp
    rw [e, show out.length + c.length = (out ++ c).length by simp, ih]
    simp

/-- **C24.** However the output of a command arrives in pieces, what bob captures is all of it, followed by one line naming the signal if
the command died from one. -/
theorem C24_output_complete (written : Bytes) (chunks : List Bytes) (h : chunks.flatten = written) (sig : Nat) (strsignal : Nat → Bytes) :
    cmdReadOut false chunks sig strsignal = written ++ if sig = 0 then [] else sigLine (strsignal sig) := by
  have := readLoop_eq chunks []
  simp only [List.length_nil, List.nil_append] at this
  unfold cmdReadOut
  rw [this, h]
  by_cases hs : sig = 0 <;> simp [hs]

/-- **C24.** In particular the pieces do not matter. -/
theorem C24_chunking_irrelevant (c d : List Bytes) (h : c.flatten = d.flatten) (dbg : Bool) (sig : Nat) (strsignal : Nat → Bytes) :
    cmdReadOut dbg c sig strsignal = cmdReadOut dbg d sig strsignal := by
  cases dbg with
  | true => rfl
  | false => rw [C24_output_complete _ c rfl, C24_output_complete _ d rfl, h]

example : cmdReadOut false [b!"war", b!"ning\n"] 11 (fun _ => b!"Segmentation fault") =
    b!"warning\n" ++ b!"\x1b[1;31mTerminated by signal: Segmentation fault\n" := by decide

/-- The log is what the build model says (`writeLog`): the text, up to a NUL, or no file if there is none. -/
theorem C24_log_is_text (cookie out : Bytes) (s : Store) : cmdLog cookie out s = writeLog cookie out s := by
  cases out with
  | nil => rfl
  | cons c cs =>
    by_cases h : c = NUL
    · simp [cmdLog, writeLog, cstr, h, logPath]
    · simp [cmdLog, writeLog, cstr, h, logPath]

/-! ## C25 -/

inductive PipeReach (cap n : Nat) : PipeSt → Prop where
  | init : PipeReach cap n (PipeSt.init n)
  | step {a b} (h : PipeReach cap n a) (hs : PipeStep cap a b) : PipeReach cap n b

structure PipeInv (cap n : Nat) (s : PipeSt) : Prop where
  sum : s.left + s.fill + s.got = n
  cap : s.fill ≤ cap
  wait : s.parent = .waiting → s.got = 0
  gone : s.exited = true → s.left = 0
  after : s.parent ≠ .waiting → s.exited = true
  all : s.parent = .done → s.got = n

theorem pipe_inv {cap n : Nat} {s : PipeSt} (h : PipeReach cap n s) : PipeInv cap n s := by
  induction h with
  | init => exact ⟨by simp [PipeSt.init], by simp [PipeSt.init], fun _ => rfl, by simp [PipeSt.init], by simp [PipeSt.init], by simp [PipeSt.init]⟩
  | @step a b _ hs ih =>
    obtain ⟨h1, h2, h3, h4, h5, h6⟩ := ih
    cases hs with
    | write k hk hl hf =>
      refine ⟨by simp only; omega, by simp only; omega, h3, fun he => ?_, h5, fun hp => h6 hp⟩
      have := h4 he; omega
    | exit hl he =>
      exact ⟨h1, h2, h3, fun _ => hl, fun _ => rfl, h6⟩
    | reap hp he => exact ⟨h1, h2, by simp, h4, fun _ => he, by simp⟩
    | read k hk hf hp =>
      refine ⟨by simp only; omega, by simp only; omega, ?_, h4, h5, ?_⟩
      · intro hw; simp only [hp] at hw; cases hw
      · intro hd; simp only [hp] at hd; cases hd
    | eof hp hf he =>
      refine ⟨h1, h2, by simp, h4, fun _ => he, fun _ => ?_⟩
      have := h4 he
      show a.got = n
      omega

/-- **C25** is false: with output larger than the capacity of a pipe, `cmd_exec` never returns: in every execution bob waits forever, and
every execution comes to a point where neither side can do anything. -/
theorem C25_large_output_blocks_false (cap n : Nat) (h : cap < n) :
    (∀ s, PipeReach cap n s → s.parent = .waiting ∧ s.exited = false) ∧
    (∀ s, PipeReach cap n s → s.fill = cap → ∀ s', ¬ PipeStep cap s s') ∧
    ∃ s, PipeReach cap n s ∧ s.fill = cap := by
  have wait : ∀ s, PipeReach cap n s → s.parent = .waiting ∧ s.exited = false := by
    intro s hs
    have hi := pipe_inv hs
    induction hs with
    | init => exact ⟨rfl, rfl⟩
    | @step a b ha hab ih =>
      obtain ⟨h1, h2⟩ := ih (pipe_inv ha)
      have hw := (pipe_inv ha).wait h1
      have hsum := (pipe_inv ha).sum
      have hcap := (pipe_inv ha).cap
      cases hab with
      | write => exact ⟨h1, h2⟩
      | exit hl he => omega
      | reap hp he => rw [h2] at he; cases he
      | read k hk hf hp => rw [h1] at hp; cases hp
      | eof hp => rw [h1] at hp; cases hp
  refine ⟨wait, ?_, ?_⟩
  · intro s hs hfull s' hstep
    obtain ⟨h1, h2⟩ := wait s hs
    have hw := (pipe_inv hs).wait h1
    have hsum := (pipe_inv hs).sum
    cases hstep with
    | write k hk hl hf => omega
    | exit hl he => omega
    | reap hp he => rw [h2] at he; cases he
    | read k hk hf hp => rw [h1] at hp; cases hp
    | eof hp => rw [h1] at hp; cases hp
  · by_cases hc : cap = 0
    · exact ⟨_, .init, by simp [PipeSt.init, hc]⟩
    · exact ⟨_, .step .init (.write cap (by omega) (by simp [PipeSt.init]; omega) (by simp [PipeSt.init])), by simp [PipeSt.init]⟩

/-- What is left to do. -/
def PipeSt.work (s : PipeSt) : Nat :=
  2 * s.left + s.fill + (if s.exited then 0 else 1) + match s.parent with | .waiting => 2 | .reading => 1 | .done => 0

theorem pipe_work {cap : Nat} {s s' : PipeSt} (h : PipeStep cap s s') : s'.work < s.work := by
  cases h with
  | write k hk hl hf => simp only [PipeSt.work]; omega
  | exit hl he => simp only [PipeSt.work, he]; simp
  | reap hp he => simp only [PipeSt.work, hp]; omega
  | read k hk hf hp => simp only [PipeSt.work]; omega
  | eof hp hf he => simp only [PipeSt.work, hp]; omega

/-- **C25**, partial: with output that fits into a pipe every execution ends, and ends with bob having read everything. -/
theorem C25_small_output_terminates_partial (cap n : Nat) (h : n ≤ cap) {s : PipeSt} (hs : PipeReach cap n s) :
    (∀ s', PipeStep cap s s' → s'.work < s.work) ∧
    ((∀ s', ¬ PipeStep cap s s') → s.parent = .done ∧ s.got = n) := by
  refine ⟨fun s' => pipe_work, fun hstuck => ?_⟩
  have hi := pipe_inv hs
  have hdone : s.parent = .done := by
    by_cases hl : s.left = 0
    · cases he : s.exited with
      | false => exact (hstuck _ (.exit hl he)).elim
      | true =>
        cases hp : s.parent with
        | waiting => exact (hstuck _ (.reap hp he)).elim
        | reading =>
          by_cases hf : s.fill = 0
          · exact (hstuck _ (.eof hp hf he)).elim
          · exact (hstuck _ (.read 1 (by omega) (by omega) hp)).elim
        | done => rfl
    · have := hi.sum
      exact (hstuck _ (.write 1 (by omega) (by omega) (by omega))).elim
  exact ⟨hdone, hi.all hdone⟩

/-- Instance: Linux pipes hold 65536 bytes; a compiler printing 70000 bytes of warnings never finishes. -/
example : ∃ s, PipeReach 65536 70000 s ∧ s.fill = 65536 := (C25_large_output_blocks_false 65536 70000 (by omega)).2.2

/-! ## C26 -/

/-- **C26** is false: the error numbers of `posix_spawnp` are positive and bob takes them for success.  Whatever the error, the process ID is
what was in memory before; if that is not negative and not one of bob's processes, the command that was never run is reported to have
succeeded. -/
theorem C26_spawn_error_false (dbg : Bool) (w : SpawnWorld) (name : Bytes) {p : Bytes} (hf : findBin w.exec name = .found p) (hp : w.pipeOk = true)
    (he : 0 < w.spawnRet) :
    cmdExecAsync dbg w name = some w.garbage ∧
    (0 ≤ w.garbage → w.wait w.garbage = [none] → cmdExec dbg w name = some (0, 0)) := by
  have h1 : cmdExecAsync dbg w name = some w.garbage := by
    have hn : ¬ w.spawnRet = 0 := by omega
    have hl : ¬ w.spawnRet < 0 := by omega
    simp [cmdExecAsync, hf, hp, hn, hl]
  refine ⟨h1, fun hg hw => ?_⟩
  have : ¬ w.garbage < 0 := by omega
  simp [cmdExec, h1, this, hw, C23_wait_error_false]

/-- **C26**, partial: the failures bob does notice. -/
theorem C26_noticed_failures_partial (dbg : Bool) (w : SpawnWorld) (name : Bytes)
    (h : findBin w.exec name = .missing ∨ (∃ p, findBin w.exec name = .found p) ∧ dbg = false ∧ w.pipeOk = false) :
    cmdExec dbg w name = some (-1, 0) := by
  rcases h with h | ⟨⟨p, h⟩, rfl, hp⟩
  · simp [cmdExec, cmdExecAsync, h]
  · simp [cmdExec, cmdExecAsync, h, hp]

/-- Instance: `E2BIG` (7), with the number 55 left on the stack. -/
def demoSpawn : SpawnWorld := { exec := demoExec, pipeOk := true, spawnRet := 7, child := 100, garbage := 55, wait := fun _ => [none] }

example : cmdExec false demoSpawn b!"cc" = some (0, 0) := by decide

end Bob
