import Verif.Model.CopyErr
import Verif.Props.Logging
/-!
# C83: when copying fails, the message gives the reason
-/

namespace Bob

/-! ## The specification

A reason is what the program that failed has printed, without the newline at its end. -/

/-- What `LOG_FATAL` prints when a reason is known. -/
def copyFailed (colour : Bool) (key path reason : Bytes) : Bytes :=
  (if colour then b!"💀 \x1b[1;35m" else []) ++ (b!"Failed to copy '" ++ key ++ b!"' to '" ++ path ++ b!"': " ++ reason) ++
    (if colour then b!"\x1b[0m\n" else b!"\n")

/-- A program is started, prints and exits with a status other than 0. -/
structure FailsSaying (w : SpawnWorld) (name : Bytes) (chunks : List Bytes) (says : Bytes) : Prop where
  pid : cmdExecAsync false w name = some w.child
  child : 0 ≤ w.child
  status : ∃ code, 0 < code ∧ code < 256 ∧ w.wait w.child = [some (code * 256)]
  says : chunks.flatten = says

/-- A program is started and killed. -/
structure KilledSaying (w : SpawnWorld) (name : Bytes) (sig : Nat) (chunks : List Bytes) (says : Bytes) : Prop where
  pid : cmdExecAsync false w name = some w.child
  child : 0 ≤ w.child
  status : 0 < sig ∧ sig < 127 ∧ w.wait w.child = [some sig]
  says : chunks.flatten = says

/-! ## Proofs -/

theorem readLoop_flatten : ∀ (cs : List Bytes) (acc : Bytes), readLoop cs (acc, acc.length) = (acc ++ cs.flatten, (acc ++ cs.flatten).length)
  | [], acc => by simp [readLoop]
  | c :: cs, acc => by
    have := readLoop_flatten cs (acc ++ c)
    simp only [List.length_append] at this
    simp [readLoop, this, List.append_assoc, Nat.add_assoc]

theorem cmdReadOut_calm (cs : List Bytes) (ss : Nat → Bytes) : cmdReadOut false cs 0 ss = cs.flatten := by
  have := readLoop_flatten cs []
  simp only [List.length_nil, List.nil_append] at this
  rw [cmdReadOut, this]
  simp [-List.length_flatten]

theorem cmdReadOut_killed (cs : List Bytes) {sig : Nat} (h : sig ≠ 0) (ss : Nat → Bytes) :
    cmdReadOut false cs sig ss = cs.flatten ++ sigLine (ss sig) := by
  have := readLoop_flatten cs []
  simp only [List.length_nil, List.nil_append] at this
  rw [cmdReadOut, this]
  simp [h, -List.length_flatten]

theorem FailsSaying.res {w : SpawnWorld} {name : Bytes} {cs : List Bytes} {says : Bytes} (h : FailsSaying w name cs says) (m : CmdRes) :
    cmdExecRes false w name m = some (-1, { rv := -1, sig := 0 }) := by
  obtain ⟨code, h0, h1, hw⟩ := h.status
  have hn : ¬ w.child < 0 := by have := h.child; omega
  have e1 : code * 256 % 128 = 0 := by omega
  have e2 : code % 256 ≠ 0 := by omega
  simp [cmdExecRes, h.pid, hn, hw, waitForProcess, waitLoop, wIfSignaled, wIfExited, wTermSig, wExitStatus, e1, e2]

theorem KilledSaying.res {w : SpawnWorld} {name : Bytes} {sig : Nat} {cs : List Bytes} {says : Bytes} (h : KilledSaying w name sig cs says)
    (m : CmdRes) : cmdExecRes false w name m = some (-1, { rv := -1, sig := sig }) := by
  obtain ⟨h0, h1, hw⟩ := h.status
  have hn : ¬ w.child < 0 := by have := h.child; omega
  have e1 : sig % 128 = sig := by omega
  have e3 : sig ≠ 0 := by omega
  have e4 : sig ≠ 127 := by omega
  simp [cmdExecRes, h.pid, hn, hw, waitForProcess, waitLoop, wIfSignaled, wTermSig, e1, e3, e4]

theorem copyFailed_eq {key path e : Bytes} (h1 : NUL ∉ key) (h2 : NUL ∉ path) (h3 : NUL ∉ e) (colour : Bool) :
    vlog colour .fatal (b!"Failed to copy '" ++ key ++ b!"' to '" ++ path ++ b!"': " ++ e) = copyFailed colour key path e := by
  have hn : NUL ∉ b!"Failed to copy '" ++ key ++ b!"' to '" ++ path ++ b!"': " ++ e := by
    simp only [List.mem_append, not_or]
    exact ⟨⟨⟨⟨⟨by decide, h1⟩, by decide⟩, h2⟩, by decide⟩, h3⟩
  have ec : Level.colour .fatal = b!"💀 \x1b[1;35m" := by decide
  have en : CLEAR ++ b!"\n" = b!"\x1b[0m\n" := by decide
  unfold vlog copyFailed
  rw [cstr_self hn, ec]
  cases colour
  · simp
  · simp only [if_true]; rw [List.append_assoc _ CLEAR, en]

theorem dropNewline_line {o : Bytes} (h : NUL ∉ o) : dropNewline (o ++ b!"\n") = o := by
  have : NUL ∉ o ++ b!"\n" := by simp only [List.mem_append, not_or]; exact ⟨h, by decide⟩
  rw [dropNewline, cstr_self this]
  exact List.dropLast_concat

/-- **C83**, the part that holds: if the thing to copy is there, is not a directory or what it would replace could be removed, and `cp` fails after
printing lines, then the message ends with these. -/
theorem C83_reason_given_partial {w : CopyWorld} {key path : Bytes} {dir : Bool} {r : ErrRes} {o : Bytes}
    (hs : w.stat key = some dir) (hr : dir = true → rmErr false w none = some r ∧ 0 ≤ r.1)
    (hc : FailsSaying w.cp b!"cp" w.cpOut (o ++ b!"\n")) (h1 : NUL ∉ key) (h2 : NUL ∉ path) (h3 : NUL ∉ o) (colour : Bool) :
    installCopy colour false w key path = .failed (copyFailed colour key path o) := by
  have hcp := hc.res w.cpMem
  have hout : dropNewline (cmdReadOut false w.cpOut 0 w.strsignal) = o := by
    rw [cmdReadOut_calm, hc.says, dropNewline_line h3]
  rw [← copyFailed_eq h1 h2 h3]
  cases dir with
  | false => simp only [installCopy, copyErr, hs, hcp]; simp [hout]
  | true =>
    obtain ⟨hr, h0⟩ := hr rfl
    obtain ⟨r, e⟩ := r
    have hn : ¬ r < 0 := by simpa using h0
    simp only [installCopy, copyErr, hs, hr, hcp]; simp [hn, hout]

/-- **C83** for a `cp` that is killed: the message ends with what it has printed and the name of the signal. -/
theorem C83_signal_given_partial {w : CopyWorld} {key path : Bytes} {dir : Bool} {r : ErrRes} {sig : Nat} {o : Bytes}
    (hs : w.stat key = some dir) (hr : dir = true → rmErr false w none = some r ∧ 0 ≤ r.1)
    (hc : KilledSaying w.cp b!"cp" sig w.cpOut o) (h1 : NUL ∉ key) (h2 : NUL ∉ path) (h3 : NUL ∉ o) (h4 : NUL ∉ w.strsignal sig) (colour : Bool) :
    installCopy colour false w key path =
      .failed (copyFailed colour key path (o ++ b!"\x1b[1;31mTerminated by signal: " ++ w.strsignal sig)) := by
  have hcp := hc.res w.cpMem
  have h5 : NUL ∉ o ++ b!"\x1b[1;31mTerminated by signal: " ++ w.strsignal sig := by
    simp only [List.mem_append, not_or]
    exact ⟨⟨h3, by decide⟩, h4⟩
  have hout : dropNewline (cmdReadOut false w.cpOut sig w.strsignal) = o ++ b!"\x1b[1;31mTerminated by signal: " ++ w.strsignal sig := by
    rw [cmdReadOut_killed _ (by have := hc.status.1; omega), hc.says, ← dropNewline_line h5]
    simp [sigLine, List.append_assoc]
  rw [← copyFailed_eq h1 h2 h5]
  cases dir with
  | false => simp only [installCopy, copyErr, hs, hcp]; simp [hout]
  | true =>
    obtain ⟨hr, h0⟩ := hr rfl
    obtain ⟨r, e⟩ := r
    have hn : ¬ r < 0 := by simpa using h0
    simp only [installCopy, copyErr, hs, hr, hcp]; simp [hn, hout]

/-- **C83** fails, and `NULL` is printed, exactly if the thing to copy cannot be examined, or is a directory and what it would replace cannot be
removed: `rm` has been told where to put the reason and never does. -/
theorem C83_no_reason_iff (colour dbg : Bool) (w : CopyWorld) (key path : Bytes) :
    installCopy colour dbg w key path = .undefined ↔
      w.stat key = none ∨ w.stat key = some true ∧ ∃ r res, cmdExecRes dbg w.rm b!"rm" w.rmMem = some (r, res) ∧ r < 0 := by
  unfold installCopy copyErr
  cases hs : w.stat key with
  | none => simp
  | some dir =>
    cases dir with
    | false =>
      cases hc : cmdExecRes dbg w.cp b!"cp" w.cpMem with
      | none => simp
      | some y =>
        obtain ⟨rv, res⟩ := y
        by_cases hy : rv < 0 <;> simp [hy]
    | true =>
      cases hr : cmdExecRes dbg w.rm b!"rm" w.rmMem with
      | none => simp [rmErr, hr]
      | some x =>
        obtain ⟨r, m⟩ := x
        by_cases hx : r < 0
        · simp [rmErr, hr, hx]
        · cases hc : cmdExecRes dbg w.cp b!"cp" w.cpMem with
          | none => simp [rmErr, hr, hx]
          | some y =>
            obtain ⟨rv, res⟩ := y
            by_cases hy : rv < 0 <;> simp [rmErr, hr, hx, hy]

/-! ## Cases -/

/-- A program that is started, prints and exits with status 1. -/
def exitsOne : SpawnWorld :=
  { exec := { kind := fun _ => some false, xok := fun _ => true, path := some b!"/bin" }, pipeOk := true, spawnRet := 0, child := 7, garbage := 0,
    wait := fun _ => [some 256] }

/-- A program that is started and exits with status 0. -/
def exitsZero : SpawnWorld := { exitsOne with wait := fun _ => [some 0] }

/-- A file that cannot be written to. -/
def readOnlyFile : CopyWorld :=
  { stat := fun _ => some false, rm := exitsZero, cp := exitsOne, rmMem := { rv := 0, sig := 0 }, cpMem := { rv := 0, sig := 0 }, rmOut := [],
    cpOut := [b!"cp: cannot create regular file 'p/bin/x'", b!": Permission denied\n"], strsignal := fun _ => b!"Killed" }

/-- A directory in place of which there is one that cannot be removed. -/
def readOnlyDir : CopyWorld :=
  { readOnlyFile with stat := fun _ => some true, rm := exitsOne, rmOut := [b!"rm: cannot remove 'p/share/x': Permission denied\n"] }

example : installCopy false false readOnlyFile b!".bob/x.l" b!"p/bin/x" =
    .failed b!"Failed to copy '.bob/x.l' to 'p/bin/x': cp: cannot create regular file 'p/bin/x': Permission denied\n" :=
  (C83_reason_given_partial (dir := false) (r := (0, none)) (o := b!"cp: cannot create regular file 'p/bin/x': Permission denied") rfl (fun h => nomatch h)
    ⟨by decide, by decide, ⟨1, by decide, by decide, rfl⟩, by decide⟩ (by decide) (by decide) (by decide) false).trans (by decide)

/-- A directory whose destination could be removed and that cannot be copied. -/
example : installCopy false false { readOnlyDir with rm := exitsZero } b!"res" b!"p/share/x" =
    .failed b!"Failed to copy 'res' to 'p/share/x': cp: cannot create regular file 'p/bin/x': Permission denied\n" :=
  (C83_reason_given_partial (dir := true) (r := (0, none)) (o := b!"cp: cannot create regular file 'p/bin/x': Permission denied") rfl
    (fun _ => ⟨by decide, by decide⟩)
    ⟨by decide, by decide, ⟨1, by decide, by decide, rfl⟩, by decide⟩ (by decide) (by decide) (by decide) false).trans (by decide)

example : installCopy true false { readOnlyFile with cp := { exitsOne with wait := fun _ => [some 9] }, cpOut := [] } b!"a" b!"b" =
    .failed b!"💀 \x1b[1;35mFailed to copy 'a' to 'b': \x1b[1;31mTerminated by signal: Killed\x1b[0m\n" :=
  (C83_signal_given_partial (dir := false) (r := (0, none)) (sig := 9) (o := []) rfl (fun h => nomatch h)
    ⟨by decide, by decide, ⟨by decide, by decide, rfl⟩, by decide⟩ (by decide) (by decide) (by decide) (by decide) true).trans (by decide)

/-- **C83** as stated is false: the directory that is to be replaced cannot be removed, `rm` says why, and bob does not print it. -/
theorem C83_reason_given_false : ¬ ∀ (w : CopyWorld) (key path o : Bytes) (colour : Bool), w.stat key = some true →
    FailsSaying w.rm b!"rm" w.rmOut (o ++ b!"\n") → NUL ∉ key → NUL ∉ path → NUL ∉ o →
      installCopy colour false w key path = .failed (copyFailed colour key path o) := by
  intro h
  have := h readOnlyDir b!"res" b!"p/share/x" b!"rm: cannot remove 'p/share/x': Permission denied" false rfl
    ⟨by decide, by decide, ⟨1, by decide, by decide, rfl⟩, by decide⟩ (by decide) (by decide) (by decide)
  rw [(C83_no_reason_iff _ _ _ _ _).2 (.inr ⟨rfl, -1, { rv := -1, sig := 0 }, by decide, by decide⟩)] at this
  exact nomatch this

/-- A reason that does not end with a newline loses its last byte. -/
theorem C83_unended_false : ∃ (w : CopyWorld) (o : Bytes), FailsSaying w.cp b!"cp" w.cpOut o ∧ w.stat b!"a" = some false ∧
    installCopy false false w b!"a" b!"b" = .failed (copyFailed false b!"a" b!"b" o.dropLast) ∧ o.dropLast ≠ o ∧ b!"\n" ≠ o.drop (o.length - 1) :=
  ⟨{ readOnlyFile with cpOut := [b!"cp: error 12"] }, b!"cp: error 12",
    ⟨by decide, by decide, ⟨1, by decide, by decide, rfl⟩, by decide⟩, rfl, by decide, by decide, by decide⟩

end Bob
