import Verif.Model.Stdio
import Verif.Props.Logging
/-!
# C85: everything bob prints is seen, in order
-/

namespace Bob

/-! ## The specification -/

/-- What was printed to a stream. -/
def textOf (x : Stream) (ps : List (Stream × Bytes)) : Bytes := ((ps.filter fun p => p.1 = x).map (·.2)).flatten

/-- What has come out of a stream. -/
def seenOf (x : Stream) (dev : List (Stream × UInt8)) : Bytes := (dev.filter fun p => p.1 = x).map (·.2)

/-- What is seen where both streams go to the same place. -/
def seen (dev : List (Stream × UInt8)) : Bytes := dev.map (·.2)

/-- Nothing, or whole lines. -/
def Lines (bs : Bytes) : Prop := bs = [] ∨ bs.getLast? = some NL

instance (bs : Bytes) : Decidable (Lines bs) := by unfold Lines; infer_instance

/-- Both streams are the terminal. -/
structure OnTerminal (c : StdioCfg) : Prop where
  out : c.mode .out = .line
  err : c.mode .err = .none

/-- Standard output is a file or a pipe. -/
structure Redirected (c : StdioCfg) : Prop where
  out : c.mode .out = .full
  err : c.mode .err = .none

/-! ## Proofs -/

theorem seenOf_append (x : Stream) (a b : List (Stream × UInt8)) : seenOf x (a ++ b) = seenOf x a ++ seenOf x b := by simp [seenOf]

theorem seenOf_same (x : Stream) (bs : Bytes) : seenOf x (bs.map (x, ·)) = bs := by
  induction bs with
  | nil => rfl
  | cons b bs ih => unfold seenOf at *; simpa using ih

theorem seenOf_other {x y : Stream} (h : x ≠ y) (bs : Bytes) : seenOf y (bs.map (x, ·)) = [] := by
  induction bs with
  | nil => rfl
  | cons b bs ih => unfold seenOf at *; simp [h]

theorem textOf_cons (x y : Stream) (bs : Bytes) (ps : List (Stream × Bytes)) : textOf y ((x, bs) :: ps) = (if x = y then bs else []) ++ textOf y ps := by
  unfold textOf
  by_cases h : x = y <;> simp [h]

theorem puts_seen {c : StdioCfg} {x : Stream} {bs : Bytes} {a b : Stdio} (h : Puts c x bs a b) (y : Stream) :
    seenOf y b.dev ++ b.buf y = seenOf y a.dev ++ a.buf y ++ (if x = y then bs else []) := by
  cases h with
  | mk sent kept h ha =>
    by_cases hxy : x = y
    · subst hxy
      simp only [seenOf_append, seenOf_same, if_true, List.append_assoc, h]
    · simp only [seenOf_append, seenOf_other hxy, if_neg hxy, if_neg (Ne.symm hxy), List.append_nil]

theorem putsAll_seen {c : StdioCfg} {ps : List (Stream × Bytes)} {a b : Stdio} (h : PutsAll c ps a b) (y : Stream) :
    seenOf y b.dev ++ b.buf y = seenOf y a.dev ++ a.buf y ++ textOf y ps := by
  induction h with
  | nil => simp [textOf]
  | cons h _ ih => rw [ih, puts_seen h y, textOf_cons, List.append_assoc]

/-- **C85**, the part that holds always: when bob has exited, each stream has given out just what was printed to it, in order, however it is buffered. -/
theorem C85_nothing_lost_partial {c : StdioCfg} {ps : List (Stream × Bytes)} {st : Stdio} (h : PutsAll c ps .init st) (x : Stream) :
    seenOf x (Ending.exit.finish st).dev = textOf x ps := by
  have := putsAll_seen h x
  simp only [Stdio.init, seenOf, List.filter_nil, List.map_nil, List.nil_append] at this
  rw [← this]
  show seenOf x _ = seenOf x _ ++ _
  simp only [Ending.finish, seenOf_append]
  cases x with
  | out => rw [seenOf_same, seenOf_other (by decide), List.append_nil]
  | err => rw [seenOf_same, seenOf_other (by decide), List.append_nil]

theorem lines_kept {bs sent kept : Bytes} (h : bs = sent ++ kept) (hl : Lines bs) (hk : NL ∉ kept) : kept = [] := by
  rcases List.eq_nil_or_concat kept with rfl | ⟨k, z, rfl⟩
  · rfl
  · rw [List.concat_eq_append] at h hk
    rcases hl with rfl | hl
    · simp at h
    · rw [h, ← List.append_assoc, List.getLast?_concat] at hl
      cases hl
      exact absurd (by simp) hk

theorem putsAll_terminal {c : StdioCfg} (hc : OnTerminal c) {ps : List (Stream × Bytes)} {a b : Stdio} (h : PutsAll c ps a b) (ha : ∀ x, a.buf x = [])
    (hl : ∀ p ∈ ps, p.1 = .out → Lines p.2) : seen b.dev = seen a.dev ++ (ps.map (·.2)).flatten ∧ ∀ x, b.buf x = [] := by
  induction h with
  | nil => exact ⟨by simp, ha⟩
  | @cons x bs ps a b d h _ ih =>
    have hb : seen b.dev = seen a.dev ++ bs ∧ ∀ x, b.buf x = [] := by
      cases h with
      | mk sent kept h hal =>
        rw [ha, List.nil_append] at h
        have hk : kept = [] := by
          cases x with
          | err => rw [hc.err] at hal; exact hal
          | out => rw [hc.out] at hal; exact lines_kept h (hl _ List.mem_cons_self rfl) hal.1
        subst hk
        rw [List.append_nil] at h
        subst h
        refine ⟨by simp [seen, Function.comp_def], fun y => ?_⟩
        dsimp only
        split
        · rfl
        · exact ha y
    obtain ⟨h1, h2⟩ := ih hb.2 fun p hp => hl p (List.mem_cons_of_mem _ hp)
    exact ⟨by rw [h1, hb.1]; simp, h2⟩

/-- **C85** on a terminal: if all that is printed to standard output are whole lines, everything is seen in the order in which it was printed, and however bob ends. -/
theorem C85_in_order_partial {c : StdioCfg} (hc : OnTerminal c) {ps : List (Stream × Bytes)} {st : Stdio} (h : PutsAll c ps .init st)
    (hl : ∀ p ∈ ps, p.1 = .out → Lines p.2) (e : Ending) : seen (e.finish st).dev = (ps.map (·.2)).flatten := by
  obtain ⟨h1, h2⟩ := putsAll_terminal hc h (fun _ => rfl) hl
  have : (e.finish st).dev = st.dev := by
    cases e with
    | exit => simp [Ending.finish, h2]
    | gone => rfl
  rw [this, h1]
  rfl

/-- The output shown with a message consists of whole lines. -/
def Said.WholeLines (debugging : Bool) (strsignal : Nat → Bytes) : Said → Prop
  | .plain _ _ | .marked _ _ _ => True
  | .ran res _ _ _ chunks => Lines (cstr (cmdReadOut debugging chunks res.sig strsignal))
  | .already log _ _ => Lines (cstr (log.getD []))

theorem vlog_lines (colour : Bool) (l : Level) (msg : Bytes) : Lines (vlog colour l msg) := by
  unfold vlog
  right
  cases colour
  · exact List.getLast?_concat
  · exact List.getLast?_concat

theorem calls_print (colour dbg : Bool) (ss : Nat → Bytes) (x : Said) : ((x.calls colour dbg ss).map (·.2)).flatten = x.print colour dbg ss := by
  cases x with
  | plain l t => simp [Said.calls, Said.print]
  | marked l a b => simp [Said.calls, Said.print]
  | ran res pre i p chunks =>
    simp only [Said.calls, Said.print, cmdLogPrint]
    split <;> simp
  | already log pre past =>
    cases log <;> simp [Said.calls, Said.print, alreadyPrint, cstr]

theorem calls_lines {colour dbg : Bool} {ss : Nat → Bytes} {x : Said} (hx : x.WholeLines dbg ss) : ∀ p ∈ x.calls colour dbg ss, Lines p.2 := by
  intro p hp
  cases x with
  | plain l t => simp only [Said.calls, List.mem_singleton] at hp; subst hp; exact vlog_lines ..
  | marked l a b => simp only [Said.calls, List.mem_singleton] at hp; subst hp; exact vlog_lines ..
  | ran res pre i q chunks =>
    simp only [Said.calls, List.mem_cons, List.not_mem_nil, or_false] at hp
    rcases hp with rfl | rfl
    · split <;> exact vlog_lines ..
    · exact hx
  | already log pre past =>
    cases log with
    | none => simp only [Said.calls, List.mem_cons, List.not_mem_nil, or_false] at hp; subst hp; exact vlog_lines ..
    | some l =>
      simp only [Said.calls, List.mem_cons, List.not_mem_nil, or_false] at hp
      rcases hp with rfl | rfl
      · exact vlog_lines ..
      · exact hx

/-- **C85** for what bob says: on a terminal it is seen as printed, if the outputs of commands are whole lines. -/
theorem C85_said_in_order_partial {c : StdioCfg} (hc : OnTerminal c) (colour dbg : Bool) (ss : Nat → Bytes) {xs : List Said} (hx : ∀ x ∈ xs, x.WholeLines dbg ss) {st : Stdio}
    (h : PutsAll c (xs.flatMap (Said.calls colour dbg ss)) .init st) (e : Ending) : seen (e.finish st).dev = xs.flatMap (Said.print colour dbg ss) := by
  rw [C85_in_order_partial hc h (fun p hp _ => ?_) e]
  · clear h hx
    induction xs with
    | nil => rfl
    | cons x xs ih => rw [List.flatMap_cons, List.map_append, List.flatten_append, calls_print, ih, List.flatMap_cons]
  · obtain ⟨x, hm, hp⟩ := List.mem_flatMap.1 hp
    exact calls_lines (hx x hm) p hp

theorem textOf_le (x : Stream) (p : Stream × Bytes) (ps : List (Stream × Bytes)) : (textOf x ps).length ≤ (textOf x (p :: ps)).length := by
  obtain ⟨y, bs⟩ := p
  rw [textOf_cons, List.length_append]
  exact Nat.le_add_left ..

theorem putsAll_redirected {c : StdioCfg} (hc : Redirected c) {ps : List (Stream × Bytes)} {a b : Stdio} (h : PutsAll c ps a b)
    (hl : (a.buf .out).length + (textOf .out ps).length < c.cap) (ha : a.buf .err = []) : b.dev = a.dev ++ (textOf .err ps).map (.err, ·) ∧ b.buf .out = a.buf .out ++ textOf .out ps := by
  induction h with
  | nil => simp [textOf]
  | @cons x bs ps a b d h _ ih =>
    cases h with
    | mk sent kept h hal =>
      rw [textOf_cons] at hl ⊢
      rw [textOf_cons]
      cases x with
      | out =>
        rw [hc.out] at hal
        simp only [if_true, List.length_append, reduceCtorEq, if_false, List.nil_append] at hl ⊢
        have hs : sent = [] := hal (by rw [← h, List.length_append]; omega)
        subst hs
        rw [List.nil_append] at h
        subst h
        obtain ⟨h1, h2⟩ := ih (by simp only [if_true, List.length_append]; omega) (by simpa using ha)
        exact ⟨by simpa using h1, by simpa using h2⟩
      | err =>
        rw [hc.err] at hal
        cases hal
        rw [ha, List.append_nil, List.nil_append] at h
        subst h
        simp only [if_true, reduceCtorEq, if_false, List.nil_append] at hl ⊢
        obtain ⟨h1, h2⟩ := ih (by simpa using hl) (by simp)
        exact ⟨by simpa using h1, by simpa using h2⟩

/-- **C85** fails where standard output is a file or a pipe: as long as the buffer is not full nothing printed to it is seen before bob exits, and all of it is lost
if bob does not exit, as when it becomes the program it is to run. -/
theorem C85_redirected {c : StdioCfg} (hc : Redirected c) {ps : List (Stream × Bytes)} {st : Stdio} (h : PutsAll c ps .init st) (hl : (textOf .out ps).length < c.cap) :
    (Ending.exit.finish st).dev = (textOf .err ps).map (.err, ·) ++ (textOf .out ps).map (.out, ·) ∧ (Ending.gone.finish st).dev = (textOf .err ps).map (.err, ·) := by
  have hb : st.buf .err = [] := by
    have : ∀ {ps : List (Stream × Bytes)} {a b : Stdio}, PutsAll c ps a b → a.buf .err = [] → b.buf .err = [] := by
      intro ps a b h
      induction h with
      | nil => exact id
      | @cons x bs ps a b d h _ ih =>
        intro ha
        refine ih ?_
        cases h with
        | mk sent kept h hal =>
          cases x with
          | out => simpa using ha
          | err =>
            rw [hc.err] at hal
            have hal : kept = [] := hal
            simp [hal]
    exact this h rfl
  obtain ⟨h1, h2⟩ := putsAll_redirected hc h (by simpa [Stdio.init] using hl) rfl
  constructor
  · simp only [Ending.finish, h1, h2, hb]
    simp [Stdio.init]
  · simp only [Ending.finish, h1]
    simp [Stdio.init]

/-! ## Cases -/

def ttyCfg : StdioCfg where
  mode
    | .out => .line
    | .err => .none
  cap := 1024

def pipeCfg : StdioCfg where
  mode
    | .out => .full
    | .err => .none
  cap := 4096

/-- Every sequence of calls is possible, for every way of buffering. -/
theorem putsAll_exists (c : StdioCfg) : ∀ (ps : List (Stream × Bytes)) (a : Stdio), ∃ b, PutsAll c ps a b
  | [], a => ⟨a, .nil⟩
  | (x, bs) :: ps, a => by
    have : ∃ b, Puts c x bs a b := by
      cases hm : c.mode x with
      | none => exact ⟨_, .mk (a.buf x ++ bs) [] (List.append_nil _).symm (by rw [hm]; rfl)⟩
      | full =>
        by_cases hl : (a.buf x ++ bs).length < c.cap
        · exact ⟨_, .mk [] (a.buf x ++ bs) rfl (by rw [hm]; exact fun _ => rfl)⟩
        · exact ⟨_, .mk (a.buf x ++ bs) [] (List.append_nil _).symm (by rw [hm]; exact fun h => absurd (by simpa using h) (by simpa using hl))⟩
      | line =>
        let t := a.buf x ++ bs
        have ht : t = (t.reverse.dropWhile (· ≠ NL)).reverse ++ (t.reverse.takeWhile (· ≠ NL)).reverse := by
          rw [← List.reverse_append, List.takeWhile_append_dropWhile, List.reverse_reverse]
        refine ⟨_, .mk _ _ ht ?_⟩
        rw [hm]
        refine ⟨fun h => ?_, fun _ => ?_⟩
        · rw [List.mem_reverse] at h
          have := List.all_takeWhile (p := fun b => decide (b ≠ NL)) (l := t.reverse)
          rw [List.all_eq_true] at this
          exact of_decide_eq_true (this _ h) rfl
        · rw [List.getLast?_reverse]
          cases hd : t.reverse.dropWhile (· ≠ NL) with
          | nil => exact .inl rfl
          | cons z zs =>
            right
            have := List.head?_dropWhile_not (fun b => decide (b ≠ NL)) t.reverse
            rw [hd] at this
            simpa using this
    obtain ⟨b, hb⟩ := this
    obtain ⟨d, hd⟩ := putsAll_exists c ps b
    exact ⟨d, .cons hb hd⟩

/-- `bob run` with nothing left to compile. -/
def beforeRun : List Said := [.already none (some b!"src/main.c") b!"compiled", .already none (some b!"bin/prog") b!"linked", .marked .success b!"bin/prog" b!": Already preinstalled."]

/-- On a terminal all of it is seen before the program starts. -/
example : OnTerminal ttyCfg ∧ (∀ x ∈ beforeRun, x.WholeLines false fun _ => []) ∧ beforeRun.flatMap (Said.print false false fun _ => []) ≠ [] ∧
    ∃ st, PutsAll ttyCfg (beforeRun.flatMap (Said.calls false false fun _ => [])) .init st := by
  refine ⟨⟨rfl, rfl⟩, ?_, by decide, putsAll_exists ..⟩
  simp only [beforeRun, List.mem_cons, List.not_mem_nil, or_false, forall_eq_or_imp, forall_eq]
  exact ⟨.inl rfl, .inl rfl, trivial⟩

/-- **C85** as stated is false: `bob run | cat` does not show anything of what bob has printed before it became the program. -/
theorem C85_lost_false : ¬ ∀ (c : StdioCfg) (xs : List Said) (st : Stdio) (e : Ending), PutsAll c (xs.flatMap (Said.calls false false fun _ => [])) .init st →
    ∀ x, seenOf x (e.finish st).dev = textOf x (xs.flatMap (Said.calls false false fun _ => [])) := by
  intro h
  obtain ⟨st, hst⟩ := putsAll_exists pipeCfg (beforeRun.flatMap (Said.calls false false fun _ => [])) .init
  have := h pipeCfg beforeRun st .gone hst .out
  rw [(C85_redirected ⟨rfl, rfl⟩ hst (by decide)).2] at this
  rw [seenOf_other (by decide)] at this
  exact absurd this (by decide)

/-- A compiler that prints something without a newline, and then another that fails. -/
def unended : List Said := [.ran { rv := 0, sig := 0 } (some b!"a.c") b!"compile" b!"compiled" [b!"note"], .ran { rv := -1, sig := 0 } (some b!"b.c") b!"compile" b!"compiled" []]

/-- **C85** as stated is false on a terminal too: the report about the second comes before the output of the first. -/
theorem C85_in_order_false : ∃ st, PutsAll ttyCfg (unended.flatMap (Said.calls false false fun _ => [])) .init st ∧
    seen (Ending.exit.finish st).dev = b!"a.c\x1b[0m: Successfully compiled:\nb.c\x1b[0m: Failed to compile.\nnote" ∧
    unended.flatMap (Said.print false false fun _ => []) = b!"a.c\x1b[0m: Successfully compiled:\nnoteb.c\x1b[0m: Failed to compile.\n" := by
  have hc : unended.flatMap (Said.calls false false fun _ => []) = [(.out, b!"a.c\x1b[0m: Successfully compiled:\n"), (.out, b!"note"), (.err, b!"b.c\x1b[0m: Failed to compile.\n"), (.out, [])] := by decide
  rw [hc]
  refine ⟨_, .cons (.mk b!"a.c\x1b[0m: Successfully compiled:\n" [] rfl ⟨by decide, fun _ => .inr (by decide)⟩) (.cons (.mk [] b!"note" rfl ⟨by decide, fun _ => .inl rfl⟩)
    (.cons (.mk b!"b.c\x1b[0m: Failed to compile.\n" [] rfl rfl) (.cons (.mk [] b!"note" rfl ⟨by decide, fun _ => .inl rfl⟩) .nil))), by decide, by decide⟩

end Bob
