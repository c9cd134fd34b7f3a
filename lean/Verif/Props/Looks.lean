import Verif.Model.Stdio
import Verif.Props.Logging
/-!
# How messages look and where they go: C92

The specification says what kinds of messages there are to a user: bad news of three sorts and good news of two.
-/

namespace Bob

/-- How the text of a message is meant to look: errors that stop bob are bold, and each kind has a colour (the numbers are those of the
terminal: red 1, green 2, yellow 3, blue 4, purple 5). -/
def Level.wanted : Level → Look
  | .fatal => ⟨true, some 5⟩
  | .error => ⟨true, some 1⟩
  | .warn => ⟨false, some 3⟩
  | .info => ⟨false, some 4⟩
  | .success => ⟨false, some 2⟩

/-- Is this bad news? -/
def Level.Bad (l : Level) : Prop := l = .fatal ∨ l = .error ∨ l = .warn

theorem screen_append : ∀ (t : Term) (a b : Bytes), t.screen (a ++ b) = t.screen a ++ (t.feed a).screen b
  | _, [], _ => rfl
  | t, c :: cs, b => by
    show _ ++ (t.step c).screen (cs ++ b) = (_ ++ (t.step c).screen cs) ++ ((t.step c).feed cs).screen b
    rw [screen_append (t.step c) cs b, List.append_assoc]

/-- Text without control characters is seen as it is. -/
theorem screen_noesc : ∀ {bs : Bytes} {k : Look}, ESC ∉ bs → Term.screen ⟨.ground, k⟩ bs = bs.map (·, k)
  | [], _, _ => rfl
  | c :: cs, k, h => by
    have hc : c ≠ 27 := fun e => h (e ▸ List.mem_cons_self)
    have hs : Term.step ⟨.ground, k⟩ c = ⟨.ground, k⟩ := by simp [Term.step, hc]
    show (if c ≠ 27 ∧ Mode.ground = .ground then [(c, k)] else []) ++ (Term.step ⟨.ground, k⟩ c).screen cs = _
    rw [hs, screen_noesc fun m => h (List.mem_cons_of_mem _ m)]
    simp [hc]

/-- Nothing is seen of `CLEAR`. -/
theorem screen_clear (k : Look) : Term.screen ⟨.ground, k⟩ CLEAR = [] := by
  simp [CLEAR, Term.screen, Term.step]

/-- The picture of a level. -/
def Level.picture (l : Level) : Bytes := l.colour.takeWhile (· ≠ ESC)

/-- The argument `colour` sets the look, and only its picture is seen. -/
theorem colour_sets (l : Level) :
    Term.normal.feed l.colour = ⟨.ground, l.wanted⟩ ∧ Term.normal.screen l.colour = l.picture.map (·, .normal) := by
  cases l <;> decide +kernel

theorem vlog_screen (l : Level) (msg : Bytes) : Term.normal.screen (vlog true l msg) =
    l.picture.map (·, .normal) ++ (Term.screen ⟨.ground, l.wanted⟩ (cstr msg) ++
      (Term.screen (Term.feed ⟨.ground, l.wanted⟩ (cstr msg)) CLEAR ++ [(10, .normal)])) := by
  simp only [vlog, if_true, List.append_assoc]
  rw [screen_append, (colour_sets l).1, (colour_sets l).2, screen_append, screen_append, feed_clear]
  rfl

/-- **C92**, looks: with colours, on a normal terminal, a message is seen as its picture, then its text in the look of its level, then the end of
the line. -/
theorem C92_looks (l : Level) {text : Bytes} (h : ESC ∉ text) (hn : NUL ∉ text) :
    Term.normal.screen (vlog true l text) = l.picture.map (·, .normal) ++ text.map (·, l.wanted) ++ [(10, .normal)] := by
  rw [vlog_screen, cstr_self hn, screen_noesc h, feed_noesc h, screen_clear]
  simp

/-- **C92**, looks: of a message with a mark, such as `a.c: Compiling...`, what is before the mark has the look, what is after it is normal. -/
theorem C92_marked_looks (l : Level) {a b : Bytes} (ha : ESC ∉ a) (hna : NUL ∉ a) (hb : ESC ∉ b) (hnb : NUL ∉ b) :
    Term.normal.screen (vlog true l (marked a b)) =
      l.picture.map (·, .normal) ++ a.map (·, l.wanted) ++ b.map (·, .normal) ++ [(10, .normal)] := by
  have hm : cstr (marked a b) = a ++ (CLEAR ++ b) := by
    rw [marked, List.append_assoc, cstr_split _ hna, cstr_split _ (by decide : NUL ∉ CLEAR), cstr_self hnb]
  have hf : Term.normal.feed b = .normal := feed_normal hb
  have hs : Term.normal.screen b = b.map (·, .normal) := screen_noesc hb
  rw [vlog_screen, hm, screen_append, screen_append, feed_append, feed_append, screen_noesc ha, feed_noesc ha, screen_clear, feed_clear, hs, hf]
  have : Term.normal.screen CLEAR = [] := screen_clear _
  simp [this]

/-- **C92**, looks: no two levels look the same, and exactly the errors are bold. -/
theorem C92_distinct : (∀ l l' : Level, l.wanted = l'.wanted → l = l') ∧
    (∀ l : Level, l.wanted ≠ .normal) ∧ ∀ l : Level, l.wanted.bold = true ↔ l = .fatal ∨ l = .error :=
  ⟨by intro l l'; cases l <;> cases l' <;> decide, by intro l; cases l <;> decide, by intro l; cases l <;> decide⟩

/-- **C92**, looks: every level has a picture of its own, without control characters. -/
theorem C92_pictures (l : Level) : l.picture ≠ [] ∧ ESC ∉ l.picture ∧ ∀ l' : Level, l.picture = l'.picture → l = l' := by
  refine ⟨by cases l <;> decide, by cases l <;> decide, ?_⟩
  intro l'; cases l <;> cases l' <;> decide

/-- **C92**, looks: without colours the same text is seen, all of it normal, and no picture. -/
theorem C92_plain (l : Level) {text : Bytes} (h : ESC ∉ text) (hn : NUL ∉ text) :
    Term.normal.screen (vlog false l text) = (text ++ [10]).map (·, .normal) := by
  have : ESC ∉ text ++ [(10 : UInt8)] := by
    simp only [List.mem_append, not_or]; exact ⟨h, by decide⟩
  show Term.normal.screen (cstr text ++ [10]) = _
  rw [cstr_self hn]
  exact screen_noesc this

/-- What of `x` is bad news of bob: its line, if it says that something is wrong. -/
def Said.isBad : Said → Prop
  | .plain l _ | .marked l _ _ => l.Bad
  | .ran res _ _ _ _ => res.rv < 0
  | .already _ _ _ => False

/-- **C92**, streams: the first thing that is printed is the line of the message.  It goes to standard error if and only if it is bad news. -/
theorem C92_streams (colour dbg : Bool) (ss : Nat → Bytes) (x : Said) :
    ∃ line rest, x.calls colour dbg ss = line :: rest ∧ (line.1 = .err ↔ x.isBad) ∧ (∃ l m, line.2 = vlog colour l m ∧ (l.Bad ↔ x.isBad)) ∧
      ∀ y ∈ rest, y.1 = .out := by
  have bad : ∀ l : Level, (l.stream = .err ↔ l.Bad) := by intro l; cases l <;> simp [Level.stream, Level.Bad]
  cases x with
  | plain l text => exact ⟨_, _, rfl, bad l, ⟨l, _, rfl, Iff.rfl⟩, by simp⟩
  | marked l a b => exact ⟨_, _, rfl, bad l, ⟨l, _, rfl, Iff.rfl⟩, by simp⟩
  | ran res pre inf past chunks =>
    refine ⟨_, _, rfl, ?_, ?_, by simp⟩
    · by_cases h : res.rv < 0 <;> simp [h, Said.isBad, Level.stream]
    · by_cases h : res.rv < 0
      · exact ⟨.error, _, by rw [if_pos h], by simp [Said.isBad, h, Level.Bad]⟩
      · exact ⟨.success, _, by rw [if_neg h], by simp [Said.isBad, h, Level.Bad]⟩
  | already log pre past =>
    refine ⟨_, _, rfl, by simp [Said.isBad, Level.stream], ⟨.success, _, rfl, by simp [Said.isBad, Level.Bad]⟩, ?_⟩
    cases log <;> simp

/-- What goes to a stream. -/
def Said.on (s : Stream) (colour dbg : Bool) (ss : Nat → Bytes) (x : Said) : Bytes :=
  ((x.calls colour dbg ss).filter (·.1 = s)).flatMap (·.2)

/-- **C92**, as far as it holds: standard output has none of the bad news other than what commands wrote, and standard error only bad news. -/
theorem C92_streams_partial (colour dbg : Bool) (ss : Nat → Bytes) (x : Said) :
    (¬ x.isBad → x.on .err colour dbg ss = []) ∧
    (x.isBad → ∃ l m, l.Bad ∧ x.on .err colour dbg ss = vlog colour l m) := by
  obtain ⟨line, rest, hc, hs, ⟨l, m, hl, hb⟩, hr⟩ := C92_streams colour dbg ss x
  have hrest : rest.filter (·.1 = .err) = [] := by
    rw [List.filter_eq_nil_iff]
    intro y hy
    simp [hr y hy]
  refine ⟨fun h => ?_, fun h => ⟨l, m, hb.2 h, ?_⟩⟩
  · have : line.1 ≠ .err := fun e => h (hs.1 e)
    simp [Said.on, hc, hrest, this]
  · simp [Said.on, hc, hrest, hs.2 h, hl]

/-- **C92**: whatever a failing command wrote goes to standard output. -/
theorem C92_reasons_out (colour dbg : Bool) (ss : Nat → Bytes) (res : CmdRes) (pre : Option Bytes) (inf past : Bytes) (chunks : List Bytes)
    (h : res.rv < 0) : (Said.ran res pre inf past chunks).on .out colour dbg ss = cstr (cmdReadOut dbg chunks res.sig ss) := by
  simp [Said.on, Said.calls, h, Level.stream]

/-- A compilation that fails. -/
def failed : Said := .ran { rv := -1, sig := 0 } (some b!"a.c") b!"compile" b!"compiled" [b!"a.c:1: error\n"]

/-- **C92** in full is false: of a compilation that fails, the reason goes to standard output, so that with standard output discarded it is not
seen. -/
theorem C92_reason_false : ¬ ∀ (colour dbg : Bool) (ss : Nat → Bytes) (x : Said), x.isBad → x.on .out colour dbg ss = [] := by
  intro h
  exact absurd (h false false (fun _ => []) failed (by decide +kernel : (-1 : Int) < 0)) (by decide +kernel)

example : failed.on .err false false (fun _ => []) = b!"a.c" ++ CLEAR ++ b!": Failed to compile:\n" := by decide +kernel
example : failed.on .out false false (fun _ => []) = b!"a.c:1: error\n" := by decide +kernel
example : ESC ∉ b!"No such file" ∧ NUL ∉ b!"No such file" := by decide +kernel
example : Term.normal.screen (vlog true .error b!"No") =
    (b!"🛑 ").map (·, .normal) ++ [(78, ⟨true, some 1⟩), (111, ⟨true, some 1⟩), (10, .normal)] := by decide +kernel

end Bob
