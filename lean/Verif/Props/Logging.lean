import Verif.Model.Logging
import Verif.Spec.Terminal
/-!
# Properties of what bob prints: C78 to C82
-/

namespace Bob

/-! ## Bytes -/

theorem mem_cstr {x : UInt8} : ∀ {bs : Bytes}, x ∈ cstr bs → x ∈ bs
  | [], h => h
  | c :: cs, h => by
    by_cases hc : c = NUL
    · simp [cstr, hc] at h
    · simp only [cstr, hc, if_false, List.mem_cons] at h
      exact List.mem_cons.2 (h.imp id mem_cstr)

theorem cstr_self : ∀ {bs : Bytes}, NUL ∉ bs → cstr bs = bs
  | [], _ => rfl
  | c :: cs, h => by
    have hc : c ≠ NUL := fun e => h (e ▸ List.mem_cons_self)
    simp [cstr, hc, cstr_self (fun m => h (List.mem_cons_of_mem _ m))]

theorem nul_cstr : ∀ (bs : Bytes), NUL ∉ cstr bs
  | [] => by simp [cstr]
  | c :: cs => by
    by_cases hc : c = NUL
    · simp [cstr, hc]
    · simp [cstr, hc, nul_cstr cs, Ne.symm hc]

theorem cstr_cstr (bs : Bytes) : cstr (cstr bs) = cstr bs := cstr_self (nul_cstr bs)

theorem cstr_split : ∀ {a : Bytes} (b : Bytes), NUL ∉ a → cstr (a ++ b) = a ++ cstr b
  | [], _, _ => rfl
  | c :: cs, b, h => by
    have hc : c ≠ NUL := fun e => h (e ▸ List.mem_cons_self)
    simp [cstr, hc, cstr_split b (fun m => h (List.mem_cons_of_mem _ m))]

/-! ## The terminal -/

theorem feed_append (t : Term) (a b : Bytes) : t.feed (a ++ b) = (t.feed a).feed b := by simp [Term.feed]

/-- Clearing works wherever the terminal is. -/
theorem feed_clear (t : Term) : t.feed CLEAR = .normal := by
  simp [Term.feed, CLEAR, Term.step, Look.sgr, Term.normal]

theorem feed_noesc : ∀ {bs : Bytes} {k : Look}, ESC ∉ bs → Term.feed ⟨.ground, k⟩ bs = ⟨.ground, k⟩
  | [], _, _ => rfl
  | c :: cs, k, h => by
    have hc : c ≠ 27 := fun e => h (e ▸ List.mem_cons_self)
    have : Term.step ⟨.ground, k⟩ c = ⟨.ground, k⟩ := by simp [Term.step, hc]
    show Term.feed (Term.step ⟨.ground, k⟩ c) cs = _
    rw [this]; exact feed_noesc fun m => h (List.mem_cons_of_mem _ m)

theorem feed_normal {bs : Bytes} (h : ESC ∉ bs) : Term.normal.feed bs = .normal := feed_noesc h

/-! ## C78 -/

/-- `strstr` finds what is there. -/
theorem strstr_iff (needle : Bytes) : ∀ hay : Bytes, strstr needle hay = true ↔ ∃ a b, hay = a ++ needle ++ b
  | [] => by
    simp only [strstr, List.isEmpty_iff]
    constructor
    · rintro rfl; exact ⟨[], [], rfl⟩
    · rintro ⟨a, b, h⟩
      have := congrArg List.length h
      simp only [List.length_nil, List.length_append] at this
      exact List.length_eq_zero_iff.1 (by omega)
  | c :: cs => by
    simp only [strstr, Bool.or_eq_true, List.isPrefixOf_iff_prefix, strstr_iff needle cs]
    constructor
    · rintro (⟨b, h⟩ | ⟨a, b, h⟩)
      · exact ⟨[], b, by simp [h]⟩
      · exact ⟨c :: a, b, by simp [h]⟩
    · rintro ⟨a, b, h⟩
      cases a with
      | nil => exact .inl ⟨b, by simpa using h.symm⟩
      | cons x a =>
        simp only [List.cons_append, List.cons.injEq] at h
        exact .inr ⟨a, b, h.2⟩

/-- **C78.** Colours are used exactly if they are forced, or both streams are terminals and the environment names a terminal with colours:
`COLORTERM` is not empty or `TERM` contains `color`. -/
theorem C78_colours_when_wanted (env : Env) (tty : Stream → Bool) :
    supportsColour env tty = true ↔
      (∃ v, getenv b!"CLICOLOR_FORCE" env = some v) ∨
      ((∀ s, tty s = true) ∧
        ((∃ v, getenv b!"COLORTERM" env = some v ∧ v ≠ []) ∨ ∃ a b, getenv b!"TERM" env = some (a ++ b!"color" ++ b))) := by
  have all : (∀ s, tty s = true) ↔ tty .out = true ∧ tty .err = true :=
    ⟨fun h => ⟨h _, h _⟩, fun h s => match s with | .out => h.1 | .err => h.2⟩
  rw [all]
  unfold supportsColour
  cases hf : getenv b!"CLICOLOR_FORCE" env with
  | some v => simp
  | none =>
    cases ho : tty .out <;> cases he : tty .err <;> try simp
    cases hc : getenv b!"COLORTERM" env with
    | none =>
      cases ht : getenv b!"TERM" env with
      | none => simp
      | some term => simpa using strstr_iff b!"color" term
    | some v =>
      by_cases hv : v = []
      · cases ht : getenv b!"TERM" env with
        | none => simp [hv]
        | some term => simpa [hv] using strstr_iff b!"color" term
      · simp [hv]

/-- A redirected stream turns colours off unless they are forced. -/
theorem C78_redirected {env : Env} {tty : Stream → Bool} {s : Stream} (hs : tty s = false)
    (hf : getenv b!"CLICOLOR_FORCE" env = none) : supportsColour env tty = false := by
  rw [Bool.eq_false_iff]
  intro h
  rcases (C78_colours_when_wanted env tty).1 h with ⟨v, hv⟩ | ⟨ha, _⟩
  · rw [hf] at hv; exact nomatch hv
  · rw [ha s] at hs; exact nomatch hs

example : supportsColour [(b!"TERM", b!"xterm-256color")] (fun _ => true) = true := by decide
example : supportsColour [(b!"TERM", b!"xterm-256color")] (fun s => s == .out) = false := by decide
example : supportsColour [(b!"TERM", b!"vt100"), (b!"COLORTERM", [])] (fun _ => true) = false := by decide
/-- `CLICOLOR_FORCE=0` forces colours too. -/
example : supportsColour [(b!"CLICOLOR_FORCE", b!"0")] (fun _ => false) = true := by decide

/-! ## C79 -/

theorem feed_vlog_colour (t : Term) (l : Level) (msg : Bytes) : t.feed (vlog true l msg) = .normal := by
  simp only [vlog, if_true, feed_append, feed_clear]
  exact feed_normal (by decide)

theorem noesc_line {a : Bytes} (h : ESC ∉ a) : ESC ∉ cstr a ++ b!"\n" := by
  simp only [List.mem_append, not_or]
  exact ⟨fun m => h (mem_cstr m), by decide⟩

theorem feed_vlog_plain {l : Level} {msg : Bytes} (h : ESC ∉ msg) : Term.normal.feed (vlog false l msg) = .normal := by
  simpa [vlog] using feed_normal (noesc_line h)

/-- What is left of text with `CLEAR` in it: everything, or less than all before it. -/
theorem feed_vlog_marked {l : Level} {a b : Bytes} (ha : ESC ∉ a) (hb : ESC ∉ b) :
    Term.normal.feed (vlog false l (marked a b)) = .normal := by
  by_cases hn : NUL ∈ a
  · have key : ∀ (a : Bytes) (b : Bytes), NUL ∈ a → cstr (a ++ b) = cstr a := by
      intro a b
      induction a with
      | nil => intro h; exact nomatch h
      | cons c cs ih =>
        intro h
        by_cases hc : c = NUL
        · simp [cstr, hc]
        · have : NUL ∈ cs := by
            rcases List.mem_cons.1 h with e | m
            · exact absurd e.symm hc
            · exact m
          simp [cstr, hc, ih this]
    have : vlog false l (marked a b) = cstr a ++ b!"\n" := by
      simp [vlog, marked, List.append_assoc, key a _ hn]
    rw [this]; exact feed_normal (noesc_line ha)
  · have : vlog false l (marked a b) = a ++ (CLEAR ++ (cstr b ++ b!"\n")) := by
      simp only [vlog, marked, Bool.false_eq_true, if_false, List.append_assoc]
      rw [cstr_split _ hn, cstr_split _ (by decide : NUL ∉ CLEAR)]
      simp
    rw [this, feed_append, feed_append, feed_clear]
    exact feed_normal (noesc_line hb)

/-- A message about `pre` with these words has no control characters of its own. -/
def NoEscArgs (pre : Option Bytes) (words : Bytes) : Prop := (∀ p, pre = some p → ESC ∉ p) ∧ ESC ∉ words

theorem feed_vlog_prefixed {l : Level} {pre : Option Bytes} {words : Bytes} (h : NoEscArgs pre words) :
    Term.normal.feed (vlog false l (prefixed pre words)) = .normal := by
  cases pre with
  | none => exact feed_vlog_marked (by simp) h.2
  | some p =>
    refine feed_vlog_marked (h.1 p rfl) ?_
    simp only [List.mem_append, not_or]
    exact ⟨by decide, h.2⟩

/-- The texts that bob puts into a message, other than the output of commands, have no control characters. -/
def Said.NoEsc : Said → Prop
  | .plain _ text => ESC ∉ text
  | .marked _ before after => ESC ∉ before ∧ ESC ∉ after
  | .ran _ pre infinitive past _ => NoEscArgs pre (infinitive ++ past)
  | .already _ pre past => NoEscArgs pre past

/-- The output of commands leaves a normal terminal normal, and the commands were not ended by signals. -/
def Said.Quiet (debugging : Bool) : Said → Prop
  | .ran res _ _ _ chunks => res.sig = 0 ∧ Tidy (cstr (cmdReadOut debugging chunks 0 fun _ => []))
  | .already log _ _ => Tidy (cstr (log.getD []))
  | _ => True

/-- The same without the condition on signals.  The full statement of C79 has this instead of `Quiet`: whatever bob prints, starting from a normal
terminal, the terminal is normal at the end, provided the output of the commands it runs, as they wrote it, leaves it so.  It is refuted below. -/
def Said.OwnTidy (debugging : Bool) : Said → Prop
  | .ran _ _ _ _ chunks => Tidy (cstr (cmdReadOut debugging chunks 0 fun _ => []))
  | .already log _ _ => Tidy (cstr (log.getD []))
  | _ => True

theorem readOut_nosig (dbg : Bool) (chunks : List Bytes) (f g : Nat → Bytes) : cmdReadOut dbg chunks 0 f = cmdReadOut dbg chunks 0 g := by
  simp [cmdReadOut]

theorem noesc_suffix (b : Bool) : ESC ∉ suffix b := by cases b <;> decide

theorem feed_said {colour dbg : Bool} {ss : Nat → Bytes} {x : Said} (hq : x.Quiet dbg) (hn : colour = false → x.NoEsc) :
    Term.normal.feed (x.print colour dbg ss) = .normal := by
  have pre : ∀ (l : Level) (m : Bytes), (colour = false → Term.normal.feed (vlog false l m) = .normal) →
      Term.normal.feed (vlog colour l m) = .normal := by
    intro l m h
    cases colour
    · exact h rfl
    · exact feed_vlog_colour _ l m
  cases x with
  | plain l text => exact pre _ _ fun h => feed_vlog_plain (hn h)
  | marked l a b => exact pre _ _ fun h => feed_vlog_marked (hn h).1 (hn h).2
  | ran res p inf past chunks =>
    obtain ⟨hs, ht⟩ := hq
    simp only [Said.print, cmdLogPrint, feed_append]
    rw [hs, readOut_nosig dbg chunks ss fun _ => []]
    have words : ∀ (lit w : Bytes) (b : Bool), ESC ∉ lit → ESC ∉ w → ESC ∉ lit ++ w ++ suffix b := by
      intro lit w b h1 h2
      simp only [List.mem_append, not_or]
      exact ⟨⟨h1, h2⟩, noesc_suffix b⟩
    have : Term.normal.feed (if res.rv < 0 then
          vlog colour .error (prefixed p (b!"Failed to " ++ inf ++ suffix (cstr (cmdReadOut dbg chunks 0 fun _ => []) ≠ [])))
        else vlog colour .success (prefixed p (b!"Successfully " ++ past ++ suffix (cstr (cmdReadOut dbg chunks 0 fun _ => []) ≠ [])))) = .normal := by
      split
      · exact pre _ _ fun h => feed_vlog_prefixed
          ⟨(hn h).1, words _ _ _ (by decide) fun m => (hn h).2 (List.mem_append_left _ m)⟩
      · exact pre _ _ fun h => feed_vlog_prefixed
          ⟨(hn h).1, words _ _ _ (by decide) fun m => (hn h).2 (List.mem_append_right _ m)⟩
    rw [this]; exact ht
  | already log p past =>
    simp only [Said.print, alreadyPrint, feed_append]
    rw [pre]
    · exact hq
    · intro h
      refine feed_vlog_prefixed ⟨(hn h).1, ?_⟩
      simp only [List.mem_append, not_or]
      exact ⟨⟨by decide, (hn h).2⟩, noesc_suffix _⟩

/-- **C79**, as far as it holds: if no command is ended by a signal, whatever sequence of things bob prints leaves a normal terminal normal.
With colours the texts in the messages do not matter. -/
theorem C79_terminal_restored_partial (colour dbg : Bool) (ss : Nat → Bytes) : ∀ xs : List Said,
    (∀ x ∈ xs, x.Quiet dbg ∧ (colour = false → x.NoEsc)) → Term.normal.feed (xs.flatMap (Said.print colour dbg ss)) = .normal
  | [], _ => rfl
  | x :: xs, h => by
    have hx := h x List.mem_cons_self
    rw [List.flatMap_cons, feed_append, feed_said hx.1 hx.2]
    exact C79_terminal_restored_partial colour dbg ss xs fun y hy => h y (List.mem_cons_of_mem _ hy)

/-- What bob adds about a signal makes text bold and red, wherever the terminal was, and nothing undoes that. -/
theorem feed_sigLine (t : Term) {name : Bytes} (h : ESC ∉ name) : (t.feed (sigLine name)).look = { t.look with bold := true, fg := some 1 } := by
  have start : t.feed b!"\x1b[1;31m" = ⟨.ground, { t.look with bold := true, fg := some 1 }⟩ := by
    simp [Term.feed, Term.step, Look.sgr]
  have : sigLine name = b!"\x1b[1;31m" ++ (b!"Terminated by signal: " ++ name ++ b!"\n") := by simp [sigLine]
  rw [this, feed_append, start, feed_noesc]
  simp only [List.mem_append, not_or]
  exact ⟨⟨by decide, h⟩, by decide⟩

/-- **C79** fails for every command that is ended by a signal: with or without colours, whatever it is and wrote, the terminal is left bold and
red. -/
theorem C79_signal_leaves_red (colour : Bool) (ss : Nat → Bytes) (res : CmdRes) (pre : Option Bytes) (inf past : Bytes) (chunks : List Bytes)
    (hs : res.sig ≠ 0) (h1 : ∀ c ∈ chunks, NUL ∉ c) (h2 : NUL ∉ ss res.sig) (h3 : ESC ∉ ss res.sig) (t : Term) :
    (t.feed ((Said.ran res pre inf past chunks).print colour false ss)).look = ⟨true, some 1⟩ := by
  have loop : ∀ (cs : List Bytes) (acc : Bytes × Nat), NUL ∉ acc.1 → (∀ c ∈ cs, NUL ∉ c) → NUL ∉ (readLoop cs acc).1 := by
    intro cs
    induction cs with
    | nil => intro acc h _; exact h
    | cons c cs ih =>
      rintro ⟨out, total⟩ h hc
      refine ih _ ?_ fun d hd => hc d (List.mem_cons_of_mem _ hd)
      simp only [List.mem_append, not_or]
      exact ⟨fun m => h (List.mem_of_mem_take m), hc c List.mem_cons_self⟩
  have hl : NUL ∉ (readLoop chunks ([], 0)).1.take (readLoop chunks ([], 0)).2 :=
    fun m => loop chunks ([], 0) (by simp) h1 (List.mem_of_mem_take m)
  have hsl : NUL ∉ sigLine (ss res.sig) := by
    simp only [sigLine, List.mem_append, not_or]
    exact ⟨⟨by decide, h2⟩, by decide⟩
  have hout : cstr (cmdReadOut false chunks res.sig ss) =
      (readLoop chunks ([], 0)).1.take (readLoop chunks ([], 0)).2 ++ sigLine (ss res.sig) := by
    have : cmdReadOut false chunks res.sig ss =
        (readLoop chunks ([], 0)).1.take (readLoop chunks ([], 0)).2 ++ sigLine (ss res.sig) := by simp [cmdReadOut, hs]
    rw [this, cstr_split _ hl, cstr_self hsl]
  simp only [Said.print, cmdLogPrint, feed_append, hout]
  rw [feed_sigLine _ h3]

/-- A compiler that crashes without having written anything. -/
def crashed : Said := .ran { rv := -1, sig := 11 } (some b!"a.c") b!"compile" b!"compiled" []

/-- **C79** is false. -/
theorem C79_terminal_restored_false : ¬ ∀ (colour : Bool) (ss : Nat → Bytes) (xs : List Said),
    (∀ x ∈ xs, x.OwnTidy false ∧ x.NoEsc) → Term.normal.feed (xs.flatMap (Said.print colour false ss)) = .normal := by
  intro h
  have := h true (fun _ => b!"Segmentation fault") [crashed] (by
    intro x hx
    obtain rfl := List.mem_singleton.1 hx
    refine ⟨rfl, ?_, ?_⟩
    · intro p hp; cases hp; decide
    · decide)
  exact absurd this (by decide)

example : Term.normal.feed (([.marked .info b!"a.c" b!": Compiling...",
    .ran { rv := -1, sig := 0 } (some b!"a.c") b!"compile" b!"compiled" [b!"\x1b[31merror\x1b[0m\n"]] : List Said).flatMap
      (Said.print false false fun _ => [])) = .normal :=
  C79_terminal_restored_partial _ _ _ _ (by
    intro x hx
    simp only [List.mem_cons, List.not_mem_nil, or_false] at hx
    rcases hx with rfl | rfl
    · exact ⟨trivial, fun _ => ⟨by decide, by decide⟩⟩
    · exact ⟨⟨rfl, (by decide : Term.normal.feed _ = .normal)⟩, fun _ => ⟨fun p hp => by cases hp; decide, by decide⟩⟩)

/-! ## C80 -/

/-- **C80**, as far as it holds: without colours a message that has no `CLEAR` in its format is printed as it is, without control characters. -/
theorem C80_no_escapes_partial {dbg : Bool} {ss : Nat → Bytes} {l : Level} {text : Bytes} (h : ESC ∉ text) :
    ESC ∉ (Said.plain l text).print false dbg ss := by
  simpa [Said.print, vlog] using noesc_line h

/-- **C80** fails for all other messages: whatever they say, and although there are no colours, they have a control sequence. -/
theorem C80_marked_escapes (l : Level) {a : Bytes} (b : Bytes) (ha : NUL ∉ a) : ESC ∈ vlog false l (marked a b) := by
  have : vlog false l (marked a b) = a ++ (CLEAR ++ (cstr b ++ b!"\n")) := by
    simp only [vlog, marked, Bool.false_eq_true, if_false, List.append_assoc]
    rw [cstr_split _ ha, cstr_split _ (by decide : NUL ∉ CLEAR)]
    simp
  rw [this]
  exact List.mem_append_right _ (List.mem_append_left _ (by decide))

/-- So does every report about a command. -/
theorem C80_report_escapes (dbg : Bool) (ss : Nat → Bytes) (res : CmdRes) {pre : Option Bytes} (inf past : Bytes) (chunks : List Bytes)
    (h : ∀ p, pre = some p → NUL ∉ p) : ESC ∈ (Said.ran res pre inf past chunks).print false dbg ss := by
  simp only [Said.print, cmdLogPrint]
  refine List.mem_append_left _ ?_
  cases pre with
  | none => split <;> exact C80_marked_escapes _ _ (by simp)
  | some p => split <;> exact C80_marked_escapes _ _ (h p rfl)

/-- **C80** is false: output to a file, nothing forced, and a control sequence in it. -/
theorem C80_no_escapes_false : ¬ ∀ (env : Env) (tty : Stream → Bool) (x : Said) (ss : Nat → Bytes), x.NoEsc → x.OwnTidy false →
    supportsColour env tty = false → ESC ∉ x.print (supportsColour env tty) false ss := by
  intro h
  exact h [] (fun _ => false) (.marked .info b!"a.c" b!": Compiling...") (fun _ => []) ⟨by decide, by decide⟩ trivial (by decide) (by decide)

example : ESC ∉ (Said.plain .warn b!"Nothing to run.").print false false (fun _ => []) := C80_no_escapes_partial (by decide)

/-! ## C81 -/

/-- **C81.** After a command has run and its log was written, `log_already_done` shows the same bytes below its own message as were shown when
the command ran, and announces them (`:` instead of `.`) exactly if there are any and they were announced then. -/
theorem C81_log_shown_again (colour : Bool) (rv : Int) (pre : Option Bytes) (inf past out cookie : Bytes) (s : Store) :
    ∃ more rest,
      cmdLogPrint colour rv pre inf past out =
        (if rv < 0 then vlog colour .error (prefixed pre (b!"Failed to " ++ inf ++ suffix more))
          else vlog colour .success (prefixed pre (b!"Successfully " ++ past ++ suffix more))) ++ rest ∧
      alreadyPrint colour ((cmdLog cookie out s).fs.content (cookie ++ b!".log")) pre past =
        vlog colour .success (prefixed pre (b!"Already " ++ past ++ suffix more)) ++ rest ∧
      (more = true ↔ rest ≠ []) := by
  refine ⟨cstr out ≠ [], cstr out, rfl, ?_, by simp⟩
  have hw : ∀ text, (s.write (cookie ++ b!".log") text).fs.content (cookie ++ b!".log") = some text := by
    intro text; simp [Store.write, FS.content, FS.set]
  have hr : (s.remove (cookie ++ b!".log")).fs.content (cookie ++ b!".log") = none := by simp [Store.remove, FS.content, FS.set]
  cases out with
  | nil => simp only [cmdLog, hr]; rfl
  | cons c cs =>
    by_cases hc : c = NUL
    · simp only [cmdLog, hc, if_true, hr]
      simp [alreadyPrint, cstr]
    · have h0 : cstr (c :: cs) ≠ [] := by simp [cstr, hc]
      simp only [cmdLog, hc, if_false, hw, alreadyPrint, Option.isSome_some, Option.getD_some, cstr_cstr]
      simp [h0]

example : alreadyPrint false (some b!"a.c:1: warning\n") (some b!"a.c") b!"compiled" =
    b!"a.c\x1b[0m: Already compiled:\na.c:1: warning\n" := by decide
example : cmdLogPrint true 0 none b!"link" b!"linked" [] = b!"✅ \x1b[0;32m\x1b[0mSuccessfully linked.\x1b[0m\n" := by decide

/-! ## C82 -/

/-- `cmdExecRes` and `cmdExec` have the same result. -/
theorem cmdExecRes_result (dbg : Bool) (w : SpawnWorld) (name : Bytes) (m : CmdRes) :
    (cmdExecRes dbg w name m).map (·.1) = (cmdExec dbg w name).map (·.1) := by
  unfold cmdExecRes cmdExec
  cases cmdExecAsync dbg w name with
  | none => rfl
  | some pid => by_cases h : pid < 0 <;> simp [h]

/-- **C82**, as far as it holds: the report about a command that was started says that it failed exactly if `cmd_exec` does, whatever was in memory
before. -/
theorem C82_report_agrees_partial {dbg : Bool} {w : SpawnWorld} {name : Bytes} {m res : CmdRes} {r pid : Int}
    (hp : cmdExecAsync dbg w name = some pid) (h0 : 0 ≤ pid) (h : cmdExecRes dbg w name m = some (r, res))
    (colour : Bool) (pre : Option Bytes) (inf past out : Bytes) :
    cmdLogPrint colour res.rv pre inf past out =
      (if r < 0 then vlog colour .error (prefixed pre (b!"Failed to " ++ inf ++ suffix (cstr out ≠ [])))
        else vlog colour .success (prefixed pre (b!"Successfully " ++ past ++ suffix (cstr out ≠ [])))) ++ cstr out := by
  have hn : ¬ pid < 0 := by omega
  simp only [cmdExecRes, hp, hn, if_false, Option.some.injEq, Prod.mk.injEq] at h
  obtain ⟨rfl, rfl⟩ := h
  rfl

/-- A command that cannot be started leaves the fields as they were: the report is about what was in memory. -/
theorem C82_unstarted {dbg : Bool} {w : SpawnWorld} {name : Bytes} (h : findBin w.exec name = .missing) (m : CmdRes) :
    cmdExecRes dbg w name m = some (-1, m) := by
  simp [cmdExecRes, cmdExecAsync, h]

/-- A compiler that is started and killed. -/
def killed : SpawnWorld :=
  { exec := { kind := fun _ => some false, xok := fun _ => true, path := none }, pipeOk := true, spawnRet := 0, child := 7, garbage := 0,
    wait := fun _ => [some 11, none] }

example : cmdLogPrint false (-1) (some b!"a.c") b!"compile" b!"compiled" [] = b!"a.c\x1b[0m: Failed to compile.\n" :=
  (C82_report_agrees_partial (w := killed) (name := b!"cc") (dbg := false) (m := { rv := 0, sig := 3 }) (res := { rv := -1, sig := 11 }) (r := -1)
    (pid := 7) (by decide) (by decide) (by decide) false (some b!"a.c") b!"compile" b!"compiled" []).trans
    (by decide)

/-- A system without any program. -/
def noPrograms : SpawnWorld :=
  { exec := { kind := fun _ => none, xok := fun _ => false, path := some b!"/bin" }, pipeOk := true, spawnRet := 0, child := 7, garbage := 0,
    wait := fun _ => [] }

/-- **C82** is false: there is no compiler, and bob says that it has successfully compiled. -/
theorem C82_report_agrees_false : ¬ ∀ (dbg : Bool) (w : SpawnWorld) (name : Bytes) (m res : CmdRes) (r : Int),
    cmdExecRes dbg w name m = some (r, res) → ∀ (colour : Bool) (pre : Option Bytes) (inf past out : Bytes),
      cmdLogPrint colour res.rv pre inf past out =
        (if r < 0 then vlog colour .error (prefixed pre (b!"Failed to " ++ inf ++ suffix (cstr out ≠ [])))
          else vlog colour .success (prefixed pre (b!"Successfully " ++ past ++ suffix (cstr out ≠ [])))) ++ cstr out := by
  intro h
  exact absurd (h false noPrograms b!"cc" { rv := 0, sig := 0 } _ _ (C82_unstarted (by decide) _) false (some b!"a.c") b!"compile" b!"compiled" [])
    (by decide)

example : cmdExecRes false noPrograms b!"cc" { rv := 0, sig := 0 } = some (-1, { rv := 0, sig := 0 }) ∧
    cmdLogPrint false 0 (some b!"a.c") b!"compile" b!"compiled" [] = b!"a.c\x1b[0m: Successfully compiled.\n" := by decide

end Bob
