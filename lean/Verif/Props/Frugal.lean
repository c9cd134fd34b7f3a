import Verif.Model.Frugal
import Verif.Lemmas.Base
/-!
# Properties C01, C02, C06: deciding whether work is needed
-/

namespace Bob

/-! ## C01 -/

/-- Work is needed: the target is missing, or some dependency is strictly newer than the target and all
dependencies listed before it exist and are not newer. -/
def WorkNeeded (stat : Bytes → StatRes) (deps : List Bytes) (target : Bytes) : Prop :=
  stat target = .enoent ∨
  ∃ t, stat target = .ok t ∧ ∃ pre d post m, deps = pre ++ d :: post ∧
    (∀ x ∈ pre, ∃ mx, stat x = .ok mx ∧ mx ≤ t) ∧ stat d = .ok m ∧ t < m

/-- Everything is up to date: the target exists and all dependencies exist and are not newer. -/
def UpToDate (stat : Bytes → StatRes) (deps : List Bytes) (target : Bytes) : Prop :=
  ∃ t, stat target = .ok t ∧ ∀ d ∈ deps, ∃ m, stat d = .ok m ∧ m ≤ t

theorem mtimeLoop_true (stat : Bytes → StatRes) (t : Nat) (deps : List Bytes) :
    mtimeLoop stat t deps = some true ↔ ∃ pre d post m, deps = pre ++ d :: post ∧
      (∀ x ∈ pre, ∃ mx, stat x = .ok mx ∧ mx ≤ t) ∧ stat d = .ok m ∧ t < m := by
  induction deps with
  | nil => simp [mtimeLoop]
  | cons d ds ih =>
    simp only [mtimeLoop]
    cases hd : stat d with
    | ok m =>
      by_cases hm : m > t
      · simp only [hm, if_true, true_iff]
        exact ⟨[], d, ds, m, rfl, by simp, hd, hm⟩
      · simp only [hm, if_false]
        rw [ih]
        constructor
        · rintro ⟨pre, x, post, mx, e, hp, hx, hlt⟩
          refine ⟨d :: pre, x, post, mx, by simp [e], ?_, hx, hlt⟩
          intro y hy
          rcases List.mem_cons.mp hy with rfl | hy
          · exact ⟨m, hd, by omega⟩
          · exact hp y hy
        · rintro ⟨pre, x, post, mx, e, hp, hx, hlt⟩
          cases pre with
          | nil =>
            simp only [List.nil_append, List.cons.injEq] at e
            obtain ⟨rfl, rfl⟩ := e
            rw [hd] at hx; cases hx; omega
          | cons y pre =>
            simp only [List.cons_append, List.cons.injEq] at e
            obtain ⟨rfl, rfl⟩ := e
            exact ⟨pre, x, post, mx, rfl, fun z hz => hp z (by simp [hz]), hx, hlt⟩
    | enoent | err =>
      simp only [reduceCtorEq, false_iff, not_exists]
      rintro pre x post mx ⟨e, hp, hx, hlt⟩
      cases pre with
      | nil =>
        simp only [List.nil_append, List.cons.injEq] at e
        obtain ⟨rfl, rfl⟩ := e
        rw [hd] at hx; cases hx
      | cons y pre =>
        simp only [List.cons_append, List.cons.injEq] at e
        obtain ⟨rfl, rfl⟩ := e
        obtain ⟨mx', h, _⟩ := hp d (by simp)
        rw [hd] at h; cases h

theorem mtimeLoop_false (stat : Bytes → StatRes) (t : Nat) (deps : List Bytes) :
    mtimeLoop stat t deps = some false ↔ ∀ d ∈ deps, ∃ m, stat d = .ok m ∧ m ≤ t := by
  induction deps with
  | nil => simp [mtimeLoop]
  | cons d ds ih =>
    simp only [mtimeLoop, List.mem_cons, forall_eq_or_imp]
    cases hd : stat d with
    | ok m =>
      by_cases hm : m > t
      · simp only [hm, if_true, Option.some.injEq, StatRes.ok.injEq, exists_eq_left', Bool.true_eq_false, false_iff, not_and]
        omega
      · simp only [hm, if_false, ih, StatRes.ok.injEq]
        constructor
        · intro h; exact ⟨⟨m, rfl, by omega⟩, h⟩
        · exact fun h => h.2
    | enoent | err => simp

/-- **C01.** bob redoes the work exactly if `WorkNeeded`, skips it exactly if `UpToDate`, and reports an error
in every other case. -/
theorem C01_mtime_decision_exact (stat : Bytes → StatRes) (deps : List Bytes) (target : Bytes) :
    (frugalMtime stat deps target = some true ↔ WorkNeeded stat deps target) ∧
    (frugalMtime stat deps target = some false ↔ UpToDate stat deps target) ∧
    (frugalMtime stat deps target = none ↔ ¬ WorkNeeded stat deps target ∧ ¬ UpToDate stat deps target) := by
  have h1 : frugalMtime stat deps target = some true ↔ WorkNeeded stat deps target := by
    unfold frugalMtime WorkNeeded
    cases ht : stat target with
    | ok t => simp only [reduceCtorEq, StatRes.ok.injEq, false_or, exists_eq_left', mtimeLoop_true]
    | enoent => simp
    | err => simp
  have h2 : frugalMtime stat deps target = some false ↔ UpToDate stat deps target := by
    unfold frugalMtime UpToDate
    cases ht : stat target with
    | ok t => simp only [StatRes.ok.injEq, exists_eq_left', mtimeLoop_false]
    | enoent => simp
    | err => simp
  refine ⟨h1, h2, ?_⟩
  rw [← h1, ← h2]
  match frugalMtime stat deps target with
  | none => simp
  | some true => simp
  | some false => simp

/-- A stat oracle for the instances. -/
def sampleStat (p : Bytes) : StatRes :=
  if p = b!"t" then .ok 10 else if p = b!"old" then .ok 10 else if p = b!"new" then .ok 11
  else if p = b!"odd" then .err else .enoent

/-- Instances: a newer dependency behind an equal one; a missing one before it; one missing behind it. -/
example : WorkNeeded sampleStat [b!"old", b!"new", b!"gone"] b!"t" :=
  Or.inr ⟨10, by decide, [b!"old"], b!"new", [b!"gone"], 11, rfl, by simpa using ⟨10, by decide, by omega⟩, by decide, by decide⟩
example : frugalMtime sampleStat [b!"old", b!"gone", b!"new"] b!"t" = none := by decide
example : frugalMtime sampleStat [b!"old", b!"t"] b!"t" = some false := by decide
example : frugalMtime sampleStat [b!"gone"] b!"nothing" = some true := by decide

/-- A consequence of the strict comparison on whole seconds: a dependency edited in the second in which the
target was made is not noticed. -/
theorem C01_same_second_edit_missed (stat : Bytes → StatRes) (dep target : Bytes) (t : Nat)
    (ht : stat target = .ok t) (hd : stat dep = .ok t) : frugalMtime stat [dep] target = some false := by
  rw [(C01_mtime_decision_exact stat [dep] target).2.1]
  exact ⟨t, ht, by simpa using ⟨t, hd, by omega⟩⟩

/-! ## C02 -/

/-- A flag which fits on one line of the record. -/
def CleanFlag (f : Bytes) : Prop := NUL ∉ f ∧ NL ∉ f

instance (f : Bytes) : Decidable (CleanFlag f) := by unfold CleanFlag; infer_instance

theorem flagText_clean (fs : List Bytes) (h : ∀ f ∈ fs, NUL ∉ f) : flagText fs = fs.flatMap (· ++ [NL]) := by
  induction fs with
  | nil => rfl
  | cons f fs ih =>
    have hf := h f (by simp)
    simp [flagText, hf, ih (fun g hg => h g (by simp [hg]))]

theorem nul_not_mem_flagText (fs : List Bytes) : NUL ∉ flagText fs := by
  induction fs with
  | nil => simp [flagText]
  | cons f fs ih =>
    simp only [flagText]
    split
    · simp only [List.mem_append, not_or]
      exact ⟨nul_not_mem_cstr f, by decide⟩
    · rename_i h
      simp only [List.mem_append, not_or]
      exact ⟨⟨h, by decide⟩, ih⟩

/-- The lines of the record give the flags back. -/
theorem flagText_lines (fs : List Bytes) (h : ∀ f ∈ fs, CleanFlag f) :
    strsepAll NL (flagText fs) = fs ++ [[]] := by
  induction fs with
  | nil => rfl
  | cons f fs ih =>
    have hf := h f (by simp)
    have ih' := ih (fun g hg => h g (by simp [hg]))
    simp only [flagText, hf.1, if_false]
    have := strsepAll_field_sep NL f (flagText fs) hf.2
    simpa [ih'] using this

theorem flagText_inj {fs gs : List Bytes} (hf : ∀ f ∈ fs, CleanFlag f) (hg : ∀ f ∈ gs, CleanFlag f)
    (h : flagText fs = flagText gs) : fs = gs := by
  have h1 := flagText_lines fs hf
  rw [h, flagText_lines gs hg] at h1
  exact (List.append_cancel_right h1).symm

/-- **C02.** After any check of a flag list `fs` (whatever was recorded before), checking `gs` says "changed"
exactly if the lists differ. -/
theorem C02_flag_change_noticed (prev : Option Bytes) (fs gs : List Bytes)
    (hf : ∀ f ∈ fs, CleanFlag f) (hg : ∀ g ∈ gs, CleanFlag g) :
    (frugalFlags (frugalFlags prev true fs).2 true gs).1 = true ↔ fs ≠ gs := by
  have hrec : ∃ p, (frugalFlags prev true fs).2 = some p ∧ cstr p = flagText fs := by
    unfold frugalFlags
    cases prev with
    | none => exact ⟨_, rfl, cstr_eq_self (nul_not_mem_flagText fs)⟩
    | some p =>
      by_cases hp : cstr p = flagText fs
      · simp only [hp, if_true]; exact ⟨p, rfl, hp⟩
      · simp only [hp, if_false, if_true]
        exact ⟨_, rfl, cstr_eq_self (nul_not_mem_flagText fs)⟩
  obtain ⟨p, h1, h2⟩ := hrec
  rw [h1]
  unfold frugalFlags
  simp only [h2]
  by_cases he : flagText fs = flagText gs
  · simp [flagText_inj hf hg he]
  · simp only [he, if_false, true_iff]
    exact fun e => he (by rw [e])

/-- Instance: appending, reordering and splitting are all noticed. -/
example : ∀ f ∈ [b!"-O2", b!"-g", b!""], CleanFlag f := by decide
example : (frugalFlags (frugalFlags none true [b!"-O2", b!"-g"]).2 true [b!"-g", b!"-O2"]).1 = true := by decide
example : (frugalFlags (frugalFlags none true [b!"-O2-g"]).2 true [b!"-O2", b!"-g"]).1 = true := by decide
example : (frugalFlags (frugalFlags none true [b!"-O2", b!"-g"]).2 true [b!"-O2", b!"-g"]).1 = false := by decide

/-- **C02, record.** After a check of `gs` the record is exactly the text of `gs` (up to bytes behind a NUL of a
record tampered with), so that checking `gs` again reports no change; this holds for all flags. -/
theorem C02_record_is_updated (prev : Option Bytes) (gs : List Bytes) :
    ∃ p, (frugalFlags prev true gs).2 = some p ∧ cstr p = flagText gs ∧
      (frugalFlags (some p) true gs) = (false, some p) := by
  unfold frugalFlags
  cases prev with
  | none =>
    have := cstr_eq_self (nul_not_mem_flagText gs)
    exact ⟨_, rfl, this, by simp [this]⟩
  | some p =>
    by_cases hp : cstr p = flagText gs
    · simp only [hp, if_true]; exact ⟨p, rfl, hp, by simp [hp]⟩
    · have := cstr_eq_self (nul_not_mem_flagText gs)
      simp only [hp, if_false, if_true]
      exact ⟨_, rfl, this, by simp [this]⟩

/-- If nothing is recorded, or the record cannot be written, the check asks for work unless the record already
matches: errors never cause work to be skipped. -/
theorem C02_unwritable_record (prev : Option Bytes) (gs : List Bytes) :
    ((frugalFlags prev false gs).1 = false ↔ ∃ p, prev = some p ∧ cstr p = flagText gs) ∧
    (frugalFlags prev false gs).2 = prev := by
  unfold frugalFlags
  cases prev with
  | none => simp
  | some p => by_cases hp : cstr p = flagText gs <;> simp [hp]

/-- **C02 is false for flags with a newline**: a change from one flag to two is not noticed. -/
theorem C02_newline_flags_false :
    ∃ fs gs : List Bytes, fs ≠ gs ∧ ∀ prev, (frugalFlags (frugalFlags prev true fs).2 true gs).1 = false := by
  refine ⟨[b!"-DA\n-DB"], [b!"-DA", b!"-DB"], by decide, ?_⟩
  intro prev
  obtain ⟨p, h1, h2, _⟩ := C02_record_is_updated prev [b!"-DA\n-DB"]
  rw [h1]
  have e : flagText [b!"-DA\n-DB"] = flagText [b!"-DA", b!"-DB"] := by decide
  simp [frugalFlags, h2, e]

/-- **C02 is false for flags with a NUL byte**: everything behind it is invisible, even further flags. -/
theorem C02_nul_flags_false (f : Bytes) (gs hs : List Bytes) (hf : NUL ∈ f) (prev : Option Bytes) :
    (frugalFlags (frugalFlags prev true (f :: gs)).2 true (f :: hs)).1 = false := by
  obtain ⟨p, h1, h2, _⟩ := C02_record_is_updated prev (f :: gs)
  rw [h1]
  have e : flagText (f :: gs) = flagText (f :: hs) := by simp [flagText, hf]
  simp [frugalFlags, h2, e]

/-! ## C06 -/

/-- Tokens of the part of a rule behind the colon. -/
def ruleTokens : List (Bool × Bytes) → List Bytes
  | [] => []
  | [(brk, n)] => (if brk then [b!"\\\n"] else []) ++ [n ++ [NL]]
  | (brk, n) :: rest => (if brk then [b!"\\\n"] else []) ++ n :: ruleTokens rest

theorem ruleTokens_eq (items : List (Bool × Bytes)) (hne : items ≠ []) (h : ∀ it ∈ items, CleanName it.2) (pre : Bytes) (hpre : SP ∉ pre) :
    strsepAll SP (pre ++ ((items.flatMap fun it => (if it.1 then b!" \\\n " else b!" ") ++ it.2) ++ b!"\n"))
      = pre :: ruleTokens items := by
  induction items generalizing pre with
  | nil => exact absurd rfl hne
  | cons it rest ih =>
    obtain ⟨brk, n⟩ := it
    have hn := h (brk, n) (by simp)
    have hnsp : SP ∉ n := hn.2.1
    have tail : strsepAll SP (n ++ ((rest.flatMap fun it => (if it.1 then b!" \\\n " else b!" ") ++ it.2) ++ b!"\n"))
        = (if rest = [] then [n ++ [NL]] else n :: ruleTokens rest) := by
      cases rest with
      | nil =>
        simp only [List.flatMap_nil, List.nil_append, if_true]
        exact strsepAll_field SP _ (by simp only [List.mem_append, not_or]; exact ⟨hnsp, by decide⟩)
      | cons it2 rest2 =>
        rw [if_neg (by simp)]
        exact ih (by simp) (fun it hit => h it (by simp [hit])) n hnsp
    have htok : ruleTokens ((brk, n) :: rest) = (if brk then [b!"\\\n"] else []) ++
        (if rest = [] then [n ++ [NL]] else n :: ruleTokens rest) := by
      cases rest <;> simp [ruleTokens]
    rw [htok, ← tail]
    cases brk with
    | false =>
      have := strsepAll_field_sep SP pre (n ++ ((rest.flatMap fun it => (if it.1 then b!" \\\n " else b!" ") ++ it.2) ++ b!"\n")) hpre
      simpa using this
    | true =>
      have h1 := strsepAll_field_sep SP pre (b!"\\\n" ++ SP :: (n ++ ((rest.flatMap fun it => (if it.1 then b!" \\\n " else b!" ") ++ it.2) ++ b!"\n"))) hpre
      rw [strsepAll_field_sep SP b!"\\\n" _ (by decide)] at h1
      simpa using h1

theorem ruleTokens_filtered (items : List (Bool × Bytes)) (h : ∀ it ∈ items, CleanName it.2) :
    ((ruleTokens items).filter fun t => !skipToken t).flatMap (fun t => stripNl t ++ [NL])
      = (items.map (·.2)).flatMap (· ++ [NL]) := by
  have hname : ∀ n : Bytes, CleanName n → skipToken n = false ∧ stripNl n = n ∧
      skipToken (n ++ [NL]) = false ∧ stripNl (n ++ [NL]) = n := by
    intro n hn
    obtain ⟨c, cs, hc⟩ := List.exists_cons_of_ne_nil hn.1
    have h1 : c ≠ COLON := by have := hn.2.2.2.2.1; simpa [hc] using this
    have h2 : c ≠ BACKSLASH := by have := hn.2.2.2.2.2; simpa [hc] using this
    refine ⟨by simp [skipToken, hc, h1, h2], ?_, by simp [skipToken, hc, h1, h2], by simp [stripNl]⟩
    unfold stripNl
    have : n.getLast? ≠ some NL := by
      intro e
      exact hn.2.2.1 (List.mem_of_getLast? e)
    simp [this]
  induction items with
  | nil => rfl
  | cons it rest ih =>
    obtain ⟨brk, n⟩ := it
    have hn := hname n (h (brk, n) (by simp))
    have hb : skipToken b!"\\\n" = true := by decide
    have ih' := ih (fun it hit => h it (by simp [hit]))
    cases rest with
    | nil => cases brk <;> simp [ruleTokens, hn, hb]
    | cons it2 rest2 =>
      have : ruleTokens ((brk, n) :: it2 :: rest2) = (if brk then [b!"\\\n"] else []) ++ n :: ruleTokens (it2 :: rest2) := rfl
      rw [this]
      cases brk <;> simp [hn, hb, ih']

theorem readDeps_lines (names : List Bytes) (h : ∀ n ∈ names, CleanName n) :
    readDeps (names.flatMap (· ++ [NL])) = names := by
  have hnul : NUL ∉ names.flatMap (· ++ [NL]) := by
    simp only [List.mem_flatMap, List.mem_append, not_exists, not_and, not_or]
    intro n hn
    exact ⟨(h n hn).2.2.2.1, by decide⟩
  unfold readDeps
  rw [cstr_eq_self hnul]
  have hsplit : ∀ (ns : List Bytes), (∀ n ∈ ns, CleanName n) → strsepAll NL (ns.flatMap (· ++ [NL])) = ns ++ [[]] := by
    intro ns
    induction ns with
    | nil => intro _; rfl
    | cons n ns ih =>
      intro hns
      have := strsepAll_field_sep NL n (ns.flatMap (· ++ [NL])) (hns n (by simp)).2.2.1
      rw [ih (fun m hm => hns m (by simp [hm]))] at this
      simpa using this
  rw [hsplit names h, List.filter_append]
  have : names.filter (fun t => !t.isEmpty) = names := by
    apply List.filter_eq_self.mpr
    intro n hn
    have := (h n hn).1
    cases n with
    | nil => exact absurd rfl this
    | cons _ _ => rfl
  rw [this]
  simp

/-- **C06.** Whatever the line breaks of the rule, the dependencies the next build works with are exactly the
prerequisites named by the compiler, in order. -/
theorem C06_include_deps_roundtrip (items : List (Bool × Bytes)) (h : ∀ it ∈ items, CleanName it.2) :
    recordedDeps (ruleText items) = items.map (·.2) := by
  unfold recordedDeps depsText
  have hnul : NUL ∉ ruleText items := by
    unfold ruleText
    simp only [List.mem_append, List.mem_flatMap, not_or, not_exists, not_and]
    refine ⟨⟨by decide, ?_⟩, by decide⟩
    intro it hit
    exact ⟨by cases it.1 <;> decide, (h it hit).2.2.2.1⟩
  rw [cstr_eq_self hnul]
  cases items with
  | nil => decide
  | cons it rest =>
    have h1 := ruleTokens_eq (it :: rest) (by simp) h b!":" (by decide)
    have h2 : ruleText (it :: rest) = b!":" ++ (((it :: rest).flatMap fun it => (if it.1 then b!" \\\n " else b!" ") ++ it.2) ++ b!"\n") := by
      simp [ruleText]
    rw [h2, h1]
    have hcolon : skipToken b!":" = true := by decide
    rw [List.filter_cons]
    simp only [hcolon, Bool.not_true, Bool.false_eq_true, if_false]
    rw [ruleTokens_filtered _ h]
    exact readDeps_lines _ (by
      intro n hn
      obtain ⟨it', hit, rfl⟩ := List.mem_map.mp hn
      exact h it' hit)

/-- Instance: a rule with a continuation line, as gcc prints it. -/
example : ruleText [(false, b!"src/main.c"), (false, b!"src/a.h"), (true, b!"src/b.h")]
    = b!": src/main.c src/a.h \\\n src/b.h\n" := by decide
example : ∀ it ∈ [(false, b!"src/main.c"), (false, b!"src/a.h"), (true, b!"src/b.h")], CleanName it.2 := by decide
example : recordedDeps b!": src/main.c src/a.h \\\n src/b.h\n" = [b!"src/main.c", b!"src/a.h", b!"src/b.h"] := by decide

/-- **C06 is false for names with blanks**: the compiler prints `my hdr.h` as `my\ hdr.h`, and bob records two
files that do not exist. -/
theorem C06_names_with_blanks_false :
    recordedDeps b!": main.c my\\ hdr.h\n" = [b!"main.c", b!"my\\", b!"hdr.h"] := by decide

end Bob
