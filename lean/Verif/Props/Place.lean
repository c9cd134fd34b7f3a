import Verif.Spec.Place
import Verif.Spec.RunTests
import Verif.Props.CliTrace
/-!
# C123, C124: where bob is started, and where what it starts goes
-/

namespace Bob

/-! ## The project directory -/

/-- The two models agree: the one without directories asks the same, and then goes on in the same way. -/
theorem mainRest_chdir (w : MainWorld) (o : Opts) (instr : Bytes) (args : List Bytes) :
    mainRest w o (instr :: args) = if w.realpath (o.project.getD b!".") && w.chdir (o.project.getD b!".") then afterChdir w o instr args else M.end (.exit false) := by
  unfold mainRest afterChdir
  simp only
  cases w.realpath (o.project.getD b!".") <;> cases w.chdir (o.project.getD b!".") <;> rfl

theorem setOpt_project {c : UInt8} {v : Bytes} {o : Opts} (p : Option Bytes) (hc : c ≠ 67) :
    setOpt c v { o with project := p } = (setOpt c v o).map fun o => { o with project := p } := by
  unfold setOpt
  rw [if_neg hc, if_neg hc]
  by_cases h1 : c = 106
  · rw [if_pos h1, if_pos h1]; cases setMaxJobs (toSize (atoi v)) <;> rfl
  rw [if_neg h1, if_neg h1]
  by_cases h2 : c = 111
  · rw [if_pos h2, if_pos h2]; rfl
  rw [if_neg h2, if_neg h2]
  by_cases h3 : c = 112
  · rw [if_pos h3, if_pos h3]; rfl
  rw [if_neg h3, if_neg h3]; rfl

theorem setOpt_keeps {c : UInt8} {v : Bytes} {o o' : Opts} (hc : c ≠ 67) (h : setOpt c v o = some o') : o'.project = o.project := by
  have := setOpt_project (v := v) (o := o) o.project hc
  have e : ({ o with project := o.project } : Opts) = o := rfl
  rw [e, h] at this
  simp only [Option.map_some, Option.some.injEq] at this
  rw [this]

theorem setOpt_again {v : Bytes} {o : Opts} (p : Option Bytes) : setOpt 67 v { o with project := p } = setOpt 67 v o := by
  unfold setOpt
  rw [if_pos rfl, if_pos rfl]

/-- Scanning with another project directory to begin with: either there is a later one, and the first does not matter, or there is none, and the first stays. -/
theorem scan_project (posix : Bool) (p : Option Bytes) : ∀ (args : List Bytes) (pend : Option UInt8) (o : Opts) (non : List Bytes),
    (getoptScan posix pend args { o with project := p } non = getoptScan posix pend args o non ∧
      ∀ o' rest, getoptScan posix pend args o non = some (o', rest) → o'.project ≠ none) ∨
    getoptScan posix pend args { o with project := p } non = (getoptScan posix pend args o non).map (fun r => ({ r.1 with project := p }, r.2)) ∧
      ∀ o' rest, getoptScan posix pend args o non = some (o', rest) → o'.project = o.project
  | [], none, o, non => by
    refine .inr ⟨rfl, fun o' rest h => ?_⟩
    simp only [getoptScan, Option.some.injEq, Prod.mk.injEq] at h
    rw [h.1]
  | [], some c, o, non => .inr ⟨rfl, fun o' rest h => by simp [getoptScan] at h⟩
  | v :: rest, some c, o, non => by
    by_cases hc : c = 67
    · subst hc
      refine .inl ⟨?_, fun o' r h => ?_⟩
      · simp only [getoptScan, setOpt_again]
      · have e : setOpt 67 v o = some { o with project := some v } := by unfold setOpt; rw [if_pos rfl]
        simp only [getoptScan, e, Option.bind_some] at h
        exact project_kept _ _ _ _ _ (by simp) h
    · simp only [getoptScan, setOpt_project p hc]
      cases e : setOpt c v o with
      | none => exact .inr ⟨rfl, fun o' r h => by simp at h⟩
      | some o1 =>
        simp only [Option.map_some, Option.bind_some]
        rw [← setOpt_keeps hc e]
        exact scan_project posix p rest none o1 non
  | a :: rest, none, o, non => by
    simp only [getoptScan]
    by_cases h1 : a = b!"--"
    · rw [if_pos h1, if_pos h1]
      refine .inr ⟨rfl, fun o' r h => ?_⟩
      simp only [Option.some.injEq, Prod.mk.injEq] at h
      rw [h.1]
    rw [if_neg h1, if_neg h1]
    have hop : (if posix = true then some (({ o with project := p } : Opts), non ++ a :: rest) else getoptScan posix none rest { o with project := p } (non ++ [a])) =
        (if posix = true then some (o, non ++ a :: rest) else getoptScan posix none rest o (non ++ [a])) ∧
        (∀ o' r, (if posix = true then some (o, non ++ a :: rest) else getoptScan posix none rest o (non ++ [a])) = some (o', r) → o'.project ≠ none) ∨
        (if posix = true then some (({ o with project := p } : Opts), non ++ a :: rest) else getoptScan posix none rest { o with project := p } (non ++ [a])) =
        ((if posix = true then some (o, non ++ a :: rest) else getoptScan posix none rest o (non ++ [a])).map fun r => ({ r.1 with project := p }, r.2)) ∧
        (∀ o' r, (if posix = true then some (o, non ++ a :: rest) else getoptScan posix none rest o (non ++ [a])) = some (o', r) → o'.project = o.project) := by
      cases posix with
      | true =>
        refine .inr ⟨rfl, fun o' r h => ?_⟩
        simp only [if_true, Option.some.injEq, Prod.mk.injEq] at h
        rw [h.1]
      | false => simpa using scan_project false p rest none o (non ++ [a])
    match a, h1, hop with
    | [], _, hop => exact hop
    | [_], _, hop => exact hop
    | d :: c :: val, h1, hop =>
      simp only
      by_cases hd : d = DASH
      · simp only [if_pos hd]
        by_cases hoc : isOptChar c = true
        · simp only [if_pos hoc]
          by_cases hv : val = []
          · simp only [if_pos hv]
            exact scan_project posix p rest (some c) o non
          · simp only [if_neg hv]
            by_cases hc : c = 67
            · subst hc
              refine .inl ⟨by rw [setOpt_again], fun o' r h => ?_⟩
              have e : setOpt 67 val o = some { o with project := some val } := by unfold setOpt; rw [if_pos rfl]
              simp only [e, Option.bind_some] at h
              exact project_kept _ _ _ _ _ (by simp) h
            · rw [setOpt_project p hc]
              cases e : setOpt c val o with
              | none => exact .inr ⟨rfl, fun o' r h => by simp at h⟩
              | some o1 =>
                simp only [Option.map_some, Option.bind_some]
                rw [← setOpt_keeps hc e]
                exact scan_project posix p rest none o1 non
        · simp only [if_neg hoc]
          exact .inr ⟨rfl, fun o' r h => by simp at h⟩
      · simp only [if_neg hd]
        exact hop
where
  project_kept {posix : Bool} : ∀ (args : List Bytes) (pend : Option UInt8) (o : Opts) (non : List Bytes) (r : Opts × List Bytes), o.project ≠ none →
      getoptScan posix pend args o non = some r → r.1.project ≠ none := by
    intro args
    induction args with
    | nil =>
      intro pend o non r hp h
      cases pend with
      | none => simp only [getoptScan, Option.some.injEq] at h; rw [← h]; exact hp
      | some c => simp [getoptScan] at h
    | cons a rest ih =>
      intro pend o non r hp h
      have hset : ∀ {c v o'}, setOpt c v o = some o' → o'.project ≠ none := by
        intro c v o' e
        by_cases hc : c = 67
        · subst hc
          have e' : setOpt 67 v o = some { o with project := some v } := by unfold setOpt; rw [if_pos rfl]
          rw [e', Option.some.injEq] at e
          rw [← e]; simp
        · rw [setOpt_keeps hc e]; exact hp
      cases pend with
      | some c =>
        simp only [getoptScan] at h
        cases e : setOpt c a o with
        | none => rw [e] at h; simp at h
        | some o1 => rw [e] at h; exact ih none o1 non r (hset e) h
      | none =>
        simp only [getoptScan] at h
        split at h
        · simp only [Option.some.injEq] at h; rw [← h]; exact hp
        split at h
        · split at h
          · split at h
            · split at h
              · exact ih _ _ _ _ hp h
              · rename_i c val _ _ _ _
                cases e : setOpt c val o with
                | none => rw [e] at h; simp at h
                | some o1 => rw [e] at h; exact ih none o1 non r (hset e) h
            · simp at h
          · split at h
            · simp only [Option.some.injEq] at h; rw [← h]; exact hp
            · exact ih _ _ _ _ hp h
        · split at h
          · simp only [Option.some.injEq] at h; rw [← h]; exact hp
          · exact ih _ _ _ _ hp h

theorem scan_moved (posix : Bool) (p : Bytes) (args : List Bytes) (o : Opts) :
    getoptScan posix none (b!"-C" :: p :: args) o [] = getoptScan posix none args { o with project := some p } [] ∧
    (p ≠ [] → getoptScan posix none ((b!"-C" ++ p) :: args) o [] = getoptScan posix none args { o with project := some p } []) := by
  have e : ∀ v, setOpt 67 v o = some { o with project := some v } := fun v => by unfold setOpt; rw [if_pos rfl]
  refine ⟨?_, fun hp => ?_⟩
  · have h1 : getoptScan posix none (b!"-C" :: p :: args) o [] = getoptScan posix (some 67) (p :: args) o [] := rfl
    rw [h1, getoptScan, e]; rfl
  · have h2 : ((b!"-C" ++ p) : Bytes) = 45 :: 67 :: p := rfl
    rw [h2, getoptScan, if_neg (by simp)]
    simp only [if_true, show isOptChar 67 = true from rfl, if_neg hp, e, Option.bind_some]

theorem mainAt_moved {m : Machine Dir} {d d' : Dir} {p : Bytes} (hp : m.cd d p = some d') (hs : m.Stays d') {args args' : List Bytes} (hn : NoMove m.posix args)
    (hg : getoptScan m.posix none args' .init [] = getoptScan m.posix none args { Opts.init with project := some p } []) : mainAt m d args' = mainAt m d' args := by
  have key := scan_project m.posix (some p) args none .init []
  unfold mainAt
  rw [hg]
  cases hr : getoptScan m.posix none args .init [] with
  | none =>
    rcases key with ⟨k, -⟩ | ⟨k, -⟩ <;> simp only [k, hr, Option.map_none]
  | some r =>
    obtain ⟨o, rest⟩ := r
    have h0 := hn o rest hr
    rcases key with ⟨-, k⟩ | ⟨k, -⟩
    · exact (k o rest hr h0).elim
    · rw [k, hr]
      cases rest with
      | nil => rfl
      | cons instr rest =>
        have hs' : m.cd d' b!"." = some d' := hs
        simp only [Option.map_some, Option.getD_some, hp, h0, Option.getD_none, hs']
        rw [show ∀ w : MainWorld, afterChdir w { o with project := some p } instr rest = afterChdir w o instr rest from fun w => rfl]

/-- **C123.** `bob -C p …` does what `bob …` does that is started in `p`, and ends in the same way: with the same output directory, prefix, build system, commands, environment. -/
theorem C123_project_directory {m : Machine Dir} {d d' : Dir} {p : Bytes} (hp : m.cd d p = some d') (hs : m.Stays d') {args : List Bytes} (hn : NoMove m.posix args) :
    mainAt m d (b!"-C" :: p :: args) = mainAt m d' args ∧ (p ≠ [] → mainAt m d ((b!"-C" ++ p) :: args) = mainAt m d' args) :=
  ⟨mainAt_moved hp hs hn (scan_moved _ _ _ _).1, fun h => mainAt_moved hp hs hn ((scan_moved _ _ _ _).2 h)⟩

/-- **C123.** If there is no such directory, or it cannot be entered, then bob fails and has done nothing. -/
theorem C123_no_directory {m : Machine Dir} {d : Dir} {p : Bytes} (hp : m.cd d p = none) {args : List Bytes} (hn : NoMove m.posix args) :
    mainAt m d (b!"-C" :: p :: args) = ([], .exit false) := by
  have key := scan_project m.posix (some p) args none .init []
  unfold mainAt
  rw [(scan_moved _ _ _ _).1]
  cases hr : getoptScan m.posix none args .init [] with
  | none =>
    rcases key with ⟨k, -⟩ | ⟨k, -⟩ <;> simp only [k, hr, Option.map_none]
  | some r =>
    obtain ⟨o, rest⟩ := r
    rcases key with ⟨-, k⟩ | ⟨k, -⟩
    · exact (k o rest hr (hn o rest hr)).elim
    · rw [k, hr]
      cases rest with
      | nil => rfl
      | cons instr rest => simp only [Option.map_some, Option.getD_some, hp]

/-- **C123.** Of several project directories the last one counts, taken from where bob was started; the others need not even exist. -/
theorem C123_last_counts (m : Machine Dir) (d : Dir) (p q : Bytes) (args : List Bytes) : mainAt m d (b!"-C" :: p :: b!"-C" :: q :: args) = mainAt m d (b!"-C" :: q :: args) := by
  unfold mainAt
  rw [(scan_moved _ _ _ _).1, (scan_moved _ _ _ _).1, (scan_moved _ _ _ _).1]

/-- **C123.** On a tree there are such directories: all that are there. -/
theorem C123_on_tree (posix : Bool) (env : Env) (t : Tree) (view : Path → MainWorld) {d q : Path} {p : Bytes} {m : Nat} (h : t.stat d p = .ok (q, .dir m)) :
    (Machine.onTree posix env t view).cd d p = some q ∧ (Machine.onTree posix env t view).Stays q := by
  have hq : t q = some (.dir m) := by
    unfold Tree.stat at h
    split at h
    · cases h
    · rename_i q' _
      split at h
      · cases h
      · rename_i n hn
        simp only [Except.ok.injEq, Prod.mk.injEq] at h
        rw [← h.1, hn, h.2]
  refine ⟨by simp only [Machine.onTree, h], ?_⟩
  have hr : t.resolve q b!"." = .ok q := by
    unfold Tree.resolve
    simp only [show ((46 : UInt8) = SLASH) = False from by decide, if_false]
    have : strsepAll SLASH b!"." = [b!"."] := by decide
    rw [this, Tree.walk, hq]
    simp only [or_true, if_true, Tree.walk]
  have hst : t.stat q b!"." = .ok (q, .dir m) := by simp only [Tree.stat, hr, hq]
  show (match t.stat q b!"." with | .ok (q, .dir _) => some q | _ => none) = some q
  rw [hst]

/-- After `chdir` nothing depends on where the project was. -/
theorem afterChdir_same {w : MainWorld} {o : Opts} {q instr : Bytes} {rest : List Bytes} :
    afterChdir { w with realpath := fun p => p == q || w.realpath p, chdir := fun _ => true, there := fun p => w.realpath o.out && w.there p } o instr rest = afterChdir w o instr rest := by
  unfold afterChdir
  simp only
  by_cases h1 : (w.root && !w.statDot) = true
  · rw [if_pos h1, if_pos h1]
  rw [if_neg h1, if_neg h1]
  congr 1
  funext _
  by_cases h2 : (!w.mkdir o.out) = true
  · rw [if_pos h2, if_pos h2]
  rw [if_neg h2, if_neg h2]
  by_cases h3 : w.realpath o.out = true
  · simp only [h3, Bool.or_true, Bool.true_and, Bool.not_true, Bool.false_eq_true, if_false]
    rfl
  · rw [Bool.not_eq_true] at h3
    simp only [h3, Bool.or_false, Bool.false_and, Bool.not_false, if_true]
    split <;> rfl

/-- **C123.** What is known of bob without directories (C35 to C37, C104) is true of it with them: there is a world in which it does the same, with the system as it is seen from the
project's directory. -/
theorem C123_seen_from_there (m : Machine Dir) (d : Dir) (args : List Bytes) :
    ∃ w : MainWorld, bobMain w args = mainAt m d args ∧ w.posix = m.posix ∧ w.env = m.env ∧
      ∀ o rest d', getoptScan m.posix none args .init [] = some (o, rest) → m.cd d (o.project.getD b!".") = some d' →
        w.bsys = (m.view d').bsys ∧ w.kind = (m.view d').kind ∧ w.xok = (m.view d').xok ∧ w.execv = (m.view d').execv ∧ w.mkdir = (m.view d').mkdir := by
  cases hg : getoptScan m.posix none args .init [] with
  | none =>
    refine ⟨m.world d, ?_, rfl, rfl, fun o rest d' h => nomatch h⟩
    unfold bobMain mainAt
    rw [show (m.world d).posix = m.posix from rfl, hg]
  | some r =>
    obtain ⟨o, rest⟩ := r
    cases hc : m.cd d (o.project.getD b!".") with
    | none =>
      refine ⟨{ m.world d with realpath := fun _ => false }, ?_, rfl, rfl, fun o' rest' d' h h' => ?_⟩
      · unfold bobMain mainAt
        simp only [show (m.world d).posix = m.posix from rfl, hg]
        cases rest with
        | nil => rfl
        | cons instr rest => rw [mainRest_chdir]; simp only [hc, Bool.false_and, Bool.false_eq_true, if_false]; rfl
      · simp only [Option.some.injEq, Prod.mk.injEq] at h
        rw [← h.1, hc] at h'
        cases h'
    | some d' =>
      refine ⟨{ m.world d' with
          realpath := fun p => p == o.project.getD b!"." || (m.view d').realpath p
          chdir := fun _ => true
          there := fun p => (m.view d').realpath o.out && (m.view d').there p }, ?_, rfl, rfl, fun o' rest' d'' h h' => ?_⟩
      · unfold bobMain mainAt
        simp only [show (m.world d').posix = m.posix from rfl, hg]
        cases rest with
        | nil => rfl
        | cons instr rest =>
          rw [mainRest_chdir]
          simp only [hc, beq_self_eq_true, Bool.true_or, Bool.true_and, if_true]
          exact congrArg (fun r : M Bool => match r with | (t, .ok ok) => (t, End.exit ok) | (t, .error e) => (t, e))
            (afterChdir_same (w := m.world d') (o := o) (q := o.project.getD b!".") (instr := instr) (rest := rest))
      · simp only [Option.some.injEq, Prod.mk.injEq] at h
        rw [← h.1, hc] at h'
        cases h'
        exact ⟨rfl, rfl, rfl, rfl, rfl⟩

/-! ## Going elsewhere -/

theorem RunsAs.unique {t : Tree} {x : Path → Bool} {e q r : Path} {n : Bytes} (h : RunsAs t x e n q) (h' : RunsAs t x e n r) : q = r := by
  obtain ⟨⟨c, m, h⟩, -⟩ := h
  obtain ⟨⟨c', m', h'⟩, -⟩ := h'
  rw [h] at h'
  cases h'
  rfl

/-- There is at most one. -/
theorem Finds.unique {t : Tree} {x : Path → Bool} {e q r : Path} {l n : Bytes} (h : Finds t x e l n q) (h' : Finds t x e l n r) : q = r := by
  obtain ⟨pre, d, post, h1, h2, h3⟩ := h
  obtain ⟨pre', d', post', h1', h2', h3'⟩ := h'
  rw [h1] at h1'
  rcases List.append_eq_append_iff.mp h1' with ⟨as, e1, e2⟩ | ⟨as, e1, e2⟩
  · cases as with
    | nil => simp only [List.nil_append, List.cons.injEq] at e2; rw [e2.1] at h2; exact h2.unique h2'
    | cons a as =>
      simp only [List.cons_append, List.cons.injEq] at e2
      exact (h3' d (by rw [e1, e2.1]; simp) q h2).elim
  · cases as with
    | nil => simp only [List.nil_append, List.cons.injEq] at e2; rw [← e2.1] at h2; exact h2.unique h2'
    | cons a as =>
      simp only [List.cons_append, List.cons.injEq] at e2
      exact (h3 d' (by rw [e1, e2.1]; simp) r h2').elim

/-- **C124.** The hypothesis of the following: wherever bob is started, whatever it becomes has the environment of before with the directories of the prefix in front, under the name by which
the output directory was given; it has installed there. -/
theorem C124_environment (m : Machine Dir) (d : Dir) (args : List Bytes)
    (hb : ∀ d', ∃ tb so vars steps installs, (m.view d').bsys.find? (·.identify) = some (bsysBob tb so vars steps installs)) :
    ∀ path argv env, .exec path argv env ∈ (mainAt m d args).1 → ∃ out, .install (out ++ b!"/prefix") ∈ (mainAt m d args).1 ∧ Extended out m.env env := by
  intro path argv env hm
  obtain ⟨w, h1, -, h3, h4⟩ := C123_seen_from_there m d args
  cases hg : getoptScan m.posix none args .init [] with
  | none => simp [mainAt, hg] at hm
  | some r =>
    obtain ⟨o, rest⟩ := r
    cases hc : m.cd d (o.project.getD b!".") with
    | none =>
      cases rest with
      | nil => simp [mainAt, hg] at hm
      | cons instr rest => simp [mainAt, hg, hc] at hm
    | some d' =>
      obtain ⟨tb, so, vars, steps, installs, hf⟩ := hb d'
      rw [← (h4 o rest d' hg hc).1] at hf
      rw [← h1] at hm ⊢
      obtain ⟨out, hi, he⟩ := C36_exec_env tb so vars steps installs w hf args path argv env hm
      obtain ⟨e1, e2, e3⟩ := C36_environment out w.env
      refine ⟨out, hi, ?_⟩
      rw [he, ← h3]
      refine ⟨?_, ?_, e3⟩
      · rw [e1]; cases getenv b!"PATH" w.env <;> simp [withFirst]
      · rw [e2]; cases getenv b!"LD_LIBRARY_PATH" w.env <;> simp [withFirst]

/-- The entries of a list of directories with one more in front. -/
theorem extended_entries {out : Bytes} (h : COLON ∉ out) {env env' : Env} (hx : Extended out env env') :
    ∃ l, getenv b!"PATH" env' = some l ∧ strsepAll COLON l = (out ++ b!"/prefix/bin") :: ((getenv b!"PATH" env).map (strsepAll COLON)).getD [] := by
  obtain ⟨l, h1, h2⟩ := C36_entries out h env
  refine ⟨l, ?_, h2⟩
  rw [hx.path, ← h1, (C36_environment out env).1]
  cases getenv b!"PATH" env <;> simp [withFirst]

theorem entry_out (out name : Bytes) : inEntry (out ++ b!"/prefix/bin") name = out ++ b!"/prefix/bin/" ++ name := by
  unfold inEntry
  rw [if_neg (by simp)]
  simp

/-- An absolute name means the same everywhere. -/
theorem stat_absolute {s : Bytes} (h : s.head? = some SLASH) (t : Tree) (d e : Path) : t.stat d s = t.stat e s := by
  cases s with
  | nil => cases h
  | cons c cs =>
    simp only [List.head?_cons, Option.some.injEq] at h
    unfold Tree.stat Tree.resolve
    simp only [h, if_true]

/-- **C124, partial.** If the output directory was given by an absolute name, then in whatever directory, the programs of the project's prefix are found, before all others of
their name. -/
theorem C124_absolute_partial {out : Bytes} (habs : out.head? = some SLASH) (hc : COLON ∉ out) {env env' : Env} (hx : Extended out env env') {t : Tree} {x : Path → Bool} {proj : Path}
    {name : Bytes} {q : Path} (hq : RunsAs t x proj (out ++ b!"/prefix/bin/" ++ name) q) (e : Path) :
    ∃ l, getenv b!"PATH" env' = some l ∧ Finds t x e l name q := by
  obtain ⟨l, h1, h2⟩ := extended_entries hc hx
  refine ⟨l, h1, [], _, _, h2, ?_, fun y hy => nomatch hy⟩
  rw [entry_out]
  obtain ⟨⟨c, m, hs⟩, hx⟩ := hq
  refine ⟨⟨c, m, ?_⟩, hx⟩
  rw [← hs]
  refine stat_absolute ?_ t _ _
  cases out with
  | nil => cases habs
  | cons a as => exact habs

/-- **C124, partial.** However it was given, they are found by what stays in the project's directory. -/
theorem C124_staying_partial {out : Bytes} (hc : COLON ∉ out) {env env' : Env} (hx : Extended out env env') {t : Tree} {x : Path → Bool} {proj : Path}
    {name : Bytes} {q : Path} (hq : RunsAs t x proj (out ++ b!"/prefix/bin/" ++ name) q) : ∃ l, getenv b!"PATH" env' = some l ∧ Finds t x proj l name q := by
  obtain ⟨l, h1, h2⟩ := extended_entries hc hx
  refine ⟨l, h1, [], _, _, h2, ?_, fun y hy => nomatch hy⟩
  rw [entry_out]
  exact hq

/-- **C124.** What is found in another directory instead: if it has a program of that name where a project's prefix would be, that one, be it of another project; if not,
what would have been found without bob. -/
theorem C124_elsewhere {out : Bytes} (hc : COLON ∉ out) {env env' : Env} (hx : Extended out env env') {t : Tree} {x : Path → Bool} {name : Bytes} (e : Path) :
    ∃ l, getenv b!"PATH" env' = some l ∧
      (∀ q, RunsAs t x e (out ++ b!"/prefix/bin/" ++ name) q → Finds t x e l name q) ∧
      ((∀ q, ¬ RunsAs t x e (out ++ b!"/prefix/bin/" ++ name) q) → ∀ q, Finds t x e l name q ↔ ∃ l0, getenv b!"PATH" env = some l0 ∧ Finds t x e l0 name q) := by
  obtain ⟨l, h1, h2⟩ := extended_entries hc hx
  refine ⟨l, h1, fun q hq => ⟨[], _, _, h2, by rw [entry_out]; exact hq, fun y hy => nomatch hy⟩, fun hno q => ⟨?_, ?_⟩⟩
  · rintro ⟨pre, d, post, e1, e2, e3⟩
    rw [h2] at e1
    cases pre with
    | nil =>
      simp only [List.nil_append, List.cons.injEq] at e1
      rw [← e1.1, entry_out] at e2
      exact (hno q e2).elim
    | cons a pre =>
      simp only [List.cons_append, List.cons.injEq] at e1
      cases hp : getenv b!"PATH" env with
      | none => rw [hp] at e1; simp at e1
      | some l0 =>
        rw [hp] at e1
        exact ⟨l0, rfl, pre, d, post, e1.2, e2, fun y hy => e3 y (List.mem_cons_of_mem _ hy)⟩
  · rintro ⟨l0, hp, pre, d, post, e1, e2, e3⟩
    rw [hp] at h2
    refine ⟨(out ++ b!"/prefix/bin") :: pre, d, post, by rw [h2]; simp [e1], e2, ?_⟩
    intro y hy r
    rcases List.mem_cons.1 hy with rfl | hy
    · rw [entry_out]; exact hno r
    · exact e3 y hy r

end Bob
