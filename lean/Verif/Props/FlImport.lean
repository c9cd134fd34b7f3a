import Verif.Props.FlInst
/-!
# Imports (C63)
-/

namespace Bob.Fl

/-- The names of a path, joined by slashes, with `.fl` at the end. -/
def fileName (bits : List Bytes) : Bytes := List.flatten (bits.intersperse b!"/") ++ b!".fl"

/-- Which file an import means: a relative one is named as it is; another one is looked for in the import paths, in order, and named as it is if it is in
none of them. -/
inductive Resolves (w : World) (paths : List Bytes) (bits : List Bytes) : Bool → Bytes → Prop where
  | relative : Resolves w paths bits true (fileName bits)
  | found {pre post : List Bytes} {p : Bytes} : paths = pre ++ p :: post → (∀ q ∈ pre, ∃ m, w.file (q ++ b!"/" ++ fileName bits) = .missing m) →
      (∀ m, w.file (p ++ b!"/" ++ fileName bits) ≠ .missing m) → Resolves w paths bits false (p ++ b!"/" ++ fileName bits)
  | plain : (∀ q ∈ paths, ∃ m, w.file (q ++ b!"/" ++ fileName bits) = .missing m) → Resolves w paths bits false (fileName bits)

theorem importName_eq : ∀ bits : List Bytes, importName bits = fileName bits
  | [] => rfl
  | [b] => by simp [importName, fileName]
  | b :: c :: bs => by
    have ih := importName_eq (c :: bs)
    have : importName (b :: c :: bs) = b ++ b!"/" ++ importName (c :: bs) := rfl
    rw [this, ih]
    simp [fileName, List.intersperse]

theorem exists_iff (w : World) (p : Bytes) : w.exists p = true ↔ ∀ m, w.file p ≠ .missing m := by
  unfold World.exists
  cases h : w.file p <;> simp

theorem not_exists_iff (w : World) (p : Bytes) : w.exists p = false ↔ ∃ m, w.file p = .missing m := by
  unfold World.exists
  cases h : w.file p <;> simp

theorem importPath_eq {w : World} {rel : Bool} {bits paths : List Bytes} {path : Bytes} (h : Resolves w paths bits rel path) :
    importPath w rel (importName bits) paths = path := by
  rw [importName_eq]
  unfold importPath
  cases h with
  | relative => rfl
  | @found pre post p hp h1 h2 =>
    rw [if_neg (by simp)]
    have : paths.find? (fun p => w.exists (p ++ b!"/" ++ fileName bits)) = some p := by
      subst hp
      rw [List.find?_append, List.find?_eq_none.2, List.find?_cons_of_pos]
      · rfl
      · exact (exists_iff ..).2 h2
      · intro q hq hh
        rw [(not_exists_iff ..).2 (h1 q hq)] at hh
        cases hh
    rw [this]
  | plain h1 =>
    rw [if_neg (by simp)]
    have : paths.find? (fun p => w.exists (p ++ b!"/" ++ fileName bits)) = none := by
      rw [List.find?_eq_none]
      intro q hq hh
      rw [(not_exists_iff ..).2 (h1 q hq)] at hh
      cases hh
    rw [this]

/-- Every import means some file. -/
theorem resolves_total (w : World) (paths bits : List Bytes) (rel : Bool) : Resolves w paths bits rel (importPath w rel (importName bits) paths) := by
  cases rel with
  | true => rw [importPath, if_pos rfl, importName_eq]; exact .relative
  | false =>
    rw [importName_eq]
    unfold importPath
    rw [if_neg (by simp)]
    split
    · rename_i p hp
      obtain ⟨hex, pre, post, he, hpre⟩ := List.find?_eq_some_iff_append.1 hp
      exact .found he (fun q hq => (not_exists_iff ..).1 (by simpa using hpre q hq)) ((exists_iff ..).1 hex)
    · rename_i hp
      exact .plain fun q hq => (not_exists_iff ..).1 (by simpa using List.find?_eq_none.1 hp q hq)

/-- What a list of statements declares at its top level, that of imported files included.  Nothing is said about statements that return. -/
inductive Declares (w : World) : List Bytes → List Stmt → List (Bytes × Bool) → Prop where
  | nil {paths : List Bytes} : Declares w paths [] []
  | plain {paths : List Bytes} {p : Stmt} {ps : List Stmt} {ns : List (Bytes × Bool)} : p.plain = true → Declares w paths ps ns → Declares w paths (p :: ps) (p.adds ++ ns)
  | imp {paths : List Bytes} {rel : Bool} {bits : List Bytes} {path : Bytes} {q ps : List Stmt} {ms ns : List (Bytes × Bool)} : Resolves w paths bits rel path → w.file path = .src q →
      Declares w [] q ms → Declares w paths ps ns → Declares w paths (.line (.import rel bits) :: ps) (ms ++ ns)

/-- The engine which runs an imported file: like a new one, but in the same environment and with its own type members. -/
def importSt (s : St) : St := { s with cells := s.cells ++ ptmCells, eng := { env := s.eng.env, ptm := s.cells.length } }

/-- The importing engine again. -/
def backSt (s s1 : St) : St := { s1 with eng := { s.eng with env := s1.eng.env } }

theorem import_eq (w : World) (n : Nat) {s : St} (hr : s.eng.rv = .none) {rel : Bool} {bits : List Bytes} {path : Bytes} {q : List Stmt}
    (hp : Resolves w s.eng.paths bits rel path) (hq : w.file path = .src q) :
    (interp w (n + 1)).exec (.line (.import rel bits)) s =
      onErr (inEngine (forEach (interp w n).exec q)) (fun m => b!"failed to import '" ++ path ++ b!"': " ++ b!"flamingo_run: " ++ m) s := by
  rw [exec_line w n hr]
  show doImport w (interp w n) rel bits s = _
  unfold doImport
  rw [bind_of_ok (get_apply s)]
  simp only [importPath_eq hp, hq]

theorem inEngine_eq (m : M Unit) (s : St) : inEngine m s = (m >>= fun _ => M.modify (backSt s)) (importSt s) := by
  unfold inEngine
  rw [bind_of_ok (get_apply s), bind_of_ok (modify_apply ..)]
  rfl

/-- **C63.**  A successful import is running the imported file's statements in the importing scope (with another engine). -/
theorem C63_import_runs_file (w : World) (n : Nat) {s s' : St} (hr : s.eng.rv = .none) {rel : Bool} {bits : List Bytes} {path : Bytes} {q : List Stmt}
    (hp : Resolves w s.eng.paths bits rel path) (hq : w.file path = .src q) :
    (interp w (n + 1)).exec (.line (.import rel bits)) s = .ok () s' ↔ ∃ s1, forEach (interp w n).exec q (importSt s) = .ok () s1 ∧ s' = backSt s s1 := by
  rw [import_eq w n hr hp hq]
  unfold onErr
  rw [inEngine_eq, bind_apply]
  cases h : forEach (interp w n).exec q (importSt s) with
  | ok a s1 =>
    simp only [modify_apply, Out.ok.injEq, true_and]
    constructor
    · rintro rfl
      exact ⟨s1, rfl, rfl⟩
    · rintro ⟨_, rfl, rfl⟩
      rfl
  | err m s1 => simp
  | _ => simp

/-- Names stay what they are while `Declares` adds some, and none of them was there before. -/
theorem declares_names {w : World} {paths : List Bytes} {ps : List Stmt} {ns : List (Bytes × Bool)} (hd : Declares w paths ps ns) :
    ∀ {n : Nat} {s s' : St} {i : Nat} {stk : List Nat} {x : Scope}, s.eng.paths = paths → s.eng.rv = .none → s.Stack (i :: stk) → s.scopes[i]? = some x →
      forEach (interp w n).exec ps s = .ok () s' →
      s'.eng.rv = .none ∧ ∃ x', s'.scopes[i]? = some x' ∧ x'.names = x.names ++ ns ∧ ∀ a ∈ ns, ¬ x.Has a.1 := by
  induction hd with
  | nil =>
    intro n s s' i stk x _ hr _ hx h
    cases h
    exact ⟨hr, x, hx, by simp, by simp⟩
  | @plain paths p ps ns hp _ ih =>
    intro n s s' i stk x hpa hr hst hx h
    obtain ⟨_, s1, h1, h⟩ := (bind_ok_iff ..).1 h
    obtain ⟨x1, hx1, hn1⟩ := plain_names w n hp hr hst hx h1
    have hfx := ((recFr w n).exec p).out h1
    obtain ⟨hr', x', hx', hn', hf'⟩ := ih (by rw [(hfx ⟨_, hst⟩).paths]; exact hpa) ((plain_rv w n).1 hp hr h1) (FrX.stack hfx hst) hx1 h
    have hsub : ∀ nm, x.Has nm → x1.Has nm := by
      rintro nm ⟨v, hv, rfl⟩
      have : (v.key, v.isStatic) ∈ x1.names := by
        rw [hn1]
        exact List.mem_append_left _ (List.mem_map.2 ⟨v, hv, rfl⟩)
      obtain ⟨v', hv', he⟩ := List.mem_map.1 this
      exact ⟨v', hv', congrArg Prod.fst he⟩
    refine ⟨hr', x', hx', by rw [hn', hn1, List.append_assoc], fun a ha => ?_⟩
    rcases List.mem_append.1 ha with ha | ha
    · intro hh
      have hdecl : ∃ nm st, DeclOf nm st p ∧ a = (nm, st) := by
        cases p with
        | fn st name ps b => exact ⟨name, st, .fn ps b, List.mem_singleton.1 ha⟩
        | cls st name ps b => exact ⟨name, st, .cls ps b, List.mem_singleton.1 ha⟩
        | skip => cases ha
        | block => cases ha
        | line l =>
          cases l with
          | decl st name e => exact ⟨name, st, .var e, List.mem_singleton.1 ha⟩
          | proto st name ps => exact ⟨name, st, .proto ps, List.mem_singleton.1 ha⟩
          | _ => cases ha
      obtain ⟨nm, st, hdo, rfl⟩ := hdecl
      have halive : ∃ x0, s.Alive i x0 := by
        cases n with
        | zero => cases h1
        | succ n =>
          cases hdo with
          | var e => rw [exec_line w n hr] at h1; exact declVar_alive hst h1
          | proto ps => rw [exec_line w n hr] at h1; exact declFn_alive hst h1
          | fn ps b => exact declFn_alive hst h1
          | cls ps b => exact declFn_alive hst h1
      obtain ⟨x0, h0⟩ := halive
      cases hx.symm.trans h0.1
      exact (C40_declares w n hdo hr hst h0 h1).fresh hh
    · exact fun hh => hf' a ha (hsub _ hh)
  | @imp paths rel bits path q ps ms ns hres hq _ _ ih1 ih2 =>
    intro n s s' i stk x hpa hr hst hx h
    obtain ⟨_, s1, h1, h⟩ := (bind_ok_iff ..).1 h
    have hfx := ((recFr w n).exec _).out h1
    cases n with
    | zero => cases h1
    | succ n =>
      obtain ⟨s2, h2, rfl⟩ := (C63_import_runs_file w n hr (by rw [hpa]; exact hres) hq).1 h1
      obtain ⟨_, x1, hx1, hn1, hf1⟩ := ih1 (s := importSt s) rfl rfl hst hx h2
      have hx1' : (backSt s s2).scopes[i]? = some x1 := hx1
      obtain ⟨hr', x', hx', hn', hf'⟩ := ih2 (by rw [(hfx ⟨_, hst⟩).paths]; exact hpa) (show (backSt s s2).eng.rv = .none from hr) (FrX.stack hfx hst) hx1' h
      refine ⟨hr', x', hx', by rw [hn', hn1, List.append_assoc], fun a ha => ?_⟩
      rcases List.mem_append.1 ha with ha | ha
      · exact hf1 a ha
      · rintro ⟨v, hv, hk⟩
        have : (v.key, v.isStatic) ∈ x1.names := by
          rw [hn1]
          exact List.mem_append_left _ (List.mem_map.2 ⟨v, hv, rfl⟩)
        obtain ⟨v', hv', he⟩ := List.mem_map.1 this
        exact hf' a ha ⟨v', hv', (congrArg Prod.fst he).trans hk⟩

/-- **C63.**  After a successful import of a file, the importing scope has, after the names it had, those the file declares at its top level, in order; including those of files it
imports itself. -/
theorem C63_names (w : World) (n : Nat) {s s' : St} {i : Nat} {stk : List Nat} {x : Scope} {rel : Bool} {bits : List Bytes} {path : Bytes} {q : List Stmt} {ns : List (Bytes × Bool)}
    (hr : s.eng.rv = .none) (hst : s.Stack (i :: stk)) (hx : s.scopes[i]? = some x)
    (hp : Resolves w s.eng.paths bits rel path) (hq : w.file path = .src q) (hd : Declares w [] q ns)
    (h : (interp w n).exec (.line (.import rel bits)) s = .ok () s') : ∃ x', s'.scopes[i]? = some x' ∧ x'.names = x.names ++ ns := by
  have hd' : Declares w s.eng.paths [.line (.import rel bits)] (ns ++ []) := .imp hp hq hd .nil
  obtain ⟨_, x', h1, h2, _⟩ := declares_names hd' rfl hr hst hx (n := n) (s' := s') ((bind_ok_iff ..).2 ⟨(), s', h, rfl⟩)
  exact ⟨x', h1, by rw [h2, List.append_nil]⟩

/-- **C63.**  Importing a file that declares at its top level a name which the importing scope already has never succeeds. -/
theorem C63_clash (w : World) (n : Nat) {s : St} {i : Nat} {stk : List Nat} {x : Scope} {rel : Bool} {bits : List Bytes} {path : Bytes} {q : List Stmt} {ns : List (Bytes × Bool)}
    {name : Bytes} {st : Bool} (hr : s.eng.rv = .none) (hst : s.Stack (i :: stk)) (hx : s.scopes[i]? = some x)
    (hp : Resolves w s.eng.paths bits rel path) (hq : w.file path = .src q) (hd : Declares w [] q ns) (hn : (name, st) ∈ ns) (hh : x.Has name) :
    ((interp w n).exec (.line (.import rel bits)) s).Bad := by
  cases h : (interp w n).exec (.line (.import rel bits)) s with
  | ok u s' =>
    have hd' : Declares w s.eng.paths [.line (.import rel bits)] (ns ++ []) := .imp hp hq hd .nil
    obtain ⟨_, x', h1, h2, h3⟩ := declares_names hd' rfl hr hst hx (n := n) (s' := s') ((bind_ok_iff ..).2 ⟨(), s', h, rfl⟩)
    exact (h3 (name, st) (List.mem_append_left _ hn) hh).elim
  | _ => trivial

/-- **C63.**  An error in the imported file is an error of the import, whose message says which file it was. -/
theorem C63_error (w : World) (n : Nat) {s s1 : St} (hr : s.eng.rv = .none) {rel : Bool} {bits : List Bytes} {path : Bytes} {q : List Stmt} {msg : Bytes}
    (hp : Resolves w s.eng.paths bits rel path) (hq : w.file path = .src q) (h : forEach (interp w n).exec q (importSt s) = .err (some msg) s1) :
    Refused (b!"failed to import '" ++ path ++ b!"': flamingo_run: Bob the Builder:0:0: " ++ msg) { s1 with eng := s.eng } ((interp w (n + 1)).exec (.line (.import rel bits)) s) := by
  rw [import_eq w n hr hp hq]
  unfold onErr
  rw [inEngine_eq, bind_apply, h]
  have := refused_raise (α := Unit) (b!"failed to import '" ++ path ++ b!"': " ++ b!"flamingo_run: " ++ (msgPrefix ++ msg)) { s1 with eng := s.eng }
  rw [show b!"failed to import '" ++ path ++ b!"': flamingo_run: Bob the Builder:0:0: " ++ msg = b!"failed to import '" ++ path ++ b!"': " ++ b!"flamingo_run: " ++ (msgPrefix ++ msg) by
    simp [msgPrefix]]
  exact this

/-- **C63.**  In particular a variable declared at the top level of the imported file, after statements that succeed, and already declared in the importing scope, is an error saying so. -/
theorem C63_clash_message (w : World) (n : Nat) {s s1 : St} (hr : s.eng.rv = .none) {rel : Bool} {bits : List Bytes} {path : Bytes} {pre post : List Stmt} {st : Bool} {name : Bytes}
    {init : Option Expr} {d : Data} (hp : Resolves w s.eng.paths bits rel path) (hq : w.file path = .src (pre ++ .line (.decl st name init) :: post))
    (h : forEach (interp w (n + 1)).exec pre (importSt s) = .ok () s1) (hr1 : s1.eng.rv = .none) (hd : Declared s1 name d)
    (hlen : (roleStr d ++ b!" '" ++ name ++ b!"' already declared in this scope").length < 235) :
    Refused (b!"failed to import '" ++ path ++ b!"': flamingo_run: Bob the Builder:0:0: " ++ (roleStr d ++ b!" '" ++ name ++ b!"' already declared in this scope")) { s1 with eng := s.eng }
      ((interp w (n + 2)).exec (.line (.import rel bits)) s) := by
  refine C63_error w (n + 1) hr hp hq ?_
  rw [forEach_append _ _ _ _ h]
  show ((interp w (n + 1)).exec _ >>= fun _ => forEach _ _) s1 = _
  rw [bind_apply]
  rcases C40_redeclared_variable w n hd hr1 st init with ⟨he, _⟩ | ⟨_, hl⟩
  · rw [he]
  · omega

/-- **C63.**  So is a file that is not there. -/
theorem C63_missing (w : World) (n : Nat) {s : St} (hr : s.eng.rv = .none) {rel : Bool} {bits : List Bytes} {path : Bytes} {msg : Bytes}
    (hp : Resolves w s.eng.paths bits rel path) (hq : w.file path = .missing msg) :
    Refused (b!"failed to import '" ++ path ++ b!"': stat: " ++ msg) s ((interp w (n + 1)).exec (.line (.import rel bits)) s) := by
  rw [exec_line w n hr]
  show Refused _ _ (doImport w (interp w n) rel bits s)
  unfold doImport
  rw [bind_of_ok (get_apply s)]
  simp only [importPath_eq hp, hq]
  have := refused_raise (α := Unit) (b!"failed to import '" ++ path ++ b!"': " ++ b!"stat: " ++ msg) s
  rw [show b!"failed to import '" ++ path ++ b!"': stat: " ++ msg = b!"failed to import '" ++ path ++ b!"': " ++ b!"stat: " ++ msg by simp]
  exact this

/-- Files each of which imports, at its top level and after nothing that returns, one of them. -/
def ImportCycle (w : World) (F : Bytes → Prop) : Prop := ∀ path, F path → ∃ q pre post ns rel bits next, w.file path = .src q ∧
  q = pre ++ .line (.import rel bits) :: post ∧ Declares w [] pre ns ∧ Resolves w [] bits rel next ∧ F next

/-- **C63.**  Importing a file which, directly or through others, imports itself never ends normally, whatever the scope. -/
theorem C63_cycle (w : World) {F : Bytes → Prop} (hF : ImportCycle w F) {path : Bytes} {q : List Stmt} (hpath : F path) (hq : w.file path = .src q) :
    ∀ (n : Nat) (s : St) (i : Nat) (stk : List Nat) (x : Scope), s.eng.paths = [] → s.eng.rv = .none → s.Stack (i :: stk) → s.scopes[i]? = some x →
      (forEach (interp w n).exec q s).Bad := by
  intro n
  induction n using Nat.strongRecOn generalizing path q with
  | ind n ih =>
    intro s i stk x hpa hr hst hx
    cases h : forEach (interp w n).exec q s with
    | ok u s' =>
      obtain ⟨q', pre, post, ns, rel, bits, next, hq', hqe, hd, hres, hnext⟩ := hF path hpath
      rw [hq] at hq'
      cases hq'
      have hsplit : ∀ {pre : List Stmt} {s : St}, forEach (interp w n).exec (pre ++ .line (.import rel bits) :: post) s = .ok u s' →
          ∃ s1, forEach (interp w n).exec pre s = .ok () s1 ∧ forEach (interp w n).exec (.line (.import rel bits) :: post) s1 = .ok u s' := by
        intro pre
        induction pre with
        | nil => exact fun h => ⟨_, rfl, h⟩
        | cons p pre ih =>
          intro s h
          obtain ⟨_, s1, h1, h⟩ := (bind_ok_iff ..).1 h
          obtain ⟨s2, h2, h3⟩ := ih h
          exact ⟨s2, (bind_ok_iff ..).2 ⟨(), s1, h1, h2⟩, h3⟩
      rw [hqe] at h
      obtain ⟨s1, h1, h2⟩ := hsplit h
      obtain ⟨hr1, x1, hx1, _, _⟩ := declares_names hd hpa hr hst hx h1
      obtain ⟨_, s2, h3, _⟩ := (bind_ok_iff ..).1 h2
      have hfx := (keeps_forEach trnX (recFr w n).exec pre).out h1
      have hst1 := FrX.stack hfx hst
      cases n with
      | zero => cases h3
      | succ n =>
        obtain ⟨q2, _, _, _, _, _, _, hq2, _⟩ := hF next hnext
        obtain ⟨s3, h4, _⟩ := (C63_import_runs_file w n hr1 (by rw [(hfx ⟨_, hst⟩).paths, hpa]; exact hres) hq2).1 h3
        have := ih n (Nat.lt_succ_self n) hnext hq2 (importSt s1) i stk x1 rfl rfl hst1 hx1
        rw [h4] at this
        exact this
    | _ => trivial

/-- **C63.**  A script importing such a file never ends normally, however deep the recursion. -/
theorem C63_cycle_script (w : World) {F : Bytes → Prop} (hF : ImportCycle w F) {paths : List Bytes} {rel : Bool} {bits : List Bytes} {path : Bytes}
    (hp : Resolves w paths bits rel path) (hpath : F path) (n : Nat) (post : List Stmt) : (runScript w n paths (.line (.import rel bits) :: post)).Bad := by
  unfold runScript
  cases h : forEach (interp w n).exec (.line (.import rel bits) :: post) (St.init paths) with
  | ok u s' =>
    obtain ⟨_, s2, h3, _⟩ := (bind_ok_iff ..).1 h
    cases n with
    | zero => cases h3
    | succ n =>
      obtain ⟨q2, _, _, _, _, _, _, hq2, _⟩ := hF path hpath
      obtain ⟨s3, h4, _⟩ := (C63_import_runs_file w n (s := St.init paths) rfl hp hq2).1 h3
      have := C63_cycle w hF hpath hq2 n (importSt (St.init paths)) 0 [] {} rfl rfl rfl rfl
      rw [h4] at this
      exact this
  | _ => trivial

/-! ### Examples -/

/-- Three files: `a` declares `f` and imports `b`, which declares `y`; `c` declares `x` and imports itself. -/
def importWorld : World where
  file := fun p =>
    if p = b!"lib/a.fl" then .src [sFn b!"f" [] [sRet (eVar b!"y")], .line (.import true [b!"b"])]
    else if p = b!"b.fl" then .src [sLet b!"y" (eNum b!"3")]
    else if p = b!"c.fl" then .src [.block [], .line (.import false [b!"c"])]
    else .missing b!"No such file or directory"
  list := fun _ => none
  pow := fun _ _ => none
  outPath := b!"out"
  signed := true

example : (runScript importWorld 20 [b!"dir", b!"lib"] [.line (.import false [b!"a"]), sPrint (eCall (eVar b!"f") []), sPrint (eVar b!"y")]).printed = some [b!"3", b!"3"] := by
  decide +kernel

example : Resolves importWorld [b!"dir", b!"lib"] [b!"a"] false b!"lib/a.fl" := resolves_total importWorld [b!"dir", b!"lib"] [b!"a"] false

example : Declares importWorld [] [sFn b!"f" [] [sRet (eVar b!"y")], .line (.import true [b!"b"])] [(b!"f", false), (b!"y", false)] :=
  .plain rfl (.imp (path := b!"b.fl") .relative rfl (.plain (p := sLet b!"y" (eNum b!"3")) rfl .nil) .nil)

example : (runScript importWorld 20 [b!"dir", b!"lib"] [sLet b!"y" (eNum b!"1"), .line (.import false [b!"a"])]).failed =
    some (some b!"failed to import 'lib/a.fl': flamingo_run: Bob the Builder:0:0: failed to import 'b.fl': flamingo_run: Bob the Builder:0:0: variable 'y' already declared in this scope", []) := by
  decide +kernel

example : (runScript importWorld 20 [] [.line (.import false [b!"d", b!"e"])]).failed = some (some b!"failed to import 'd/e.fl': stat: No such file or directory", []) := by
  decide +kernel

theorem cImports : ImportCycle importWorld (fun p => p = b!"c.fl") := by
  rintro _ rfl
  exact ⟨_, [.block []], [], _, false, [b!"c"], b!"c.fl", rfl, rfl, .plain rfl .nil, resolves_total importWorld [] [b!"c"] false, rfl⟩

/-- So a script importing `c` does not end normally. -/
example (n : Nat) : (runScript importWorld n [] [.line (.import true [b!"c"])]).Bad := C63_cycle_script importWorld cImports .relative rfl n []

/-- It does not end at all. -/
theorem C63_self_import_diverges (n : Nat) : runScript importWorld n [] [.line (.import true [b!"c"])] = .timeout := by
  have key : ∀ n, ∀ s : St, s.eng.paths = [] → s.eng.rv = .none → (∃ i stk x, s.Stack (i :: stk) ∧ s.Alive i x) → ∀ rel,
      (interp importWorld n).exec (.line (.import rel [b!"c"])) s = .timeout := by
    intro n
    induction n with
    | zero => intro s _ _ _ rel; rfl
    | succ n ih =>
      intro s hpa hr ⟨i, stk, x, hst, hx⟩ rel
      have hres : Resolves importWorld s.eng.paths [b!"c"] rel b!"c.fl" := by
        rw [hpa]
        cases rel
        · exact resolves_total importWorld [] [b!"c"] false
        · exact .relative
      rw [import_eq importWorld n hr hres rfl]
      unfold onErr
      rw [inEngine_eq, bind_apply]
      have : forEach (interp importWorld n).exec [.block [], .line (.import false [b!"c"])] (importSt s) = .timeout := by
        cases n with
        | zero => rfl
        | succ n =>
          have hst0 : (importSt s).Stack (i :: stk) := hst
          obtain ⟨s0, hp0, hb0⟩ := blockEntered hst0 (show TopAlive (importSt s) (i :: stk) from ⟨x, hx⟩)
          have hlt := (List.getElem?_eq_some_iff.1 hb0.stack).1
          have hblock : (interp importWorld (n + 1)).exec (.block []) (importSt s) = .ok () { s0 with envs := s0.envs.set s0.eng.env (i :: stk) } := by
            show (execBlock (interp importWorld n) [] >>= fun _ => pure () : M Unit) _ = _
            unfold execBlock
            rw [bind_apply, bind_of_ok hp0, bind_of_ok (show forEach (interp importWorld n).exec [] s0 = .ok () s0 from rfl), (detach_ok_iff _ _ _).2 ⟨_, hb0.stack, rfl⟩]
            rfl
          show ((interp importWorld (n + 1)).exec _ >>= fun _ => forEach _ _) (importSt s) = _
          rw [bind_of_ok hblock]
          show ((interp importWorld (n + 1)).exec _ >>= fun _ => forEach _ _) _ = _
          rw [bind_apply, ih]
          · show s0.eng.paths = []
            rw [hb0.eng]; rfl
          · show s0.eng.rv = .none
            rw [hb0.eng]; rfl
          · obtain ⟨cls, hsc, _⟩ := hb0.scopes
            refine ⟨i, stk, x, List.getElem?_set_self hlt, ?_, hx.2⟩
            show s0.scopes[i]? = some x
            rw [hsc]
            exact (List.getElem?_append_left (List.getElem?_eq_some_iff.1 hx.1).1).trans hx.1
      rw [this]
  unfold runScript
  show ((interp importWorld n).exec _ >>= fun _ => forEach _ _) _ = _
  rw [bind_apply, key n (St.init []) rfl rfl ⟨0, [], {}, rfl, rfl, rfl⟩]

end Bob.Fl
