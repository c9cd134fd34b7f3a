import Verif.Lemmas.FlMeanStmt
import Verif.Props.FlSafe
/-!
# Importing `bob`
-/

namespace Bob.Fl

/-! ## What `import/bob.fl` leaves behind -/

/-- The engine that runs `import/bob.fl`. -/
def bobSt0 : St := { cells := ptmCells ++ ptmCells, scopes := [{}], envs := [[0]], eng := { env := 0, ptm := 6 } }

def bobMark : Var := { key := b!"__bob_has_been_imported__", val := some 12 }

def bobSt1 : St := { bobSt0 with cells := bobSt0.cells ++ [{ data := .none, owner := some 0 }], scopes := [{ vars := [bobMark] }] }

def fsBody : List Stmt := [.line (.proto true b!"list" [b!"path"])]

/-- The scope of `Fs`. -/
def fsScope : Scope := { vars := [{ key := b!"list", isStatic := true, val := some 14 }], owner := some 13 }

def fsVar : Var := { key := b!"Fs", val := some 13 }
def fsData : FnData := { kind := .cls, body := some 0, env := some 1, scope := some 1 }
def listData : FnData := { kind := .extern, params := [b!"path"], env := some 2 }

def bobSt2 : St := { bobSt1 with
  cells := bobSt1.cells ++ [{ data := .fn fsData, name := b!"Fs", keyIn := some 0, owner := some 0 }, { data := .fn listData, name := b!"list", keyIn := some 1, owner := some 1 }]
  scopes := [{ vars := [bobMark, fsVar] }, fsScope]
  envs := [[0], [0], [1, 0]]
  bodies := [some (.block fsBody)]
  host := { fsCls := some 13, fsList := some 14 } }

def ccVar : Var := { key := b!"Cc", val := some 15 }
def ccData : FnData := { kind := .cls, body := some 1, params := [b!"flags"], env := some 3, scope := some 2 }

def bobSt3 : St := { bobSt2 with
  cells := bobSt2.cells ++ [{ data := .fn ccData, name := b!"Cc", keyIn := some 0, owner := some 0 }]
  scopes := [{ vars := [bobMark, fsVar, ccVar] }, fsScope, { owner := some 15 }]
  envs := [[0], [0], [1, 0], [0]]
  bodies := [some (.block fsBody), some (.block ccBody)]
  host := { fsCls := some 13, fsList := some 14, ccCls := some 15 } }

def linkerVar : Var := { key := b!"Linker", val := some 16 }
def linkerData : FnData := { kind := .cls, body := some 2, params := [b!"flags"], env := some 4, scope := some 3 }

def bobSt4 : St := { bobSt3 with
  cells := bobSt3.cells ++ [{ data := .fn linkerData, name := b!"Linker", keyIn := some 0, owner := some 0 }]
  scopes := [{ vars := [bobMark, fsVar, ccVar, linkerVar] }, fsScope, { owner := some 15 }, { owner := some 16 }]
  envs := [[0], [0], [1, 0], [0], [0]]
  bodies := [some (.block fsBody), some (.block ccBody), some (.block linkerBody)]
  host := { fsCls := some 13, fsList := some 14, ccCls := some 15, linkerCls := some 16 } }

def installVar : Var := { key := b!"install", val := some 17 }

def bobSt5 : St := { bobSt4 with
  cells := bobSt4.cells ++ [{ data := .none, owner := some 0 }]
  scopes := [{ vars := [bobMark, fsVar, ccVar, linkerVar, installVar] }, fsScope, { owner := some 15 }, { owner := some 16 }] }

def runVar : Var := { key := b!"run", val := some 18 }

def bobSt6 : St := { bobSt5 with
  cells := bobSt5.cells ++ [{ data := .vec [], owner := some 0 }]
  scopes := [{ vars := [bobMark, fsVar, ccVar, linkerVar, installVar, runVar] }, fsScope, { owner := some 15 }, { owner := some 16 }] }

/-- After the import. -/
def bobSt (paths : List Bytes) : St := { bobSt6 with eng := { paths := paths } }

section
variable (w : World) (n : Nat)

theorem bob_step1 : (interp w (n + 10)).exec (.line (.decl false b!"__bob_has_been_imported__" none)) bobSt0 = .ok () bobSt1 := rfl

/-- While `Fs` is declared. -/
def fsSt1 : St := { bobSt1 with
  cells := bobSt1.cells ++ [{ data := .fn fsData, name := b!"Fs", keyIn := some 0, owner := some 0 }]
  scopes := [{ vars := [bobMark, fsVar] }, { owner := some 13 }]
  envs := [[1, 0], [0]]
  bodies := [some (.block fsBody)] }

def fsSt2 : St := { bobSt1 with
  cells := bobSt1.cells ++ [{ data := .fn fsData, name := b!"Fs", keyIn := some 0, owner := some 0 }, { data := .fn listData, name := b!"list", keyIn := some 1, owner := some 1 }]
  scopes := [{ vars := [bobMark, fsVar] }, fsScope]
  envs := [[1, 0], [0], [1, 0]]
  bodies := [some (.block fsBody)] }

theorem bob_list : forEach (interp w (n + 9)).member fsBody fsSt1 = .ok () fsSt2 := by
  have h1 : declFn (interp w (n + 8)) .extern true b!"list" [b!"path"] none fsSt1 = .ok () fsSt2 :=
    (declFn_eq (s := fsSt1) (i := 1) (stk := [0]) (x := { owner := some 13 }) rfl rfl rfl rfl).trans rfl
  exact (bind_of_ok h1).trans rfl

theorem bob_step2 : (interp w (n + 10)).exec (.cls false b!"Fs" [] fsBody) bobSt1 = .ok () bobSt2 := by
  have h1 : declFn (interp w (n + 9)) .cls false b!"Fs" [] (some fsBody) bobSt1 = _ := declFn_eq (i := 0) (stk := []) (x := { vars := [bobMark] }) rfl rfl rfl rfl
  refine Eq.trans h1 ?_
  rw [if_pos rfl]
  refine (bind_of_ok rfl).trans ?_
  refine (bind_of_ok rfl).trans ?_
  refine (bind_of_ok (m := attach 1) (a := ()) (s1 := fsSt1) (by rfl)).trans ?_
  refine (bind_of_ok (bob_list w n)).trans ?_
  refine (bind_of_ok (m := detach) (a := 1) (s1 := { fsSt2 with envs := [[0], [0], [1, 0]] }) rfl).trans ?_
  rfl

theorem bob_step3 : (interp w (n + 10)).exec (.cls false b!"Cc" [b!"flags"] ccBody) bobSt2 = .ok () bobSt3 := rfl
theorem bob_step4 : (interp w (n + 10)).exec (.cls false b!"Linker" [b!"flags"] linkerBody) bobSt3 = .ok () bobSt4 := rfl
theorem bob_step5 : (interp w (n + 10)).exec (.line (.decl false b!"install" none)) bobSt4 = .ok () bobSt5 := rfl
theorem bob_step6 : (interp w (n + 10)).exec (.line (.decl false b!"run" (some (.vec [])))) bobSt5 = .ok () bobSt6 := rfl

theorem bob_runs : forEach (interp w (n + 10)).exec bobFl bobSt0 = .ok () bobSt6 := by
  refine (bind_of_ok (bob_step1 w n)).trans ?_
  refine (bind_of_ok (bob_step2 w n)).trans ?_
  refine (bind_of_ok (bob_step3 w n)).trans ?_
  refine (bind_of_ok (bob_step4 w n)).trans ?_
  refine (bind_of_ok (bob_step5 w n)).trans ?_
  refine (bind_of_ok (bob_step6 w n)).trans ?_
  rfl

theorem bob_imported (paths : List Bytes) (h : w.file (importPath w false b!"bob.fl" paths) = .src bobFl) : (interp w (n + 11)).exec sBob (St.init paths) = .ok () (bobSt paths) := by
  have h1 : (interp w (n + 11)).exec sBob (St.init paths) = doImport w (interp w (n + 10)) false [b!"bob"] (St.init paths) := exec_line w (n + 10) rfl _
  rw [h1]
  have h2 : inEngine (forEach (interp w (n + 10)).exec bobFl) (St.init paths) = .ok () (bobSt paths) := by
    unfold inEngine
    refine (bind_of_ok (get_apply _)).trans ?_
    refine (bind_of_ok (modify_apply _ _)).trans ?_
    exact (bind_of_ok (bob_runs w n)).trans rfl
  unfold doImport
  rw [bind_of_ok (get_apply _)]
  have h3 : w.file (importPath w false (importName [b!"bob"]) (St.init paths).eng.paths) = .src bobFl := h
  simp only [h3]
  unfold onErr
  rw [h2]

end

/-- After the import, before anything else. -/
theorem bob_top {L : Discipline} {w : World} {paths : List Bytes} (hw : Wf L [] [] [] (bobSt paths)) : Top w L 0 [] [] bobNames (bobSt paths) := by
  have hfind : ∀ {name : Bytes} {c k : Nat} {v : Var}, findKeyIdx name [bobMark, fsVar, ccVar, linkerVar, installVar, runVar] = some k → [bobMark, fsVar, ccVar, linkerVar, installVar, runVar][k]? = some v → v.val = some c →
      Finds (bobSt paths).scopes name [0] c := fun h1 h2 h3 => ⟨_, rfl, .inl ⟨_, _, h1, h2, h3⟩⟩
  refine ⟨⟨hw, rfl, fun x v hx => ?_, ⟨13, 15, 16, ⟨⟨rfl, 1, 14, rfl, ⟨fsData, ⟨_, rfl, rfl⟩, rfl, rfl⟩, ⟨fsScope, rfl, rfl, ⟨0, _, rfl, rfl, rfl⟩⟩, ⟨_, listData, rfl, rfl, rfl, rfl, rfl⟩⟩, rfl, rfl,
    ⟨⟨_, ccData, 1, rfl, rfl, rfl, rfl, rfl, rfl, .inl rfl⟩⟩, ⟨⟨_, linkerData, 2, rfl, rfl, rfl, rfl, rfl, rfl, .inl rfl⟩⟩, by decide, by decide, by decide⟩,
    hfind (k := 1) rfl rfl rfl, hfind (k := 2) rfl rfl rfl, hfind (k := 3) rfl rfl rfl⟩, List.Forall₂.nil⟩, rfl, fun x hx k hk => ?_, ⟨13, fsData, 1, rfl, ⟨_, rfl, rfl⟩, rfl, by decide⟩, rfl⟩
  · unfold bobNames at hx
    rw [lookup_cons, lookup_cons, lookup_cons] at hx
    split at hx
    · rename_i he
      cases hx
      rw [he]
      exact ⟨18, hfind (k := 5) rfl rfl rfl, [], ⟨_, rfl, rfl⟩, trivial⟩
    · split at hx
      · rename_i he
        cases hx
        rw [he]
        exact ⟨17, hfind (k := 4) rfl rfl rfl, _, rfl, rfl⟩
      · split at hx
        · rename_i he
          cases hx
          rw [he]
          exact ⟨12, hfind (k := 0) rfl rfl rfl, _, rfl, rfl⟩
        · cases hx
  · cases hx
    revert k
    decide

/-! ## What a script leaves behind -/

section
variable {L : Discipline} {C P T : List Nat} {s : St} {w : World} {r : List Ask}

theorem text_was (h : Wf L C P T s) {b : Bytes} {c : Nat} (hb : s.Was (.str b) c) (hl : Live s c) : s.text c = some b := by
  obtain ⟨buf, full, ⟨x, hx, hd⟩, hf, hp⟩ := h.shows hb fun _ => hl
  obtain ⟨y, hy, hr⟩ := hl
  cases hx.symm.trans hy
  obtain ⟨t, ht, hn, h0⟩ := h.str hx hd hr
  cases (Option.some.inj (hf.symm.trans ht))
  unfold St.text
  simp only [hx, hd, hf, hn, decide_true, Bool.true_or, if_true]
  rw [cstr_take h0, ← List.prefix_iff_eq_take.1 hp]

theorem text_else {v : Val} {c : Nat} (hv : s.Was v c) (hn : v.bytes? = none) : s.text c = none := by
  unfold St.text
  cases v with
  | none => obtain ⟨x, hx, hd⟩ := hv; simp only [hx, hd]
  | bool b => obtain ⟨x, hx, hd⟩ := hv; simp only [hx, hd]
  | int i => obtain ⟨x, hx, hd⟩ := hv; simp only [hx, hd]
  | str b => exact nomatch hn
  | vec vs => obtain ⟨_, ⟨x, hx, hd⟩, _⟩ := hv; simp only [hx, hd]
  | map items => obtain ⟨_, ⟨x, hx, hd⟩, _⟩ := hv; simp only [hx, hd]

theorem text_bytes (h : Wf L C P T s) {v : Val} {c : Nat} (hv : s.Was v c) (hl : Live s c) : s.text c = v.bytes? := by
  cases v with
  | str b => exact text_was h hv hl
  | _ => exact text_else hv rfl

theorem texts_all (h : Wf L C P T s) : ∀ {bs : List Bytes} {es : List Nat}, s.WasAll (bs.map .str) es → (∀ e ∈ es, Live s e) → es.mapM s.text = some bs
  | [], [], _, _ => rfl
  | [], _ :: _, hs, _ => hs.elim
  | _ :: _, [], hs, _ => hs.elim
  | b :: bs, e :: es, hs, hl => by
    rw [List.mapM_cons, text_was h hs.1 (hl e List.mem_cons_self), texts_all h hs.2 fun e he => hl e (List.mem_cons_of_mem _ he)]
    rfl

theorem texts_was (h : Wf L C P T s) {bs : List Bytes} {c : Nat} (hv : s.Was (.strs bs) c) : s.texts c = some bs := by
  obtain ⟨es, hes, hall⟩ := hv
  have hl : ∀ e ∈ es, Live s e := fun e he => h.live_parts hes he
  obtain ⟨x, hx, hd⟩ := hes
  unfold St.texts
  simp only [hx, hd]
  exact texts_all h hall hl

theorem flags_was (h : Wf L C P T s) {k : Nat} {hs : HostState} {bs : List Bytes} (hk : s.host.states[k]? = some hs) (hv : s.Was (.strs bs) hs.flags) : s.flags (some k) = some bs := by
  unfold St.flags
  simp only [hk, h.hostOk.states hs (List.mem_of_getElem? hk), Bool.false_eq_true, if_false]
  exact texts_was h hv

theorem zip_jobs (w : World) (fl : List Bytes) : ∀ srcs : List Bytes,
    List.zipWith (fun src out => ({ src := src, out := out, flags := fl } : CJob)) srcs (srcs.map w.object) = srcs.map fun p => { src := p, out := w.object p, flags := fl }
  | [] => rfl
  | p :: ps => by rw [List.map_cons, List.zipWith_cons_cons, zip_jobs w fl ps, List.map_cons]

theorem StepFor.request (h : Wf L C P T s) {st : BuildStep Uniq StepKind ReqData} : ∀ {a : Ask}, StepFor w L [] s st a → s.request st = some (a.req w)
  | .compile fl srcs, ⟨k, hs, sc, out, e, h1, h2, h3, h4⟩ => by
    have h4' : s.texts out = some (srcs.map w.object) := texts_was h h4
    subst e
    unfold St.request
    simp only [List.mapM_cons, List.mapM_nil, St.compileJobs, texts_was h h3, h4', flags_was h h1 h2, Option.bind_eq_bind, Option.bind_some, List.length_map, if_true, zip_jobs]
    simp [Ask.req]
  | .link ar fl srcs, ⟨n, k, hs, sc, out, e, h1, h2, h3, h4, h5⟩ => by
    have hl : Live s out := by
      rcases h5 with h5 | h5 | h5
      · exact nomatch h5
      · exact h.live_elem h5
      · exact h.live_pin (.inr (.inr (.inl h5)))
    subst e
    unfold St.request
    cases ar
    · simp only [Bool.false_eq_true, if_false, St.linkJob, text_was h h4 hl, texts_was h h3, flags_was h h1 h2, Option.bind_eq_bind, Option.bind_some]
      rfl
    · simp only [if_true, St.linkJob, text_was h h4 hl, texts_was h h3, flags_was h h1 h2, Option.bind_eq_bind, Option.bind_some]
      rfl

theorem Amb.requests (h : Wf L C P T s) (ha : Amb w L [] r s) : s.requests = some (r.map (Ask.req w)) := by
  unfold St.requests
  unfold Amb at ha
  generalize s.host.steps = l at ha
  induction ha with
  | nil => rfl
  | cons h1 _ ih =>
    rw [List.mapM_cons, h1.request h, ih]
    rfl

theorem script_all (h : Wf L C P T s) : ∀ {vs : List Val} {es : List Nat}, s.WasAll vs es → (∀ e ∈ es, Live s e) → es.map s.text = vs.map Val.bytes?
  | [], [], _, _ => rfl
  | [], _ :: _, hs, _ => hs.elim
  | _ :: _, [], hs, _ => hs.elim
  | v :: vs, e :: es, hs, hl => by
    rw [List.map_cons, List.map_cons, text_bytes h hs.1 (hl e List.mem_cons_self), script_all h hs.2 fun e he => hl e (List.mem_cons_of_mem _ he)]

theorem script_items (h : Wf L C P T s) : ∀ {vs : List (Val × Val)} {es : List (Nat × Nat)}, s.WasItems vs es → (∀ e ∈ es, Live s e.1 ∧ Live s e.2) →
    (es.map fun e => (s.text e.1, s.text e.2)) = vs.map fun e => (e.1.bytes?, e.2.bytes?)
  | [], [], _, _ => rfl
  | [], _ :: _, hs, _ => hs.elim
  | _ :: _, [], hs, _ => hs.elim
  | (k, v) :: vs, e :: es, hs, hl => by
    rw [List.map_cons, List.map_cons, text_bytes h hs.1 (hl e List.mem_cons_self).1, text_bytes h hs.2.1 (hl e List.mem_cons_self).2, script_items h hs.2.2 fun e he => hl e (List.mem_cons_of_mem _ he)]

theorem scriptVal_was (h : Wf L C P T s) {v : Val} {c : Nat} (hv : s.Was v c) : s.scriptVal c = v.script := by
  unfold St.scriptVal
  cases v with
  | none => obtain ⟨x, hx, hd⟩ := hv; simp only [hx, hd]; rfl
  | bool b => obtain ⟨x, hx, hd⟩ := hv; simp only [hx, hd]; rfl
  | int i => obtain ⟨x, hx, hd⟩ := hv; simp only [hx, hd]; rfl
  | str b => obtain ⟨_, ⟨x, hx, hd⟩, _⟩ := hv; simp only [hx, hd]; rfl
  | vec vs =>
    obtain ⟨es, hes, hall⟩ := hv
    have hl : ∀ e ∈ es, Live s e := fun e he => h.live_parts hes he
    obtain ⟨x, hx, hd⟩ := hes
    simp only [hx, hd, Val.script, script_all h hall hl]
  | map items =>
    obtain ⟨es, hes, hall⟩ := hv
    have hl : ∀ e ∈ es, Live s e.1 ∧ Live s e.2 := fun e he => ⟨h.live_parts hes (List.mem_flatMap.2 ⟨e, he, List.mem_cons_self⟩), h.live_parts hes (List.mem_flatMap.2 ⟨e, he, List.mem_cons_of_mem _ List.mem_cons_self⟩)⟩
    obtain ⟨x, hx, hd⟩ := hes
    simp only [hx, hd, Val.script, script_items h hall hl]

theorem lookup_vars {f : Var → ScriptVal} {name : Bytes} : ∀ {vs : List Var} {k : Nat} {v : Var}, findKeyIdx name vs = some k → vs[k]? = some v → (vs.map fun v => (v.key, f v)).lookup name = some (f v)
  | [], _, _, h, _ => nomatch h
  | u :: vs, k, v, h, hv => by
    unfold findKeyIdx at h
    rw [List.map_cons, List.lookup_cons]
    by_cases he : u.key = name
    · rw [if_pos he] at h
      cases h
      cases hv
      simp [he]
    · rw [if_neg he] at h
      rw [beq_false_of_ne (Ne.symm he)]
      cases hk : findKeyIdx name vs with
      | none => rw [hk] at h; cases h
      | some k' =>
        rw [hk] at h
        cases h
        exact lookup_vars hk hv

theorem Top.vars {ρ : Names} {o : List Bytes} {i : Nat} (h : Top w L i r o ρ s) {x : Bytes} {v : Val} (hv : ρ.lookup x = some v) : s.scriptVars.lookup x = some v.script := by
  obtain ⟨c, ⟨y, hy, hf⟩, hw⟩ := h.scene.sees x v hv
  obtain ⟨k, u, h1, h2, h3⟩ := hf.resolve_right fun h => h.2
  have ho : s.outer = some y := by
    unfold St.outer
    have := h.stack
    unfold St.Stack at this
    rw [this]
    exact hy
  unfold St.scriptVars
  rw [ho]
  dsimp only
  rw [lookup_vars h1 h2, h3]
  dsimp only
  rw [scriptVal_was h.scene.wf hw]

end

/-- A script which begins by importing `bob`. -/
theorem script_means {L : Discipline} {w : World} (hW : w.Ok L) (hL : L.classes = bobClasses) (hI : L.inside = []) {p : List Stmt} (hp : okStmts L .top p = true) {paths : List Bytes}
    (hb : w.file (importPath w false b!"bob.fl" paths) = .src bobFl) {ρ : Names} {r : List Ask} {o : List Bytes} (h : Runs w L.assigned bobNames p ρ r o) :
    ∃ s N, (∀ n, N ≤ n → runScript w n paths (sBob :: p) = .ok () s) ∧ Top w L 0 r o ρ s := by
  have hok : okStmts L .top [sBob] = true := rfl
  have hone : forEach (interp w 11).exec [sBob] (St.init paths) = .ok () (bobSt paths) := (bind_of_ok (bob_imported w 0 paths hb)).trans rfl
  have hwf : Wf L [] [] [] (bobSt paths) := (safe_script hW 11 paths hok).get_ok hone
  obtain ⟨N, a, s, h1, h2⟩ := runs_conv hW hL hI h hp (bob_top (w := w) hwf)
  refine ⟨s, N + 11, fun n hn => ?_, h2⟩
  obtain ⟨k, rfl⟩ : ∃ k, n = k + 11 := ⟨n - 11, by omega⟩
  exact (bind_of_ok (bob_imported w k paths hb)).trans (h1 (k + 11) (by omega))

end Bob.Fl
