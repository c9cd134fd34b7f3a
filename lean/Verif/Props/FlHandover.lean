import Verif.Props.FlSafe
import Verif.Props.FlRequests
/-!
# C84: what a script has asked for is still there when bob builds it
-/

namespace Bob.Fl

section
variable {L : Discipline} {C P T : List Nat} {s : St}

theorem text_live (h : Wf L C P T s) {c b n : Nat} (hc : s.Holds c (.str b n)) (hl : Live s c) : ∃ t, s.text c = some t := by
  obtain ⟨x, hx, hd⟩ := hc
  obtain ⟨y, hy, hr⟩ := hl
  cases hx.symm.trans hy
  obtain ⟨t, ht, hn, -⟩ := h.str hx hd hr
  exact ⟨cstr (t.take n), by unfold St.text; simp only [hx, hd, ht, hn, decide_true, Bool.true_or, if_true]⟩

theorem texts_elems (h : Wf L C P T s) : ∀ {es : List Nat}, (∀ e ∈ es, (∃ b m, s.Holds e (.str b m)) ∧ Live s e) → ∃ ts, es.mapM s.text = some ts ∧ ts.length = es.length
  | [], _ => ⟨[], rfl, rfl⟩
  | e :: es, hs => by
    obtain ⟨⟨b, m, h1⟩, h2⟩ := hs e List.mem_cons_self
    obtain ⟨t, ht⟩ := text_live h h1 h2
    obtain ⟨ts, hts, hlen⟩ := texts_elems h fun e he => hs e (List.mem_cons_of_mem _ he)
    exact ⟨t :: ts, by rw [List.mapM_cons, ht, hts]; rfl, by simp [hlen]⟩

theorem texts_strs (h : Wf L C P T s) {c n : Nat} (hc : StrsAt s.Holds c n) : ∃ ts, s.texts c = some ts ∧ ts.length = n := by
  obtain ⟨es, ⟨x, hx, hd⟩, hlen, hall⟩ := hc
  obtain ⟨ts, h1, h2⟩ := texts_elems h fun e he => ⟨hall e he, h.live_elem ⟨c, x, hx, by rw [hd]; exact he⟩⟩
  exact ⟨ts, by unfold St.texts; simp only [hx, hd, h1], h2.trans hlen⟩

theorem flags_known (h : Wf L C P T s) {k : Nat} (hk : k < s.host.states.length) : ∃ fl, s.flags (some k) = some fl := by
  have hg := List.getElem?_eq_getElem hk
  have hm := List.mem_of_getElem? hg
  obtain ⟨n, hn⟩ := h.shape.host.flags _ hm
  obtain ⟨ts, hts, -⟩ := texts_strs h hn
  exact ⟨ts, by unfold St.flags; simp only [hg, h.shape.host.states _ hm, hts]; rfl⟩

theorem mapM_some {f : α → Option β} : ∀ {l : List α}, (∀ a ∈ l, ∃ b, f a = some b) → ∃ bs, l.mapM f = some bs
  | [], _ => ⟨[], rfl⟩
  | a :: l, h => by
    obtain ⟨b, hb⟩ := h a List.mem_cons_self
    obtain ⟨bs, hbs⟩ := mapM_some fun a ha => h a (List.mem_cons_of_mem _ ha)
    exact ⟨b :: bs, by rw [List.mapM_cons, hb, hbs]; rfl⟩

theorem request_there (h : Wf L C P T s) {st : BuildStep Uniq StepKind ReqData} (hst : st ∈ s.host.steps) (h1 : ∀ d ∈ st.data, d.state ≠ none)
    (h2 : st.kind ≠ .compile → ∀ d ∈ st.data, Live s d.out) : ∃ r, s.request st = some r := by
  have hreq := h.shape.host.reqs st hst
  have hflags : ∀ d ∈ st.data, ∃ fl, s.flags d.state = some fl := by
    intro d hd
    cases hs : d.state with
    | none => exact absurd hs (h1 d hd)
    | some k => exact flags_known h ((hreq d hd).1 k hs)
  rcases h.shape.host.steps st hst with ⟨-, -, hk⟩ | ⟨-, -, -, hk, d, hd⟩
  · have : ∃ js, st.data.mapM s.compileJobs = some js := by
      refine mapM_some fun d hd => ?_
      obtain ⟨fl, hfl⟩ := hflags d hd
      obtain ⟨-, m, k1, k2⟩ := hreq d hd
      rw [if_pos hk] at k2
      obtain ⟨a, ha, la⟩ := texts_strs h k1
      obtain ⟨b, hb, lb⟩ := texts_strs h k2
      refine ⟨List.zipWith (fun src out => { src := src, out := out, flags := fl }) a b, ?_⟩
      unfold St.compileJobs
      simp only [ha, hb, hfl, Option.bind_eq_bind, Option.bind_some]
      exact if_pos (la.trans lb.symm)
    obtain ⟨js, hjs⟩ := this
    exact ⟨.compile js.flatten, by unfold St.request; simp only [hk, hjs, Option.map_some]⟩
  · have hm : d ∈ st.data := by rw [hd]; exact List.mem_singleton_self d
    obtain ⟨fl, hfl⟩ := hflags d hm
    obtain ⟨-, m, k1, k2⟩ := hreq d hm
    rw [if_neg hk] at k2
    obtain ⟨b, l, k2⟩ := k2
    obtain ⟨o, ho⟩ := text_live h k2 (h2 hk d hm)
    obtain ⟨a, ha, -⟩ := texts_strs h k1
    have hj : ∀ ar, s.linkJob ar d = some { archive := ar, srcs := a, out := o, flags := fl } := by
      intro ar
      unfold St.linkJob
      simp only [ha, ho, hfl, Option.bind_eq_bind, Option.bind_some]
    unfold St.request
    split
    · exact absurd (by assumption) hk
    · simp only [hd, hj, Option.map_some]
      exact ⟨_, rfl⟩

end

/-! ## C84 -/

/-- The request was made by an instance that was set up, and the path of what is to be linked is still counted by somebody. -/
structure St.Kept (s : St) (st : BuildStep Uniq StepKind ReqData) : Prop where
  state : ∀ d ∈ st.data, d.state ≠ none
  out : st.kind ≠ .compile → ∀ d ∈ st.data, ∃ x, s.cells[d.out]? = some x ∧ x.refs ≠ 0

/-- **C84**, the part that holds.  When a script that follows the discipline has ended, all requests can be read (flags, sources and outputs are
still in memory and are what they were, and as many outputs as sources) if the paths of programs and libraries are still counted by somebody. -/
theorem C84_still_there_partial {L : Discipline} {w : World} (hW : w.Ok L) {p : List Stmt} (hp : okStmts L .top p = true) {n : Nat} {paths : List Bytes} {s : St}
    (h : runScript w n paths p = .ok () s) (hk : ∀ st ∈ s.host.steps, s.Kept st) : ∃ reqs, s.requests = some reqs :=
  mapM_some fun st hst => request_there ((safe_script hW n paths hp).get_ok h) hst (hk st hst).state (hk st hst).out

/-- **C84** for compiling holds whatever becomes of the outputs. -/
theorem C84_compile_there {L : Discipline} {w : World} (hW : w.Ok L) {p : List Stmt} (hp : okStmts L .top p = true) {n : Nat} {paths : List Bytes} {s : St}
    (h : runScript w n paths p = .ok () s) {st : BuildStep Uniq StepKind ReqData} (hst : st ∈ s.host.steps) (hc : st.kind = .compile)
    (hk : ∀ d ∈ st.data, d.state ≠ none) : ∃ r, s.request st = some r :=
  request_there ((safe_script hW n paths hp).get_ok h) hst hk fun hn => absurd hc hn

instance (s : St) (st : BuildStep Uniq StepKind ReqData) : Decidable (s.Kept st) :=
  decidable_of_iff ((∀ d ∈ st.data, d.state ≠ none) ∧ (st.kind ≠ .compile → ∀ d ∈ st.data, (s.cells[d.out]?.any fun x => x.refs ≠ 0) = true)) (by
    constructor
    · rintro ⟨h1, h2⟩
      refine ⟨h1, fun hk d hd => ?_⟩
      have := h2 hk d hd
      cases hc : s.cells[d.out]? with
      | none => rw [hc] at this; cases this
      | some x => rw [hc] at this; exact ⟨x, rfl, of_decide_eq_true this⟩
    · rintro ⟨h1, h2⟩
      refine ⟨h1, fun hk d hd => ?_⟩
      obtain ⟨x, hx, hr⟩ := h2 hk d hd
      rw [hx]
      exact decide_eq_true hr)

/-- The scripts of the project that build something keep what they link, and each asks for two things. -/
example : ∀ p ∈ [ownBuild, skeletonBuild, frugalityBuild], (match runScript bobWorld 40 bobPaths p with
    | .ok _ s => decide (s.host.steps.length = 2 ∧ ∀ st ∈ s.host.steps, s.Kept st)
    | _ => false) = true := by decide +kernel

/-- `scope_stack[0]` is the scope that was pushed first, however many others are above it. -/
theorem outer_first {s : St} {inner : List Nat} {i : Nat} (h : s.envs[s.eng.env]? = some (inner ++ [i])) : s.outer = s.scopes[i]? := by
  unfold St.outer
  simp only [h, List.getLast?_concat]

/-- After a script that has ended well it is the one made with the interpreter. -/
theorem C84_outer {w : World} {n : Nat} {paths : List Bytes} {p : List Stmt} {s : St} (h : runScript w n paths p = .ok () s) : s.outer = s.scopes[0]? :=
  outer_first (inner := []) (C41_script_keeps_stack w n paths p h)

example : St.outer { St.init [] with scopes := [{ vars := [⟨b!"a", none, false⟩] }, {}], envs := [[1, 0]] } = some { vars := [⟨b!"a", none, false⟩] } := by rfl

/-- The result of linking is not needed by anything else, and dropped. -/
def dropsLink : List Stmt := [sBob, sLet b!"o" (eMeth (eNew b!"Cc" [b!"-O2"]) b!"compile" [.vec [eStr b!"a.c"]]), sDo (eMeth (eNew b!"Linker" []) b!"link" [eVar b!"o"])]

/-- **C84** as stated is false, also for scripts that follow the discipline: the step for linking does not hold the path it is to link to, `src/class/linker.c:206-223`. -/
theorem C84_still_there_false : ∃ (L : Discipline) (w : World) (p : List Stmt) (n : Nat) (paths : List Bytes) (s : St),
    w.Ok L ∧ okStmts L .top p = true ∧ runScript w n paths p = .ok () s ∧ (∀ st ∈ s.host.steps, ∀ d ∈ st.data, d.state ≠ none) ∧ s.requests = none := by
  have h : (match runScript bobWorld 40 bobPaths dropsLink with
    | .ok _ s => decide ((∀ st ∈ s.host.steps, ∀ d ∈ st.data, d.state ≠ none) ∧ s.requests = none)
    | _ => false) = true := by decide +kernel
  cases hr : runScript bobWorld 40 bobPaths dropsLink with
  | ok a s =>
    rw [hr] at h
    exact ⟨bobDiscipline, bobWorld, dropsLink, 40, bobPaths, s, bobWorld_only.ok, by decide +kernel, hr, (of_decide_eq_true h).1, (of_decide_eq_true h).2⟩
  | _ => rw [hr] at h; cases h

/-- A compiler that is replaced while its replacement is computed. -/
def dropsCc : List Stmt := [sBob, sLet b!"x" (eNew b!"Cc" [b!"-O2"]), sLet b!"y" (eMeth (eVar b!"x") b!"compile" [.vec [eStr b!"a.c"]]),
  sFn b!"f" [] [sSet b!"x" (eNum b!"1"), sRet (eNum b!"2")], sSet b!"x" (eCall (eVar b!"f") [])]

/-- Without the discipline flags can be gone as well: the memory of an instance is released with it, `src/class/cc.c:362-365`, and steps do not hold instances. -/
theorem C84_flags_gone_false : (match runScript bobWorld 40 bobPaths dropsCc with
    | .ok _ s => decide (s.requests = none ∧ (∀ st ∈ s.host.steps, s.Kept st) ∧
        ∀ st ∈ s.host.steps, ∀ d ∈ st.data, s.texts d.srcs = some [b!"a.c"] ∧ (s.texts d.out).isSome ∧ s.flags d.state = none)
    | _ => false) = true := by decide +kernel

end Bob.Fl
