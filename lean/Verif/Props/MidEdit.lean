import Verif.Lemmas.MidEdit
import Verif.Props.Crowd
/-!
# Editing while bob builds (C112)
-/

namespace Bob

variable {tc : Toolchain} {L : Layout} {flags : Bytes → List Bytes}

/-- A single bob is a crowd of one. -/
theorem crowd_of_one {p : Proc} {s : Store} {a : Cfg} (h : BuildReaches tc p.c p.n p.reqs s a) :
    CrowdReaches tc [p] s ⟨a.store.fs, a.store.now, [a]⟩ := by
  unfold BuildReaches at h
  induction h with
  | refl => exact .refl _
  | @tail a b _ hs ih =>
    have e : a.onDisk a.store.fs a.store.now = a := by cases a <;> rfl
    exact .tail ih (.act (i := 0) (p := p) (a := a) rfl rfl (e.symm ▸ hs))

/-- **C112**, partial: the general claim is false, see `C112_same_second_false` and `C112_includes_false`.  The user may edit files while
bob builds, any number of times and in any number of builds, as long as the time of an edited file is later than that of the products there
are, and nothing that is just being compiled gets to include other files.  Once no file is edited during a build, and the build succeeds, all
products are what the compiler or linker yields for the present files. -/
theorem C112_edits_noticed_partial (hT : ToolOk tc L) {s s1 s2 : Store} (h : Worked tc L flags s) (he : Edit L s s1) {p : Proc}
    (hp : ProcOk L flags p) (hr : BuildReaches tc p.c p.n p.reqs s1 (.finished true s2)) :
    ProjFresh tc s2.fs p.reqs ∧ ∀ q, L.user q → s2.fs q = s1.fs q := by
  have hS := worked_settled hT hp.layout.linkSrcs h
  obtain ⟨h1, h2⟩ := settled_right hT hS (hS.edits he) (ps := [p]) (i := 0) (by simpa using hp) (crowd_of_one hr) rfl ⟨s2, rfl⟩
  exact ⟨fresh_of_right hp h1, h2⟩

/-- **C112**, partial: the same if several bobs are at work in that last build. -/
theorem C112_edits_noticed_crowd_partial (hT : ToolOk tc L) {s s1 : Store} (h : Worked tc L flags s) (he : Edit L s s1) {ps : List Proc}
    (hps : ∀ p ∈ ps, ProcOk L flags p) {m : Crowd} (hr : CrowdReaches tc ps s1 m) {i : Nat} {p : Proc} (hp : ps[i]? = some p)
    (hi : m.succeeded i) : ProjFresh tc m.fs p.reqs ∧ ∀ q, L.user q → m.fs q = s1.fs q := by
  have hpk := hps p (List.mem_of_getElem? hp)
  have hS := worked_settled hT hpk.layout.linkSrcs h
  obtain ⟨h1, h2⟩ := settled_right hT hS (hS.edits he) hps hr hp hi
  exact ⟨fresh_of_right hpk h1, h2⟩

end Bob
