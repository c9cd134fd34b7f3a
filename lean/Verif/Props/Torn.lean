import Verif.Lemmas.Torn
import Verif.Props.MidEdit
/-!
# Being killed while files are being written (C113)
-/

namespace Bob

variable {tc : Toolchain} {L : Layout} {flags : Bytes → List Bytes}

/-- **C113**, partial: the general claim is false, see `C113_product_false`, `C113_includes_false` and `C113_installed_false`.  Builds may be killed at any point, together with the compilers and linkers
they run and with files half written, any number of times.  If the products that were half written, and those whose record of includes was, are removed, then a build that succeeds leaves all products
as the compiler or linker yields them for the present files.  Half-written records of flags, logs and installed files do not matter. -/
theorem C113_removed_partial (hT : ToolOk tc L) {s s1 s2 : Store} (h : Survived tc L flags s) (he : Edit L s s1) {p : Proc} (hp : ProcOk L flags p)
    (hr : BuildReaches tc p.c p.n p.reqs s1 (.finished true s2)) : ProjFresh tc s2.fs p.reqs ∧ ∀ q, L.user q → s2.fs q = s1.fs q := by
  have hS := survived_settled hT hp.layout.linkSrcs (fun o ho => hp.layout.outNotUser o o ho (Or.inl rfl)) h
  obtain ⟨h1, h2⟩ := settled_right hT hS (hS.edits he) (ps := [p]) (i := 0) (by simpa using hp) (crowd_of_one hr) rfl ⟨s2, rfl⟩
  exact ⟨fresh_of_right hp h1, h2⟩

/-- **C113**, partial: the same if several bobs are at work. -/
theorem C113_removed_crowd_partial (hT : ToolOk tc L) {s s1 : Store} (h : Survived tc L flags s) (he : Edit L s s1) {ps : List Proc}
    (hps : ∀ p ∈ ps, ProcOk L flags p) {m : Crowd} (hr : CrowdReaches tc ps s1 m) {i : Nat} {p : Proc} (hp : ps[i]? = some p)
    (hi : m.succeeded i) : ProjFresh tc m.fs p.reqs ∧ ∀ q, L.user q → m.fs q = s1.fs q := by
  have hpk := hps p (List.mem_of_getElem? hp)
  have hS := survived_settled hT hpk.layout.linkSrcs (fun o ho => hpk.layout.outNotUser o o ho (Or.inl rfl)) h
  obtain ⟨h1, h2⟩ := settled_right hT hS (hS.edits he) hps hr hp hi
  exact ⟨fresh_of_right hpk h1, h2⟩

end Bob
