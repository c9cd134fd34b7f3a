import Verif.Props.FlCalls
import Verif.Props.CliTrace
import Verif.Model.Flamingo.Setup
/-!
# Errors stop the script (C58)
-/

namespace Bob.Fl

/-- **C58.** Once a statement fails, the rest makes no difference: whatever comes after it, the whole ends as the statement did, in the same state. -/
theorem C58_stops (w : World) (n : Nat) {pre : List Stmt} {p : Stmt} {s s1 : St} (hpre : forEach (interp w n).exec pre s = .ok () s1) {o : Out Unit}
    (hp : (interp w n).exec p s1 = o) (hbad : o.Bad) (post : List Stmt) : forEach (interp w n).exec (pre ++ p :: post) s = o := by
  rw [forEach_append pre _ s s1 hpre]
  unfold forEach
  rw [bind_apply, hp]
  cases o with
  | ok => exact hbad.elim
  | _ => rfl

/-- **C58.** The script as a whole fails. -/
theorem C58_script_fails (w : World) (n : Nat) (paths : List Bytes) {pre : List Stmt} {p : Stmt} {s1 s2 : St} {m : Option Bytes} (hpre : runScript w n paths pre = .ok () s1)
    (hp : (interp w n).exec p s1 = .err m s2) (post : List Stmt) : runScript w n paths (pre ++ p :: post) = .err m s2 :=
  C58_stops w n hpre hp trivial post

/-- **C58.** If a script fails, there is a first statement that failed; those before it were executed, and what was printed or asked for is what was when it failed. -/
theorem C58_first_failure (w : World) (n : Nat) {p : List Stmt} {s : St} {o : Out Unit} (h : forEach (interp w n).exec p s = o) (hbad : o.Bad) :
    ∃ pre q post s1, p = pre ++ q :: post ∧ forEach (interp w n).exec pre s = .ok () s1 ∧ (interp w n).exec q s1 = o := by
  induction p generalizing s with
  | nil => subst h; exact hbad.elim
  | cons q p ih =>
    unfold forEach at h
    rw [bind_apply] at h
    cases hq : (interp w n).exec q s with
    | ok u s1 =>
      rw [hq] at h
      obtain ⟨pre, q', post, s2, rfl, h2, h3⟩ := ih h
      refine ⟨q :: pre, q', post, s2, rfl, ?_, h3⟩
      unfold forEach
      rw [bind_of_ok hq]
      exact h2
    | _ =>
      rw [hq] at h
      subst h
      exact ⟨[], q, p, s, rfl, rfl, hq⟩

/-- **C58.** A statement that fails in a block makes the block fail. -/
theorem C58_block (w : World) (n : Nat) {pre : List Stmt} {p : Stmt} {s s0 s1 : St} {i : Nat} (hs : pushScope s = .ok i s0)
    (hpre : forEach (interp w n).exec pre s0 = .ok () s1) {o : Out Unit} (hp : (interp w n).exec p s1 = o) (hbad : o.Bad) (post : List Stmt) :
    (interp w (n + 1)).exec (.block (pre ++ p :: post)) s = o := by
  have h := C58_stops w n hpre hp hbad post
  show (execBlock (interp w n) (pre ++ p :: post) >>= fun _ => pure ()) s = o
  have hb : execBlock (interp w n) (pre ++ p :: post) s = o.mapVal fun _ => 0 := by
    unfold execBlock
    rw [bind_of_ok hs, bind_apply, h]
    cases o with
    | ok => exact hbad.elim
    | _ => rfl
  rw [bind_apply, hb]
  cases o with
  | ok => exact hbad.elim
  | _ => rfl

/-- What `flamingo_err` says. -/
def errText : Option Bytes → Bytes
  | some t => msgPrefix ++ t
  | none => b!"no errors"

/-- **C58.** A statement that fails with a message in an imported file makes the import fail, with a message about it (or, if that is too long, an assertion, see C59). -/
theorem C58_import (w : World) (n : Nat) {rel : Bool} {bits : List Bytes} {s s1 s2 : St} {pre post : List Stmt} {q : Stmt} {m : Option Bytes} (hrv : s.eng.rv = .none)
    (hf : w.file (importPath w rel (importName bits) s.eng.paths) = .src (pre ++ q :: post))
    (hpre : forEach (interp w n).exec pre { s with cells := s.cells ++ ptmCells, eng := { env := s.eng.env, ptm := s.cells.length } } = .ok () s1)
    (hq : (interp w n).exec q s1 = .err m s2) :
    Refused (b!"failed to import '" ++ importPath w rel (importName bits) s.eng.paths ++ b!"': " ++ b!"flamingo_run: " ++ errText m) { s2 with eng := s.eng } ((interp w (n + 1)).exec (.line (.import rel bits)) s) := by
  show Refused _ { s2 with eng := s.eng } ((do if ← returning then pure () else execLine w (interp w n) (.import rel bits) : M Unit) s)
  rw [bind_of_ok (not_returning hrv)]
  show Refused _ { s2 with eng := s.eng } (doImport w (interp w n) rel bits s)
  unfold doImport
  rw [bind_of_ok (get_apply _), hf]
  show Refused _ { s2 with eng := s.eng } (onErr (inEngine (forEach (interp w n).exec (pre ++ q :: post))) _ s)
  have hin : inEngine (forEach (interp w n).exec (pre ++ q :: post)) s = .err m s2 := by
    unfold inEngine
    rw [bind_of_ok (get_apply _), bind_of_ok (show M.modify _ s = .ok () _ from rfl), bind_apply, C58_stops w n hpre hq trivial post]
  unfold onErr
  rw [hin]
  cases m <;> exact refused_raise _ _

/-- **C58.** If the script fails, bob builds and installs nothing, runs no other program, and exits unsuccessfully, whatever the arguments. -/
theorem C58_nothing_built {p : List Stmt} {fw : World} {n : Nat} {paths : List Bytes} {m : Option Bytes} {s : St} (hfail : runScript fw n paths p = .err m s)
    {steps : Option Bytes → Bool} {installs : Bytes → Bool} {b : Bsys} (hb : bsysOf (runScript fw n paths p) steps installs = some b) (w : MainWorld)
    (hw : w.bsys.find? (·.identify) = some b) (args : List Bytes) : Bob.Quiet (bobMain w args).1 ∧ (bobMain w args).2 = .exit false := by
  rw [hfail] at hb
  cases hb
  have stop : Bob.Quiet [] ∧ (End.exit false) = .exit false := ⟨by simp [Bob.Quiet], rfl⟩
  have app : ∀ {t : List MainAct} {m : Bob.M Bool}, Bob.Quiet t → Bob.Quiet (Bob.finish m).1 ∧ (Bob.finish m).2 = .exit false →
      Bob.Quiet (Bob.finish (Bob.M.bind (t, .ok ()) fun _ => m)).1 ∧ (Bob.finish (Bob.M.bind (t, .ok ()) fun _ => m)).2 = .exit false := by
    intro t m ht hm
    rw [finish_bind]
    exact ⟨fun a ha => (List.mem_append.1 ha).elim (ht a) (hm.1 a), hm.2⟩
  unfold bobMain
  cases getoptScan w.posix none args .init [] with
  | none => exact stop
  | some r =>
    obtain ⟨o, rest⟩ := r
    show Bob.Quiet (Bob.finish (mainRest w o rest)).1 ∧ (Bob.finish (mainRest w o rest)).2 = .exit false
    unfold mainRest
    cases rest with
    | nil => exact stop
    | cons instr rest =>
      simp only
      split
      · exact stop
      split
      · exact stop
      split
      · exact stop
      refine app (by simp [Bob.Quiet]) ?_
      split
      · exact stop
      split
      · exact stop
      split
      · exact stop
      rw [hw]
      exact app (by simp [Bob.Quiet]) stop

/-- A script of three statements, of which the second fails. -/
def failsMiddle : List Stmt := [sPrint (eNum b!"1"), sPrint (eVar b!"nope"), sPrint (eNum b!"2")]

example : (runScript emptyWorld 20 [] failsMiddle).failed = some (some b!"could not find identifier: nope", [b!"1"]) := by decide +kernel
example : setup (runScript emptyWorld 20 [] failsMiddle) = some false := by decide +kernel
example : (runScript emptyWorld 20 [] [sFn b!"f" [] [.block failsMiddle], sDo (eCall (eVar b!"f") []), sPrint (eNum b!"3")]).failed =
    some (some b!"could not find identifier: nope", [b!"1"]) := by decide +kernel

end Bob.Fl
