import Verif.Model.Base
/-!
# Build steps: `src/build_step.c`
-/

namespace Bob

/-- `build_step_t`, `src/build_step.h`.  `κ` stands for the pair of name and callback (the C code compares
both), `υ` for the 64-bit `unique` and `δ` for the data pointers. -/
structure BuildStep (υ κ δ : Type) where
  unique : υ
  kind : κ
  data : List δ
deriving Repr, DecidableEq

/-- `add_build_step`, `src/build_step.c:12-58` (with `merge`, lines 12-20).  The global array is the list
argument, oldest step first.  `none`: one of the assertions of lines 33-34 fails and the process aborts. -/
def addBuildStep {υ κ δ : Type} [DecidableEq υ] [DecidableEq κ]
    (steps : List (BuildStep υ κ δ)) (unique : υ) (kind : κ) (d : δ) : Option (List (BuildStep υ κ δ)) :=
  match steps.getLast? with
  | none => some (steps ++ [⟨unique, kind, [d]⟩])
  | some last =>
    if last.unique = unique then
      if last.kind = kind then some (steps.dropLast ++ [{ last with data := last.data ++ [d] }])
      else none
    else some (steps ++ [⟨unique, kind, [d]⟩])

/-- A sequence of `add_build_step` calls, starting from the steps given. -/
def addAll {υ κ δ : Type} [DecidableEq υ] [DecidableEq κ] :
    List (BuildStep υ κ δ) → List (υ × κ × δ) → Option (List (BuildStep υ κ δ))
  | steps, [] => some steps
  | steps, (u, k, d) :: rest =>
    match addBuildStep steps u k d with
    | none => none
    | some steps' => addAll steps' rest

/-- `run_build_steps`, `src/build_step.c:73-83`.  A callback transforms the world `σ` and says whether it
succeeded (return value not negative). -/
def runBuildSteps {σ υ κ δ : Type} (cb : BuildStep υ κ δ → σ → σ × Bool) :
    List (BuildStep υ κ δ) → σ → σ × Bool
  | [], s => (s, true)
  | st :: rest, s =>
    match cb st s with
    | (s', false) => (s', false)
    | (s', true) => runBuildSteps cb rest s'

end Bob
