import Verif.Model.Flamingo.Setup
/-!
# Tearing an interpreter down
-/

namespace Bob.Fl

/-- `flamingo_destroy`, `src/flamingo/flamingo.c:148-207`, of the engine of the build script, which did not inherit its environment: all
scopes of the environment in force are freed, the outermost first (lines 162-168).  Engines of imports inherited theirs (`src/flamingo/grammar/import.h`)
and free none.  The rest (trees, sources, paths, the array of scopes) is held by nothing else and left out. -/
def destroy (dec : Nat → M Unit) : M Unit := do
  let st ← curStack
  forEach (freeScope dec) st.reverse

/-- The end of `setup`, `src/bsys/bob/main.c:174-209`: the interpreter is torn down if the script failed or did not import `bob.fl`, and kept otherwise. -/
def teardown (dec : Nat → M Unit) : Out Unit → Out Unit
  | .ok _ s => if setup (.ok () s) = some true then .ok () s else destroy dec s
  | .err _ s => destroy dec s
  | o => o

end Bob.Fl
