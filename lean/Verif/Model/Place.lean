import Verif.Model.Cli
/-!
# The working directory

`Verif.Model.Cli` asks the operating system about names without saying from where.  Here bob is started in a directory, and goes to that of the project before it asks anything
else.  The simplification there, that a name means the same before and after `chdir`, is removed.
-/

namespace Bob

/-- What there is to be seen from each directory. -/
structure Machine (Dir : Type) where
  posix : Bool
  env : Env
  /-- `realpath` and `chdir` to what it gives, `src/main.c:124-135`; `none`: one of them fails -/
  cd : Dir → Bytes → Option Dir
  /-- all other answers of the system -/
  view : Dir → MainWorld

/-- The answers in a directory. -/
def Machine.world (m : Machine Dir) (d : Dir) : MainWorld := { m.view d with posix := m.posix, env := m.env }

/-- `main` after `chdir`, `src/main.c:137-257`. -/
def afterChdir (w : MainWorld) (o : Opts) (instr : Bytes) (args : List Bytes) : M Bool :=
  if w.root && !w.statDot then M.end (.exit false)
  else M.bind (M.act (.mkdir o.out)) fun _ =>
    if !w.mkdir o.out then M.end (.exit false)
    else if !w.realpath o.out then M.end (.exit false)
    else if !w.there (prefixOf o w.env) then M.end (.exit false)
    else match w.bsys.find? (·.identify) with
      | none => M.end (.exit false)
      | some b =>
        match b.setup with
        | none => instruction w o b (prefixOf o w.env) instr args
        | some ok => M.bind (M.act .setup) fun _ => if ok then instruction w o b (prefixOf o w.env) instr args else M.end (.exit false)

/-- `main`, `src/main.c:63-257`, started in a directory: what happens, and how it ends. -/
def mainAt (m : Machine Dir) (d : Dir) (args : List Bytes) : List MainAct × End :=
  match getoptScan m.posix none args .init [] with
  | none => ([], .exit false)
  | some (_, []) => ([], .exit false)
  | some (o, instr :: rest) =>
    match m.cd d (o.project.getD b!".") with
    | none => ([], .exit false)
    | some d' =>
      match afterChdir (m.world d') o instr rest with
      | (t, .ok ok) => (t, .exit ok)
      | (t, .error e) => (t, e)

/-- The same on a tree: `realpath` and `chdir` find directories there.  (Permissions are not modelled.) -/
def Machine.onTree (posix : Bool) (env : Env) (t : Tree) (view : Path → MainWorld) : Machine Path where
  posix := posix
  env := env
  cd d p := match t.stat d p with
    | .ok (q, .dir _) => some q
    | _ => none
  view := view

end Bob
