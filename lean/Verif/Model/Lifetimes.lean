import Verif.Model.Concurrency
/-
Lifetimes of the variables captured by reference by the tasks of the degeneration and intersection criteria.

internal/component_meshes_degeneration.cpp and intersections/model_intersections.cpp spawn one task per iteration of a loop,
then wait for all of them.  What the tasks compute is modelled elsewhere (Model/Degeneration.lean,
Model/Intersections.lean); here only the variables they read.  The objects of the model (`line`, `surface`, the elements of
`component_pairs`, `this`) outlive the function and are not variables of it.
-/
namespace Inspector

/-- A variable captured by reference by a task: a parameter of the function (`threshold`), or a variable declared in the body
of the loop that spawns the tasks (`enable_edges` of the iteration `i`). -/
inductive CapturedVariable where
  | parameter
  | iteration (i : Nat)
deriving DecidableEq

/-- What the thread that runs the function does, one iteration after the other. -/
inductive SpawnerStep where
  /-- the body of the loop starts, its variables are alive -/
  | enter (i : Nat)
  /-- `async::spawn` -/
  | spawn (i : Nat)
  /-- the body of the loop ends, its variables are destroyed -/
  | leave (i : Nat)
  /-- `async::when_all(...).get()`: waits for the end of all tasks -/
  | waitAll
  /-- the function returns, its parameters are destroyed -/
  | return
deriving DecidableEq

/-- Steps of a function that spawns `n` tasks and waits for them,
internal/component_meshes_degeneration.cpp:68-87, 93-121 and 140-158, intersections/model_intersections.cpp:696-756. -/
def spawnerSteps (n : Nat) : List SpawnerStep :=
  ((List.range n).flatMap fun i => [.enter i, .spawn i, .leave i]) ++ [.waitAll, .return]

/-- State of an execution. -/
structure SpawnState where
  /-- steps the spawner still has to do -/
  todo : List SpawnerStep
  alive : List CapturedVariable
  /-- spawned tasks, with the variables each one still has to read -/
  tasks : List (Nat × List CapturedVariable)
  /-- a variable has been read out of its lifetime -/
  undefined : Bool

/-- The spawner does its next step; `captured i` are the variables read by task `i`, in order. -/
def SpawnState.spawner (captured : Nat → List CapturedVariable) (s : SpawnState) : SpawnState :=
  match s.todo with
  | [] => s
  | .enter i :: rest => { s with todo := rest, alive := .iteration i :: s.alive }
  | .spawn i :: rest => { s with todo := rest, tasks := s.tasks ++ [(i, captured i)] }
  | .leave i :: rest => { s with todo := rest, alive := s.alive.filter fun v => v != .iteration i }
  | .waitAll :: rest => if s.tasks.all fun t => t.2.isEmpty then { s with todo := rest } else s
  | .return :: rest => { s with todo := rest, alive := s.alive.filter fun v => v != .parameter }

/-- Task `i` reads its next variable, if it has been spawned and has one to read. -/
def SpawnState.task (i : Nat) (s : SpawnState) : SpawnState :=
  match s.tasks.find? fun t => t.1 == i with
  | some (_, v :: rest) =>
    { s with tasks := s.tasks.map fun t => if t.1 == i then (i, rest) else t
             undefined := s.undefined || !s.alive.contains v }
  | _ => s

/-- An execution: at each step, the spawner (`none`) or a task runs. -/
def runSpawner (captured : Nat → List CapturedVariable) (n : Nat) (schedule : List (Option Nat)) : SpawnState :=
  schedule.foldl (fun s who => match who with | none => s.spawner captured | some i => s.task i)
    { todo := spawnerSteps n, alive := [.parameter], tasks := [], undefined := false }

/-- Variables read by the task of a surface in `add_small_edges`,
internal/component_meshes_degeneration.cpp:95-112: `enable_edges`, declared in the loop, then `threshold`. -/
def surfaceEdgesTask (i : Nat) : List CapturedVariable := [.iteration i, .parameter]

/-- Variables read by the task of a line in `add_small_edges`, internal/component_meshes_degeneration.cpp:70-79, or of a
surface in `add_small_height_polygons`, internal/component_meshes_degeneration.cpp:142-150: `threshold`. -/
def thresholdTask (_ : Nat) : List CapturedVariable := [.parameter]

/-- Variables read by the tasks of `intersecting_polygons`,
intersections/model_intersections.cpp:700-719 and 725-749: none that the function declares in a loop body (the list of
overlapping components is declared before the tasks that read it, and lives like a parameter). -/
def intersectionTask (_ : Nat) : List CapturedVariable := [.parameter]

end Inspector
