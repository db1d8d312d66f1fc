import Verif.Model.HashMap
import Verif.Model.Results
/-
Model of the concurrent parts of the inspectors: `async::parallel_invoke` (external) on tasks which write a shared
result, and the `emplace` functions called concurrently by the traversals of AABB trees.  A schedule is a list of
task (or thread) numbers: at each step, the given one advances.
-/
namespace Inspector

/-- A task given to `async::parallel_invoke`: its successive writes in the shared result, and the failure which ends
it.  What a task reads (meshes, models) is not written by the other ones. -/
structure Task (σ : Type) where
  writes : List (σ → σ)
  failure : Option Failure

/-- The task `[&result, this] { result.field = this->criterion(); }`, for example edgedcurve_inspector.cpp:64-67:
nothing is written if the criterion fails. -/
def Task.assign {σ α : Type} (value : Except Failure α) (set : α → σ → σ) : Task σ :=
  match value with
  | .ok v => ⟨[set v], none⟩
  | .error f => ⟨[], some f⟩

/-- Runs the writes of the tasks: at each step the task given by the schedule does its next write (if any); when the
schedule is over, the remaining writes are done. -/
def runTasks {σ : Type} : List Nat → List (List (σ → σ)) → σ → σ
  | [], tasks, s => tasks.flatten.foldl (fun s write => write s) s
  | i :: schedule, tasks, s =>
    match tasks[i]? with
    | some (write :: writes) => runTasks schedule (tasks.set i writes) (write s)
    | _ => runTasks schedule tasks s

/-- What `async::parallel_invoke` (external) does with the failures of its tasks: undefined behaviour and absence of
termination are those of the whole; otherwise one of the exceptions is rethrown, all the tasks being over. -/
def thrownBy (choose : List Failure → Failure) (failures : List Failure) : Option Failure :=
  if failures.contains .undefinedBehaviour then some .undefinedBehaviour
  else if failures.contains .outOfFuel then some .outOfFuel
  else if failures.isEmpty then none
  else some (choose failures)

/-- `async::parallel_invoke` (external): the shared result, and what is thrown. -/
def parallelInvoke {σ : Type} (choose : List Failure → Failure) (schedule : List Nat) (tasks : List (Task σ)) (s : σ) :
    σ × Option Failure :=
  (runTasks schedule (tasks.map Task.writes) s, thrownBy choose (tasks.filterMap Task.failure))

/-- `Result result; async::parallel_invoke( ... ); return result;`, for example edgedcurve_inspector.cpp:62-72. -/
def invokeAndReturn {σ : Type} (choose : List Failure → Failure) (schedule : List Nat) (tasks : List (Task σ)) (s : σ) :
    Except Failure σ :=
  match parallelInvoke choose schedule tasks s with
  | (result, none) => .ok result
  | (_, some f) => .error f

/-! ### emplace -/

/-- Where a thread is in `emplace`: outside, entered (after the lock, if any), after reading the size of the vector,
after storing the element. -/
inductive EmplacePoint where
  | outside
  | entered
  | sizeRead (size : Nat)
  | stored (size : Nat)
  deriving DecidableEq, Repr

/-- A thread running actions: the elements it has still to emplace. -/
structure EmplaceThread (α : Type) where
  todo : List α
  point : EmplacePoint := .outside
  deriving DecidableEq, Repr

/-- The vector of the action (a buffer and a size), the owner of the mutex, and the threads. -/
structure EmplaceState (α : Type) where
  buffer : List (Option α) := []
  size : Nat := 0
  owner : Option Nat := none
  threads : List (EmplaceThread α)
  deriving DecidableEq, Repr

/-- Stores an element in the buffer. -/
def storeAt {α : Type} (buffer : List (Option α)) (i : Nat) (x : α) : List (Option α) :=
  if i < buffer.length then buffer.set i (some x)
  else buffer ++ List.replicate (i - buffer.length) none ++ [some x]

/-- One step of a thread in `emplace`, with a mutex in surface_intersections.cpp:76-80 and
surface_curve_intersections.cpp:66-70, without in model_intersections.cpp:149-152 and 258-261.  `emplace_back` is
the reading of the size, the storing of the element, and the storing of the new size (reallocation is not
modelled). -/
def EmplaceState.step {α : Type} (useMutex : Bool) (s : EmplaceState α) (i : Nat) : EmplaceState α :=
  match s.threads[i]? with
  | none => s
  | some thread =>
    match thread.todo, thread.point with
    | [], _ => s
    | _ :: _, .outside =>
      if useMutex then
        if s.owner = none then
          { s with owner := some i, threads := s.threads.set i { thread with point := .entered } }
        else s
      else { s with threads := s.threads.set i { thread with point := .entered } }
    | _ :: _, .entered =>
      { s with threads := s.threads.set i { thread with point := .sizeRead s.size } }
    | x :: _, .sizeRead n =>
      { s with
        buffer := storeAt s.buffer n x
        threads := s.threads.set i { thread with point := .stored n } }
    | _ :: rest, .stored n =>
      { s with
        size := n + 1
        owner := if useMutex then none else s.owner
        threads := s.threads.set i { todo := rest, point := .outside } }

/-- The elements of the vector. -/
def EmplaceState.contents {α : Type} (s : EmplaceState α) : List (Option α) :=
  (List.range s.size).map fun i => s.buffer[i]?.join

/-- All the threads are over. -/
def EmplaceState.finished {α : Type} (s : EmplaceState α) : Prop := ∀ thread ∈ s.threads, thread.todo = []

/-- Runs the threads, each with the elements it has to emplace, on an empty vector. -/
def runEmplace {α : Type} (useMutex : Bool) (threads : List (List α)) (schedule : List Nat) : EmplaceState α :=
  schedule.foldl (EmplaceState.step useMutex) { threads := threads.map fun todo => { todo := todo } }

end Inspector
