import Verif.Model.Information
/-
The external containers and control flow used by several criteria.
-/
namespace Inspector

/-- `absl::flat_hash_map` (external): its entries, in insertion order.  The order in which a loop meets
the entries is unspecified: functions looping over a map take this order as a parameter. -/
abbrev HMap (K V : Type) := List (K × V)

namespace HMap
variable {K V : Type} [DecidableEq K]

/-- `find` / `at` (external): value of a key. -/
def find? (m : HMap K V) (k : K) : Option V := List.lookup k m

/-- `try_emplace` (external): inserts only if the key is absent; tells whether it inserted. -/
def tryEmplace (m : HMap K V) (k : K) (v : V) : HMap K V × Bool :=
  match m.find? k with
  | some _ => (m, false)
  | none => (m ++ [(k, v)], true)

/-- modification of `map[key]` (external) for a key which is present. -/
def update (m : HMap K V) (k : K) (f : V → V) : HMap K V :=
  m.map fun e => if e.1 = k then (e.1, f e.2) else e

end HMap

/-- How a C++ computation can stop without a result: an `OpenGeodeException`, another exception, or
undefined behaviour (out of bounds access). -/
inductive Failure where
  | openGeodeException
  | otherException
  | undefinedBehaviour
  /-- not a behaviour of the code: the bound on the iterations of a `while` loop of the model is reached -/
  | outOfFuel
  deriving DecidableEq, Repr

/-- The pattern `for( x : range ) { if( cond ) return true; } return false;` when the condition may
fail. -/
def loopAnyM {α : Type} (cond : α → Except Failure Bool) : List α → Except Failure Bool
  | [] => .ok false
  | x :: xs =>
    match cond x with
    | .error f => .error f
    | .ok true => .ok true
    | .ok false => loopAnyM cond xs

/-- The pattern `for( x : range ) { if( cond ) issues.add_issue( x, message ); }` when the condition
may fail. -/
def collectFromM {α β : Type} (init : Issues β) (bad : α → Except Failure Bool) (issue : α → β)
    (message : α → String) : List α → Except Failure (Issues β)
  | [] => .ok init
  | x :: xs =>
    match bad x with
    | .error f => .error f
    | .ok true => collectFromM (init.add (issue x) (message x)) bad issue message xs
    | .ok false => collectFromM init bad issue message xs

/-- `vector[ index ].push_back( x )` on a vector of vectors: undefined out of bounds. -/
def pushBackAt {α : Type} (l : List (List α)) (index : Nat) (x : α) : Except Failure (List (List α)) :=
  if index < l.length then .ok (l.modify index (fun v => v ++ [x])) else .error .undefinedBehaviour

end Inspector
