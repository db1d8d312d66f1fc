/-
Model of `include/geode/inspector/inspection/information.hpp` and of the few
basic C++ notions shared by the whole model.
-/
namespace Inspector

/-- `index_t` / `local_index_t` used as indices.  `index_t` is `unsigned int`
(OpenGeode `geode/basic/types.hpp`, external).  Simplification: indices that are
only compared or used to address a container are natural numbers; wherever the
code does arithmetic on counters whose wrap-around is observable the model uses
`UInt32` / `UInt8` explicitly. -/
abbrev Index := Nat

/-- `geode::uuid` (external): an opaque identifier with equality. -/
abbrev Uuid := Nat

/-- A C++ `double`, as used by the modelled code, which only compares doubles
computed by external code: `nan`, or the position of the number in the
IEEE-754 order (`-0` and `+0` share position `0`; infinities are ordinary
positions).  Simplification: no arithmetic. -/
inductive Dbl where
  | nan
  | num (rank : Int)
  deriving DecidableEq, Repr

/-- C++ `a < b` on doubles: false as soon as one side is NaN. -/
def Dbl.lt : Dbl → Dbl → Bool
  | .num a, .num b => decide (a < b)
  | _, _ => false

/-- C++ `a <= b` on doubles: false as soon as one side is NaN. -/
def Dbl.le : Dbl → Dbl → Bool
  | .num a, .num b => decide (a ≤ b)
  | _, _ => false

/-- `InspectionIssues< IssueType >`, information.hpp:39-99: the description and
the two parallel vectors `issues_` and `messages_`. -/
structure Issues (α : Type) where
  description : String
  issues : List α := []
  messages : List String := []
  deriving DecidableEq, Repr

namespace Issues
variable {α : Type}

/-- default description, information.hpp:93-96. -/
def defaultDescription : String :=
  "Default inspection issue message. This message should have been overriden."

/-- Constructor from a description, information.hpp:43-46. -/
def new (description : String) : Issues α := { description := description }

/-- `set_description`, information.hpp:50-53. -/
def setDescription (s : Issues α) (d : String) : Issues α := { s with description := d }

/-- `nb_issues`, information.hpp:55-58: `issues_.size()` converted to `index_t`. -/
def nbIssues (s : Issues α) : UInt32 := UInt32.ofNat s.issues.length

/-- `add_issue`, information.hpp:60-64. -/
def add (s : Issues α) (issue : α) (message : String) : Issues α :=
  { s with issues := s.issues ++ [issue], messages := s.messages ++ [message] }

/-- `string`, information.hpp:71-85 (`absl::StrCat` of a `size_t` is its decimal
representation). -/
def string (s : Issues α) : String :=
  if s.issues.isEmpty then "no issues with " ++ s.description ++ "\n"
  else
    s.messages.foldl (fun message issue => message ++ "\n\t" ++ issue)
      (toString s.issues.length ++ " issues with " ++ s.description) ++ "\n"

end Issues

/-- `InspectionIssuesMap< IssueType >`, information.hpp:101-166.
`issues_map_` is an `absl::flat_hash_map`; the model keeps its entries in
insertion order.  The iteration order of the hash map is unspecified in C++:
functions iterating over it take the order as a parameter. -/
structure IssuesMap (α : Type) where
  description : String
  entries : List (Uuid × Issues α) := []
  deriving Repr, DecidableEq

namespace IssuesMap
variable {α : Type}

/-- Constructor, information.hpp:105-108. -/
def new (description : String) : IssuesMap α := { description := description }

/-- `set_description`, information.hpp:112-115. -/
def setDescription (m : IssuesMap α) (d : String) : IssuesMap α := { m with description := d }

/-- `nb_issues`, information.hpp:122-125: `issues_map_.size()`. -/
def nbIssues (m : IssuesMap α) : UInt32 := UInt32.ofNat m.entries.length

/-- `issues_map().find( id )`, information.hpp:153-158. -/
def find? (m : IssuesMap α) (id : Uuid) : Option (Issues α) := m.entries.lookup id

/-- `add_issues_to_map`, information.hpp:127-135.  `flat_hash_map::emplace` does
nothing when the key is already present. -/
def addIssues (m : IssuesMap α) (id : Uuid) (issues : Issues α) : IssuesMap α :=
  if issues.nbIssues == 0 then m
  else
    match m.find? id with
    | some _ => m
    | none => { m with entries := m.entries ++ [(id, issues)] }

/-- `string`, information.hpp:137-151, for the iteration order `order` of the
entries. -/
def stringIn (order : List (Uuid × Issues α)) (m : IssuesMap α) : String :=
  if m.entries.isEmpty then "no issues with " ++ m.description ++ "\n"
  else
    order.foldl (fun message e => message ++ "\n\t" ++ e.2.string)
      (toString m.entries.length ++ " issues with " ++ m.description) ++ "\n"

/-- `string` with the insertion order as iteration order (one of the orders the
hash map may choose). -/
def string (m : IssuesMap α) : String := m.stringIn m.entries

end IssuesMap

/-- The C++ pattern
`for( x : range ) { if( cond ) issues.add_issue( x, message ); }`
used by every `InspectionIssues` producing loop of the repository. -/
def collectFrom {α β : Type} (init : Issues β) (range : List α) (bad : α → Bool) (issue : α → β)
    (message : α → String) : Issues β :=
  range.foldl (fun acc x => if bad x then acc.add (issue x) (message x) else acc) init

/-- Same pattern with the element itself as issue and a fresh issue list. -/
def collect {α : Type} (description : String) (range : List α) (bad : α → Bool)
    (message : α → String) : Issues α :=
  collectFrom (Issues.new description) range bad id message

/-- The C++ pattern `for( x : range ) { if( cond ) return true; } return false;`. -/
def loopAny {α : Type} (cond : α → Bool) : List α → Bool
  | [] => false
  | x :: xs => if cond x then true else loopAny cond xs

/-- The nested loops `for( i : Range{ n } ) for( j : LRange{ m( i ) } )`. -/
def pairs (n : Nat) (m : Nat → Nat) : List (Nat × Nat) :=
  (List.range n).flatMap fun i => (List.range (m i)).map fun j => (i, j)

end Inspector
