import Verif.Model.Information
/-
Specification side of C01 and C02: what a history of calls should have recorded,
written on the history only (not on the model functions).
-/
namespace Inspector.Spec

/-- One call on an `InspectionIssues`. -/
inductive IssuesCall (α : Type) where
  | add (issue : α) (message : String)
  | setDescription (d : String)

/-- The issues added by a history, in order. -/
def addedIssues {α : Type} : List (IssuesCall α) → List α
  | [] => []
  | .add i _ :: cs => i :: addedIssues cs
  | .setDescription _ :: cs => addedIssues cs

/-- The messages added by a history, in order. -/
def addedMessages {α : Type} : List (IssuesCall α) → List String
  | [] => []
  | .add _ m :: cs => m :: addedMessages cs
  | .setDescription _ :: cs => addedMessages cs

/-- The last description set by a history, `d` if none. -/
def lastDescription {α : Type} (d : String) : List (IssuesCall α) → String
  | [] => d
  | .add _ _ :: cs => lastDescription d cs
  | .setDescription d' :: cs => lastDescription d' cs

/-- The documented text: a "no issues" line, or a counted header followed by one
indented line per message. -/
def expectedText (d : String) (messages : List String) : String :=
  match messages with
  | [] => "no issues with " ++ d ++ "\n"
  | ms => toString ms.length ++ " issues with " ++ d
            ++ String.join (ms.map fun m => "\n\t" ++ m) ++ "\n"

/-- The list that a history of `add_issues_to_map` calls should keep for a
component: the first non-empty one given for it. -/
def firstNonEmpty {α : Type} (id : Uuid) : List (Uuid × Issues α) → Option (Issues α)
  | [] => none
  | (k, s) :: cs => if k = id ∧ s.issues ≠ [] then some s else firstNonEmpty id cs

end Inspector.Spec
