import Verif.Model.Python
/-
Specification of what a Python program learns from a result (property C107).
-/
namespace Inspector.Spec

/-- Reading the attributes of this path one after the other, from this object, gives this value. -/
def Reads : PyValue → List String → PyValue → Prop
  | o, [], v => v = o
  | o, name :: path, v => ∃ w, o.attribute name = some w ∧ Reads w path v

/-- A list read in Python has no issue (results have no issue of their own). -/
def NoIssue : PyValue → Prop
  | .indices v => v.issues = []
  | .groups v => v.issues = []
  | .pairs v => v.issues = []
  | .uuids v => v.issues = []
  | .elements v => v.issues = []
  | .edges v => v.issues = []
  | .indicesMap v => v.entries = []
  | .groupsMap v => v.entries = []
  | .pairsMap v => v.entries = []
  | .object _ _ _ => True

/-- The list read in Python has `n` issues (a map: `n` components with issues) and this text in C++. -/
def Counts : PyValue → Nat → String → Prop
  | .indices v, n, t => n = v.issues.length ∧ t = v.string
  | .groups v, n, t => n = v.issues.length ∧ t = v.string
  | .pairs v, n, t => n = v.issues.length ∧ t = v.string
  | .uuids v, n, t => n = v.issues.length ∧ t = v.string
  | .elements v, n, t => n = v.issues.length ∧ t = v.string
  | .edges v, n, t => n = v.issues.length ∧ t = v.string
  | .indicesMap v, n, t => n = v.entries.length ∧ t = v.string
  | .groupsMap v, n, t => n = v.entries.length ∧ t = v.string
  | .pairsMap v, n, t => n = v.entries.length ∧ t = v.string
  | .object _ _ _, _, _ => False

/-- All the lists a Python program can read from this object, at any depth, are empty. -/
def Silent (o : PyValue) : Prop := ∀ path v, Reads o path v → NoIssue v

/-- The attributes a Python program can read from this object are exactly those of the table. -/
def Offers (o : PyValue) (table : List (String × PyValue)) : Prop :=
  ∀ name v, o.attribute name = some v ↔ (name, v) ∈ table

end Inspector.Spec
