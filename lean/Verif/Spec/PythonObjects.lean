import Verif.Model.PythonObjects
/-
Specification of the lifetimes of the inspected objects in a Python program (property C108).
-/
namespace Inspector.Spec

/-- In this state, the variable names an inspector of this object. -/
def NamesInspectorOf (s : PyState) (x o : Nat) : Prop :=
  ∃ i, s.names.lookup x = some i ∧ s.objects[i]? = some (.inspector o)

/-- In this state, some variable names this object. -/
def Named (s : PyState) (o : Nat) : Prop := ∃ x, (x, o) ∈ s.names

/-- The statement gives a value to this variable. -/
def Writes : PyStatement → Nat → Prop
  | .newMesh x, y => x = y
  | .newInspector x _, y => x = y
  | .assign x _, y => x = y
  | _, _ => False

/-- The program deletes no variable, and gives a value to each variable once at most. -/
def WritesOnce (program : List PyStatement) : Prop :=
  (∀ x, PyStatement.del x ∉ program) ∧ program.Pairwise fun a b => ∀ x, Writes a x → ¬ Writes b x

end Inspector.Spec
