import Verif.Spec.Common
import Verif.Model.Degeneration
/-
Specification side of C19-C23.
-/
namespace Inspector.Spec

/-- `a < b` for two numbers (never for a NaN). -/
def Below (a b : Dbl) : Prop := ∃ x y : Int, a = .num x ∧ b = .num y ∧ x < y

/-- `a ≤ b` for two numbers (never for a NaN). -/
def AtMost (a b : Dbl) : Prop := ∃ x y : Int, a = .num x ∧ b = .num y ∧ x ≤ y

/-- length of an edge -/
def edgeLen (m : ElementMeasures) (e : Index) : Dbl := m.distance (m.edgeVertices e).1 (m.edgeVertices e).2

/-- The edges expected for the active ones of these Lines. -/
def lineEdgeReports (cs : List (MeasuredComponent CurveMeasures)) (threshold : Dbl) :
    List (Uuid × (Index → Prop)) :=
  (cs.filter fun c => c.active).map fun c =>
    (c.id, fun e => e < c.mesh.nbEdges ∧ AtMost (c.mesh.edgeLength e) threshold)

/-- The edges expected for the active ones of these Surfaces (or Blocks). -/
def elementEdgeReports (cs : List (MeasuredComponent ElementMeasures)) (threshold : Dbl) :
    List (Uuid × (Index → Prop)) :=
  (cs.filter fun c => c.active).map fun c =>
    (c.id, fun e => e < c.mesh.nbEdges ∧ Below (edgeLen c.mesh e) threshold)

/-- The polygons (or polyhedra) expected in the elements map. -/
def heightReports (cs : List (MeasuredComponent ElementMeasures)) (threshold : Dbl) :
    List (Uuid × (Index → Prop)) :=
  (cs.filter fun c => c.active).map fun c =>
    (c.id, fun e => e < c.mesh.nbElements ∧ AtMost (c.mesh.minimumHeight e) threshold)

/-- Sizes fit in an `index_t`. -/
def SizesOk (m : DegenerationModel) : Prop :=
  (∀ c ∈ m.lines, c.mesh.nbEdges < 2 ^ 32) ∧
  (∀ c ∈ m.surfaces, c.mesh.nbEdges < 2 ^ 32 ∧ c.mesh.nbElements < 2 ^ 32) ∧
  (∀ c ∈ m.blocks, c.mesh.nbEdges < 2 ^ 32 ∧ c.mesh.nbElements < 2 ^ 32)

/-- Ids of all the components. -/
def allIds (m : DegenerationModel) : List Uuid :=
  m.lines.map MeasuredComponent.id ++ m.surfaces.map MeasuredComponent.id ++
    m.blocks.map MeasuredComponent.id

/-- The map holds exactly these reports: for each (component, expected set), the increasing list of the
set if it is not empty and no entry otherwise; no entry for any other component. -/
def Reports (map : IssuesMap Index) (expected : List (Uuid × (Index → Prop))) : Prop :=
  MapReports map expected Prod.fst (fun r l => Exactly (· < ·) r.2 l)

end Inspector.Spec
