import Verif.Model.ExpectedCmvs
import Verif.Spec.Topology
/-
Specification of the number of block vertices expected at a unique vertex, over the integers.
-/
namespace Inspector.Spec
variable (m : TopologyModel) (v : Index) (b : Uuid)

/-- The vertices of components of a kind linked to `v`. -/
def cmvsOf (kind : ComponentType) : List ComponentMeshVertex :=
  (m.componentMeshVertices v).filter fun cmv => decide (cmv.component_id.type = kind)

/-- Number of vertices of block `b` at `v`. -/
def nbBlockCmvs : Nat := ((cmvsOf m v .block).filter fun cmv => decide (cmv.component_id.id = b)).length

/-- Number of vertices at `v` of surfaces bounding `b`. -/
def nbBoundarySurfaceCmvs : Nat := ((cmvsOf m v .surface).filter fun cmv => m.isBoundary cmv.component_id.id b).length

/-- Number of vertices at `v` of surfaces internal to `b` (and not bounding it). -/
def nbInternalSurfaceCmvs : Nat :=
  ((cmvsOf m v .surface).filter fun cmv =>
    !m.isBoundary cmv.component_id.id b && m.isInternal cmv.component_id.id b).length

/-- The surfaces bounding `b`. -/
def boundarySurfaces : List Uuid := ((m.boundaries b).filter fun c => decide (c.type = .surface)).map ComponentID.id

/-- Number of sheets of the boundary of `b` which meet two by two on a line: a bounding surface with the line on its border
has one sheet, a bounding surface in which it is embedded has two. -/
def boundarySheets (line : Uuid) : Nat :=
  ((boundarySurfaces m b).filter fun s => m.isBoundary line s).length +
    2 * ((boundarySurfaces m b).filter fun s => m.isInternal line s).length

/-- The lines at `v` which are not embedded in a block (with repetitions). -/
def linesAt : List Uuid :=
  ((cmvsOf m v .line).map fun cmv => cmv.component_id.id).filter fun line =>
    decide (∀ e ∈ m.embeddings line, e.type ≠ .block)

/-- The line is embedded in a surface internal to `b`, or is embedded in no surface and bounds only surfaces
internal to `b`. -/
def LineInside (line : Uuid) : Prop :=
  ((∃ e ∈ m.embeddings line, e.type = .surface) →
    ∃ e ∈ m.embeddings line, e.type = .surface ∧ m.isInternal e.id b = true) ∧
  ((∀ e ∈ m.embeddings line, e.type ≠ .surface) →
    ∀ e ∈ m.incidences line, e.type = .surface → m.isInternal e.id b = true)

instance (line : Uuid) : Decidable (LineInside m b line) := by unfold LineInside; infer_instance

/-- Number of lines at `v` inside `b`, not on its boundary. -/
def nbLinesInside : Nat :=
  ((linesAt m v).filter fun line => decide (boundarySheets m b line / 2 = 0 ∧ LineInside m b line)).length

/-- Sum over the lines at `v` of the number of passages of the boundary of `b`. -/
def nbLinePassages : Nat := ((linesAt m v).map fun line => boundarySheets m b line / 2).sum

/-- Number of lines at `v` on several passages. -/
def nbSeveralPassages : Nat := ((linesAt m v).filter fun line => decide (1 < boundarySheets m b line / 2)).length

/-- Number of additional passages. -/
def nbAdditionalPassages : Nat := ((linesAt m v).map fun line => boundarySheets m b line / 2 - 1).sum

/-- The expected number of vertices of `b` at `v`: one, plus one per internal surface vertex, plus one per
boundary surface vertex minus one and minus the passages of the boundary on lines (if any boundary surface), minus
the lines inside, plus the corners and half the additional passages (if any line). -/
def expectedCount : Int :=
  1 + (nbInternalSurfaceCmvs m v b : Int)
    + (if 0 < nbBoundarySurfaceCmvs m v b then
        (nbBoundarySurfaceCmvs m v b : Int) - 1 - nbLinePassages m v b else 0)
    - (nbLinesInside m v b : Int)
    + (if nbLinesInside m v b ≠ 0 ∨ nbLinePassages m v b ≠ 0 then
        ((cmvsOf m v .corner).length : Int) + (nbAdditionalPassages m v b / 2 : Nat) else 0)

/-- The block vertices at `v` are those expected; beside a non-manifold line (an odd number of lines with several
passages), a second number is accepted. -/
def CountIsRight : Prop :=
  (nbBlockCmvs m v b : Int) = expectedCount m v b ∨
    (nbSeveralPassages m v b % 2 = 1 ∧
      (nbBlockCmvs m v b : Int) = expectedCount m v b + nbSeveralPassages m v b)

/-- Sizes: the numbers involved fit. -/
def CountsFit : Prop := (m.componentMeshVertices v).length < 2 ^ 30 ∧ nbLinePassages m v b < 2 ^ 30

end Inspector.Spec
