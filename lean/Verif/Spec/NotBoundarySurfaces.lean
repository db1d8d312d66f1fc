import Verif.Model.NotBoundarySurfaces
import Verif.Spec.LinkedSurfaces
/-
Specification of the surfaces which cannot be boundaries.
-/
namespace Inspector.Spec

/-- In the set of surfaces `G`, every boundary line of a surface bounds another surface of `G`. -/
def Closable (m : TopologyModel) (G : Uuid → Prop) : Prop :=
  ∀ s, G s → ∀ line, ⟨.line, line⟩ ∈ m.boundaries s → ∃ s', G s' ∧ s' ≠ s ∧ ⟨.line, line⟩ ∈ m.boundaries s'

/-- No closable set contains the surface. -/
def CannotBound (m : TopologyModel) (s : Uuid) : Prop := ¬ ∃ G, Closable m G ∧ G s

/-- `graph.edge_from_vertices` returns edges between the vertices. -/
def EdgeFinder (edgeFromVertices : List GraphEdge → Uuid → Uuid → Option Nat) : Prop :=
  ∀ edges a b i, edgeFromVertices edges a b = some i →
    ∃ e, edges[i]? = some e ∧ ((e.v0 = a ∧ e.v1 = b) ∨ (e.v0 = b ∧ e.v1 = a))

/-- The surface has a polygon, whose barycenter (for the first one) is in no block. -/
def OutsideBlocks (m : TopologyModel) (isInsideBlock : Uuid → Uuid → Except Failure Bool) (s : Uuid) : Prop :=
  (∃ c ∈ m.components .surface, c.id = s ∧ c.nbElements ≠ 0) ∧
  ∀ block ∈ m.components .block, isInsideBlock s block.id = .ok false

/-- `is_point_inside_block` raises nothing for the surfaces it is called for: those which have a polygon and cannot be
boundaries. -/
def RaysAnswer (m : TopologyModel) (isInsideBlock : Uuid → Uuid → Except Failure Bool) : Prop :=
  ∀ s, CannotBound m s → (∃ c ∈ m.components .surface, c.id = s ∧ c.nbElements ≠ 0) →
    ∀ block ∈ m.components .block, ∃ inside, isInsideBlock s block.id = .ok inside

end Inspector.Spec
