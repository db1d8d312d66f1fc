import Mathlib.Logic.Relation
import Verif.Model.LinkedSurfaces
import Verif.Spec.Topology
/-
Specification of the parts of a boundary: connected components of surfaces sharing boundary lines.
-/
namespace Inspector.Spec

/-- The boundary/incidence relations between lines and surfaces are the same relation (OpenGeode). -/
def CoherentLines (m : TopologyModel) : Prop :=
  ∀ line s, ⟨.surface, s⟩ ∈ m.incidences line ↔ ⟨.line, line⟩ ∈ m.boundaries s

/-- Two surfaces have a common boundary line. -/
def SharesLine (m : TopologyModel) (a b : Uuid) : Prop :=
  ∃ line, ⟨.line, line⟩ ∈ m.boundaries a ∧ ⟨.line, line⟩ ∈ m.boundaries b

/-- `b` is reached from `a` by surfaces of `Q`, each sharing a boundary line with the previous one. -/
def LinkedIn (m : TopologyModel) (Q : List Uuid) (a b : Uuid) : Prop :=
  Relation.ReflTransGen (fun x y => SharesLine m x y ∧ y ∈ Q) a b

/-- `parts` are the connected components of the surfaces of `Q`: they are not empty, no surface is twice in
them, they cover `Q`, and the part of a surface is what is linked to it. -/
structure IsPartition (m : TopologyModel) (Q : List Uuid) (parts : List (List Uuid)) : Prop where
  nonempty : ∀ p ∈ parts, p ≠ []
  nodup : parts.flatten.Nodup
  cover : ∀ s, s ∈ Q ↔ ∃ p ∈ parts, s ∈ p
  component : ∀ p ∈ parts, ∀ a ∈ p, ∀ b, b ∈ p ↔ b ∈ Q ∧ LinkedIn m Q a b

/-- All the surfaces of `Q` are linked. -/
def AllLinked (m : TopologyModel) (Q : List Uuid) : Prop := ∀ a ∈ Q, ∀ b ∈ Q, LinkedIn m Q a b

end Inspector.Spec

namespace Inspector.Spec

/-- The unique vertex of a vertex of a surface. -/
def uniqueVertexOf (m : TopologyModel) (p : Uuid × Index) : Option Index := m.uniqueVertex ⟨⟨.surface, p.1⟩, p.2⟩

/-- The polygons of a surface, as lists of surface vertices. -/
def facetsOfSurface (m : TopologyModel) (c : TopologyComponent) : List (List (Uuid × Index)) :=
  (List.range c.nbElements).map fun polygon => (m.polygonVertices c.id polygon).map fun vertex => (c.id, vertex)

/-- `fused` is the given polygons glued along unique vertices: each corner of a polygon is replaced by a point with
the same unique vertex, the points have distinct unique vertices, and are vertices of the polygons. -/
structure IsFusion (m : TopologyModel) (polygons : List (List (Uuid × Index))) (fused : FusedSurface) : Prop where
  corners : List.Forall₂ (List.Forall₂ fun p i => ∃ q, fused.points[i]? = some q ∧ uniqueVertexOf m q = uniqueVertexOf m p)
    polygons fused.polygons
  distinct : (fused.points.map (uniqueVertexOf m)).Nodup
  points : ∀ q ∈ fused.points, ∃ polygon ∈ polygons, q ∈ polygon

/-- Every vertex of every surface of `part` is inside the closed surface `mesh`. -/
def PartInside (m : TopologyModel) (g : BlockGeometry) (mesh : FusedSurface) (part : List Uuid) : Prop :=
  ∀ s ∈ part, ∀ c ∈ m.components .surface, c.id = s → ∀ v < c.nbVertices, g.isVertexInside mesh s v = .ok true

/-- Part `i` has a box containing the boxes of the other parts. -/
def BoxEncloses (g : BlockGeometry) (parts : List (List Uuid)) (i : Nat) : Prop :=
  ∃ p, parts[i]? = some p ∧ ∀ j q, parts[j]? = some q → j ≠ i →
    g.contains (surfaceListBox g p) (surfaceListBox g q) = true

/-- Part `i`, glued along unique vertices, contains the vertices of the other parts. -/
def MeshEncloses (m : TopologyModel) (g : BlockGeometry) (parts : List (List Uuid)) (i : Nat) : Prop :=
  ∃ p mesh, parts[i]? = some p ∧ fuseBRepSurfacesFromList m p = .ok mesh ∧
    ∀ j q, parts[j]? = some q → j ≠ i → PartInside m g mesh q

/-- `is_point_inside_closed_surface` raises only OpenGeode exceptions. -/
def RaisesOpenGeode (g : BlockGeometry) : Prop :=
  ∀ mesh s v f, g.isVertexInside mesh s v = .error f → f = .openGeodeException

end Inspector.Spec
