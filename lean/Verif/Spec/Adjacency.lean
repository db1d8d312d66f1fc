import Verif.Spec.Common
import Verif.Model.Adjacency
/-
Specification side of C15-C18.
-/
namespace Inspector.Spec

/-- Edge `e` of polygon `p` goes from vertex `a` to vertex `b`. -/
def EdgeFromTo (m : SurfaceMesh) (p e : Nat) (a b : Index) : Prop :=
  m.polygonVertex (p, e) = a ∧ m.polygonVertex (p, (e + 1) % m.nbPolygonVertices p) = b

/-- `x` is an edge of the mesh. -/
def IsPolygonEdge (m : SurfaceMesh) (x : PolygonEdge) : Prop :=
  x.1 < m.nbPolygons ∧ x.2 < m.nbPolygonVertices x.1

/-- The edge has an adjacent polygon without any reversed edge adjacent back. -/
def WrongEdge (m : SurfaceMesh) (x : PolygonEdge) : Prop :=
  IsPolygonEdge m x ∧ ∃ q, m.polygonAdjacent x = some q ∧
    ¬ ∃ e' a b, e' < m.nbPolygonVertices q ∧ EdgeFromTo m x.1 x.2 a b ∧ EdgeFromTo m q e' b a ∧
      m.polygonAdjacent (q, e') = some x.1

/-- `x` is a facet of the mesh. -/
def IsPolyhedronFacet (m : SolidMesh) (x : PolyhedronFacet) : Prop :=
  x.1 < m.nbPolyhedra ∧ x.2 < m.nbPolyhedronFacets x.1

/-- The facet has an adjacent polyhedron without any opposite facet adjacent back. -/
def WrongFacet (opposite : List Index → List Index → Bool) (m : SolidMesh) (x : PolyhedronFacet) : Prop :=
  IsPolyhedronFacet m x ∧ ∃ q, m.polyhedronAdjacent x = some q ∧
    ¬ ∃ f', f' < m.nbPolyhedronFacets q ∧
      opposite (m.polyhedronFacetVertices x) (m.polyhedronFacetVertices (q, f')) = true ∧
      m.polyhedronAdjacent (q, f') = some x.1

/-- The edge is on the border of the surface and is not an edge of a Line: its two vertices do not
have valid unique vertices between which there is a Line edge. -/
def BorderEdgeNotOnLine (model : AdjacencyModel) (s : SurfaceComponent) (x : PolygonEdge) : Prop :=
  IsPolygonEdge s.mesh x ∧ s.mesh.polygonAdjacent x = none ∧
    ¬ ∃ a b u v, EdgeFromTo s.mesh x.1 x.2 a b ∧ s.uniqueVertex a = some u ∧
      s.uniqueVertex b = some v ∧ u < model.nbUniqueVertices ∧ v < model.nbUniqueVertices ∧
      model.lineComponentMeshEdges u v ≠ []

/-- The facet is on the border of the block, all its vertices have a unique vertex, and these are
not the vertices of a Surface polygon. -/
def BorderFacetNotOnSurface (model : AdjacencyModel) (b : BlockComponent) (x : PolyhedronFacet) : Prop :=
  IsPolyhedronFacet b.mesh x ∧ b.mesh.polyhedronAdjacent x = none ∧
    ∃ uvs : List Index, (b.mesh.polyhedronFacetVertices x).map b.uniqueVertex = uvs.map some ∧
      model.surfaceComponentMeshPolygons uvs = []

/-- The list expected for a Surface: its wrong edges then its border edges that are not on a
Line. -/
def ExpectedSurfaceIssues (model : AdjacencyModel) (s : SurfaceComponent) (l : List PolygonEdge) : Prop :=
  ∃ l1 l2, l = l1 ++ l2 ∧ Exactly LexLt (WrongEdge s.mesh) l1 ∧
    Exactly LexLt (BorderEdgeNotOnLine model s) l2

/-- The list expected for a Block. -/
def ExpectedBlockIssues (opposite : List Index → List Index → Bool) (model : AdjacencyModel)
    (b : BlockComponent) (l : List PolyhedronFacet) : Prop :=
  ∃ l1 l2, l = l1 ++ l2 ∧ Exactly LexLt (WrongFacet opposite b.mesh) l1 ∧
    Exactly LexLt (BorderFacetNotOnSurface model b) l2

/-- number of polygon edges of a mesh -/
def totalPolygonEdges (m : SurfaceMesh) : Nat :=
  ((List.range m.nbPolygons).map m.nbPolygonVertices).sum

/-- number of polyhedron facets of a mesh -/
def totalPolyhedronFacets (m : SolidMesh) : Nat :=
  ((List.range m.nbPolyhedra).map m.nbPolyhedronFacets).sum

end Inspector.Spec
