import Verif.Model.Information
/-
The parts of OpenGeode meshes (external, read only by the modelled code) that the inspector reads.
They are arbitrary data: nothing is assumed about their consistency.
-/
namespace Inspector

/-- `geode::PolygonEdge` / `geode::PolygonVertex` (external): a polygon and a local index. -/
abbrev PolygonEdge := Nat × Nat

/-- `geode::PolyhedronFacet` / `PolyhedronVertex` (external): a polyhedron and a local index. -/
abbrev PolyhedronFacet := Nat × Nat

/-- `geode::SurfaceMesh` (external): sizes, polygon vertices and adjacencies. -/
structure SurfaceMesh where
  nbPolygons : Nat
  nbPolygonVertices : Index → Nat
  polygonVertex : PolygonEdge → Index
  polygonAdjacent : PolygonEdge → Option Index

/-- `SurfaceMesh::nb_polygon_edges` (external): as many as vertices. -/
def SurfaceMesh.nbPolygonEdges (m : SurfaceMesh) (p : Index) : Nat := m.nbPolygonVertices p

/-- `SurfaceMesh::polygon_edge_vertex` (external): vertex number `k` (0 or 1) of an edge. -/
def SurfaceMesh.polygonEdgeVertex (m : SurfaceMesh) (e : PolygonEdge) (k : Nat) : Index :=
  m.polygonVertex (e.1, (e.2 + k) % m.nbPolygonVertices e.1)

/-- `SurfaceMesh::is_edge_on_border` (external): no adjacent. -/
def SurfaceMesh.isEdgeOnBorder (m : SurfaceMesh) (e : PolygonEdge) : Bool :=
  (m.polygonAdjacent e).isNone

/-- `geode::SolidMesh` (external): sizes, facet vertices and adjacencies. -/
structure SolidMesh where
  nbPolyhedra : Nat
  nbPolyhedronFacets : Index → Nat
  polyhedronFacetVertices : PolyhedronFacet → List Index
  polyhedronAdjacent : PolyhedronFacet → Option Index

/-- `SolidMesh::is_polyhedron_facet_on_border` (external): no adjacent. -/
def SolidMesh.isPolyhedronFacetOnBorder (m : SolidMesh) (f : PolyhedronFacet) : Bool :=
  (m.polyhedronAdjacent f).isNone

end Inspector
