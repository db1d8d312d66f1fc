import Verif.Spec.Colocation
import Verif.Spec.Adjacency
import Verif.Spec.Degeneration
import Verif.Spec.Manifold
import Verif.Spec.Intersections
import Verif.Spec.Negative
import Verif.Model.Whole
/-
Specification side of C79 and C80: the defects of a mesh.
-/
namespace Inspector.Spec

/-- two distinct vertices are colocated -/
def HasColocatedVertices {P : Type} (lib : Library P) (points : List P) : Prop :=
  ∃ i j : Index, i < j ∧ j < points.length ∧ Colocated (lib.search points) i j

/-- the vertices of an edge are at a distance of at most epsilon -/
def EdgeAtMostEps {P : Type} (lib : Library P) (points : List P) (e : Index × Index) : Prop :=
  ∃ p q, points[e.1]? = some p ∧ points[e.2]? = some q ∧ AtMost (lib.distance p q) lib.eps

/-- the vertices of an edge are at a distance below epsilon -/
def EdgeBelowEps {P : Type} (lib : Library P) (points : List P) (e : Index × Index) : Prop :=
  ∃ p q, points[e.1]? = some p ∧ points[e.2]? = some q ∧ Below (lib.distance p q) lib.eps

/-- The iteration orders of an execution visit each element once, and the exception thrown by several tasks is one of
theirs. -/
structure RuntimeOk (rt : Runtime) : Prop where
  choose : ∀ l, l ≠ [] → rt.choose l ∈ l
  edgeOrder : ∀ m, (rt.edgeOrder m).Perm m
  facetOrder : ∀ m, (rt.facetOrder m).Perm m

/-! ### curves -/

/-- A curve has a defect. -/
def CurveDefect {P : Type} (lib : Library P) (mesh : CurveData P) : Prop :=
  HasColocatedVertices lib mesh.points ∨
  ∃ e, e < mesh.nbEdges ∧ EdgeAtMostEps lib mesh.points (mesh.edgeVertices e)

/-- What is assumed of a curve. -/
structure CurveDataOk {P : Type} (lib : Library P) (mesh : CurveData P) : Prop where
  search : SearchOk (lib.search mesh.points) mesh.points.length
  nbEdges : mesh.nbEdges < 2 ^ 32

/-- The lists of an edged curve inspection are right. -/
structure CurveReport {P : Type} (lib : Library P) (mesh : CurveData P) (r : EdgedCurveInspectionResult) : Prop where
  colocation : AreClasses r.colocated_points_groups.issues mesh.points.length (Colocated (lib.search mesh.points))
  edges : Exactly (· < ·) (fun e => e < mesh.nbEdges ∧ EdgeAtMostEps lib mesh.points (mesh.edgeVertices e))
    r.degenerated_edges.issues

/-! ### surfaces -/

/-- two distinct polygons of a surface that intersect -/
def PolygonsIntersect {P : Type} (mesh : SurfaceData P) (p q : Index) : Prop :=
  p < mesh.nbPolygons ∧ q < mesh.nbPolygons ∧ p ≠ q ∧
    mesh.polygonsIntersect (mesh.polygonVertices p) (mesh.polygonVertices q) = .ok true

/-- A surface has a defect (negative areas are looked for in 2D only). -/
def SurfaceDefect {P : Type} (dimension : Nat) (lib : Library P) (mesh : SurfaceData P) : Prop :=
  (∃ x, WrongEdge mesh.toSurfaceMesh x) ∨
  HasColocatedVertices lib mesh.points ∨
  (∃ e, e < mesh.nbEdges ∧ EdgeBelowEps lib mesh.points (mesh.edgeVertices e)) ∨
  (∃ p, p < mesh.nbPolygons ∧ AtMost (mesh.minimumHeight p) lib.eps) ∨
  (∃ e, NonManifoldEdge mesh.toSurfaceMesh e) ∨
  (∃ v, BrokenFan (mesh.topo lib) v) ∨
  (∃ p q, PolygonsIntersect mesh p q) ∨
  (dimension = 2 ∧ ∃ p, p < mesh.nbPolygons ∧ mesh.polygonAreaSign p = .negative)

/-- What is assumed of the traversal of the AABB tree of a surface: it meets the pairs of `candidates` in any order,
until asked to stop; these are pairs of polygons, among which all those that intersect (in one order at least, the
intersection being symmetric). -/
structure TreeOk {P : Type} (mesh : SurfaceData P) (candidates : List ElementPair) : Prop where
  traversal : IsTraversal mesh.traverse candidates
  polygons : ∀ x ∈ candidates, x.1 < mesh.nbPolygons ∧ x.2 < mesh.nbPolygons
  complete : ∀ p q, PolygonsIntersect mesh p q →
    ∃ x ∈ candidates, (x = (p, q) ∨ x = (q, p)) ∧ PolygonsIntersect mesh x.1 x.2
  length : candidates.length < 2 ^ 32

/-- The test of two distinct polygons raises. -/
def PolygonTestRaises {P : Type} (mesh : SurfaceData P) (x : ElementPair) (f : Failure) : Prop :=
  x.1 ≠ x.2 ∧ mesh.polygonsIntersect (mesh.polygonVertices x.1) (mesh.polygonVertices x.2) = .error f

/-- What is assumed of a surface, beside the test of two polygons: sizes fit in their counters (no edge is used 256
times or more), polygon vertices exist, the walk around a vertex raises OpenGeode exceptions only. -/
structure SurfaceDataKnown {P : Type} (lib : Library P) (mesh : SurfaceData P) (candidates : List ElementPair) :
    Prop where
  search : SearchOk (lib.search mesh.points) mesh.points.length
  tree : TreeOk mesh candidates
  vertices : ∀ p k, p < mesh.nbPolygons → k < mesh.nbPolygonVertices p → mesh.polygonVertex (p, k) < mesh.points.length
  walks : ∀ v, v < mesh.points.length → ∀ f, mesh.polygonsAroundVertex v = .error f → f = .openGeodeException
  nbEdges : mesh.nbEdges < 2 ^ 32
  nbPolygons : mesh.nbPolygons < 2 ^ 32
  nbPolygonEdges : totalPolygonEdges mesh.toSurfaceMesh < 2 ^ 32
  uses : ∀ e, (usesOfEdge mesh.toSurfaceMesh e).length < 256

/-- What is assumed of a surface. -/
structure SurfaceDataOk {P : Type} (lib : Library P) (mesh : SurfaceData P) (candidates : List ElementPair) : Prop
    extends SurfaceDataKnown lib mesh candidates where
  /-- the test of two polygons raises nothing (see C111) -/
  answers : ∀ x ∈ candidates, ∀ f, ¬ PolygonTestRaises mesh x f

/-- The lists of a surface inspection are right. -/
structure SurfaceReport {P : Type} (dimension : Nat) (lib : Library P) (mesh : SurfaceData P)
    (r : SurfaceInspectionResult) : Prop where
  adjacency : Exactly LexLt (WrongEdge mesh.toSurfaceMesh) r.polygon_edges_with_wrong_adjacency.issues
  colocation : AreClasses r.colocated_points_groups.issues mesh.points.length (Colocated (lib.search mesh.points))
  edges : Exactly (· < ·) (fun e => e < mesh.nbEdges ∧ EdgeBelowEps lib mesh.points (mesh.edgeVertices e))
    r.degenerated_edges.issues
  polygons : Exactly (· < ·) (fun p => p < mesh.nbPolygons ∧ AtMost (mesh.minimumHeight p) lib.eps)
    r.degenerated_polygons.issues
  manifoldEdges : Exactly (· ≠ ·) (NonManifoldEdge mesh.toSurfaceMesh) r.non_manifold_edges.issues
  manifoldVertices : Exactly (· < ·) (BrokenFan (mesh.topo lib)) r.non_manifold_vertices.issues
  intersecting : ∀ x ∈ r.intersecting_elements.issues, PolygonsIntersect mesh x.1 x.2
  allIntersecting : ∀ p q, PolygonsIntersect mesh p q →
    (p, q) ∈ r.intersecting_elements.issues ∨ (q, p) ∈ r.intersecting_elements.issues
  negative : Exactly (· < ·) (fun p => dimension = 2 ∧ p < mesh.nbPolygons ∧ mesh.polygonAreaSign p = .negative)
    r.negative_polygons.issues

/-! ### solids -/

/-- A solid has a defect. -/
def SolidDefect {P : Type} (lib : Library P) (mesh : SolidData P) : Prop :=
  (∃ x, WrongFacet lib.isOpposite mesh.toSolidMesh x) ∨
  HasColocatedVertices lib mesh.points ∨
  (∃ e, e < mesh.nbEdges ∧ EdgeBelowEps lib mesh.points (mesh.edgeVertices e)) ∨
  (∃ p, p < mesh.nbPolyhedra ∧ AtMost (mesh.minimumHeight p) lib.eps) ∨
  (∃ v, BrokenSolidFan (mesh.topo lib) v) ∨
  (∃ p e, FirstUse (mesh.topo lib) p e ∧ BadTurn (mesh.topo lib) p e) ∨
  (∃ f, 2 < (usesOfFacet lib.cycle mesh.toSolidMesh f).length) ∨
  (∃ p, NegativePolyhedron mesh.signed p)

/-- What is assumed of a solid: sizes, polyhedron vertices exist, the walk around a vertex raises nothing, the walk
around an edge raises OpenGeode exceptions only and does not repeat a polyhedron. -/
structure SolidDataOk {P : Type} (lib : Library P) (mesh : SolidData P) : Prop where
  search : SearchOk (lib.search mesh.points) mesh.points.length
  vertices : ∀ p k, p < mesh.nbPolyhedra → k < mesh.nbPolyhedronVertices p →
    mesh.polyhedronVertex (p, k) < mesh.points.length
  walks : ∀ v, v < mesh.points.length → ∃ fan, mesh.polyhedraAroundVertex v = .ok fan
  turns : ∀ p e f, p < mesh.nbPolyhedra → e ∈ mesh.polyhedronEdgesVertices p →
    mesh.polyhedraAroundEdge e p = .error f → f = .openGeodeException
  turnsOnce : ∀ p e fan, p < mesh.nbPolyhedra → e ∈ mesh.polyhedronEdgesVertices p →
    mesh.polyhedraAroundEdge e p = .ok fan → fan.Nodup
  nbEdges : mesh.nbEdges < 2 ^ 32
  nbPolyhedra : mesh.nbPolyhedra < 2 ^ 32
  nbPolyhedronEdges : ((List.range mesh.nbPolyhedra).map fun p => (mesh.polyhedronEdgesVertices p).length).sum < 2 ^ 32
  nbFacets : totalPolyhedronFacets mesh.toSolidMesh < 2 ^ 32

/-- What is assumed of a solid, beside the walk around a vertex, which may raise: what `SolidDataOk` asks otherwise. -/
structure SolidDataKnown {P : Type} (lib : Library P) (mesh : SolidData P) : Prop where
  search : SearchOk (lib.search mesh.points) mesh.points.length
  vertices : ∀ p k, p < mesh.nbPolyhedra → k < mesh.nbPolyhedronVertices p →
    mesh.polyhedronVertex (p, k) < mesh.points.length
  turns : ∀ p e f, p < mesh.nbPolyhedra → e ∈ mesh.polyhedronEdgesVertices p →
    mesh.polyhedraAroundEdge e p = .error f → f = .openGeodeException
  turnsOnce : ∀ p e fan, p < mesh.nbPolyhedra → e ∈ mesh.polyhedronEdgesVertices p →
    mesh.polyhedraAroundEdge e p = .ok fan → fan.Nodup
  nbEdges : mesh.nbEdges < 2 ^ 32
  nbPolyhedra : mesh.nbPolyhedra < 2 ^ 32
  nbPolyhedronEdges : ((List.range mesh.nbPolyhedra).map fun p => (mesh.polyhedronEdgesVertices p).length).sum < 2 ^ 32
  nbFacets : totalPolyhedronFacets mesh.toSolidMesh < 2 ^ 32

/-- The lists of a solid inspection are right. -/
structure SolidReport {P : Type} (lib : Library P) (mesh : SolidData P) (r : SolidInspectionResult) : Prop where
  adjacency : Exactly LexLt (WrongFacet lib.isOpposite mesh.toSolidMesh) r.polyhedron_facets_with_wrong_adjacency.issues
  colocation : AreClasses r.colocated_points_groups.issues mesh.points.length (Colocated (lib.search mesh.points))
  edges : Exactly (· < ·) (fun e => e < mesh.nbEdges ∧ EdgeBelowEps lib mesh.points (mesh.edgeVertices e))
    r.degenerated_edges.issues
  polyhedra : Exactly (· < ·) (fun p => p < mesh.nbPolyhedra ∧ AtMost (mesh.minimumHeight p) lib.eps)
    r.degenerated_polyhedra.issues
  manifoldVertices : Exactly (· < ·) (BrokenSolidFan (mesh.topo lib)) r.non_manifold_vertices.issues
  manifoldEdges : Exactly (fun a b => ¬ SameEdge a b)
    (fun e => ∃ p, FirstUse (mesh.topo lib) p e ∧ BadTurn (mesh.topo lib) p e) r.non_manifold_edges.issues
  manifoldFacets : Exactly (· ≠ ·) (fun f => 2 < (usesOfFacet lib.cycle mesh.toSolidMesh f).length)
    r.non_manifold_facets.issues
  negative : Exactly (· < ·) (NegativePolyhedron mesh.signed) r.negative_polyhedra.issues

end Inspector.Spec
