import Verif.Model.Colocation
import Verif.Model.Manifold
import Verif.Model.Intersections
import Verif.Model.Negative
import Verif.Model.Inspectors
import Verif.Model.Validity
/-
Whole inspections of meshes: the inspectors run the criteria of the other files on the same mesh, and the functions
`is_*_valid` run the inspectors (src/geode/inspector/inspection/*_inspector.cpp,
src/geode/inspector/validity/*_validity.cpp).
-/
namespace Inspector

/-- What the inspector uses of OpenGeode (external), apart from the meshes: the colocation search at
`GLOBAL_EPSILON`, texts of points, distance, `GLOBAL_EPSILON`, comparison and normal form of facets. -/
structure Library (P : Type) where
  search : List P → ColocatedInfo P
  pointString : P → String
  distance : P → P → Dbl
  eps : Dbl
  isOpposite : List Index → List Index → Bool
  cycle : List Index → List Index

/-- What differs from an execution to another: the schedule of the tasks, the exception chosen when several are
thrown, the iteration orders of the hash maps. -/
structure Runtime where
  schedule : List Nat
  choose : List Failure → Failure
  edgeOrder : HMap (Index × Index) (UInt8 × Bool) → HMap (Index × Index) (UInt8 × Bool)
  facetOrder : HMap (List Index) UInt32 → HMap (List Index) UInt32

/-- Text of the point of a vertex. -/
def Library.pointText {P : Type} (lib : Library P) (points : List P) (v : Index) : String :=
  (points[v]?).elim "" lib.pointString

/-- Distance between two vertices (`point_point_distance` of their points, criterion/internal/degeneration_impl.cpp:100-109);
vertices of edges always exist. -/
def Library.vertexDistance {P : Type} (lib : Library P) (points : List P) (v w : Index) : Dbl :=
  match points[v]?, points[w]? with
  | some p, some q => lib.distance p q
  | _, _ => .nan

/-- `colocated_points_groups` of the classes `PointSetColocation`, `EdgedCurveColocation`, `SurfaceMeshColocation` and
`SolidMeshColocation`, criterion/colocation/pointset_colocation.cpp:62-67,
criterion/colocation/edgedcurve_colocation.cpp:62-67, criterion/colocation/surface_colocation.cpp:62-67 and
criterion/colocation/solid_colocation.cpp:62-67: forwarded to the shared
implementation. -/
def meshColocatedPointsGroups {P : Type} (lib : Library P) (points : List P) : Except Failure (Issues (List Index)) :=
  match colocatedPointsGroups lib.search lib.pointString ⟨points⟩ with
  | some issues => .ok issues
  | none => .error .undefinedBehaviour

/-! ### point sets and curves -/

/-- `PointSetInspector::inspect_point_set`, pointset_inspector.cpp:53-60. -/
def inspectPointSetMesh {P : Type} (lib : Library P) (points : List P) : Except Failure PointSetInspectionResult :=
  match meshColocatedPointsGroups lib points with
  | .error f => .error f
  | .ok groups =>
    let result : PointSetInspectionResult := {}
    .ok { result with colocated_points_groups := groups }

/-- `is_pointset_valid`, validity/pointset_validity.cpp:34-45. -/
def isPointSetMeshValid {P : Type} (lib : Library P) (points : List P) : Except Failure ObjectValidity :=
  match inspectPointSetMesh lib points with
  | .error f => .error f
  | .ok inspection_result => .ok (isPointsetValid inspection_result)

/-- An `EdgedCurve` (external). -/
structure CurveData (P : Type) where
  points : List P
  nbEdges : Nat
  edgeVertices : Index → Index × Index
  isEdgeDegenerated : Index → Bool
  /-- text of the barycenter of an edge -/
  edgeText : Index → String

/-- The curve as read by the degeneration criterion: `edge_length` is the distance between the two vertices. -/
def CurveData.measures {P : Type} (lib : Library P) (mesh : CurveData P) : CurveMeasures where
  nbEdges := mesh.nbEdges
  edgeLength e := lib.vertexDistance mesh.points (mesh.edgeVertices e).1 (mesh.edgeVertices e).2
  isEdgeDegenerated := mesh.isEdgeDegenerated
  edgeText := mesh.edgeText

/-- `EdgedCurveInspector::inspect_edged_curve` on a curve, edgedcurve_inspector.cpp:50-73. -/
def inspectCurveMesh {P : Type} (lib : Library P) (rt : Runtime) (mesh : CurveData P) :
    Except Failure EdgedCurveInspectionResult :=
  inspectEdgedCurve rt.choose rt.schedule
    { colocated_points_groups := meshColocatedPointsGroups lib mesh.points
      degenerated_edges := .ok (curveDegeneratedEdges lib.eps (mesh.measures lib)) }

/-- `is_edged_curve_valid`, validity/edgedcurve_validity.cpp:34-51. -/
def isCurveMeshValid {P : Type} (lib : Library P) (rt : Runtime) (mesh : CurveData P) :
    Except Failure ObjectValidity :=
  match inspectCurveMesh lib rt mesh with
  | .error f => .error f
  | .ok inspection_result => .ok (isEdgedCurveValid inspection_result)

/-! ### surfaces -/

/-- A `SurfaceMesh` (external) with its AABB tree: all that the inspector reads of it. -/
structure SurfaceData (P : Type) extends SurfaceMesh where
  label : String
  points : List P
  polygonsAroundVertex : Index → Except Failure (List PolygonEdge)
  nbEdges : Nat
  edgeVertices : Index → Index × Index
  minimumHeight : Index → Dbl
  isPolygonDegenerated : Index → Bool
  polygonAreaSign : Index → Sign
  polygonsIntersect : List Index → List Index → Except Failure Bool
  traverse : Traversal

/-- The surface as read by the vertex manifold criterion. -/
def SurfaceData.topo {P : Type} (lib : Library P) (mesh : SurfaceData P) : SurfaceTopo where
  toSurfaceMesh := mesh.toSurfaceMesh
  nbVertices := mesh.points.length
  polygonsAroundVertex := mesh.polygonsAroundVertex
  pointText := lib.pointText mesh.points

/-- The surface as read by the degeneration criterion. -/
def SurfaceData.measures {P : Type} (lib : Library P) (mesh : SurfaceData P) : ElementMeasures where
  nbEdges := mesh.nbEdges
  edgeVertices := mesh.edgeVertices
  distance := lib.vertexDistance mesh.points
  nbElements := mesh.nbPolygons
  minimumHeight := mesh.minimumHeight
  isElementDegenerated := mesh.isPolygonDegenerated
  pointText := lib.pointText mesh.points

/-- `polygon_vertices` (external). -/
def SurfaceData.polygonVertices {P : Type} (mesh : SurfaceData P) (p : Index) : List Index :=
  (List.range (mesh.nbPolygonVertices p)).map fun v => mesh.polygonVertex (p, v)

/-- The surface as read by the intersection criterion. -/
def SurfaceData.intersections {P : Type} (mesh : SurfaceData P) : IntersectionSurface where
  polygonVertices := mesh.polygonVertices
  polygonsIntersect := mesh.polygonsIntersect

/-- The surface as read by the negative elements criterion. -/
def SurfaceData.signed {P : Type} (mesh : SurfaceData P) : SignedSurface where
  nbPolygons := mesh.nbPolygons
  polygonAreaSign := mesh.polygonAreaSign

/-- `SurfaceMeshInspector< dimension >::inspect_surface` on a surface, surface_inspector.cpp:58-108. -/
def inspectSurfaceMesh {P : Type} (dimension : Nat) (lib : Library P) (rt : Runtime) (mesh : SurfaceData P) :
    Except Failure SurfaceInspectionResult :=
  inspectSurface rt.choose rt.schedule
    { polygon_edges_with_wrong_adjacency := .ok (polygonEdgesWithWrongAdjacency mesh.label mesh.toSurfaceMesh)
      colocated_points_groups := meshColocatedPointsGroups lib mesh.points
      degenerated_edges := .ok (degeneratedEdges lib.eps (mesh.measures lib))
      degenerated_polygons := .ok (degeneratedPolygons lib.eps (mesh.measures lib))
      non_manifold_edges := .ok (surfaceNonManifoldEdges rt.edgeOrder mesh.toSurfaceMesh)
      non_manifold_vertices := surfaceNonManifoldVertices (mesh.topo lib)
      intersecting_elements := surfaceIntersectingElements mesh.traverse mesh.intersections
      negative_polygons := .ok (negativePolygons dimension mesh.signed) }

/-- `is_surface_valid`, validity/surface_validity.cpp:34-81. -/
def isSurfaceMeshValid {P : Type} (dimension : Nat) (lib : Library P) (rt : Runtime) (mesh : SurfaceData P) :
    Except Failure ObjectValidity :=
  match inspectSurfaceMesh dimension lib rt mesh with
  | .error f => .error f
  | .ok inspection_result => .ok (isSurfaceValid inspection_result)

/-! ### solids -/

/-- A `SolidMesh` (external): all that the inspector reads of it. -/
structure SolidData (P : Type) extends SolidMesh where
  label : String
  points : List P
  nbPolyhedronVertices : Index → Nat
  polyhedronVertex : Nat × Nat → Index
  polyhedraAroundVertex : Index → Except Failure (List (Nat × Nat))
  polyhedronEdgesVertices : Index → List (Index × Index)
  polyhedraAroundEdge : Index × Index → Index → Except Failure (List Index)
  nbEdges : Nat
  edgeVertices : Index → Index × Index
  minimumHeight : Index → Dbl
  isPolyhedronDegenerated : Index → Bool
  tetrahedronVolumeSign : Index → Index → Index → Index → Sign
  polyhedronVolume : Index → Dbl

/-- The solid as read by the manifold criteria. -/
def SolidData.topo {P : Type} (lib : Library P) (mesh : SolidData P) : SolidTopo where
  toSolidMesh := mesh.toSolidMesh
  nbVertices := mesh.points.length
  nbPolyhedronVertices := mesh.nbPolyhedronVertices
  polyhedronVertex := mesh.polyhedronVertex
  polyhedraAroundVertex := mesh.polyhedraAroundVertex
  polyhedronEdgesVertices := mesh.polyhedronEdgesVertices
  polyhedraAroundEdge := mesh.polyhedraAroundEdge
  pointText := lib.pointText mesh.points

/-- The solid as read by the degeneration criterion. -/
def SolidData.measures {P : Type} (lib : Library P) (mesh : SolidData P) : ElementMeasures where
  nbEdges := mesh.nbEdges
  edgeVertices := mesh.edgeVertices
  distance := lib.vertexDistance mesh.points
  nbElements := mesh.nbPolyhedra
  minimumHeight := mesh.minimumHeight
  isElementDegenerated := mesh.isPolyhedronDegenerated
  pointText := lib.pointText mesh.points

/-- The solid as read by the negative elements criterion. -/
def SolidData.signed {P : Type} (mesh : SolidData P) : SignedSolid where
  nbPolyhedra := mesh.nbPolyhedra
  nbPolyhedronVertices := mesh.nbPolyhedronVertices
  polyhedronVertex := mesh.polyhedronVertex
  tetrahedronVolumeSign := mesh.tetrahedronVolumeSign
  polyhedronVolume := mesh.polyhedronVolume

/-- `SolidMeshInspector::inspect_solid` on a solid, solid_inspector.cpp:58-107. -/
def inspectSolidMesh {P : Type} (lib : Library P) (rt : Runtime) (mesh : SolidData P) :
    Except Failure SolidInspectionResult :=
  inspectSolid rt.choose rt.schedule
    { polyhedron_facets_with_wrong_adjacency :=
        .ok (polyhedronFacetsWithWrongAdjacency lib.isOpposite mesh.label mesh.toSolidMesh)
      colocated_points_groups := meshColocatedPointsGroups lib mesh.points
      degenerated_edges := .ok (degeneratedEdges lib.eps (mesh.measures lib))
      degenerated_polyhedra := .ok (degeneratedPolyhedra lib.eps (mesh.measures lib))
      non_manifold_vertices := solidNonManifoldVertices (mesh.topo lib)
      non_manifold_edges := solidNonManifoldEdges (mesh.topo lib)
      non_manifold_facets := .ok (solidNonManifoldFacets rt.facetOrder lib.cycle mesh.toSolidMesh)
      negative_polyhedra := .ok (negativePolyhedra mesh.signed) }

/-- `is_solid_valid`, validity/solid_validity.cpp:34-81. -/
def isSolidMeshValid {P : Type} (lib : Library P) (rt : Runtime) (mesh : SolidData P) :
    Except Failure ObjectValidity :=
  match inspectSolidMesh lib rt mesh with
  | .error f => .error f
  | .ok inspection_result => .ok (isSolidValid inspection_result)

end Inspector
