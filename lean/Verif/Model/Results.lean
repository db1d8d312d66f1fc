import Verif.Model.Information
/-
Model of every `*InspectionResult` structure with its `nb_issues()` and `string()` functions.
Field names are those of the C++ structures.  `.hpp` citations are relative to
`include/geode/inspector/inspection/`, `.cpp` citations to `src/geode/inspector/inspection/`.
Simplification: the text of a map uses the insertion order as hash table iteration order.
-/
namespace Inspector

/-- `geode::ComponentType` (external): the kinds of component the inspector looks at, `other`
stands for any other (model boundary, collection, ...). -/
inductive ComponentType where
  | corner | line | surface | block | other
  deriving DecidableEq, Repr

/-- `geode::ComponentID` (external): type and uuid. -/
structure ComponentID where
  type : ComponentType
  id : Uuid
  deriving DecidableEq, Repr

/-- `geode::ComponentMeshVertex` (external): a vertex of the mesh of a component. -/
structure ComponentMeshVertex where
  component_id : ComponentID
  vertex : Index
  deriving DecidableEq, Repr

/-- `geode::ComponentMeshElement` (external): an element of the mesh of a component. -/
structure ComponentMeshElement where
  component_id : ComponentID
  element_id : Index
  deriving DecidableEq, Repr

/-- `PointSetInspectionResult`, pointset_inspector.hpp:32-43. -/
structure PointSetInspectionResult where
  colocated_points_groups : Issues (List Index) := Issues.new "Colocation of vertices not tested"
  deriving DecidableEq, Repr

/-- `PointSetInspectionResult::nb_issues`, pointset_inspector.cpp:30-33 (`index_t` additions wrap). -/
def PointSetInspectionResult.nbIssues (r : PointSetInspectionResult) : UInt32 :=
  r.colocated_points_groups.nbIssues

/-- `PointSetInspectionResult::string`, pointset_inspector.cpp:35-38. -/
def PointSetInspectionResult.string (r : PointSetInspectionResult) : String :=
  r.colocated_points_groups.string

/-- `EdgedCurveInspectionResult`, edgedcurve_inspector.hpp:33-47. -/
structure EdgedCurveInspectionResult where
  colocated_points_groups : Issues (List Index) := Issues.new "Colocation of vertices not tested"
  degenerated_edges : Issues Index := Issues.new "Degeneration of edges not tested"
  deriving DecidableEq, Repr

/-- `EdgedCurveInspectionResult::nb_issues`, edgedcurve_inspector.cpp:32-36 (`index_t` additions wrap). -/
def EdgedCurveInspectionResult.nbIssues (r : EdgedCurveInspectionResult) : UInt32 :=
  r.colocated_points_groups.nbIssues
    + r.degenerated_edges.nbIssues

/-- `EdgedCurveInspectionResult::string`, edgedcurve_inspector.cpp:38-42. -/
def EdgedCurveInspectionResult.string (r : EdgedCurveInspectionResult) : String :=
  r.colocated_points_groups.string
    ++ r.degenerated_edges.string

/-- `SurfaceInspectionResult`, surface_inspector.hpp:38-70. -/
structure SurfaceInspectionResult where
  polygon_edges_with_wrong_adjacency : Issues (Index × Index) := Issues.new "Adjacencies between polygon edges not tested"
  colocated_points_groups : Issues (List Index) := Issues.new "Colocation of vertices not tested"
  degenerated_edges : Issues Index := Issues.new "Degeneration of edges not tested"
  degenerated_polygons : Issues Index := Issues.new "Degeneration of polygons not tested"
  non_manifold_edges : Issues (Index × Index) := Issues.new "Manifold of edges not tested"
  non_manifold_vertices : Issues Index := Issues.new "Manifold of vertices not tested"
  intersecting_elements : Issues (Index × Index) := Issues.new "Intersection between mesh elements not tested"
  negative_polygons : Issues Index := Issues.new "Negative polygons not tested"
  deriving DecidableEq, Repr

/-- `SurfaceInspectionResult::nb_issues`, surface_inspector.cpp:32-42 (`index_t` additions wrap). -/
def SurfaceInspectionResult.nbIssues (r : SurfaceInspectionResult) : UInt32 :=
  r.polygon_edges_with_wrong_adjacency.nbIssues
    + r.colocated_points_groups.nbIssues
    + r.degenerated_edges.nbIssues
    + r.degenerated_polygons.nbIssues
    + r.non_manifold_edges.nbIssues
    + r.non_manifold_vertices.nbIssues
    + r.intersecting_elements.nbIssues
    + r.negative_polygons.nbIssues

/-- `SurfaceInspectionResult::string`, surface_inspector.cpp:44-51. -/
def SurfaceInspectionResult.string (r : SurfaceInspectionResult) : String :=
  r.polygon_edges_with_wrong_adjacency.string
    ++ r.colocated_points_groups.string
    ++ r.degenerated_edges.string
    ++ r.degenerated_polygons.string
    ++ r.non_manifold_edges.string
    ++ r.non_manifold_vertices.string
    ++ r.intersecting_elements.string
    ++ r.negative_polygons.string

/-- `SolidInspectionResult`, solid_inspector.hpp:38-71. -/
structure SolidInspectionResult where
  polyhedron_facets_with_wrong_adjacency : Issues (Index × Index) := Issues.new "Adjacencies of facets not tested"
  colocated_points_groups : Issues (List Index) := Issues.new "Colocation of vertices not tested"
  degenerated_edges : Issues Index := Issues.new "Degeneration of edges not tested"
  degenerated_polyhedra : Issues Index := Issues.new "Degeneration of polyhedra not tested"
  non_manifold_vertices : Issues Index := Issues.new "Manifold of vertices not tested"
  non_manifold_edges : Issues (Index × Index) := Issues.new "Manifold of edges not tested"
  non_manifold_facets : Issues (List Index) := Issues.new "Manifold of facets not tested"
  negative_polyhedra : Issues Index := Issues.new "Negative polyhedra not tested"
  deriving DecidableEq, Repr

/-- `SolidInspectionResult::nb_issues`, solid_inspector.cpp:32-42 (`index_t` additions wrap). -/
def SolidInspectionResult.nbIssues (r : SolidInspectionResult) : UInt32 :=
  r.polyhedron_facets_with_wrong_adjacency.nbIssues
    + r.colocated_points_groups.nbIssues
    + r.degenerated_edges.nbIssues
    + r.degenerated_polyhedra.nbIssues
    + r.non_manifold_vertices.nbIssues
    + r.non_manifold_edges.nbIssues
    + r.non_manifold_facets.nbIssues
    + r.negative_polyhedra.nbIssues

/-- `SolidInspectionResult::string`, solid_inspector.cpp:44-51. -/
def SolidInspectionResult.string (r : SolidInspectionResult) : String :=
  r.polyhedron_facets_with_wrong_adjacency.string
    ++ r.colocated_points_groups.string
    ++ r.degenerated_edges.string
    ++ r.degenerated_polyhedra.string
    ++ r.non_manifold_vertices.string
    ++ r.non_manifold_edges.string
    ++ r.non_manifold_facets.string
    ++ r.negative_polyhedra.string

/-- `UniqueVerticesInspectionResult`, criterion/colocation/unique_vertices_colocation.hpp:39-52. -/
structure UniqueVerticesInspectionResult where
  colocated_unique_vertices_groups : Issues (List Index) := Issues.new "colocated unique vertices"
  unique_vertices_linked_to_different_points : Issues Index := Issues.new "unique vertex refering multiple positions"
  deriving DecidableEq, Repr

/-- `UniqueVerticesInspectionResult::nb_issues`, criterion/colocation/unique_vertices_colocation.cpp:175-179 (`index_t` additions wrap). -/
def UniqueVerticesInspectionResult.nbIssues (r : UniqueVerticesInspectionResult) : UInt32 :=
  r.colocated_unique_vertices_groups.nbIssues
    + r.unique_vertices_linked_to_different_points.nbIssues

/-- `UniqueVerticesInspectionResult::string`, criterion/colocation/unique_vertices_colocation.cpp:181-185. -/
def UniqueVerticesInspectionResult.string (r : UniqueVerticesInspectionResult) : String :=
  r.colocated_unique_vertices_groups.string
    ++ r.unique_vertices_linked_to_different_points.string

/-- `MeshesColocationInspectionResult`, criterion/colocation/component_meshes_colocation.hpp:41-52. -/
structure MeshesColocationInspectionResult where
  colocated_points_groups : IssuesMap (List Index) := IssuesMap.new "colocated points"
  deriving DecidableEq, Repr

/-- `MeshesColocationInspectionResult::nb_issues`, criterion/colocation/component_meshes_colocation.cpp:235-238 (`index_t` additions wrap). -/
def MeshesColocationInspectionResult.nbIssues (r : MeshesColocationInspectionResult) : UInt32 :=
  r.colocated_points_groups.nbIssues

/-- `MeshesColocationInspectionResult::string`, criterion/colocation/component_meshes_colocation.cpp:240-247. -/
def MeshesColocationInspectionResult.string (r : MeshesColocationInspectionResult) : String :=
  let message := ""
  let message := if r.colocated_points_groups.nbIssues != 0 then message ++ r.colocated_points_groups.string else message
  if message.isEmpty then "no issues of colocation in meshes \n" else message

/-- `SectionMeshesAdjacencyInspectionResult`, criterion/adjacency/section_meshes_adjacency.hpp:43-56. -/
structure SectionMeshesAdjacencyInspectionResult where
  surfaces_edges_with_wrong_adjacencies : IssuesMap (Index × Index) := IssuesMap.new "polygon edges adjacencies"
  deriving DecidableEq, Repr

/-- `SectionMeshesAdjacencyInspectionResult::nb_issues`, criterion/adjacency/section_meshes_adjacency.cpp:45-48 (`index_t` additions wrap). -/
def SectionMeshesAdjacencyInspectionResult.nbIssues (r : SectionMeshesAdjacencyInspectionResult) : UInt32 :=
  r.surfaces_edges_with_wrong_adjacencies.nbIssues

/-- `SectionMeshesAdjacencyInspectionResult::string`, criterion/adjacency/section_meshes_adjacency.cpp:50-57. -/
def SectionMeshesAdjacencyInspectionResult.string (r : SectionMeshesAdjacencyInspectionResult) : String :=
  let message := ""
  let message := if r.surfaces_edges_with_wrong_adjacencies.nbIssues != 0 then message ++ r.surfaces_edges_with_wrong_adjacencies.string else message
  if message.isEmpty then "no adjacency issues in model meshes \n" else message

/-- `BRepMeshesAdjacencyInspectionResult`, criterion/adjacency/brep_meshes_adjacency.hpp:44-61. -/
structure BRepMeshesAdjacencyInspectionResult where
  surfaces_edges_with_wrong_adjacencies : IssuesMap (Index × Index) := IssuesMap.new "polygon edges adjacencies"
  blocks_facets_with_wrong_adjacencies : IssuesMap (Index × Index) := IssuesMap.new "polyhedron facets adjacencies"
  deriving DecidableEq, Repr

/-- `BRepMeshesAdjacencyInspectionResult::nb_issues`, criterion/adjacency/brep_meshes_adjacency.cpp:43-47 (`index_t` additions wrap). -/
def BRepMeshesAdjacencyInspectionResult.nbIssues (r : BRepMeshesAdjacencyInspectionResult) : UInt32 :=
  r.surfaces_edges_with_wrong_adjacencies.nbIssues
    + r.blocks_facets_with_wrong_adjacencies.nbIssues

/-- `BRepMeshesAdjacencyInspectionResult::string`, criterion/adjacency/brep_meshes_adjacency.cpp:49-67. -/
def BRepMeshesAdjacencyInspectionResult.string (r : BRepMeshesAdjacencyInspectionResult) : String :=
  let message := ""
  let message := if r.surfaces_edges_with_wrong_adjacencies.nbIssues != 0 then message ++ r.surfaces_edges_with_wrong_adjacencies.string else message
  let message := if r.blocks_facets_with_wrong_adjacencies.nbIssues != 0 then message ++ r.blocks_facets_with_wrong_adjacencies.string else message
  if message.isEmpty then "no adjacency issues in model meshes \n" else message

/-- `SectionMeshesDegenerationInspectionResult`, criterion/degeneration/section_meshes_degeneration.hpp:41-54. -/
structure SectionMeshesDegenerationInspectionResult where
  degenerated_edges : IssuesMap Index := IssuesMap.new "degenerated edges"
  degenerated_polygons : IssuesMap Index := IssuesMap.new "degenerated polygons"
  deriving DecidableEq, Repr

/-- `SectionMeshesDegenerationInspectionResult::nb_issues`, criterion/degeneration/section_meshes_degeneration.cpp:35-38 (`index_t` additions wrap). -/
def SectionMeshesDegenerationInspectionResult.nbIssues (r : SectionMeshesDegenerationInspectionResult) : UInt32 :=
  r.degenerated_edges.nbIssues
    + r.degenerated_polygons.nbIssues

/-- `SectionMeshesDegenerationInspectionResult::string`, criterion/degeneration/section_meshes_degeneration.cpp:40-56. -/
def SectionMeshesDegenerationInspectionResult.string (r : SectionMeshesDegenerationInspectionResult) : String :=
  let message := ""
  let message := if r.degenerated_edges.nbIssues != 0 then message ++ r.degenerated_edges.string else message
  let message := if r.degenerated_polygons.nbIssues != 0 then message ++ r.degenerated_polygons.string else message
  if message.isEmpty then "no degeneration issues in model meshes \n" else message

/-- `BRepMeshesDegenerationInspectionResult`, criterion/degeneration/brep_meshes_degeneration.hpp:41-57. -/
structure BRepMeshesDegenerationInspectionResult where
  degenerated_edges : IssuesMap Index := IssuesMap.new "degenerated edges"
  degenerated_polygons : IssuesMap Index := IssuesMap.new "degenerated polygons"
  degenerated_polyhedra : IssuesMap Index := IssuesMap.new "degenerated polyhedra"
  deriving DecidableEq, Repr

/-- `BRepMeshesDegenerationInspectionResult::nb_issues`, criterion/degeneration/brep_meshes_degeneration.cpp:39-43 (`index_t` additions wrap). -/
def BRepMeshesDegenerationInspectionResult.nbIssues (r : BRepMeshesDegenerationInspectionResult) : UInt32 :=
  r.degenerated_edges.nbIssues
    + r.degenerated_polygons.nbIssues
    + r.degenerated_polyhedra.nbIssues

/-- `BRepMeshesDegenerationInspectionResult::string`, criterion/degeneration/brep_meshes_degeneration.cpp:45-65. -/
def BRepMeshesDegenerationInspectionResult.string (r : BRepMeshesDegenerationInspectionResult) : String :=
  let message := ""
  let message := if r.degenerated_edges.nbIssues != 0 then message ++ r.degenerated_edges.string else message
  let message := if r.degenerated_polygons.nbIssues != 0 then message ++ r.degenerated_polygons.string else message
  let message := if r.degenerated_polyhedra.nbIssues != 0 then message ++ r.degenerated_polyhedra.string else message
  if message.isEmpty then "no degeneration issues in model meshes\n" else message

/-- `ElementsIntersectionsInspectionResult`, criterion/intersections/model_intersections.hpp:41-53. -/
structure ElementsIntersectionsInspectionResult where
  elements_intersections : Issues (ComponentMeshElement × ComponentMeshElement) := Issues.new "intersections"
  deriving DecidableEq, Repr

/-- `ElementsIntersectionsInspectionResult::nb_issues`, criterion/intersections/model_intersections.cpp:569-572 (`index_t` additions wrap). -/
def ElementsIntersectionsInspectionResult.nbIssues (r : ElementsIntersectionsInspectionResult) : UInt32 :=
  r.elements_intersections.nbIssues

/-- `ElementsIntersectionsInspectionResult::string`, criterion/intersections/model_intersections.cpp:574-577. -/
def ElementsIntersectionsInspectionResult.string (r : ElementsIntersectionsInspectionResult) : String :=
  r.elements_intersections.string

/-- `SectionMeshesManifoldInspectionResult`, criterion/manifold/section_meshes_manifold.hpp:39-52. -/
structure SectionMeshesManifoldInspectionResult where
  meshes_non_manifold_vertices : IssuesMap Index := IssuesMap.new "non manifold mesh vertices"
  meshes_non_manifold_edges : IssuesMap (Index × Index) := IssuesMap.new "non manifold mesh edges"
  deriving DecidableEq, Repr

/-- `SectionMeshesManifoldInspectionResult::nb_issues`, criterion/manifold/section_meshes_manifold.cpp:35-39 (`index_t` additions wrap). -/
def SectionMeshesManifoldInspectionResult.nbIssues (r : SectionMeshesManifoldInspectionResult) : UInt32 :=
  r.meshes_non_manifold_vertices.nbIssues
    + r.meshes_non_manifold_edges.nbIssues

/-- `SectionMeshesManifoldInspectionResult::string`, criterion/manifold/section_meshes_manifold.cpp:41-57. -/
def SectionMeshesManifoldInspectionResult.string (r : SectionMeshesManifoldInspectionResult) : String :=
  let message := ""
  let message := if r.meshes_non_manifold_vertices.nbIssues != 0 then message ++ r.meshes_non_manifold_vertices.string else message
  let message := if r.meshes_non_manifold_edges.nbIssues != 0 then message ++ r.meshes_non_manifold_edges.string else message
  if message.isEmpty then "no manifold issues in model meshes \n" else message

/-- `BRepMeshesManifoldInspectionResult`, criterion/manifold/brep_meshes_manifold.hpp:58-83. -/
structure BRepMeshesManifoldInspectionResult where
  meshes_non_manifold_vertices : IssuesMap Index := IssuesMap.new "non manifold mesh vertices"
  meshes_non_manifold_edges : IssuesMap (Index × Index) := IssuesMap.new "non manifold mesh edges"
  meshes_non_manifold_facets : IssuesMap (List Index) := IssuesMap.new "non manifold mesh facets"
  brep_non_manifold_edges : Issues ((Index × Index) × List Uuid) := Issues.new "non manifold model edges"
  brep_non_manifold_facets : Issues (List Index × List Uuid) := Issues.new "non manifold model facets"
  deriving DecidableEq, Repr

/-- `BRepMeshesManifoldInspectionResult::nb_issues`, criterion/manifold/brep_meshes_manifold.cpp:48-55 (`index_t` additions wrap). -/
def BRepMeshesManifoldInspectionResult.nbIssues (r : BRepMeshesManifoldInspectionResult) : UInt32 :=
  r.meshes_non_manifold_vertices.nbIssues
    + r.meshes_non_manifold_edges.nbIssues
    + r.meshes_non_manifold_facets.nbIssues
    + r.brep_non_manifold_edges.nbIssues
    + r.brep_non_manifold_facets.nbIssues

/-- `BRepMeshesManifoldInspectionResult::string`, criterion/manifold/brep_meshes_manifold.cpp:57-85. -/
def BRepMeshesManifoldInspectionResult.string (r : BRepMeshesManifoldInspectionResult) : String :=
  let message := ""
  let message := if r.meshes_non_manifold_vertices.nbIssues != 0 then message ++ r.meshes_non_manifold_vertices.string else message
  let message := if r.meshes_non_manifold_edges.nbIssues != 0 then message ++ r.meshes_non_manifold_edges.string else message
  let message := if r.meshes_non_manifold_facets.nbIssues != 0 then message ++ r.meshes_non_manifold_facets.string else message
  let message := if r.brep_non_manifold_edges.nbIssues != 0 then message ++ r.brep_non_manifold_edges.string else message
  let message := if r.brep_non_manifold_facets.nbIssues != 0 then message ++ r.brep_non_manifold_facets.string else message
  if message.isEmpty then "no manifold issues in model meshes \n" else message

/-- `SectionMeshesNegativeElementsInspectionResult`, criterion/negative_elements/section_meshes_negative_elements.hpp:41-51. -/
structure SectionMeshesNegativeElementsInspectionResult where
  negative_polygons : IssuesMap Index := IssuesMap.new "negative polygons"
  deriving DecidableEq, Repr

/-- `SectionMeshesNegativeElementsInspectionResult::nb_issues`, criterion/negative_elements/section_meshes_negative_elements.cpp:38-41 (`index_t` additions wrap). -/
def SectionMeshesNegativeElementsInspectionResult.nbIssues (r : SectionMeshesNegativeElementsInspectionResult) : UInt32 :=
  r.negative_polygons.nbIssues

/-- `SectionMeshesNegativeElementsInspectionResult::string`, criterion/negative_elements/section_meshes_negative_elements.cpp:43-50. -/
def SectionMeshesNegativeElementsInspectionResult.string (r : SectionMeshesNegativeElementsInspectionResult) : String :=
  let message := ""
  let message := if r.negative_polygons.nbIssues != 0 then message ++ r.negative_polygons.string else message
  if message.isEmpty then "no negative polygons in model meshes\n" else message

/-- `BRepMeshesNegativeElementsInspectionResult`, criterion/negative_elements/brep_meshes_negative_elements.hpp:41-53. -/
structure BRepMeshesNegativeElementsInspectionResult where
  negative_polyhedra : IssuesMap Index := IssuesMap.new "negative polyhedra"
  deriving DecidableEq, Repr

/-- `BRepMeshesNegativeElementsInspectionResult::nb_issues`, criterion/negative_elements/brep_meshes_negative_elements.cpp:36-39 (`index_t` additions wrap). -/
def BRepMeshesNegativeElementsInspectionResult.nbIssues (r : BRepMeshesNegativeElementsInspectionResult) : UInt32 :=
  r.negative_polyhedra.nbIssues

/-- `BRepMeshesNegativeElementsInspectionResult::string`, criterion/negative_elements/brep_meshes_negative_elements.cpp:41-48. -/
def BRepMeshesNegativeElementsInspectionResult.string (r : BRepMeshesNegativeElementsInspectionResult) : String :=
  let message := ""
  let message := if r.negative_polyhedra.nbIssues != 0 then message ++ r.negative_polyhedra.string else message
  if message.isEmpty then "no negative polyhedra in model meshes\n" else message

/-- `SectionMeshesInspectionResult`, criterion/section_meshes_inspector.hpp. -/
structure SectionMeshesInspectionResult where
  unique_vertices_colocation : UniqueVerticesInspectionResult := {}
  meshes_colocation : MeshesColocationInspectionResult := {}
  meshes_adjacencies : SectionMeshesAdjacencyInspectionResult := {}
  meshes_degenerations : SectionMeshesDegenerationInspectionResult := {}
  meshes_intersections : ElementsIntersectionsInspectionResult := {}
  meshes_non_manifolds : SectionMeshesManifoldInspectionResult := {}
  meshes_negative_elements : SectionMeshesNegativeElementsInspectionResult := {}
  deriving DecidableEq, Repr

/-- `SectionMeshesInspectionResult::nb_issues`, criterion/section_meshes_inspector.cpp:30-38 (`index_t` additions wrap). -/
def SectionMeshesInspectionResult.nbIssues (r : SectionMeshesInspectionResult) : UInt32 :=
  r.unique_vertices_colocation.nbIssues
    + r.meshes_colocation.nbIssues
    + r.meshes_adjacencies.nbIssues
    + r.meshes_degenerations.nbIssues
    + r.meshes_intersections.nbIssues
    + r.meshes_non_manifolds.nbIssues
    + r.meshes_negative_elements.nbIssues

/-- `SectionMeshesInspectionResult::string`, criterion/section_meshes_inspector.cpp:40-46. -/
def SectionMeshesInspectionResult.string (r : SectionMeshesInspectionResult) : String :=
  r.unique_vertices_colocation.string
    ++ r.meshes_colocation.string
    ++ r.meshes_adjacencies.string
    ++ r.meshes_degenerations.string
    ++ r.meshes_intersections.string
    ++ r.meshes_non_manifolds.string
    ++ r.meshes_negative_elements.string

/-- `BRepMeshesInspectionResult`, criterion/brep_meshes_inspector.hpp. -/
structure BRepMeshesInspectionResult where
  unique_vertices_colocation : UniqueVerticesInspectionResult := {}
  meshes_colocation : MeshesColocationInspectionResult := {}
  meshes_adjacencies : BRepMeshesAdjacencyInspectionResult := {}
  meshes_degenerations : BRepMeshesDegenerationInspectionResult := {}
  meshes_intersections : ElementsIntersectionsInspectionResult := {}
  meshes_non_manifolds : BRepMeshesManifoldInspectionResult := {}
  meshes_negative_elements : BRepMeshesNegativeElementsInspectionResult := {}
  deriving DecidableEq, Repr

/-- `BRepMeshesInspectionResult::nb_issues`, criterion/brep_meshes_inspector.cpp:30-38 (`index_t` additions wrap). -/
def BRepMeshesInspectionResult.nbIssues (r : BRepMeshesInspectionResult) : UInt32 :=
  r.unique_vertices_colocation.nbIssues
    + r.meshes_colocation.nbIssues
    + r.meshes_adjacencies.nbIssues
    + r.meshes_degenerations.nbIssues
    + r.meshes_intersections.nbIssues
    + r.meshes_non_manifolds.nbIssues
    + r.meshes_negative_elements.nbIssues

/-- `BRepMeshesInspectionResult::string`, criterion/brep_meshes_inspector.cpp:40-46. -/
def BRepMeshesInspectionResult.string (r : BRepMeshesInspectionResult) : String :=
  r.unique_vertices_colocation.string
    ++ r.meshes_colocation.string
    ++ r.meshes_adjacencies.string
    ++ r.meshes_degenerations.string
    ++ r.meshes_intersections.string
    ++ r.meshes_non_manifolds.string
    ++ r.meshes_negative_elements.string

/-- `SectionCornersTopologyInspectionResult`, topology/section_corners_topology.hpp:43-75. -/
structure SectionCornersTopologyInspectionResult where
  corners_not_meshed : Issues Uuid := Issues.new "Corners without mesh (uuids listed)"
  corners_not_linked_to_a_unique_vertex : IssuesMap Index := IssuesMap.new "Corners containing mesh vertices not linked to unique vertices"
  unique_vertices_linked_to_multiple_corners : Issues Index := Issues.new "unique vertices shared by several Corners"
  unique_vertices_linked_to_multiple_internals_corner : Issues Index := Issues.new "unique vertices linked to a Corner with several embeddings"
  unique_vertices_linked_to_not_internal_nor_boundary_corner : Issues Index := Issues.new "unique vertices linked to a Corner with neither boundary nor internal status"
  unique_vertices_linked_to_not_boundary_line_corner : Issues Index := Issues.new "unique vertices linked to a Line's Corner without boundary status"
  deriving DecidableEq, Repr

/-- `SectionCornersTopologyInspectionResult::nb_issues`, topology/section_corners_topology.cpp:37-46 (`index_t` additions wrap). -/
def SectionCornersTopologyInspectionResult.nbIssues (r : SectionCornersTopologyInspectionResult) : UInt32 :=
  r.corners_not_meshed.nbIssues
    + r.corners_not_linked_to_a_unique_vertex.nbIssues
    + r.unique_vertices_linked_to_multiple_corners.nbIssues
    + r.unique_vertices_linked_to_multiple_internals_corner.nbIssues
    + r.unique_vertices_linked_to_not_internal_nor_boundary_corner.nbIssues
    + r.unique_vertices_linked_to_not_boundary_line_corner.nbIssues

/-- `SectionCornersTopologyInspectionResult::string`, topology/section_corners_topology.cpp:48-90. -/
def SectionCornersTopologyInspectionResult.string (r : SectionCornersTopologyInspectionResult) : String :=
  let message := ""
  let message := if r.corners_not_meshed.nbIssues != 0 then message ++ r.corners_not_meshed.string else message
  let message := if r.corners_not_linked_to_a_unique_vertex.nbIssues != 0 then message ++ r.corners_not_linked_to_a_unique_vertex.string else message
  let message := if r.unique_vertices_linked_to_multiple_corners.nbIssues != 0 then message ++ r.unique_vertices_linked_to_multiple_corners.string else message
  let message := if r.unique_vertices_linked_to_multiple_internals_corner.nbIssues != 0 then message ++ r.unique_vertices_linked_to_multiple_internals_corner.string else message
  let message := if r.unique_vertices_linked_to_not_internal_nor_boundary_corner.nbIssues != 0 then message ++ r.unique_vertices_linked_to_not_internal_nor_boundary_corner.string else message
  let message := if r.unique_vertices_linked_to_not_boundary_line_corner.nbIssues != 0 then message ++ r.unique_vertices_linked_to_not_boundary_line_corner.string else message
  if message.isEmpty then "no issues with Corners topology \n" else message

/-- `BRepCornersTopologyInspectionResult`, topology/brep_corners_topology.hpp:43-76. -/
structure BRepCornersTopologyInspectionResult where
  corners_not_meshed : Issues Uuid := Issues.new "Corners without mesh (uuids listed)"
  corners_not_linked_to_a_unique_vertex : IssuesMap Index := IssuesMap.new "Corners containing mesh vertices not linked to unique vertices"
  unique_vertices_linked_to_multiple_corners : Issues Index := Issues.new "unique vertices shared by several Corners"
  unique_vertices_linked_to_multiply_embedded_corner : Issues Index := Issues.new "unique vertices linked to a Corner embedded in more than two components"
  unique_vertices_linked_to_not_internal_nor_boundary_corner : Issues Index := Issues.new "unique vertices linked to a Corner with neither boundary nor internal status"
  unique_vertices_linked_to_not_boundary_line_corner : Issues Index := Issues.new "unique vertices linked to a Line's Corner without boundary status"
  deriving DecidableEq, Repr

/-- `BRepCornersTopologyInspectionResult::nb_issues`, topology/brep_corners_topology.cpp:38-47 (`index_t` additions wrap). -/
def BRepCornersTopologyInspectionResult.nbIssues (r : BRepCornersTopologyInspectionResult) : UInt32 :=
  r.corners_not_meshed.nbIssues
    + r.corners_not_linked_to_a_unique_vertex.nbIssues
    + r.unique_vertices_linked_to_multiple_corners.nbIssues
    + r.unique_vertices_linked_to_multiply_embedded_corner.nbIssues
    + r.unique_vertices_linked_to_not_internal_nor_boundary_corner.nbIssues
    + r.unique_vertices_linked_to_not_boundary_line_corner.nbIssues

/-- `BRepCornersTopologyInspectionResult::string`, topology/brep_corners_topology.cpp:49-91. -/
def BRepCornersTopologyInspectionResult.string (r : BRepCornersTopologyInspectionResult) : String :=
  let message := ""
  let message := if r.corners_not_meshed.nbIssues != 0 then message ++ r.corners_not_meshed.string else message
  let message := if r.corners_not_linked_to_a_unique_vertex.nbIssues != 0 then message ++ r.corners_not_linked_to_a_unique_vertex.string else message
  let message := if r.unique_vertices_linked_to_multiple_corners.nbIssues != 0 then message ++ r.unique_vertices_linked_to_multiple_corners.string else message
  let message := if r.unique_vertices_linked_to_multiply_embedded_corner.nbIssues != 0 then message ++ r.unique_vertices_linked_to_multiply_embedded_corner.string else message
  let message := if r.unique_vertices_linked_to_not_internal_nor_boundary_corner.nbIssues != 0 then message ++ r.unique_vertices_linked_to_not_internal_nor_boundary_corner.string else message
  let message := if r.unique_vertices_linked_to_not_boundary_line_corner.nbIssues != 0 then message ++ r.unique_vertices_linked_to_not_boundary_line_corner.string else message
  if message.isEmpty then "no issues with Corners topology \n" else message

/-- `SectionLinesTopologyInspectionResult`, topology/section_lines_topology.hpp:40-73. -/
structure SectionLinesTopologyInspectionResult where
  lines_not_meshed : Issues Uuid := Issues.new "Lines without mesh (uuids listed)"
  lines_not_linked_to_a_unique_vertex : IssuesMap Index := IssuesMap.new "Lines with mesh vertices not linked to a unique vertex"
  unique_vertices_linked_to_line_with_wrong_relationship_to_surface : Issues Index := Issues.new "unique vertices linked to a Line incorrectly linked to a surface"
  unique_vertices_linked_to_a_line_with_invalid_embeddings : Issues Index := Issues.new "unique vertices linked to a Line with invalid internal topology"
  unique_vertices_linked_to_a_single_and_invalid_line : Issues Index := Issues.new "unique vertices linked to a single invalid Line"
  unique_vertices_linked_to_several_lines_but_not_linked_to_a_corner : Issues Index := Issues.new "unique vertices linked to multiple Lines but not to a Corner"
  deriving DecidableEq, Repr

/-- `SectionLinesTopologyInspectionResult::nb_issues`, topology/section_lines_topology.cpp:42-52 (`index_t` additions wrap). -/
def SectionLinesTopologyInspectionResult.nbIssues (r : SectionLinesTopologyInspectionResult) : UInt32 :=
  r.lines_not_meshed.nbIssues
    + r.lines_not_linked_to_a_unique_vertex.nbIssues
    + r.unique_vertices_linked_to_line_with_wrong_relationship_to_surface.nbIssues
    + r.unique_vertices_linked_to_a_line_with_invalid_embeddings.nbIssues
    + r.unique_vertices_linked_to_a_single_and_invalid_line.nbIssues

/-- `SectionLinesTopologyInspectionResult::string`, topology/section_lines_topology.cpp:54-100. -/
def SectionLinesTopologyInspectionResult.string (r : SectionLinesTopologyInspectionResult) : String :=
  let message := ""
  let message := if r.lines_not_meshed.nbIssues != 0 then message ++ r.lines_not_meshed.string else message
  let message := if r.lines_not_linked_to_a_unique_vertex.nbIssues != 0 then message ++ r.lines_not_linked_to_a_unique_vertex.string else message
  let message := if r.unique_vertices_linked_to_line_with_wrong_relationship_to_surface.nbIssues != 0 then message ++ r.unique_vertices_linked_to_line_with_wrong_relationship_to_surface.string else message
  let message := if r.unique_vertices_linked_to_a_line_with_invalid_embeddings.nbIssues != 0 then message ++ r.unique_vertices_linked_to_a_line_with_invalid_embeddings.string else message
  let message := if r.unique_vertices_linked_to_a_single_and_invalid_line.nbIssues != 0 then message ++ r.unique_vertices_linked_to_a_single_and_invalid_line.string else message
  let message := if r.unique_vertices_linked_to_several_lines_but_not_linked_to_a_corner.nbIssues != 0 then message ++ r.unique_vertices_linked_to_several_lines_but_not_linked_to_a_corner.string else message
  if message.isEmpty then "no issues with Lines topology \n" else message

/-- `BRepLinesTopologyInspectionResult`, topology/brep_lines_topology.hpp:42-79. -/
structure BRepLinesTopologyInspectionResult where
  lines_not_meshed : Issues Uuid := Issues.new "Lines without mesh (uuids listed)"
  unique_vertices_linked_to_line_with_wrong_relationship_to_surface : Issues Index := Issues.new "unique vertices linked to a Line with an incorrect relationship to a Surface"
  lines_not_linked_to_a_unique_vertex : IssuesMap Index := IssuesMap.new "Lines with mesh vertices not linked to a unique vertex"
  unique_vertices_linked_to_a_line_with_invalid_embeddings : Issues Index := Issues.new "unique vertices linked to a Line with invalid internal topology"
  unique_vertices_linked_to_a_single_and_invalid_line : Issues Index := Issues.new "unique vertices linked to a single invalid Line"
  unique_vertices_linked_to_several_lines_but_not_linked_to_a_corner : Issues Index := Issues.new "unique vertices linked to multiple Lines but not to a Corner"
  line_edges_with_wrong_component_edges_around : IssuesMap Index := IssuesMap.new "Line edges with incorrect surrounding component edges"
  deriving DecidableEq, Repr

/-- `BRepLinesTopologyInspectionResult::nb_issues`, topology/brep_lines_topology.cpp:44-56 (`index_t` additions wrap). -/
def BRepLinesTopologyInspectionResult.nbIssues (r : BRepLinesTopologyInspectionResult) : UInt32 :=
  r.lines_not_meshed.nbIssues
    + r.unique_vertices_linked_to_line_with_wrong_relationship_to_surface.nbIssues
    + r.lines_not_linked_to_a_unique_vertex.nbIssues
    + r.unique_vertices_linked_to_a_line_with_invalid_embeddings.nbIssues
    + r.unique_vertices_linked_to_a_single_and_invalid_line.nbIssues
    + r.unique_vertices_linked_to_several_lines_but_not_linked_to_a_corner.nbIssues
    + r.line_edges_with_wrong_component_edges_around.nbIssues

/-- `BRepLinesTopologyInspectionResult::string`, topology/brep_lines_topology.cpp:58-111. -/
def BRepLinesTopologyInspectionResult.string (r : BRepLinesTopologyInspectionResult) : String :=
  let message := ""
  let message := if r.lines_not_meshed.nbIssues != 0 then message ++ r.lines_not_meshed.string else message
  let message := if r.unique_vertices_linked_to_line_with_wrong_relationship_to_surface.nbIssues != 0 then message ++ r.unique_vertices_linked_to_line_with_wrong_relationship_to_surface.string ++ "\n" else message
  let message := if r.lines_not_linked_to_a_unique_vertex.nbIssues != 0 then message ++ r.lines_not_linked_to_a_unique_vertex.string else message
  let message := if r.unique_vertices_linked_to_a_line_with_invalid_embeddings.nbIssues != 0 then message ++ r.unique_vertices_linked_to_a_line_with_invalid_embeddings.string else message
  let message := if r.unique_vertices_linked_to_a_single_and_invalid_line.nbIssues != 0 then message ++ r.unique_vertices_linked_to_a_single_and_invalid_line.string ++ "\n" else message
  let message := if r.unique_vertices_linked_to_several_lines_but_not_linked_to_a_corner.nbIssues != 0 then message ++ r.unique_vertices_linked_to_several_lines_but_not_linked_to_a_corner.string else message
  let message := if r.line_edges_with_wrong_component_edges_around.nbIssues != 0 then message ++ r.line_edges_with_wrong_component_edges_around.string else message
  if message.isEmpty then "no issues with Lines topology \n" else message

/-- `SectionSurfacesTopologyInspectionResult`, topology/section_surfaces_topology.hpp:41-65. -/
structure SectionSurfacesTopologyInspectionResult where
  surfaces_not_meshed : Issues Uuid := Issues.new "Surfaces without mesh (uuids listed)"
  surfaces_not_linked_to_a_unique_vertex : IssuesMap Index := IssuesMap.new "Surfaces containing mesh vertices not linked to unique vertices"
  unique_vertices_linked_to_a_surface_with_invalid_embbedings : Issues Index := Issues.new "unique vertices linked to a Surface with invalid internal topology"
  unique_vertices_linked_to_a_line_but_is_not_on_a_surface_border : Issues Index := Issues.new "unique vertices linked to a Line but not to a Surface border"
  deriving DecidableEq, Repr

/-- `SectionSurfacesTopologyInspectionResult::nb_issues`, topology/section_surfaces_topology.cpp:42-50 (`index_t` additions wrap). -/
def SectionSurfacesTopologyInspectionResult.nbIssues (r : SectionSurfacesTopologyInspectionResult) : UInt32 :=
  r.surfaces_not_meshed.nbIssues
    + r.surfaces_not_linked_to_a_unique_vertex.nbIssues
    + r.unique_vertices_linked_to_a_surface_with_invalid_embbedings.nbIssues
    + r.unique_vertices_linked_to_a_line_but_is_not_on_a_surface_border.nbIssues

/-- `SectionSurfacesTopologyInspectionResult::string`, topology/section_surfaces_topology.cpp:52-85. -/
def SectionSurfacesTopologyInspectionResult.string (r : SectionSurfacesTopologyInspectionResult) : String :=
  let message := ""
  let message := if r.surfaces_not_meshed.nbIssues != 0 then message ++ r.surfaces_not_meshed.string else message
  let message := if r.surfaces_not_linked_to_a_unique_vertex.nbIssues != 0 then message ++ r.surfaces_not_linked_to_a_unique_vertex.string else message
  let message := if r.unique_vertices_linked_to_a_surface_with_invalid_embbedings.nbIssues != 0 then message ++ r.unique_vertices_linked_to_a_surface_with_invalid_embbedings.string else message
  let message := if r.unique_vertices_linked_to_a_line_but_is_not_on_a_surface_border.nbIssues != 0 then message ++ r.unique_vertices_linked_to_a_line_but_is_not_on_a_surface_border.string else message
  if message.isEmpty then "no issues with Surfaces topology \n" else message

/-- `BRepSurfacesTopologyInspectionResult`, topology/brep_surfaces_topology.hpp:41-73. -/
structure BRepSurfacesTopologyInspectionResult where
  surfaces_not_meshed : Issues Uuid := Issues.new "Surface without mesh (uuids listed)"
  surfaces_not_linked_to_a_unique_vertex : IssuesMap Index := IssuesMap.new "Surfaces containing mesh vertices not linked to unique vertices"
  unique_vertices_linked_to_a_surface_with_invalid_embbedings : Issues Index := Issues.new "unique vertices linked to a Surface with invalid internal topology"
  unique_vertices_linked_to_several_and_invalid_surfaces : Issues Index := Issues.new "unique vertices improperly linked to several Surfaces"
  unique_vertices_linked_to_a_line_but_is_not_on_a_surface_border : Issues Index := Issues.new "unique vertices linked to a Line but not to a Surface border"
  surface_polygons_with_wrong_component_facets_around : IssuesMap Index := IssuesMap.new "Surface polygons with invalid surrounding facets"
  deriving DecidableEq, Repr

/-- `BRepSurfacesTopologyInspectionResult::nb_issues`, topology/brep_surfaces_topology.cpp:48-58 (`index_t` additions wrap). -/
def BRepSurfacesTopologyInspectionResult.nbIssues (r : BRepSurfacesTopologyInspectionResult) : UInt32 :=
  r.surfaces_not_meshed.nbIssues
    + r.surfaces_not_linked_to_a_unique_vertex.nbIssues
    + r.unique_vertices_linked_to_a_surface_with_invalid_embbedings.nbIssues
    + r.unique_vertices_linked_to_a_line_but_is_not_on_a_surface_border.nbIssues
    + r.unique_vertices_linked_to_several_and_invalid_surfaces.nbIssues

/-- `BRepSurfacesTopologyInspectionResult::string`, topology/brep_surfaces_topology.cpp:60-100. -/
def BRepSurfacesTopologyInspectionResult.string (r : BRepSurfacesTopologyInspectionResult) : String :=
  let message := ""
  let message := if r.surfaces_not_meshed.nbIssues != 0 then message ++ r.surfaces_not_meshed.string else message
  let message := if r.surfaces_not_linked_to_a_unique_vertex.nbIssues != 0 then message ++ r.surfaces_not_linked_to_a_unique_vertex.string else message
  let message := if r.unique_vertices_linked_to_a_surface_with_invalid_embbedings.nbIssues != 0 then message ++ r.unique_vertices_linked_to_a_surface_with_invalid_embbedings.string else message
  let message := if r.unique_vertices_linked_to_several_and_invalid_surfaces.nbIssues != 0 then message ++ r.unique_vertices_linked_to_several_and_invalid_surfaces.string else message
  let message := if r.unique_vertices_linked_to_a_line_but_is_not_on_a_surface_border.nbIssues != 0 then message ++ r.unique_vertices_linked_to_a_line_but_is_not_on_a_surface_border.string else message
  if message.isEmpty then "no issues with Surfaces topology \n" else message

/-- `BRepBlocksTopologyInspectionResult`, topology/brep_blocks_topology.hpp:46-94. -/
structure BRepBlocksTopologyInspectionResult where
  some_blocks_not_meshed : Issues Uuid := Issues.new "Blocks without mesh (uuid listed)"
  wrong_block_boundary_surface : Issues Uuid := Issues.new "Blocks with boundary surface(s) not linked to another boundary Surface by a line (Surface shouldn't be boundary or there is a hole in the block boundaries)"
  blocks_not_linked_to_a_unique_vertex : IssuesMap Index := IssuesMap.new "Blocks mesh vertices not linked to unique vertices"
  blocks_with_not_closed_boundary_surfaces : Issues Uuid := Issues.new "Blocks with non-closed boundary Surfaces"
  model_boundaries_dont_form_a_closed_surface : Issues Index := Issues.new "ModelBoundaries do not form a valid closed surface"
  unique_vertices_part_of_two_blocks_and_no_boundary_surface : Issues Index := Issues.new "unique vertices shared by two Blocks without a boundary Surface or incident Block Line"
  unique_vertices_with_incorrect_block_cmvs_count : Issues Index := Issues.new "unique vertices in a Block with incorrect Component mesh vertices count"
  unique_vertices_linked_to_surface_with_wrong_relationship_to_blocks : Issues Index := Issues.new "unique vertices linked to Surfaces with neither boundary nor internal status"
  unique_vertices_linked_to_a_single_and_invalid_surface : Issues Index := Issues.new "unique vertices linked to a single Surface that is invalid"
  unique_vertex_linked_to_multiple_invalid_surfaces : Issues Index := Issues.new "unique vertices linked to multiple Surfaces in an invalid way"
  deriving DecidableEq, Repr

/-- `BRepBlocksTopologyInspectionResult::nb_issues`, topology/brep_blocks_topology.cpp:515-530 (`index_t` additions wrap). -/
def BRepBlocksTopologyInspectionResult.nbIssues (r : BRepBlocksTopologyInspectionResult) : UInt32 :=
  r.some_blocks_not_meshed.nbIssues
    + r.wrong_block_boundary_surface.nbIssues
    + r.blocks_not_linked_to_a_unique_vertex.nbIssues
    + r.blocks_with_not_closed_boundary_surfaces.nbIssues
    + r.model_boundaries_dont_form_a_closed_surface.nbIssues
    + r.unique_vertices_part_of_two_blocks_and_no_boundary_surface.nbIssues
    + r.unique_vertices_with_incorrect_block_cmvs_count.nbIssues
    + r.unique_vertices_linked_to_surface_with_wrong_relationship_to_blocks.nbIssues
    + r.unique_vertices_linked_to_a_single_and_invalid_surface.nbIssues
    + r.unique_vertex_linked_to_multiple_invalid_surfaces.nbIssues

/-- `BRepBlocksTopologyInspectionResult::string`, topology/brep_blocks_topology.cpp:532-600. -/
def BRepBlocksTopologyInspectionResult.string (r : BRepBlocksTopologyInspectionResult) : String :=
  let message := ""
  let message := if r.some_blocks_not_meshed.nbIssues != 0 then message ++ r.some_blocks_not_meshed.string ++ "\n" else message
  let message := if r.wrong_block_boundary_surface.nbIssues != 0 then message ++ r.wrong_block_boundary_surface.string else message
  let message := if r.blocks_not_linked_to_a_unique_vertex.nbIssues != 0 then message ++ r.blocks_not_linked_to_a_unique_vertex.string else message
  let message := if r.blocks_with_not_closed_boundary_surfaces.nbIssues != 0 then message ++ r.blocks_with_not_closed_boundary_surfaces.string else message
  let message := if r.model_boundaries_dont_form_a_closed_surface.nbIssues != 0 then message ++ r.model_boundaries_dont_form_a_closed_surface.string else message
  let message := if r.unique_vertices_part_of_two_blocks_and_no_boundary_surface.nbIssues != 0 then message ++ r.unique_vertices_part_of_two_blocks_and_no_boundary_surface.string ++ "\n" else message
  let message := if r.unique_vertices_with_incorrect_block_cmvs_count.nbIssues != 0 then message ++ r.unique_vertices_with_incorrect_block_cmvs_count.string ++ "\n" else message
  let message := if r.unique_vertices_linked_to_surface_with_wrong_relationship_to_blocks.nbIssues != 0 then message ++ r.unique_vertices_linked_to_surface_with_wrong_relationship_to_blocks.string ++ "\n" else message
  let message := if r.unique_vertices_linked_to_a_single_and_invalid_surface.nbIssues != 0 then message ++ r.unique_vertices_linked_to_a_single_and_invalid_surface.string ++ "\n" else message
  let message := if r.unique_vertex_linked_to_multiple_invalid_surfaces.nbIssues != 0 then message ++ r.unique_vertex_linked_to_multiple_invalid_surfaces.string ++ "\n" else message
  if message.isEmpty then "no issues with Blocks topology \n" else message

/-- `SectionTopologyInspectionResult`, topology/section_topology.hpp:41-63. -/
structure SectionTopologyInspectionResult where
  corners : SectionCornersTopologyInspectionResult := {}
  lines : SectionLinesTopologyInspectionResult := {}
  surfaces : SectionSurfacesTopologyInspectionResult := {}
  unique_vertices_not_linked_to_any_component : Issues Index := Issues.new "unique vertices not linked to Component"
  unique_vertices_linked_to_inexistant_cmv : Issues Index := Issues.new "unique vertices linked to inexistant Component mesh vertex"
  unique_vertices_nonbijectively_linked_to_cmv : Issues Index := Issues.new "unique vertices with non-bijective links to Component mesh vertex"
  deriving DecidableEq, Repr

/-- `SectionTopologyInspectionResult::nb_issues`, topology/section_topology.cpp:42-48 (`index_t` additions wrap). -/
def SectionTopologyInspectionResult.nbIssues (r : SectionTopologyInspectionResult) : UInt32 :=
  r.corners.nbIssues
    + r.lines.nbIssues
    + r.surfaces.nbIssues
    + r.unique_vertices_not_linked_to_any_component.nbIssues
    + r.unique_vertices_linked_to_inexistant_cmv.nbIssues
    + r.unique_vertices_nonbijectively_linked_to_cmv.nbIssues

/-- `SectionTopologyInspectionResult::string`, topology/section_topology.cpp:50-57. -/
def SectionTopologyInspectionResult.string (r : SectionTopologyInspectionResult) : String :=
  r.corners.string
    ++ r.lines.string
    ++ r.surfaces.string
    ++ r.unique_vertices_not_linked_to_any_component.string
    ++ r.unique_vertices_linked_to_inexistant_cmv.string
    ++ r.unique_vertices_nonbijectively_linked_to_cmv.string

/-- `BRepTopologyInspectionResult`, topology/brep_topology.hpp:41-65. -/
structure BRepTopologyInspectionResult where
  corners : BRepCornersTopologyInspectionResult := {}
  lines : BRepLinesTopologyInspectionResult := {}
  surfaces : BRepSurfacesTopologyInspectionResult := {}
  blocks : BRepBlocksTopologyInspectionResult := {}
  unique_vertices_not_linked_to_any_component : Issues Index := Issues.new "unique vertices not linked to a Component"
  unique_vertices_linked_to_inexistant_cmv : Issues Index := Issues.new "unique vertices linked to inexistant Component mesh vertex"
  unique_vertices_nonbijectively_linked_to_cmv : Issues Index := Issues.new "unique vertices with non-bijective links to Component mesh vertex"
  deriving DecidableEq, Repr

/-- `BRepTopologyInspectionResult::nb_issues`, topology/brep_topology.cpp:44-51 (`index_t` additions wrap). -/
def BRepTopologyInspectionResult.nbIssues (r : BRepTopologyInspectionResult) : UInt32 :=
  r.corners.nbIssues
    + r.lines.nbIssues
    + r.surfaces.nbIssues
    + r.blocks.nbIssues
    + r.unique_vertices_not_linked_to_any_component.nbIssues
    + r.unique_vertices_linked_to_inexistant_cmv.nbIssues
    + r.unique_vertices_nonbijectively_linked_to_cmv.nbIssues

/-- `BRepTopologyInspectionResult::string`, topology/brep_topology.cpp:53-60. -/
def BRepTopologyInspectionResult.string (r : BRepTopologyInspectionResult) : String :=
  r.corners.string
    ++ r.lines.string
    ++ r.surfaces.string
    ++ r.blocks.string
    ++ r.unique_vertices_not_linked_to_any_component.string
    ++ r.unique_vertices_linked_to_inexistant_cmv.string
    ++ r.unique_vertices_nonbijectively_linked_to_cmv.string

/-- `SectionInspectionResult`, section_inspector.hpp. -/
structure SectionInspectionResult where
  meshes : SectionMeshesInspectionResult := {}
  topology : SectionTopologyInspectionResult := {}
  deriving DecidableEq, Repr

/-- `SectionInspectionResult::nb_issues`, section_inspector.cpp:32-35 (`index_t` additions wrap). -/
def SectionInspectionResult.nbIssues (r : SectionInspectionResult) : UInt32 :=
  r.meshes.nbIssues
    + r.topology.nbIssues

/-- `SectionInspectionResult::string`, section_inspector.cpp:37-40. -/
def SectionInspectionResult.string (r : SectionInspectionResult) : String :=
  r.meshes.string
    ++ r.topology.string

/-- `BRepInspectionResult`, brep_inspector.hpp. -/
structure BRepInspectionResult where
  meshes : BRepMeshesInspectionResult := {}
  topology : BRepTopologyInspectionResult := {}
  deriving DecidableEq, Repr

/-- `BRepInspectionResult::nb_issues`, brep_inspector.cpp:32-35 (`index_t` additions wrap). -/
def BRepInspectionResult.nbIssues (r : BRepInspectionResult) : UInt32 :=
  r.meshes.nbIssues
    + r.topology.nbIssues

/-- `BRepInspectionResult::string`, brep_inspector.cpp:37-40. -/
def BRepInspectionResult.string (r : BRepInspectionResult) : String :=
  r.meshes.string
    ++ r.topology.string

end Inspector
