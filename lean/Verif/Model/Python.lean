import Verif.Model.Validity
/-
Model of the Python bindings of the results: which lists a Python program can read from a result, and which methods
it can call.  Citations are relative to `bindings/python/src/`.  Simplifications: reading an attribute gives a copy
(pybind11 gives a reference into the result, and `def_readwrite` also allows to assign it); `PolygonEdge`,
`PolyhedronFacet`, `std::array< index_t, 2 >` and `std::pair< index_t, index_t >` are all pairs of indices;
`inspection_type` is not modelled.
-/
namespace Inspector

/-- What a Python program gets when it reads an attribute of a result: an `InspectionIssues` or `InspectionIssuesMap` of a
registered type (inspection/information.hpp:33-71 and inspection/criterion/manifold/brep_meshes_manifold.hpp:40-41),
or a result with its bound attributes, the value of its method `string`, and that of its method `nb_issues` when this
one is bound. -/
inductive PyValue where
  | indices (v : Issues Index)
  | groups (v : Issues (List Index))
  | pairs (v : Issues (Index × Index))
  | uuids (v : Issues Uuid)
  | elements (v : Issues (ComponentMeshElement × ComponentMeshElement))
  | edges (v : Issues ((Index × Index) × List Uuid))
  | indicesMap (v : IssuesMap Index)
  | groupsMap (v : IssuesMap (List Index))
  | pairsMap (v : IssuesMap (Index × Index))
  | object (attributes : List (String × PyValue)) (string : String) (nbIssues : Option UInt32)

/-- Reading an attribute (pybind11, external): the one bound under this name, otherwise an `AttributeError`
(here `none`). -/
def PyValue.attribute : PyValue → String → Option PyValue
  | .object attributes _ _, name => attributes.lookup name
  | _, _ => none

/-- Calling the method `string`, bound for the lists at inspection/information.hpp:43 and 52. -/
def PyValue.string : PyValue → String
  | .indices v => v.string
  | .groups v => v.string
  | .pairs v => v.string
  | .uuids v => v.string
  | .elements v => v.string
  | .edges v => v.string
  | .indicesMap v => v.string
  | .groupsMap v => v.string
  | .pairsMap v => v.string
  | .object _ string _ => string

/-- Calling the method `nb_issues`, bound for the lists at inspection/information.hpp:41 and 50 (`none` is an
`AttributeError`). -/
def PyValue.nbIssues : PyValue → Option UInt32
  | .indices v => some v.nbIssues
  | .groups v => some v.nbIssues
  | .pairs v => some v.nbIssues
  | .uuids v => some v.nbIssues
  | .elements v => some v.nbIssues
  | .edges v => some v.nbIssues
  | .indicesMap v => some v.nbIssues
  | .groupsMap v => some v.nbIssues
  | .pairsMap v => some v.nbIssues
  | .object _ _ nbIssues => nbIssues

/-- Binding of `PointSetInspectionResult`, inspection/pointset_inspector.hpp:53-60. -/
def PointSetInspectionResult.python (r : PointSetInspectionResult) : PyValue :=
  .object
    [("colocated_points_groups", .groups r.colocated_points_groups)]
    r.string none

/-- Binding of `EdgedCurveInspectionResult`, inspection/edgedcurve_inspector.hpp:56-65. -/
def EdgedCurveInspectionResult.python (r : EdgedCurveInspectionResult) : PyValue :=
  .object
    [("colocated_points_groups", .groups r.colocated_points_groups),
     ("degenerated_edges", .indices r.degenerated_edges)]
    r.string none

/-- Binding of `SurfaceInspectionResult`, inspection/surface_inspector.hpp:59-78. -/
def SurfaceInspectionResult.python (r : SurfaceInspectionResult) : PyValue :=
  .object
    [("polygon_edges_with_wrong_adjacency", .pairs r.polygon_edges_with_wrong_adjacency),
     ("colocated_points_groups", .groups r.colocated_points_groups),
     ("degenerated_edges", .indices r.degenerated_edges),
     ("degenerated_polygons", .indices r.degenerated_polygons),
     ("non_manifold_edges", .pairs r.non_manifold_edges),
     ("non_manifold_vertices", .indices r.non_manifold_vertices),
     ("intersecting_elements", .pairs r.intersecting_elements)]
    r.string none

/-- Binding of `SolidInspectionResult`, inspection/solid_inspector.hpp:57-75. -/
def SolidInspectionResult.python (r : SolidInspectionResult) : PyValue :=
  .object
    [("polyhedron_facets_with_wrong_adjacency", .pairs r.polyhedron_facets_with_wrong_adjacency),
     ("colocated_points_groups", .groups r.colocated_points_groups),
     ("degenerated_edges", .indices r.degenerated_edges),
     ("degenerated_polyhedra", .indices r.degenerated_polyhedra),
     ("non_manifold_vertices", .indices r.non_manifold_vertices),
     ("non_manifold_edges", .pairs r.non_manifold_edges),
     ("non_manifold_facets", .groups r.non_manifold_facets)]
    r.string none

/-- Binding of `UniqueVerticesInspectionResult`, inspection/criterion/colocation/unique_vertices_colocation.hpp:33-44. -/
def UniqueVerticesInspectionResult.python (r : UniqueVerticesInspectionResult) : PyValue :=
  .object
    [("colocated_unique_vertices_groups", .groups r.colocated_unique_vertices_groups),
     ("unique_vertices_linked_to_different_points", .indices r.unique_vertices_linked_to_different_points)]
    r.string none

/-- Binding of `MeshesColocationInspectionResult`, inspection/criterion/colocation/component_meshes_colocation.hpp:43-50. -/
def MeshesColocationInspectionResult.python (r : MeshesColocationInspectionResult) : PyValue :=
  .object
    [("colocated_points_groups", .groupsMap r.colocated_points_groups)]
    r.string none

/-- Binding of `SectionMeshesAdjacencyInspectionResult`, inspection/criterion/adjacency/section_meshes_adjacency.hpp:32-40. -/
def SectionMeshesAdjacencyInspectionResult.python (r : SectionMeshesAdjacencyInspectionResult) : PyValue :=
  .object
    [("surfaces_edges_with_wrong_adjacencies", .pairsMap r.surfaces_edges_with_wrong_adjacencies)]
    r.string none

/-- Binding of `BRepMeshesAdjacencyInspectionResult`, inspection/criterion/adjacency/brep_meshes_adjacency.hpp:32-43. -/
def BRepMeshesAdjacencyInspectionResult.python (r : BRepMeshesAdjacencyInspectionResult) : PyValue :=
  .object
    [("surfaces_edges_with_wrong_adjacencies", .pairsMap r.surfaces_edges_with_wrong_adjacencies),
     ("blocks_facets_with_wrong_adjacencies", .pairsMap r.blocks_facets_with_wrong_adjacencies)]
    r.string none

/-- Binding of `SectionMeshesDegenerationInspectionResult`, inspection/criterion/degeneration/section_meshes_degeneration.hpp:32-42. -/
def SectionMeshesDegenerationInspectionResult.python (r : SectionMeshesDegenerationInspectionResult) : PyValue :=
  .object
    [("degenerated_edges", .indicesMap r.degenerated_edges),
     ("degenerated_polygons", .indicesMap r.degenerated_polygons)]
    r.string none

/-- Binding of `BRepMeshesDegenerationInspectionResult`, inspection/criterion/degeneration/brep_meshes_degeneration.hpp:32-43. -/
def BRepMeshesDegenerationInspectionResult.python (r : BRepMeshesDegenerationInspectionResult) : PyValue :=
  .object
    [("degenerated_edges", .indicesMap r.degenerated_edges),
     ("degenerated_polygons", .indicesMap r.degenerated_polygons),
     ("degenerated_polyhedra", .indicesMap r.degenerated_polyhedra)]
    r.string none

/-- Binding of `ElementsIntersectionsInspectionResult`, inspection/criterion/intersections/model_intersections.hpp:44-51. -/
def ElementsIntersectionsInspectionResult.python (r : ElementsIntersectionsInspectionResult) : PyValue :=
  .object
    [("elements_intersections", .elements r.elements_intersections)]
    r.string none

/-- Binding of `SectionMeshesManifoldInspectionResult`, inspection/criterion/manifold/section_meshes_manifold.hpp:32-43. -/
def SectionMeshesManifoldInspectionResult.python (r : SectionMeshesManifoldInspectionResult) : PyValue :=
  .object
    [("meshes_non_manifold_vertices", .indicesMap r.meshes_non_manifold_vertices),
     ("meshes_non_manifold_edges", .pairsMap r.meshes_non_manifold_edges)]
    r.string none

/-- Binding of `BRepMeshesManifoldInspectionResult`, inspection/criterion/manifold/brep_meshes_manifold.hpp:43-58. -/
def BRepMeshesManifoldInspectionResult.python (r : BRepMeshesManifoldInspectionResult) : PyValue :=
  .object
    [("meshes_non_manifold_vertices", .indicesMap r.meshes_non_manifold_vertices),
     ("meshes_non_manifold_edges", .pairsMap r.meshes_non_manifold_edges),
     ("meshes_non_manifold_facets", .groupsMap r.meshes_non_manifold_facets),
     ("brep_non_manifold_edges", .edges r.brep_non_manifold_edges)]
    r.string none

/-- Binding of `SectionMeshesInspectionResult`, inspection/criterion/section_meshes_inspector.hpp:32-49. -/
def SectionMeshesInspectionResult.python (r : SectionMeshesInspectionResult) : PyValue :=
  .object
    [("unique_vertices_colocation", r.unique_vertices_colocation.python),
     ("meshes_colocation", r.meshes_colocation.python),
     ("meshes_adjacencies", r.meshes_adjacencies.python),
     ("meshes_degenerations", r.meshes_degenerations.python),
     ("meshes_intersections", r.meshes_intersections.python),
     ("meshes_non_manifolds", r.meshes_non_manifolds.python)]
    r.string none

/-- Binding of `BRepMeshesInspectionResult`, inspection/criterion/brep_meshes_inspector.hpp:32-49. -/
def BRepMeshesInspectionResult.python (r : BRepMeshesInspectionResult) : PyValue :=
  .object
    [("unique_vertices_colocation", r.unique_vertices_colocation.python),
     ("meshes_colocation", r.meshes_colocation.python),
     ("meshes_adjacencies", r.meshes_adjacencies.python),
     ("meshes_degenerations", r.meshes_degenerations.python),
     ("meshes_intersections", r.meshes_intersections.python),
     ("meshes_non_manifolds", r.meshes_non_manifolds.python)]
    r.string none

/-- Binding of `SectionCornersTopologyInspectionResult`, inspection/topology/section_topology.hpp:32-57. -/
def SectionCornersTopologyInspectionResult.python (r : SectionCornersTopologyInspectionResult) : PyValue :=
  .object
    [("corners_not_meshed", .uuids r.corners_not_meshed),
     ("corners_not_linked_to_a_unique_vertex", .indicesMap r.corners_not_linked_to_a_unique_vertex),
     ("unique_vertices_linked_to_multiple_corners", .indices r.unique_vertices_linked_to_multiple_corners),
     ("unique_vertices_linked_to_multiple_internals_corner", .indices r.unique_vertices_linked_to_multiple_internals_corner),
     ("unique_vertices_linked_to_not_internal_nor_boundary_corner", .indices r.unique_vertices_linked_to_not_internal_nor_boundary_corner),
     ("unique_vertices_linked_to_not_boundary_line_corner", .indices r.unique_vertices_linked_to_not_boundary_line_corner)]
    r.string none

/-- Binding of `BRepCornersTopologyInspectionResult`, inspection/topology/brep_topology.hpp:33-58. -/
def BRepCornersTopologyInspectionResult.python (r : BRepCornersTopologyInspectionResult) : PyValue :=
  .object
    [("corners_not_meshed", .uuids r.corners_not_meshed),
     ("corners_not_linked_to_a_unique_vertex", .indicesMap r.corners_not_linked_to_a_unique_vertex),
     ("unique_vertices_linked_to_multiple_corners", .indices r.unique_vertices_linked_to_multiple_corners),
     ("unique_vertices_linked_to_multiply_embedded_corner", .indices r.unique_vertices_linked_to_multiply_embedded_corner),
     ("unique_vertices_linked_to_not_internal_nor_boundary_corner", .indices r.unique_vertices_linked_to_not_internal_nor_boundary_corner),
     ("unique_vertices_linked_to_not_boundary_line_corner", .indices r.unique_vertices_linked_to_not_boundary_line_corner)]
    r.string none

/-- Binding of `SectionLinesTopologyInspectionResult`, inspection/topology/section_topology.hpp:59-85. -/
def SectionLinesTopologyInspectionResult.python (r : SectionLinesTopologyInspectionResult) : PyValue :=
  .object
    [("lines_not_meshed", .uuids r.lines_not_meshed),
     ("lines_not_linked_to_a_unique_vertex", .indicesMap r.lines_not_linked_to_a_unique_vertex),
     ("unique_vertices_linked_to_line_with_wrong_relationship_to_surface", .indices r.unique_vertices_linked_to_line_with_wrong_relationship_to_surface),
     ("unique_vertices_linked_to_a_line_with_invalid_embeddings", .indices r.unique_vertices_linked_to_a_line_with_invalid_embeddings),
     ("unique_vertices_linked_to_a_single_and_invalid_line", .indices r.unique_vertices_linked_to_a_single_and_invalid_line),
     ("unique_vertices_linked_to_several_lines_but_not_linked_to_a_corner", .indices r.unique_vertices_linked_to_several_lines_but_not_linked_to_a_corner)]
    r.string none

/-- Binding of `BRepLinesTopologyInspectionResult`, inspection/topology/brep_topology.hpp:60-89. -/
def BRepLinesTopologyInspectionResult.python (r : BRepLinesTopologyInspectionResult) : PyValue :=
  .object
    [("lines_not_meshed", .uuids r.lines_not_meshed),
     ("lines_not_linked_to_a_unique_vertex", .indicesMap r.lines_not_linked_to_a_unique_vertex),
     ("unique_vertices_linked_to_line_with_wrong_relationship_to_surface", .indices r.unique_vertices_linked_to_line_with_wrong_relationship_to_surface),
     ("unique_vertices_linked_to_a_line_with_invalid_embeddings", .indices r.unique_vertices_linked_to_a_line_with_invalid_embeddings),
     ("unique_vertices_linked_to_a_single_and_invalid_line", .indices r.unique_vertices_linked_to_a_single_and_invalid_line),
     ("unique_vertices_linked_to_several_lines_but_not_linked_to_a_corner", .indices r.unique_vertices_linked_to_several_lines_but_not_linked_to_a_corner),
     ("line_edges_with_wrong_component_edges_around", .indicesMap r.line_edges_with_wrong_component_edges_around)]
    r.string none

/-- Binding of `SectionSurfacesTopologyInspectionResult`, inspection/topology/section_topology.hpp:87-105. -/
def SectionSurfacesTopologyInspectionResult.python (r : SectionSurfacesTopologyInspectionResult) : PyValue :=
  .object
    [("surfaces_not_meshed", .uuids r.surfaces_not_meshed),
     ("surfaces_not_linked_to_a_unique_vertex", .indicesMap r.surfaces_not_linked_to_a_unique_vertex),
     ("unique_vertices_linked_to_a_surface_with_invalid_embbedings", .indices r.unique_vertices_linked_to_a_surface_with_invalid_embbedings),
     ("unique_vertices_linked_to_a_line_but_is_not_on_a_surface_border", .indices r.unique_vertices_linked_to_a_line_but_is_not_on_a_surface_border)]
    r.string none

/-- Binding of `BRepSurfacesTopologyInspectionResult`, inspection/topology/brep_topology.hpp:91-117. -/
def BRepSurfacesTopologyInspectionResult.python (r : BRepSurfacesTopologyInspectionResult) : PyValue :=
  .object
    [("surfaces_not_meshed", .uuids r.surfaces_not_meshed),
     ("surfaces_not_linked_to_a_unique_vertex", .indicesMap r.surfaces_not_linked_to_a_unique_vertex),
     ("unique_vertices_linked_to_a_surface_with_invalid_embbedings", .indices r.unique_vertices_linked_to_a_surface_with_invalid_embbedings),
     ("unique_vertices_linked_to_several_and_invalid_surfaces", .indices r.unique_vertices_linked_to_several_and_invalid_surfaces),
     ("unique_vertices_linked_to_a_line_but_is_not_on_a_surface_border", .indices r.unique_vertices_linked_to_a_line_but_is_not_on_a_surface_border),
     ("surface_polygons_with_wrong_component_facets_around", .indicesMap r.surface_polygons_with_wrong_component_facets_around)]
    r.string none

/-- Binding of `BRepBlocksTopologyInspectionResult`, inspection/topology/brep_topology.hpp:119-156. -/
def BRepBlocksTopologyInspectionResult.python (r : BRepBlocksTopologyInspectionResult) : PyValue :=
  .object
    [("some_blocks_not_meshed", .uuids r.some_blocks_not_meshed),
     ("wrong_block_boundary_surface", .uuids r.wrong_block_boundary_surface),
     ("blocks_not_linked_to_a_unique_vertex", .indicesMap r.blocks_not_linked_to_a_unique_vertex),
     ("unique_vertices_part_of_two_blocks_and_no_boundary_surface", .indices r.unique_vertices_part_of_two_blocks_and_no_boundary_surface),
     ("unique_vertices_with_incorrect_block_cmvs_count", .indices r.unique_vertices_with_incorrect_block_cmvs_count),
     ("unique_vertices_linked_to_surface_with_wrong_relationship_to_blocks", .indices r.unique_vertices_linked_to_surface_with_wrong_relationship_to_blocks),
     ("unique_vertices_linked_to_a_single_and_invalid_surface", .indices r.unique_vertices_linked_to_a_single_and_invalid_surface),
     ("unique_vertex_linked_to_multiple_invalid_surfaces", .indices r.unique_vertex_linked_to_multiple_invalid_surfaces),
     ("blocks_with_not_closed_boundary_surfaces", .uuids r.blocks_with_not_closed_boundary_surfaces),
     ("model_boundaries_dont_form_a_closed_surface", .indices r.model_boundaries_dont_form_a_closed_surface)]
    r.string none

/-- Binding of `SectionTopologyInspectionResult`, inspection/topology/section_topology.hpp:107-120. -/
def SectionTopologyInspectionResult.python (r : SectionTopologyInspectionResult) : PyValue :=
  .object
    [("corners", r.corners.python),
     ("lines", r.lines.python),
     ("surfaces", r.surfaces.python),
     ("unique_vertices_not_linked_to_any_component", .indices r.unique_vertices_not_linked_to_any_component)]
    r.string none

/-- Binding of `BRepTopologyInspectionResult`, inspection/topology/brep_topology.hpp:158-171. -/
def BRepTopologyInspectionResult.python (r : BRepTopologyInspectionResult) : PyValue :=
  .object
    [("corners", r.corners.python),
     ("lines", r.lines.python),
     ("surfaces", r.surfaces.python),
     ("blocks", r.blocks.python),
     ("unique_vertices_not_linked_to_any_component", .indices r.unique_vertices_not_linked_to_any_component)]
    r.string none

/-- Binding of `SectionInspectionResult`, inspection/section_inspector.hpp:34-41. -/
def SectionInspectionResult.python (r : SectionInspectionResult) : PyValue :=
  .object
    [("meshes", r.meshes.python),
     ("topology", r.topology.python)]
    r.string none

/-- Binding of `BRepInspectionResult`, inspection/brep_inspector.hpp:32-39. -/
def BRepInspectionResult.python (r : BRepInspectionResult) : PyValue :=
  .object
    [("meshes", r.meshes.python),
     ("topology", r.topology.python)]
    r.string (some r.nbIssues)

/-- Binding of `ObjectValidity`, validity/object_validity.hpp:34-37: the only attribute, a list of texts. -/
def ObjectValidity.pyInvalidities (v : ObjectValidity) : List String := v.invalidities

/-- Method `nb_issues` of `ObjectValidity`, validity/object_validity.hpp:35. -/
def ObjectValidity.pyNbIssues (v : ObjectValidity) : UInt32 := v.nbIssues

/-- Method `string` of `ObjectValidity`, validity/object_validity.hpp:36. -/
def ObjectValidity.pyString (v : ObjectValidity) : String := v.string

/-- The truth value of a Python object of class `ObjectValidity` (`if is_surface_valid3D( mesh ):`): the binding,
validity/object_validity.hpp:34-37, defines neither `__bool__` nor `__len__`, hence Python takes every object for
true (external). -/
def ObjectValidity.pyTruth (_v : ObjectValidity) : Bool := true

end Inspector
