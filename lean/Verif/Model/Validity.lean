import Verif.Model.Results
/-
Model of `src/geode/inspector/validity/*.cpp`: the verdict of `is_*_valid`, as a function of the
inspection result (the inspection itself is modelled elsewhere).  `if` by `if`, in source order.
-/
namespace Inspector

/-- `ObjectValidity`, include/geode/inspector/validity/object_validity.hpp:30-42. -/
structure ObjectValidity where
  invalidities : List String := []
  deriving DecidableEq, Repr

namespace ObjectValidity

/-- `explicit operator bool`, object_validity.hpp:32-35. -/
def isValid (v : ObjectValidity) : Bool := v.invalidities.isEmpty

/-- `nb_issues`, object_validity.cpp:28-31: a `size_t` converted to `index_t`. -/
def nbIssues (v : ObjectValidity) : UInt32 := UInt32.ofNat v.invalidities.length

/-- `string`, object_validity.cpp:33-41. -/
def string (v : ObjectValidity) : String := v.invalidities.foldl (fun result s => result ++ s) ""

/-- `invalidities.push_back` / `emplace_back`. -/
def push (v : ObjectValidity) (text : String) : ObjectValidity :=
  { v with invalidities := v.invalidities ++ [text] }

end ObjectValidity

/-- `is_pointset_valid`, pointset_validity.cpp:34-45 (from the inspection result). -/
def isPointsetValid (inspection : PointSetInspectionResult) : ObjectValidity :=
  let invalidities : ObjectValidity := {}
  let invalidities := if inspection.nbIssues != 0 then
    invalidities.push inspection.string else invalidities
  invalidities

/-- `is_edged_curve_valid`, edgedcurve_validity.cpp:34-51 (from the inspection result). -/
def isEdgedCurveValid (inspection : EdgedCurveInspectionResult) : ObjectValidity :=
  let invalidities : ObjectValidity := {}
  let invalidities := if inspection.colocated_points_groups.nbIssues != 0 then
    invalidities.push inspection.colocated_points_groups.string else invalidities
  let invalidities := if inspection.degenerated_edges.nbIssues != 0 then
    invalidities.push inspection.degenerated_edges.string else invalidities
  invalidities

/-- `is_surface_valid`, surface_validity.cpp:34-81 (from the inspection result). -/
def isSurfaceValid (inspection : SurfaceInspectionResult) : ObjectValidity :=
  let invalidities : ObjectValidity := {}
  let invalidities := if inspection.polygon_edges_with_wrong_adjacency.nbIssues != 0 then
    invalidities.push inspection.polygon_edges_with_wrong_adjacency.string else invalidities
  let invalidities := if inspection.colocated_points_groups.nbIssues != 0 then
    invalidities.push inspection.colocated_points_groups.string else invalidities
  let invalidities := if inspection.degenerated_edges.nbIssues != 0 then
    invalidities.push inspection.degenerated_edges.string else invalidities
  let invalidities := if inspection.degenerated_polygons.nbIssues != 0 then
    invalidities.push inspection.degenerated_polygons.string else invalidities
  let invalidities := if inspection.non_manifold_edges.nbIssues != 0 then
    invalidities.push inspection.non_manifold_edges.string else invalidities
  let invalidities := if inspection.non_manifold_vertices.nbIssues != 0 then
    invalidities.push inspection.non_manifold_vertices.string else invalidities
  let invalidities := if inspection.intersecting_elements.nbIssues != 0 then
    invalidities.push inspection.intersecting_elements.string else invalidities
  let invalidities := if inspection.negative_polygons.nbIssues != 0 then
    invalidities.push inspection.negative_polygons.string else invalidities
  invalidities

/-- `is_solid_valid`, solid_validity.cpp:34-81 (from the inspection result). -/
def isSolidValid (inspection : SolidInspectionResult) : ObjectValidity :=
  let invalidities : ObjectValidity := {}
  let invalidities := if inspection.polyhedron_facets_with_wrong_adjacency.nbIssues != 0 then
    invalidities.push inspection.polyhedron_facets_with_wrong_adjacency.string else invalidities
  let invalidities := if inspection.colocated_points_groups.nbIssues != 0 then
    invalidities.push inspection.colocated_points_groups.string else invalidities
  let invalidities := if inspection.degenerated_edges.nbIssues != 0 then
    invalidities.push inspection.degenerated_edges.string else invalidities
  let invalidities := if inspection.degenerated_polyhedra.nbIssues != 0 then
    invalidities.push inspection.degenerated_polyhedra.string else invalidities
  let invalidities := if inspection.non_manifold_vertices.nbIssues != 0 then
    invalidities.push inspection.non_manifold_vertices.string else invalidities
  let invalidities := if inspection.non_manifold_edges.nbIssues != 0 then
    invalidities.push inspection.non_manifold_edges.string else invalidities
  let invalidities := if inspection.non_manifold_facets.nbIssues != 0 then
    invalidities.push inspection.non_manifold_facets.string else invalidities
  let invalidities := if inspection.negative_polyhedra.nbIssues != 0 then
    invalidities.push inspection.negative_polyhedra.string else invalidities
  invalidities

/-- `add_section_colocation_issues`, section_validity.cpp:33-55. -/
def addSectionColocationIssues (inspection : SectionMeshesInspectionResult) (invalidities : ObjectValidity) : ObjectValidity :=
  let invalidities := if inspection.unique_vertices_colocation.colocated_unique_vertices_groups.nbIssues > 0 then
    invalidities.push inspection.unique_vertices_colocation.colocated_unique_vertices_groups.string else invalidities
  let invalidities := if inspection.unique_vertices_colocation.unique_vertices_linked_to_different_points.nbIssues > 0 then
    invalidities.push inspection.unique_vertices_colocation.unique_vertices_linked_to_different_points.string else invalidities
  let invalidities := if inspection.meshes_colocation.colocated_points_groups.nbIssues > 0 then
    invalidities.push inspection.meshes_colocation.colocated_points_groups.string else invalidities
  invalidities

/-- `add_section_adjacencies_issues`, section_validity.cpp:57-67. -/
def addSectionAdjacenciesIssues (inspection : SectionMeshesInspectionResult) (invalidities : ObjectValidity) : ObjectValidity :=
  let invalidities := if inspection.meshes_adjacencies.surfaces_edges_with_wrong_adjacencies.nbIssues > 0 then
    invalidities.push inspection.meshes_adjacencies.surfaces_edges_with_wrong_adjacencies.string else invalidities
  invalidities

/-- `add_section_degeneration_issues`, section_validity.cpp:69-84. -/
def addSectionDegenerationIssues (inspection : SectionMeshesInspectionResult) (invalidities : ObjectValidity) : ObjectValidity :=
  let invalidities := if inspection.meshes_degenerations.degenerated_edges.nbIssues > 0 then
    invalidities.push inspection.meshes_degenerations.degenerated_edges.string else invalidities
  let invalidities := if inspection.meshes_degenerations.degenerated_polygons.nbIssues > 0 then
    invalidities.push inspection.meshes_degenerations.degenerated_polygons.string else invalidities
  invalidities

/-- `add_section_manifold_issues`, section_validity.cpp:86-101. -/
def addSectionManifoldIssues (inspection : SectionMeshesInspectionResult) (invalidities : ObjectValidity) : ObjectValidity :=
  let invalidities := if inspection.meshes_non_manifolds.meshes_non_manifold_vertices.nbIssues > 0 then
    invalidities.push inspection.meshes_non_manifolds.meshes_non_manifold_vertices.string else invalidities
  let invalidities := if inspection.meshes_non_manifolds.meshes_non_manifold_edges.nbIssues > 0 then
    invalidities.push inspection.meshes_non_manifolds.meshes_non_manifold_edges.string else invalidities
  invalidities

/-- `add_section_meshes_invalidities`, section_validity.cpp:103-123. -/
def addSectionMeshesInvalidities (inspection : SectionMeshesInspectionResult) (invalidities : ObjectValidity) : ObjectValidity :=
  let invalidities := addSectionColocationIssues inspection invalidities
  let invalidities := addSectionAdjacenciesIssues inspection invalidities
  let invalidities := addSectionDegenerationIssues inspection invalidities
  let invalidities := if inspection.meshes_intersections.elements_intersections.nbIssues > 0 then
    invalidities.push inspection.meshes_intersections.elements_intersections.string else invalidities
  let invalidities := addSectionManifoldIssues inspection invalidities
  let invalidities := if inspection.meshes_negative_elements.negative_polygons.nbIssues > 0 then
    invalidities.push inspection.meshes_negative_elements.negative_polygons.string else invalidities
  invalidities

/-- `add_section_corners_topology_issues`, section_validity.cpp:125-171. -/
def addSectionCornersTopologyIssues (inspection : SectionTopologyInspectionResult) (invalidities : ObjectValidity) : ObjectValidity :=
  let invalidities := if inspection.corners.corners_not_meshed.nbIssues > 0 then
    invalidities.push inspection.corners.corners_not_meshed.string else invalidities
  let invalidities := if inspection.corners.corners_not_linked_to_a_unique_vertex.nbIssues > 0 then
    invalidities.push inspection.corners.corners_not_linked_to_a_unique_vertex.string else invalidities
  let invalidities := if inspection.corners.unique_vertices_linked_to_multiple_corners.nbIssues > 0 then
    invalidities.push inspection.corners.unique_vertices_linked_to_multiple_corners.string else invalidities
  let invalidities := if inspection.corners.unique_vertices_linked_to_multiple_internals_corner.nbIssues > 0 then
    invalidities.push inspection.corners.unique_vertices_linked_to_multiple_internals_corner.string else invalidities
  let invalidities := if inspection.corners.unique_vertices_linked_to_not_internal_nor_boundary_corner.nbIssues > 0 then
    invalidities.push inspection.corners.unique_vertices_linked_to_not_internal_nor_boundary_corner.string else invalidities
  let invalidities := if inspection.corners.unique_vertices_linked_to_not_boundary_line_corner.nbIssues > 0 then
    invalidities.push inspection.corners.unique_vertices_linked_to_not_boundary_line_corner.string else invalidities
  invalidities

/-- `add_section_lines_topology_issues`, section_validity.cpp:173-222. -/
def addSectionLinesTopologyIssues (inspection : SectionTopologyInspectionResult) (invalidities : ObjectValidity) : ObjectValidity :=
  let invalidities := if inspection.lines.lines_not_meshed.nbIssues != 0 then
    invalidities.push inspection.lines.lines_not_meshed.string else invalidities
  let invalidities := if inspection.lines.lines_not_linked_to_a_unique_vertex.nbIssues != 0 then
    invalidities.push inspection.lines.lines_not_linked_to_a_unique_vertex.string else invalidities
  let invalidities := if inspection.lines.unique_vertices_linked_to_line_with_wrong_relationship_to_surface.nbIssues != 0 then
    invalidities.push inspection.lines.unique_vertices_linked_to_line_with_wrong_relationship_to_surface.string else invalidities
  let invalidities := if inspection.lines.unique_vertices_linked_to_a_line_with_invalid_embeddings.nbIssues != 0 then
    invalidities.push inspection.lines.unique_vertices_linked_to_a_line_with_invalid_embeddings.string else invalidities
  let invalidities := if inspection.lines.unique_vertices_linked_to_a_single_and_invalid_line.nbIssues != 0 then
    invalidities.push inspection.lines.unique_vertices_linked_to_a_single_and_invalid_line.string else invalidities
  let invalidities := if inspection.lines.unique_vertices_linked_to_several_lines_but_not_linked_to_a_corner.nbIssues != 0 then
    invalidities.push inspection.lines.unique_vertices_linked_to_several_lines_but_not_linked_to_a_corner.string else invalidities
  invalidities

/-- `add_section_surfaces_topology_issues`, section_validity.cpp:224-258. -/
def addSectionSurfacesTopologyIssues (inspection : SectionTopologyInspectionResult) (invalidities : ObjectValidity) : ObjectValidity :=
  let invalidities := if inspection.surfaces.surfaces_not_meshed.nbIssues != 0 then
    invalidities.push inspection.surfaces.surfaces_not_meshed.string else invalidities
  let invalidities := if inspection.surfaces.surfaces_not_linked_to_a_unique_vertex.nbIssues != 0 then
    invalidities.push inspection.surfaces.surfaces_not_linked_to_a_unique_vertex.string else invalidities
  let invalidities := if inspection.surfaces.unique_vertices_linked_to_a_surface_with_invalid_embbedings.nbIssues != 0 then
    invalidities.push inspection.surfaces.unique_vertices_linked_to_a_surface_with_invalid_embbedings.string else invalidities
  let invalidities := if inspection.surfaces.unique_vertices_linked_to_a_line_but_is_not_on_a_surface_border.nbIssues != 0 then
    invalidities.push inspection.surfaces.unique_vertices_linked_to_a_line_but_is_not_on_a_surface_border.string else invalidities
  invalidities

/-- `add_section_uv_topology_issues`, section_validity.cpp:260-282. -/
def addSectionUvTopologyIssues (inspection : SectionTopologyInspectionResult) (invalidities : ObjectValidity) : ObjectValidity :=
  let invalidities := if inspection.unique_vertices_not_linked_to_any_component.nbIssues != 0 then
    invalidities.push inspection.unique_vertices_not_linked_to_any_component.string else invalidities
  let invalidities := if inspection.unique_vertices_linked_to_inexistant_cmv.nbIssues != 0 then
    invalidities.push inspection.unique_vertices_linked_to_inexistant_cmv.string else invalidities
  let invalidities := if inspection.unique_vertices_nonbijectively_linked_to_cmv.nbIssues != 0 then
    invalidities.push inspection.unique_vertices_nonbijectively_linked_to_cmv.string else invalidities
  invalidities

/-- `add_section_topology_invalidities`, section_validity.cpp:284-292. -/
def addSectionTopologyInvalidities (inspection : SectionTopologyInspectionResult) (invalidities : ObjectValidity) : ObjectValidity :=
  let invalidities := addSectionCornersTopologyIssues inspection invalidities
  let invalidities := addSectionLinesTopologyIssues inspection invalidities
  let invalidities := addSectionSurfacesTopologyIssues inspection invalidities
  let invalidities := addSectionUvTopologyIssues inspection invalidities
  invalidities

/-- `is_section_valid`, section_validity.cpp:297-307 (from the inspection result). -/
def isSectionValid (inspection : SectionInspectionResult) : ObjectValidity :=
  let invalidities : ObjectValidity := {}
  let invalidities := addSectionMeshesInvalidities inspection.meshes invalidities
  let invalidities := addSectionTopologyInvalidities inspection.topology invalidities
  invalidities

/-- `add_brep_colocation_issues`, brep_validity.cpp:33-55. -/
def addBrepColocationIssues (inspection : BRepMeshesInspectionResult) (invalidities : ObjectValidity) : ObjectValidity :=
  let invalidities := if inspection.unique_vertices_colocation.colocated_unique_vertices_groups.nbIssues > 0 then
    invalidities.push inspection.unique_vertices_colocation.colocated_unique_vertices_groups.string else invalidities
  let invalidities := if inspection.unique_vertices_colocation.unique_vertices_linked_to_different_points.nbIssues > 0 then
    invalidities.push inspection.unique_vertices_colocation.unique_vertices_linked_to_different_points.string else invalidities
  let invalidities := if inspection.meshes_colocation.colocated_points_groups.nbIssues > 0 then
    invalidities.push inspection.meshes_colocation.colocated_points_groups.string else invalidities
  invalidities

/-- `add_brep_adjacencies_issues`, brep_validity.cpp:57-72. -/
def addBrepAdjacenciesIssues (inspection : BRepMeshesInspectionResult) (invalidities : ObjectValidity) : ObjectValidity :=
  let invalidities := if inspection.meshes_adjacencies.surfaces_edges_with_wrong_adjacencies.nbIssues > 0 then
    invalidities.push inspection.meshes_adjacencies.surfaces_edges_with_wrong_adjacencies.string else invalidities
  let invalidities := if inspection.meshes_adjacencies.blocks_facets_with_wrong_adjacencies.nbIssues > 0 then
    invalidities.push inspection.meshes_adjacencies.blocks_facets_with_wrong_adjacencies.string else invalidities
  invalidities

/-- `add_brep_degeneration_issues`, brep_validity.cpp:74-94. -/
def addBrepDegenerationIssues (inspection : BRepMeshesInspectionResult) (invalidities : ObjectValidity) : ObjectValidity :=
  let invalidities := if inspection.meshes_degenerations.degenerated_edges.nbIssues > 0 then
    invalidities.push inspection.meshes_degenerations.degenerated_edges.string else invalidities
  let invalidities := if inspection.meshes_degenerations.degenerated_polygons.nbIssues > 0 then
    invalidities.push inspection.meshes_degenerations.degenerated_polygons.string else invalidities
  let invalidities := if inspection.meshes_degenerations.degenerated_polyhedra.nbIssues > 0 then
    invalidities.push inspection.meshes_degenerations.degenerated_polyhedra.string else invalidities
  invalidities

/-- `add_brep_manifold_issues`, brep_validity.cpp:96-126. -/
def addBrepManifoldIssues (inspection : BRepMeshesInspectionResult) (invalidities : ObjectValidity) : ObjectValidity :=
  let invalidities := if inspection.meshes_non_manifolds.meshes_non_manifold_vertices.nbIssues > 0 then
    invalidities.push inspection.meshes_non_manifolds.meshes_non_manifold_vertices.string else invalidities
  let invalidities := if inspection.meshes_non_manifolds.meshes_non_manifold_edges.nbIssues > 0 then
    invalidities.push inspection.meshes_non_manifolds.meshes_non_manifold_edges.string else invalidities
  let invalidities := if inspection.meshes_non_manifolds.meshes_non_manifold_facets.nbIssues > 0 then
    invalidities.push inspection.meshes_non_manifolds.meshes_non_manifold_facets.string else invalidities
  let invalidities := if inspection.meshes_non_manifolds.brep_non_manifold_edges.nbIssues > 0 then
    invalidities.push inspection.meshes_non_manifolds.brep_non_manifold_edges.string else invalidities
  let invalidities := if inspection.meshes_non_manifolds.brep_non_manifold_facets.nbIssues > 0 then
    invalidities.push inspection.meshes_non_manifolds.brep_non_manifold_facets.string else invalidities
  invalidities

/-- `add_brep_meshes_invalidities`, brep_validity.cpp:128-148. -/
def addBrepMeshesInvalidities (inspection : BRepMeshesInspectionResult) (invalidities : ObjectValidity) : ObjectValidity :=
  let invalidities := addBrepColocationIssues inspection invalidities
  let invalidities := addBrepAdjacenciesIssues inspection invalidities
  let invalidities := addBrepDegenerationIssues inspection invalidities
  let invalidities := if inspection.meshes_intersections.elements_intersections.nbIssues > 0 then
    invalidities.push inspection.meshes_intersections.elements_intersections.string else invalidities
  let invalidities := addBrepManifoldIssues inspection invalidities
  let invalidities := if inspection.meshes_negative_elements.negative_polyhedra.nbIssues > 0 then
    invalidities.push inspection.meshes_negative_elements.negative_polyhedra.string else invalidities
  invalidities

/-- `add_brep_corners_topology_issues`, brep_validity.cpp:150-196. -/
def addBrepCornersTopologyIssues (inspection : BRepTopologyInspectionResult) (invalidities : ObjectValidity) : ObjectValidity :=
  let invalidities := if inspection.corners.corners_not_meshed.nbIssues > 0 then
    invalidities.push inspection.corners.corners_not_meshed.string else invalidities
  let invalidities := if inspection.corners.corners_not_linked_to_a_unique_vertex.nbIssues > 0 then
    invalidities.push inspection.corners.corners_not_linked_to_a_unique_vertex.string else invalidities
  let invalidities := if inspection.corners.unique_vertices_linked_to_multiple_corners.nbIssues > 0 then
    invalidities.push inspection.corners.unique_vertices_linked_to_multiple_corners.string else invalidities
  let invalidities := if inspection.corners.unique_vertices_linked_to_multiply_embedded_corner.nbIssues > 0 then
    invalidities.push inspection.corners.unique_vertices_linked_to_multiply_embedded_corner.string else invalidities
  let invalidities := if inspection.corners.unique_vertices_linked_to_not_internal_nor_boundary_corner.nbIssues > 0 then
    invalidities.push inspection.corners.unique_vertices_linked_to_not_internal_nor_boundary_corner.string else invalidities
  let invalidities := if inspection.corners.unique_vertices_linked_to_not_boundary_line_corner.nbIssues > 0 then
    invalidities.push inspection.corners.unique_vertices_linked_to_not_boundary_line_corner.string else invalidities
  invalidities

/-- `add_brep_lines_topology_issues`, brep_validity.cpp:198-253. -/
def addBrepLinesTopologyIssues (inspection : BRepTopologyInspectionResult) (invalidities : ObjectValidity) : ObjectValidity :=
  let invalidities := if inspection.lines.lines_not_meshed.nbIssues != 0 then
    invalidities.push inspection.lines.lines_not_meshed.string else invalidities
  let invalidities := if inspection.lines.unique_vertices_linked_to_line_with_wrong_relationship_to_surface.nbIssues != 0 then
    invalidities.push inspection.lines.unique_vertices_linked_to_line_with_wrong_relationship_to_surface.string else invalidities
  let invalidities := if inspection.lines.lines_not_linked_to_a_unique_vertex.nbIssues != 0 then
    invalidities.push inspection.lines.lines_not_linked_to_a_unique_vertex.string else invalidities
  let invalidities := if inspection.lines.unique_vertices_linked_to_a_line_with_invalid_embeddings.nbIssues != 0 then
    invalidities.push inspection.lines.unique_vertices_linked_to_a_line_with_invalid_embeddings.string else invalidities
  let invalidities := if inspection.lines.unique_vertices_linked_to_a_single_and_invalid_line.nbIssues != 0 then
    invalidities.push inspection.lines.unique_vertices_linked_to_a_single_and_invalid_line.string else invalidities
  let invalidities := if inspection.lines.unique_vertices_linked_to_several_lines_but_not_linked_to_a_corner.nbIssues != 0 then
    invalidities.push inspection.lines.unique_vertices_linked_to_several_lines_but_not_linked_to_a_corner.string else invalidities
  let invalidities := if inspection.lines.line_edges_with_wrong_component_edges_around.nbIssues != 0 then
    invalidities.push inspection.lines.line_edges_with_wrong_component_edges_around.string else invalidities
  invalidities

/-- `add_brep_surfaces_topology_issues`, brep_validity.cpp:255-305. -/
def addBrepSurfacesTopologyIssues (inspection : BRepTopologyInspectionResult) (invalidities : ObjectValidity) : ObjectValidity :=
  let invalidities := if inspection.surfaces.surfaces_not_meshed.nbIssues != 0 then
    invalidities.push inspection.surfaces.surfaces_not_meshed.string else invalidities
  let invalidities := if inspection.surfaces.surfaces_not_linked_to_a_unique_vertex.nbIssues != 0 then
    invalidities.push inspection.surfaces.surfaces_not_linked_to_a_unique_vertex.string else invalidities
  let invalidities := if inspection.surfaces.unique_vertices_linked_to_a_surface_with_invalid_embbedings.nbIssues != 0 then
    invalidities.push inspection.surfaces.unique_vertices_linked_to_a_surface_with_invalid_embbedings.string else invalidities
  let invalidities := if inspection.surfaces.unique_vertices_linked_to_several_and_invalid_surfaces.nbIssues != 0 then
    invalidities.push inspection.surfaces.unique_vertices_linked_to_several_and_invalid_surfaces.string else invalidities
  let invalidities := if inspection.surfaces.unique_vertices_linked_to_a_line_but_is_not_on_a_surface_border.nbIssues != 0 then
    invalidities.push inspection.surfaces.unique_vertices_linked_to_a_line_but_is_not_on_a_surface_border.string else invalidities
  let invalidities := if inspection.surfaces.surface_polygons_with_wrong_component_facets_around.nbIssues != 0 then
    invalidities.push inspection.surfaces.surface_polygons_with_wrong_component_facets_around.string else invalidities
  invalidities

/-- `add_brep_blocks_topology_issues`, brep_validity.cpp:307-380. -/
def addBrepBlocksTopologyIssues (inspection : BRepTopologyInspectionResult) (invalidities : ObjectValidity) : ObjectValidity :=
  let invalidities := if inspection.blocks.some_blocks_not_meshed.nbIssues != 0 then
    invalidities.push inspection.blocks.some_blocks_not_meshed.string else invalidities
  let invalidities := if inspection.blocks.wrong_block_boundary_surface.nbIssues != 0 then
    invalidities.push inspection.blocks.wrong_block_boundary_surface.string else invalidities
  let invalidities := if inspection.blocks.blocks_not_linked_to_a_unique_vertex.nbIssues != 0 then
    invalidities.push inspection.blocks.blocks_not_linked_to_a_unique_vertex.string else invalidities
  let invalidities := if inspection.blocks.unique_vertices_part_of_two_blocks_and_no_boundary_surface.nbIssues != 0 then
    invalidities.push inspection.blocks.unique_vertices_part_of_two_blocks_and_no_boundary_surface.string else invalidities
  let invalidities := if inspection.blocks.unique_vertices_with_incorrect_block_cmvs_count.nbIssues != 0 then
    invalidities.push inspection.blocks.unique_vertices_with_incorrect_block_cmvs_count.string else invalidities
  let invalidities := if inspection.blocks.unique_vertices_linked_to_surface_with_wrong_relationship_to_blocks.nbIssues != 0 then
    invalidities.push inspection.blocks.unique_vertices_linked_to_surface_with_wrong_relationship_to_blocks.string else invalidities
  let invalidities := if inspection.blocks.unique_vertices_linked_to_a_single_and_invalid_surface.nbIssues != 0 then
    invalidities.push inspection.blocks.unique_vertices_linked_to_a_single_and_invalid_surface.string else invalidities
  let invalidities := if inspection.blocks.blocks_with_not_closed_boundary_surfaces.nbIssues != 0 then
    invalidities.push inspection.blocks.blocks_with_not_closed_boundary_surfaces.string else invalidities
  let invalidities := if inspection.blocks.model_boundaries_dont_form_a_closed_surface.nbIssues != 0 then
    invalidities.push inspection.blocks.model_boundaries_dont_form_a_closed_surface.string else invalidities
  let invalidities := if inspection.blocks.unique_vertex_linked_to_multiple_invalid_surfaces.nbIssues != 0 then
    invalidities.push inspection.blocks.unique_vertex_linked_to_multiple_invalid_surfaces.string else invalidities
  invalidities

/-- `add_brep_uv_topology_issues`, brep_validity.cpp:382-404. -/
def addBrepUvTopologyIssues (inspection : BRepTopologyInspectionResult) (invalidities : ObjectValidity) : ObjectValidity :=
  let invalidities := if inspection.unique_vertices_not_linked_to_any_component.nbIssues != 0 then
    invalidities.push inspection.unique_vertices_not_linked_to_any_component.string else invalidities
  let invalidities := if inspection.unique_vertices_linked_to_inexistant_cmv.nbIssues != 0 then
    invalidities.push inspection.unique_vertices_linked_to_inexistant_cmv.string else invalidities
  let invalidities := if inspection.unique_vertices_nonbijectively_linked_to_cmv.nbIssues != 0 then
    invalidities.push inspection.unique_vertices_nonbijectively_linked_to_cmv.string else invalidities
  invalidities

/-- `add_brep_topology_invalidities`, brep_validity.cpp:406-415. -/
def addBrepTopologyInvalidities (inspection : BRepTopologyInspectionResult) (invalidities : ObjectValidity) : ObjectValidity :=
  let invalidities := addBrepCornersTopologyIssues inspection invalidities
  let invalidities := addBrepLinesTopologyIssues inspection invalidities
  let invalidities := addBrepSurfacesTopologyIssues inspection invalidities
  let invalidities := addBrepBlocksTopologyIssues inspection invalidities
  let invalidities := addBrepUvTopologyIssues inspection invalidities
  invalidities

/-- `is_brep_valid`, brep_validity.cpp:420-429 (from the inspection result). -/
def isBRepValid (inspection : BRepInspectionResult) : ObjectValidity :=
  let invalidities : ObjectValidity := {}
  let invalidities := addBrepMeshesInvalidities inspection.meshes invalidities
  let invalidities := addBrepTopologyInvalidities inspection.topology invalidities
  invalidities

end Inspector
