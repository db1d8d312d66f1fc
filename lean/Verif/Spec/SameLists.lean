import Verif.Spec.Plain
/-
Specification side of C101 and C102: two results tell the same issues.
-/
namespace Inspector.Spec

/-- Two maps have the same components in the same order, with lists in relation `R`. -/
def SameEntries {α : Type} (R : List α → List α → Prop) (map map' : IssuesMap α) : Prop :=
  List.Forall₂ (fun e e' => e.1 = e'.1 ∧ R e.2.issues e'.2.issues) map.entries map'.entries

/-- Two edged curve inspections tell the same issues. -/
structure SameCurveLists (r r' : EdgedCurveInspectionResult) : Prop where
  colocation : r.colocated_points_groups.issues.Perm r'.colocated_points_groups.issues
  edges : r.degenerated_edges.issues = r'.degenerated_edges.issues

/-- Two surface inspections tell the same issues, in the same order but for groups of vertices and non manifold edges;
the intersecting pairs are the same, each in one order or the other. -/
structure SameSurfaceLists (r r' : SurfaceInspectionResult) : Prop where
  adjacency : r.polygon_edges_with_wrong_adjacency.issues = r'.polygon_edges_with_wrong_adjacency.issues
  colocation : r.colocated_points_groups.issues.Perm r'.colocated_points_groups.issues
  edges : r.degenerated_edges.issues = r'.degenerated_edges.issues
  polygons : r.degenerated_polygons.issues = r'.degenerated_polygons.issues
  manifoldEdges : r.non_manifold_edges.issues.Perm r'.non_manifold_edges.issues
  manifoldVertices : r.non_manifold_vertices.issues = r'.non_manifold_vertices.issues
  intersecting : ∀ p q, ((p, q) ∈ r.intersecting_elements.issues ∨ (q, p) ∈ r.intersecting_elements.issues) ↔
    ((p, q) ∈ r'.intersecting_elements.issues ∨ (q, p) ∈ r'.intersecting_elements.issues)
  negative : r.negative_polygons.issues = r'.negative_polygons.issues

/-- Two solid inspections tell the same issues, in the same order but for groups of vertices and non manifold edges and
facets. -/
structure SameSolidLists (r r' : SolidInspectionResult) : Prop where
  adjacency : r.polyhedron_facets_with_wrong_adjacency.issues = r'.polyhedron_facets_with_wrong_adjacency.issues
  colocation : r.colocated_points_groups.issues.Perm r'.colocated_points_groups.issues
  edges : r.degenerated_edges.issues = r'.degenerated_edges.issues
  polyhedra : r.degenerated_polyhedra.issues = r'.degenerated_polyhedra.issues
  manifoldVertices : r.non_manifold_vertices.issues = r'.non_manifold_vertices.issues
  manifoldEdges : r.non_manifold_edges.issues.Perm r'.non_manifold_edges.issues
  manifoldFacets : r.non_manifold_facets.issues.Perm r'.non_manifold_facets.issues
  negative : r.negative_polyhedra.issues = r'.negative_polyhedra.issues

/-- Two inspections of the unique vertices of a model tell the same issues. -/
structure SameUniqueVerticesLists (r r' : UniqueVerticesInspectionResult) : Prop where
  points : r.unique_vertices_linked_to_different_points.issues = r'.unique_vertices_linked_to_different_points.issues
  colocated : r.colocated_unique_vertices_groups.issues.Perm r'.colocated_unique_vertices_groups.issues

/-- Two inspections of the topology of a Section tell the same issues in the same order. -/
structure SameSectionTopologyLists (r r' : SectionTopologyInspectionResult) : Prop where
  notLinked : r.unique_vertices_not_linked_to_any_component.issues =
    r'.unique_vertices_not_linked_to_any_component.issues
  inexistent : r.unique_vertices_linked_to_inexistant_cmv.issues = r'.unique_vertices_linked_to_inexistant_cmv.issues
  nonBijective : r.unique_vertices_nonbijectively_linked_to_cmv.issues =
    r'.unique_vertices_nonbijectively_linked_to_cmv.issues
  corners : r.corners.corners_not_meshed.issues = r'.corners.corners_not_meshed.issues ∧
    SameEntries (· = ·) r.corners.corners_not_linked_to_a_unique_vertex
      r'.corners.corners_not_linked_to_a_unique_vertex ∧
    r.corners.unique_vertices_linked_to_multiple_corners.issues =
      r'.corners.unique_vertices_linked_to_multiple_corners.issues ∧
    r.corners.unique_vertices_linked_to_multiple_internals_corner.issues =
      r'.corners.unique_vertices_linked_to_multiple_internals_corner.issues ∧
    r.corners.unique_vertices_linked_to_not_internal_nor_boundary_corner.issues =
      r'.corners.unique_vertices_linked_to_not_internal_nor_boundary_corner.issues ∧
    r.corners.unique_vertices_linked_to_not_boundary_line_corner.issues =
      r'.corners.unique_vertices_linked_to_not_boundary_line_corner.issues
  lines : r.lines.lines_not_meshed.issues = r'.lines.lines_not_meshed.issues ∧
    SameEntries (· = ·) r.lines.lines_not_linked_to_a_unique_vertex r'.lines.lines_not_linked_to_a_unique_vertex ∧
    r.lines.unique_vertices_linked_to_line_with_wrong_relationship_to_surface.issues =
      r'.lines.unique_vertices_linked_to_line_with_wrong_relationship_to_surface.issues ∧
    r.lines.unique_vertices_linked_to_a_line_with_invalid_embeddings.issues =
      r'.lines.unique_vertices_linked_to_a_line_with_invalid_embeddings.issues ∧
    r.lines.unique_vertices_linked_to_a_single_and_invalid_line.issues =
      r'.lines.unique_vertices_linked_to_a_single_and_invalid_line.issues ∧
    r.lines.unique_vertices_linked_to_several_lines_but_not_linked_to_a_corner.issues =
      r'.lines.unique_vertices_linked_to_several_lines_but_not_linked_to_a_corner.issues
  surfaces : r.surfaces.surfaces_not_meshed.issues = r'.surfaces.surfaces_not_meshed.issues ∧
    SameEntries (· = ·) r.surfaces.surfaces_not_linked_to_a_unique_vertex
      r'.surfaces.surfaces_not_linked_to_a_unique_vertex ∧
    r.surfaces.unique_vertices_linked_to_a_surface_with_invalid_embbedings.issues =
      r'.surfaces.unique_vertices_linked_to_a_surface_with_invalid_embbedings.issues ∧
    r.surfaces.unique_vertices_linked_to_a_line_but_is_not_on_a_surface_border.issues =
      r'.surfaces.unique_vertices_linked_to_a_line_but_is_not_on_a_surface_border.issues

/-- Two inspections of the topology of a BRep tell the same issues in the same order. -/
structure SameBRepTopologyLists (r r' : BRepTopologyInspectionResult) : Prop where
  notLinked : r.unique_vertices_not_linked_to_any_component.issues =
    r'.unique_vertices_not_linked_to_any_component.issues
  inexistent : r.unique_vertices_linked_to_inexistant_cmv.issues = r'.unique_vertices_linked_to_inexistant_cmv.issues
  nonBijective : r.unique_vertices_nonbijectively_linked_to_cmv.issues =
    r'.unique_vertices_nonbijectively_linked_to_cmv.issues
  corners : r.corners.corners_not_meshed.issues = r'.corners.corners_not_meshed.issues ∧
    SameEntries (· = ·) r.corners.corners_not_linked_to_a_unique_vertex
      r'.corners.corners_not_linked_to_a_unique_vertex ∧
    r.corners.unique_vertices_linked_to_multiple_corners.issues =
      r'.corners.unique_vertices_linked_to_multiple_corners.issues ∧
    r.corners.unique_vertices_linked_to_multiply_embedded_corner.issues =
      r'.corners.unique_vertices_linked_to_multiply_embedded_corner.issues ∧
    r.corners.unique_vertices_linked_to_not_internal_nor_boundary_corner.issues =
      r'.corners.unique_vertices_linked_to_not_internal_nor_boundary_corner.issues ∧
    r.corners.unique_vertices_linked_to_not_boundary_line_corner.issues =
      r'.corners.unique_vertices_linked_to_not_boundary_line_corner.issues
  lines : r.lines.lines_not_meshed.issues = r'.lines.lines_not_meshed.issues ∧
    SameEntries (· = ·) r.lines.lines_not_linked_to_a_unique_vertex r'.lines.lines_not_linked_to_a_unique_vertex ∧
    SameEntries (· = ·) r.lines.line_edges_with_wrong_component_edges_around
      r'.lines.line_edges_with_wrong_component_edges_around ∧
    r.lines.unique_vertices_linked_to_a_line_with_invalid_embeddings.issues =
      r'.lines.unique_vertices_linked_to_a_line_with_invalid_embeddings.issues ∧
    r.lines.unique_vertices_linked_to_line_with_wrong_relationship_to_surface.issues =
      r'.lines.unique_vertices_linked_to_line_with_wrong_relationship_to_surface.issues ∧
    r.lines.unique_vertices_linked_to_a_single_and_invalid_line.issues =
      r'.lines.unique_vertices_linked_to_a_single_and_invalid_line.issues ∧
    r.lines.unique_vertices_linked_to_several_lines_but_not_linked_to_a_corner.issues =
      r'.lines.unique_vertices_linked_to_several_lines_but_not_linked_to_a_corner.issues
  surfaces : r.surfaces.surfaces_not_meshed.issues = r'.surfaces.surfaces_not_meshed.issues ∧
    SameEntries (· = ·) r.surfaces.surfaces_not_linked_to_a_unique_vertex
      r'.surfaces.surfaces_not_linked_to_a_unique_vertex ∧
    SameEntries (· = ·) r.surfaces.surface_polygons_with_wrong_component_facets_around
      r'.surfaces.surface_polygons_with_wrong_component_facets_around ∧
    r.surfaces.unique_vertices_linked_to_a_surface_with_invalid_embbedings.issues =
      r'.surfaces.unique_vertices_linked_to_a_surface_with_invalid_embbedings.issues ∧
    r.surfaces.unique_vertices_linked_to_several_and_invalid_surfaces.issues =
      r'.surfaces.unique_vertices_linked_to_several_and_invalid_surfaces.issues ∧
    r.surfaces.unique_vertices_linked_to_a_line_but_is_not_on_a_surface_border.issues =
      r'.surfaces.unique_vertices_linked_to_a_line_but_is_not_on_a_surface_border.issues
  blocks : r.blocks.some_blocks_not_meshed.issues = r'.blocks.some_blocks_not_meshed.issues ∧
    SameEntries (· = ·) r.blocks.blocks_not_linked_to_a_unique_vertex r'.blocks.blocks_not_linked_to_a_unique_vertex ∧
    r.blocks.model_boundaries_dont_form_a_closed_surface.issues =
      r'.blocks.model_boundaries_dont_form_a_closed_surface.issues ∧
    r.blocks.blocks_with_not_closed_boundary_surfaces.issues =
      r'.blocks.blocks_with_not_closed_boundary_surfaces.issues ∧
    r.blocks.wrong_block_boundary_surface.issues = r'.blocks.wrong_block_boundary_surface.issues ∧
    r.blocks.unique_vertices_part_of_two_blocks_and_no_boundary_surface.issues =
      r'.blocks.unique_vertices_part_of_two_blocks_and_no_boundary_surface.issues ∧
    r.blocks.unique_vertices_with_incorrect_block_cmvs_count.issues =
      r'.blocks.unique_vertices_with_incorrect_block_cmvs_count.issues ∧
    r.blocks.unique_vertices_linked_to_a_single_and_invalid_surface.issues =
      r'.blocks.unique_vertices_linked_to_a_single_and_invalid_surface.issues ∧
    r.blocks.unique_vertices_linked_to_surface_with_wrong_relationship_to_blocks.issues =
      r'.blocks.unique_vertices_linked_to_surface_with_wrong_relationship_to_blocks.issues ∧
    r.blocks.unique_vertex_linked_to_multiple_invalid_surfaces.issues =
      r'.blocks.unique_vertex_linked_to_multiple_invalid_surfaces.issues

/-- Two inspections of the meshes of a Section tell the same issues; the groups of colocated vertices are as many, in the same
components. -/
structure SameSectionMeshesLists (r r' : SectionMeshesInspectionResult) : Prop where
  uniqueVertices : SameUniqueVerticesLists r.unique_vertices_colocation r'.unique_vertices_colocation
  colocation : SameEntries (fun l l' => l.length = l'.length) r.meshes_colocation.colocated_points_groups
    r'.meshes_colocation.colocated_points_groups
  adjacency : SameEntries (· = ·) r.meshes_adjacencies.surfaces_edges_with_wrong_adjacencies
    r'.meshes_adjacencies.surfaces_edges_with_wrong_adjacencies
  edges : SameEntries (· = ·) r.meshes_degenerations.degenerated_edges r'.meshes_degenerations.degenerated_edges
  polygons : SameEntries (· = ·) r.meshes_degenerations.degenerated_polygons
    r'.meshes_degenerations.degenerated_polygons
  intersections : r.meshes_intersections.elements_intersections.issues.Perm
    r'.meshes_intersections.elements_intersections.issues
  manifoldVertices : SameEntries (· = ·) r.meshes_non_manifolds.meshes_non_manifold_vertices
    r'.meshes_non_manifolds.meshes_non_manifold_vertices
  manifoldEdges : SameEntries List.Perm r.meshes_non_manifolds.meshes_non_manifold_edges
    r'.meshes_non_manifolds.meshes_non_manifold_edges
  negative : SameEntries (· = ·) r.meshes_negative_elements.negative_polygons
    r'.meshes_negative_elements.negative_polygons

/-- Two inspections of the meshes of a BRep tell the same issues. -/
structure SameBRepMeshesLists (r r' : BRepMeshesInspectionResult) : Prop where
  uniqueVertices : SameUniqueVerticesLists r.unique_vertices_colocation r'.unique_vertices_colocation
  colocation : SameEntries (fun l l' => l.length = l'.length) r.meshes_colocation.colocated_points_groups
    r'.meshes_colocation.colocated_points_groups
  surfaceAdjacency : SameEntries (· = ·) r.meshes_adjacencies.surfaces_edges_with_wrong_adjacencies
    r'.meshes_adjacencies.surfaces_edges_with_wrong_adjacencies
  blockAdjacency : SameEntries (· = ·) r.meshes_adjacencies.blocks_facets_with_wrong_adjacencies
    r'.meshes_adjacencies.blocks_facets_with_wrong_adjacencies
  edges : SameEntries (· = ·) r.meshes_degenerations.degenerated_edges r'.meshes_degenerations.degenerated_edges
  polygons : SameEntries (· = ·) r.meshes_degenerations.degenerated_polygons
    r'.meshes_degenerations.degenerated_polygons
  polyhedra : SameEntries (· = ·) r.meshes_degenerations.degenerated_polyhedra
    r'.meshes_degenerations.degenerated_polyhedra
  intersections : r.meshes_intersections.elements_intersections.issues.Perm
    r'.meshes_intersections.elements_intersections.issues
  manifoldVertices : SameEntries (· = ·) r.meshes_non_manifolds.meshes_non_manifold_vertices
    r'.meshes_non_manifolds.meshes_non_manifold_vertices
  manifoldEdges : SameEntries List.Perm r.meshes_non_manifolds.meshes_non_manifold_edges
    r'.meshes_non_manifolds.meshes_non_manifold_edges
  manifoldFacets : SameEntries List.Perm r.meshes_non_manifolds.meshes_non_manifold_facets
    r'.meshes_non_manifolds.meshes_non_manifold_facets
  modelEdges : r.meshes_non_manifolds.brep_non_manifold_edges.issues.Perm
    r'.meshes_non_manifolds.brep_non_manifold_edges.issues
  modelFacets : r.meshes_non_manifolds.brep_non_manifold_facets.issues =
    r'.meshes_non_manifolds.brep_non_manifold_facets.issues
  negative : SameEntries (· = ·) r.meshes_negative_elements.negative_polyhedra
    r'.meshes_negative_elements.negative_polyhedra

end Inspector.Spec
