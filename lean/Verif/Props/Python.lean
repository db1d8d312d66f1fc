import Verif.Proofs.Python
import Verif.Props.WholeModel
/-
Property C107: what a Python program learns from the results.
-/
namespace Inspector
open Spec

/-- **C107**, lists: the methods `nb_issues` and `string` of a list read in Python give the number of its issues (of components
with issues, for a map) on 32 bits, and its text. -/
theorem C107_lists (o : PyValue) (n : Nat) (t : String) (h : Counts o n t) :
    o.nbIssues = some (UInt32.ofNat n) ∧ o.string = t := by
  cases o with
  | object => exact h.elim
  | _ =>
    obtain ⟨rfl, rfl⟩ := h
    exact ⟨rfl, rfl⟩

/-- a list of two issues -/
example : Counts (.indices (((Issues.new "d").add 4 "a").add 7 "b")) 2 "2 issues with d\n\ta\n\tb\n" :=
  ⟨rfl, by decide +kernel⟩

/-- **C107**, `PointSetInspectionResult`: Python can read every list, under its C++ name; when they are all empty, the result has
no issue. -/
theorem C107_point_set (r : PointSetInspectionResult) :
    Offers r.python
       [("colocated_points_groups", .groups r.colocated_points_groups)] ∧
    (Silent r.python → r.nbIssues = 0) :=
  ⟨Python.offers_of (by simp only [List.map_cons, List.map_nil]; decide)
    (fun _ => Iff.rfl), Python.PointSet_count⟩

/-- **C107**, `EdgedCurveInspectionResult`: Python can read every list, under its C++ name; when they are all empty, the result has
no issue. -/
theorem C107_curve (r : EdgedCurveInspectionResult) :
    Offers r.python
       [("colocated_points_groups", .groups r.colocated_points_groups),
        ("degenerated_edges", .indices r.degenerated_edges)] ∧
    (Silent r.python → r.nbIssues = 0) :=
  ⟨Python.offers_of (by simp only [List.map_cons, List.map_nil]; decide)
    (fun _ => Iff.rfl), Python.EdgedCurve_count⟩

/-- **C107**, `SurfaceInspectionResult`: the lists Python can read, under their C++ names; when they are all empty at any depth, the
issues of the result are those of the list Python cannot read. -/
theorem C107_surface_partial (r : SurfaceInspectionResult) :
    Offers r.python
       [("polygon_edges_with_wrong_adjacency", .pairs r.polygon_edges_with_wrong_adjacency),
        ("colocated_points_groups", .groups r.colocated_points_groups),
        ("degenerated_edges", .indices r.degenerated_edges),
        ("degenerated_polygons", .indices r.degenerated_polygons),
        ("non_manifold_edges", .pairs r.non_manifold_edges),
        ("non_manifold_vertices", .indices r.non_manifold_vertices),
        ("intersecting_elements", .pairs r.intersecting_elements)] ∧
    (Silent r.python → r.nbIssues = r.negative_polygons.nbIssues) :=
  ⟨Python.offers_of (by simp only [List.map_cons, List.map_nil]; decide)
    (fun _ => Iff.rfl), Python.Surface_count⟩

/-- **C107**, `SolidInspectionResult`: the lists Python can read, under their C++ names; when they are all empty at any depth, the
issues of the result are those of the list Python cannot read. -/
theorem C107_solid_partial (r : SolidInspectionResult) :
    Offers r.python
       [("polyhedron_facets_with_wrong_adjacency", .pairs r.polyhedron_facets_with_wrong_adjacency),
        ("colocated_points_groups", .groups r.colocated_points_groups),
        ("degenerated_edges", .indices r.degenerated_edges),
        ("degenerated_polyhedra", .indices r.degenerated_polyhedra),
        ("non_manifold_vertices", .indices r.non_manifold_vertices),
        ("non_manifold_edges", .pairs r.non_manifold_edges),
        ("non_manifold_facets", .groups r.non_manifold_facets)] ∧
    (Silent r.python → r.nbIssues = r.negative_polyhedra.nbIssues) :=
  ⟨Python.offers_of (by simp only [List.map_cons, List.map_nil]; decide)
    (fun _ => Iff.rfl), Python.Solid_count⟩

/-- **C107**, `UniqueVerticesInspectionResult`: Python can read every list, under its C++ name; when they are all empty, the result has
no issue. -/
theorem C107_unique_vertices (r : UniqueVerticesInspectionResult) :
    Offers r.python
       [("colocated_unique_vertices_groups", .groups r.colocated_unique_vertices_groups),
        ("unique_vertices_linked_to_different_points", .indices r.unique_vertices_linked_to_different_points)] ∧
    (Silent r.python → r.nbIssues = 0) :=
  ⟨Python.offers_of (by simp only [List.map_cons, List.map_nil]; decide)
    (fun _ => Iff.rfl), Python.UniqueVertices_count⟩

/-- **C107**, `MeshesColocationInspectionResult`: Python can read every list, under its C++ name; when they are all empty, the result has
no issue. -/
theorem C107_colocation (r : MeshesColocationInspectionResult) :
    Offers r.python
       [("colocated_points_groups", .groupsMap r.colocated_points_groups)] ∧
    (Silent r.python → r.nbIssues = 0) :=
  ⟨Python.offers_of (by simp only [List.map_cons, List.map_nil]; decide)
    (fun _ => Iff.rfl), Python.MeshesColocation_count⟩

/-- **C107**, `SectionMeshesAdjacencyInspectionResult`: Python can read every list, under its C++ name; when they are all empty, the result has
no issue. -/
theorem C107_section_adjacency (r : SectionMeshesAdjacencyInspectionResult) :
    Offers r.python
       [("surfaces_edges_with_wrong_adjacencies", .pairsMap r.surfaces_edges_with_wrong_adjacencies)] ∧
    (Silent r.python → r.nbIssues = 0) :=
  ⟨Python.offers_of (by simp only [List.map_cons, List.map_nil]; decide)
    (fun _ => Iff.rfl), Python.SectionMeshesAdjacency_count⟩

/-- **C107**, `BRepMeshesAdjacencyInspectionResult`: Python can read every list, under its C++ name; when they are all empty, the result has
no issue. -/
theorem C107_brep_adjacency (r : BRepMeshesAdjacencyInspectionResult) :
    Offers r.python
       [("surfaces_edges_with_wrong_adjacencies", .pairsMap r.surfaces_edges_with_wrong_adjacencies),
        ("blocks_facets_with_wrong_adjacencies", .pairsMap r.blocks_facets_with_wrong_adjacencies)] ∧
    (Silent r.python → r.nbIssues = 0) :=
  ⟨Python.offers_of (by simp only [List.map_cons, List.map_nil]; decide)
    (fun _ => Iff.rfl), Python.BRepMeshesAdjacency_count⟩

/-- **C107**, `SectionMeshesDegenerationInspectionResult`: Python can read every list, under its C++ name; when they are all empty, the result has
no issue. -/
theorem C107_section_degeneration (r : SectionMeshesDegenerationInspectionResult) :
    Offers r.python
       [("degenerated_edges", .indicesMap r.degenerated_edges),
        ("degenerated_polygons", .indicesMap r.degenerated_polygons)] ∧
    (Silent r.python → r.nbIssues = 0) :=
  ⟨Python.offers_of (by simp only [List.map_cons, List.map_nil]; decide)
    (fun _ => Iff.rfl), Python.SectionMeshesDegeneration_count⟩

/-- **C107**, `BRepMeshesDegenerationInspectionResult`: Python can read every list, under its C++ name; when they are all empty, the result has
no issue. -/
theorem C107_brep_degeneration (r : BRepMeshesDegenerationInspectionResult) :
    Offers r.python
       [("degenerated_edges", .indicesMap r.degenerated_edges),
        ("degenerated_polygons", .indicesMap r.degenerated_polygons),
        ("degenerated_polyhedra", .indicesMap r.degenerated_polyhedra)] ∧
    (Silent r.python → r.nbIssues = 0) :=
  ⟨Python.offers_of (by simp only [List.map_cons, List.map_nil]; decide)
    (fun _ => Iff.rfl), Python.BRepMeshesDegeneration_count⟩

/-- **C107**, `ElementsIntersectionsInspectionResult`: Python can read every list, under its C++ name; when they are all empty, the result has
no issue. -/
theorem C107_intersections (r : ElementsIntersectionsInspectionResult) :
    Offers r.python
       [("elements_intersections", .elements r.elements_intersections)] ∧
    (Silent r.python → r.nbIssues = 0) :=
  ⟨Python.offers_of (by simp only [List.map_cons, List.map_nil]; decide)
    (fun _ => Iff.rfl), Python.ElementsIntersections_count⟩

/-- **C107**, `SectionMeshesManifoldInspectionResult`: Python can read every list, under its C++ name; when they are all empty, the result has
no issue. -/
theorem C107_section_manifold (r : SectionMeshesManifoldInspectionResult) :
    Offers r.python
       [("meshes_non_manifold_vertices", .indicesMap r.meshes_non_manifold_vertices),
        ("meshes_non_manifold_edges", .pairsMap r.meshes_non_manifold_edges)] ∧
    (Silent r.python → r.nbIssues = 0) :=
  ⟨Python.offers_of (by simp only [List.map_cons, List.map_nil]; decide)
    (fun _ => Iff.rfl), Python.SectionMeshesManifold_count⟩

/-- **C107**, `BRepMeshesManifoldInspectionResult`: the lists Python can read, under their C++ names; when they are all empty at any depth, the
issues of the result are those of the list Python cannot read. -/
theorem C107_brep_manifold_partial (r : BRepMeshesManifoldInspectionResult) :
    Offers r.python
       [("meshes_non_manifold_vertices", .indicesMap r.meshes_non_manifold_vertices),
        ("meshes_non_manifold_edges", .pairsMap r.meshes_non_manifold_edges),
        ("meshes_non_manifold_facets", .groupsMap r.meshes_non_manifold_facets),
        ("brep_non_manifold_edges", .edges r.brep_non_manifold_edges)] ∧
    (Silent r.python → r.nbIssues = r.brep_non_manifold_facets.nbIssues) :=
  ⟨Python.offers_of (by simp only [List.map_cons, List.map_nil]; decide)
    (fun _ => Iff.rfl), Python.BRepMeshesManifold_count⟩

/-- **C107**, `SectionMeshesInspectionResult`: the lists Python can read, under their C++ names; when they are all empty at any depth, the
issues of the result are those of the list Python cannot read. -/
theorem C107_section_meshes_partial (r : SectionMeshesInspectionResult) :
    Offers r.python
       [("unique_vertices_colocation", r.unique_vertices_colocation.python),
        ("meshes_colocation", r.meshes_colocation.python),
        ("meshes_adjacencies", r.meshes_adjacencies.python),
        ("meshes_degenerations", r.meshes_degenerations.python),
        ("meshes_intersections", r.meshes_intersections.python),
        ("meshes_non_manifolds", r.meshes_non_manifolds.python)] ∧
    (Silent r.python → r.nbIssues = r.meshes_negative_elements.nbIssues) :=
  ⟨Python.offers_of (by simp only [List.map_cons, List.map_nil]; decide)
    (fun _ => Iff.rfl), Python.SectionMeshes_count⟩

/-- **C107**, `BRepMeshesInspectionResult`: the lists Python can read, under their C++ names; when they are all empty at any depth, the
issues of the result are those of the lists Python cannot read. -/
theorem C107_brep_meshes_partial (r : BRepMeshesInspectionResult) :
    Offers r.python
       [("unique_vertices_colocation", r.unique_vertices_colocation.python),
        ("meshes_colocation", r.meshes_colocation.python),
        ("meshes_adjacencies", r.meshes_adjacencies.python),
        ("meshes_degenerations", r.meshes_degenerations.python),
        ("meshes_intersections", r.meshes_intersections.python),
        ("meshes_non_manifolds", r.meshes_non_manifolds.python)] ∧
    (Silent r.python → r.nbIssues = r.meshes_non_manifolds.brep_non_manifold_facets.nbIssues + r.meshes_negative_elements.nbIssues) :=
  ⟨Python.offers_of (by simp only [List.map_cons, List.map_nil]; decide)
    (fun _ => Iff.rfl), Python.BRepMeshes_count⟩

/-- **C107**, `SectionCornersTopologyInspectionResult`: Python can read every list, under its C++ name; when they are all empty, the result has
no issue. -/
theorem C107_section_corners (r : SectionCornersTopologyInspectionResult) :
    Offers r.python
       [("corners_not_meshed", .uuids r.corners_not_meshed),
        ("corners_not_linked_to_a_unique_vertex", .indicesMap r.corners_not_linked_to_a_unique_vertex),
        ("unique_vertices_linked_to_multiple_corners", .indices r.unique_vertices_linked_to_multiple_corners),
        ("unique_vertices_linked_to_multiple_internals_corner", .indices r.unique_vertices_linked_to_multiple_internals_corner),
        ("unique_vertices_linked_to_not_internal_nor_boundary_corner", .indices r.unique_vertices_linked_to_not_internal_nor_boundary_corner),
        ("unique_vertices_linked_to_not_boundary_line_corner", .indices r.unique_vertices_linked_to_not_boundary_line_corner)] ∧
    (Silent r.python → r.nbIssues = 0) :=
  ⟨Python.offers_of (by simp only [List.map_cons, List.map_nil]; decide)
    (fun _ => Iff.rfl), Python.SectionCornersTopology_count⟩

/-- **C107**, `BRepCornersTopologyInspectionResult`: Python can read every list, under its C++ name; when they are all empty, the result has
no issue. -/
theorem C107_brep_corners (r : BRepCornersTopologyInspectionResult) :
    Offers r.python
       [("corners_not_meshed", .uuids r.corners_not_meshed),
        ("corners_not_linked_to_a_unique_vertex", .indicesMap r.corners_not_linked_to_a_unique_vertex),
        ("unique_vertices_linked_to_multiple_corners", .indices r.unique_vertices_linked_to_multiple_corners),
        ("unique_vertices_linked_to_multiply_embedded_corner", .indices r.unique_vertices_linked_to_multiply_embedded_corner),
        ("unique_vertices_linked_to_not_internal_nor_boundary_corner", .indices r.unique_vertices_linked_to_not_internal_nor_boundary_corner),
        ("unique_vertices_linked_to_not_boundary_line_corner", .indices r.unique_vertices_linked_to_not_boundary_line_corner)] ∧
    (Silent r.python → r.nbIssues = 0) :=
  ⟨Python.offers_of (by simp only [List.map_cons, List.map_nil]; decide)
    (fun _ => Iff.rfl), Python.BRepCornersTopology_count⟩

/-- **C107**, `SectionLinesTopologyInspectionResult`: Python can read every list, under its C++ name; when they are all empty, the result has
no issue. -/
theorem C107_section_lines (r : SectionLinesTopologyInspectionResult) :
    Offers r.python
       [("lines_not_meshed", .uuids r.lines_not_meshed),
        ("lines_not_linked_to_a_unique_vertex", .indicesMap r.lines_not_linked_to_a_unique_vertex),
        ("unique_vertices_linked_to_line_with_wrong_relationship_to_surface", .indices r.unique_vertices_linked_to_line_with_wrong_relationship_to_surface),
        ("unique_vertices_linked_to_a_line_with_invalid_embeddings", .indices r.unique_vertices_linked_to_a_line_with_invalid_embeddings),
        ("unique_vertices_linked_to_a_single_and_invalid_line", .indices r.unique_vertices_linked_to_a_single_and_invalid_line),
        ("unique_vertices_linked_to_several_lines_but_not_linked_to_a_corner", .indices r.unique_vertices_linked_to_several_lines_but_not_linked_to_a_corner)] ∧
    (Silent r.python → r.nbIssues = 0) :=
  ⟨Python.offers_of (by simp only [List.map_cons, List.map_nil]; decide)
    (fun _ => Iff.rfl), Python.SectionLinesTopology_count⟩

/-- **C107**, `BRepLinesTopologyInspectionResult`: Python can read every list, under its C++ name; when they are all empty, the result has
no issue. -/
theorem C107_brep_lines (r : BRepLinesTopologyInspectionResult) :
    Offers r.python
       [("lines_not_meshed", .uuids r.lines_not_meshed),
        ("unique_vertices_linked_to_line_with_wrong_relationship_to_surface", .indices r.unique_vertices_linked_to_line_with_wrong_relationship_to_surface),
        ("lines_not_linked_to_a_unique_vertex", .indicesMap r.lines_not_linked_to_a_unique_vertex),
        ("unique_vertices_linked_to_a_line_with_invalid_embeddings", .indices r.unique_vertices_linked_to_a_line_with_invalid_embeddings),
        ("unique_vertices_linked_to_a_single_and_invalid_line", .indices r.unique_vertices_linked_to_a_single_and_invalid_line),
        ("unique_vertices_linked_to_several_lines_but_not_linked_to_a_corner", .indices r.unique_vertices_linked_to_several_lines_but_not_linked_to_a_corner),
        ("line_edges_with_wrong_component_edges_around", .indicesMap r.line_edges_with_wrong_component_edges_around)] ∧
    (Silent r.python → r.nbIssues = 0) :=
  ⟨Python.offers_of (by simp only [List.map_cons, List.map_nil]; decide)
    (fun _ => by simp only [List.mem_cons, List.not_mem_nil, or_false]; tauto), Python.BRepLinesTopology_count⟩

/-- **C107**, `SectionSurfacesTopologyInspectionResult`: Python can read every list, under its C++ name; when they are all empty, the result has
no issue. -/
theorem C107_section_surfaces (r : SectionSurfacesTopologyInspectionResult) :
    Offers r.python
       [("surfaces_not_meshed", .uuids r.surfaces_not_meshed),
        ("surfaces_not_linked_to_a_unique_vertex", .indicesMap r.surfaces_not_linked_to_a_unique_vertex),
        ("unique_vertices_linked_to_a_surface_with_invalid_embbedings", .indices r.unique_vertices_linked_to_a_surface_with_invalid_embbedings),
        ("unique_vertices_linked_to_a_line_but_is_not_on_a_surface_border", .indices r.unique_vertices_linked_to_a_line_but_is_not_on_a_surface_border)] ∧
    (Silent r.python → r.nbIssues = 0) :=
  ⟨Python.offers_of (by simp only [List.map_cons, List.map_nil]; decide)
    (fun _ => Iff.rfl), Python.SectionSurfacesTopology_count⟩

/-- **C107**, `BRepSurfacesTopologyInspectionResult`: Python can read every list, under its C++ name; when they are all empty, the result has
no issue. -/
theorem C107_brep_surfaces (r : BRepSurfacesTopologyInspectionResult) :
    Offers r.python
       [("surfaces_not_meshed", .uuids r.surfaces_not_meshed),
        ("surfaces_not_linked_to_a_unique_vertex", .indicesMap r.surfaces_not_linked_to_a_unique_vertex),
        ("unique_vertices_linked_to_a_surface_with_invalid_embbedings", .indices r.unique_vertices_linked_to_a_surface_with_invalid_embbedings),
        ("unique_vertices_linked_to_several_and_invalid_surfaces", .indices r.unique_vertices_linked_to_several_and_invalid_surfaces),
        ("unique_vertices_linked_to_a_line_but_is_not_on_a_surface_border", .indices r.unique_vertices_linked_to_a_line_but_is_not_on_a_surface_border),
        ("surface_polygons_with_wrong_component_facets_around", .indicesMap r.surface_polygons_with_wrong_component_facets_around)] ∧
    (Silent r.python → r.nbIssues = 0) :=
  ⟨Python.offers_of (by simp only [List.map_cons, List.map_nil]; decide)
    (fun _ => Iff.rfl), Python.BRepSurfacesTopology_count⟩

/-- **C107**, `BRepBlocksTopologyInspectionResult`: Python can read every list, under its C++ name; when they are all empty, the result has
no issue. -/
theorem C107_brep_blocks (r : BRepBlocksTopologyInspectionResult) :
    Offers r.python
       [("some_blocks_not_meshed", .uuids r.some_blocks_not_meshed),
        ("wrong_block_boundary_surface", .uuids r.wrong_block_boundary_surface),
        ("blocks_not_linked_to_a_unique_vertex", .indicesMap r.blocks_not_linked_to_a_unique_vertex),
        ("blocks_with_not_closed_boundary_surfaces", .uuids r.blocks_with_not_closed_boundary_surfaces),
        ("model_boundaries_dont_form_a_closed_surface", .indices r.model_boundaries_dont_form_a_closed_surface),
        ("unique_vertices_part_of_two_blocks_and_no_boundary_surface", .indices r.unique_vertices_part_of_two_blocks_and_no_boundary_surface),
        ("unique_vertices_with_incorrect_block_cmvs_count", .indices r.unique_vertices_with_incorrect_block_cmvs_count),
        ("unique_vertices_linked_to_surface_with_wrong_relationship_to_blocks", .indices r.unique_vertices_linked_to_surface_with_wrong_relationship_to_blocks),
        ("unique_vertices_linked_to_a_single_and_invalid_surface", .indices r.unique_vertices_linked_to_a_single_and_invalid_surface),
        ("unique_vertex_linked_to_multiple_invalid_surfaces", .indices r.unique_vertex_linked_to_multiple_invalid_surfaces)] ∧
    (Silent r.python → r.nbIssues = 0) :=
  ⟨Python.offers_of (by simp only [List.map_cons, List.map_nil]; decide)
    (fun _ => by simp only [List.mem_cons, List.not_mem_nil, or_false]; tauto), Python.BRepBlocksTopology_count⟩

/-- **C107**, `SectionTopologyInspectionResult`: the lists Python can read, under their C++ names; when they are all empty at any depth, the
issues of the result are those of the lists Python cannot read. -/
theorem C107_section_topology_partial (r : SectionTopologyInspectionResult) :
    Offers r.python
       [("corners", r.corners.python),
        ("lines", r.lines.python),
        ("surfaces", r.surfaces.python),
        ("unique_vertices_not_linked_to_any_component", .indices r.unique_vertices_not_linked_to_any_component)] ∧
    (Silent r.python → r.nbIssues = r.unique_vertices_linked_to_inexistant_cmv.nbIssues + r.unique_vertices_nonbijectively_linked_to_cmv.nbIssues) :=
  ⟨Python.offers_of (by simp only [List.map_cons, List.map_nil]; decide)
    (fun _ => Iff.rfl), Python.SectionTopology_count⟩

/-- **C107**, `BRepTopologyInspectionResult`: the lists Python can read, under their C++ names; when they are all empty at any depth, the
issues of the result are those of the lists Python cannot read. -/
theorem C107_brep_topology_partial (r : BRepTopologyInspectionResult) :
    Offers r.python
       [("corners", r.corners.python),
        ("lines", r.lines.python),
        ("surfaces", r.surfaces.python),
        ("blocks", r.blocks.python),
        ("unique_vertices_not_linked_to_any_component", .indices r.unique_vertices_not_linked_to_any_component)] ∧
    (Silent r.python → r.nbIssues = r.unique_vertices_linked_to_inexistant_cmv.nbIssues + r.unique_vertices_nonbijectively_linked_to_cmv.nbIssues) :=
  ⟨Python.offers_of (by simp only [List.map_cons, List.map_nil]; decide)
    (fun _ => Iff.rfl), Python.BRepTopology_count⟩

/-- **C107**, `SectionInspectionResult`: the lists Python can read, under their C++ names; when they are all empty at any depth, the
issues of the result are those of the lists Python cannot read. -/
theorem C107_section_partial (r : SectionInspectionResult) :
    Offers r.python
       [("meshes", r.meshes.python),
        ("topology", r.topology.python)] ∧
    (Silent r.python → r.nbIssues = r.meshes.meshes_negative_elements.nbIssues + r.topology.unique_vertices_linked_to_inexistant_cmv.nbIssues + r.topology.unique_vertices_nonbijectively_linked_to_cmv.nbIssues) :=
  ⟨Python.offers_of (by simp only [List.map_cons, List.map_nil]; decide)
    (fun _ => Iff.rfl), Python.Section_count⟩

/-- **C107**, `BRepInspectionResult`: the lists Python can read, under their C++ names; when they are all empty at any depth, the
issues of the result are those of the lists Python cannot read. -/
theorem C107_brep_partial (r : BRepInspectionResult) :
    Offers r.python
       [("meshes", r.meshes.python),
        ("topology", r.topology.python)] ∧
    (Silent r.python → r.nbIssues = r.meshes.meshes_non_manifolds.brep_non_manifold_facets.nbIssues + r.meshes.meshes_negative_elements.nbIssues + r.topology.unique_vertices_linked_to_inexistant_cmv.nbIssues + r.topology.unique_vertices_nonbijectively_linked_to_cmv.nbIssues) :=
  ⟨Python.offers_of (by simp only [List.map_cons, List.map_nil]; decide)
    (fun _ => Iff.rfl), Python.BRep_count⟩

/-- an edged curve with a degenerated edge is not silent -/
example : ¬ Silent ({ degenerated_edges := (Issues.new "edges").add 3 "edge 3" } : EdgedCurveInspectionResult).python := by
  intro h
  have := h ["degenerated_edges"] _ ⟨_, rfl, rfl⟩
  cases this

/-- The text of every result is available in Python; the number of issues only for BReps. -/
theorem C107_methods :
    (∀ r : PointSetInspectionResult, r.python.string = r.string ∧ r.python.nbIssues = none) ∧
    (∀ r : EdgedCurveInspectionResult, r.python.string = r.string ∧ r.python.nbIssues = none) ∧
    (∀ r : SurfaceInspectionResult, r.python.string = r.string ∧ r.python.nbIssues = none) ∧
    (∀ r : SolidInspectionResult, r.python.string = r.string ∧ r.python.nbIssues = none) ∧
    (∀ r : SectionInspectionResult, r.python.string = r.string ∧ r.python.nbIssues = none) ∧
    (∀ r : BRepInspectionResult, r.python.string = r.string ∧ r.python.nbIssues = some r.nbIssues) :=
  ⟨fun _ => ⟨rfl, rfl⟩, fun _ => ⟨rfl, rfl⟩, fun _ => ⟨rfl, rfl⟩, fun _ => ⟨rfl, rfl⟩, fun _ => ⟨rfl, rfl⟩,
    fun _ => ⟨rfl, rfl⟩⟩

/-- a surface in the plane with two negative triangles -/
def negativeSurfaceData : SurfaceData Nat :=
  { exampleSurfaceData [0, 10, 20, 30] false with
    polygonAreaSign := fun _ => .negative }

/-- **C107** is false of surface meshes: a mesh in the plane whose triangles are negative, and nothing to see in
Python. -/
theorem C107_surface_false : ∃ r, inspectSurfaceMesh 2 (exampleLibrary fourPoints) exampleRuntime negativeSurfaceData
    = .ok r ∧ Silent r.python ∧ r.nbIssues = 2 := by
  refine ⟨_, rfl, Python.silent_of_quiet (depth := 4) (by decide +kernel), by decide +kernel⟩

/-- **C107** is false of solid meshes. -/
theorem C107_solid_false : ∃ r, inspectSolidMesh (exampleLibrary fourPoints) exampleRuntime (exampleSolidData .negative)
    = .ok r ∧ Silent r.python ∧ r.nbIssues = 1 := by
  refine ⟨_, rfl, Python.silent_of_quiet (depth := 4) (by decide +kernel), by decide +kernel⟩

/-- **C107** is false of Sections: one negative triangle, in a model without other issue. -/
theorem C107_section_false : ∃ r, inspectSectionOf modelLibrary modelRuntime
    (exampleModel triangleSection (10 * ·) .negative) = .ok r ∧ Silent r.python ∧ r.nbIssues = 1 := by
  refine ⟨_, rfl, Python.silent_of_quiet (depth := 4) (by decide +kernel), by decide +kernel⟩

set_option maxRecDepth 20000 in
/-- **C107** is false of BReps for the lists (but not for the number of issues, see `C107_methods`): one negative
tetrahedron, in a model without other issue. -/
theorem C107_brep_false : ∀ fuel ≥ 20, ∃ r, inspectBRepOf modelLibrary modelRuntime fuel
    (exampleModel tetrahedronBRep (10 * ·) .negative) = .ok r ∧ Silent r.python ∧ r.nbIssues = 1 := by
  intro fuel hf
  obtain ⟨k, rfl⟩ := Nat.exists_eq_add_of_le' hf
  refine ⟨_, rfl, Python.silent_of_quiet (depth := 4) (by rfl), by rfl⟩

/-- **C107** is false of the verdicts: an invalid mesh whose verdict is true for Python. -/
theorem C107_verdict_false : ∃ v, isSolidMeshValid (exampleLibrary fourPoints) exampleRuntime
    (exampleSolidData .negative) = .ok v ∧ v.isValid = false ∧ v.pyTruth = true :=
  ⟨_, rfl, by decide +kernel, rfl⟩

/-- **C107**, verdicts: a Python program knows the verdict from the list of invalidities, and gets the same number and
text as a C++ program. -/
theorem C107_verdict_partial (v : ObjectValidity) :
    (v.isValid = true ↔ v.pyInvalidities = []) ∧ v.pyNbIssues = v.nbIssues ∧ v.pyString = v.string :=
  ⟨List.isEmpty_iff, rfl, rfl⟩

end Inspector
