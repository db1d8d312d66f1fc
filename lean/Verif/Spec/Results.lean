import Verif.Model.Results
/-
Specification side of C03-C08: the lists each result structure is made of, all of them, written
from the structure declarations only.
-/
namespace Inspector.Spec

/-- What a list of issues shows to a reader: how many entries, and its text. -/
structure Report where
  count : Nat
  text : String

/-- A list of issues as a report. -/
def report {α : Type} (s : Issues α) : Report := ⟨s.issues.length, s.string⟩

/-- A map of issues as a report (one entry per component). -/
def reportMap {α : Type} (m : IssuesMap α) : Report := ⟨m.entries.length, m.string⟩

/-- Total number of entries of a collection of lists. -/
def total (ls : List Report) : Nat := (ls.map Report.count).sum

/-- The lists with at least one entry. -/
def nonEmpty (ls : List Report) : List Report := ls.filter fun l => l.count != 0

/-- "`nb` counts every list": as long as the total number of issues fits in an `index_t`, it is
the sum over all the lists, and it is `0` exactly when all the lists are empty. -/
def CountsAll (nb : UInt32) (ls : List Report) : Prop :=
  total ls < 2 ^ 32 → nb.toNat = total ls ∧ (nb = 0 ↔ ∀ l ∈ ls, l.count = 0)

/-- `text` contains `part`. -/
def Contains (text part : String) : Prop := ∃ before after, text = before ++ part ++ after

/-- "`text` tells about every list": it is the no-issue text exactly when all the lists are
empty, and it contains the text of each list that is not. -/
def Tells (text noIssue : String) (ls : List Report) : Prop :=
  (∀ l ∈ ls, l.count < 2 ^ 32) →
    ((text = noIssue ↔ ∀ l ∈ ls, l.count = 0) ∧ ∀ l ∈ ls, l.count ≠ 0 → Contains text l.text)

/-- All the lists of `PointSetInspectionResult`. -/
def listsPointSetInspectionResult (r : PointSetInspectionResult) : List Report :=
  [report r.colocated_points_groups]

/-- All the lists of `EdgedCurveInspectionResult`. -/
def listsEdgedCurveInspectionResult (r : EdgedCurveInspectionResult) : List Report :=
  [report r.colocated_points_groups,
   report r.degenerated_edges]

/-- All the lists of `SurfaceInspectionResult`. -/
def listsSurfaceInspectionResult (r : SurfaceInspectionResult) : List Report :=
  [report r.polygon_edges_with_wrong_adjacency,
   report r.colocated_points_groups,
   report r.degenerated_edges,
   report r.degenerated_polygons,
   report r.non_manifold_edges,
   report r.non_manifold_vertices,
   report r.intersecting_elements,
   report r.negative_polygons]

/-- All the lists of `SolidInspectionResult`. -/
def listsSolidInspectionResult (r : SolidInspectionResult) : List Report :=
  [report r.polyhedron_facets_with_wrong_adjacency,
   report r.colocated_points_groups,
   report r.degenerated_edges,
   report r.degenerated_polyhedra,
   report r.non_manifold_vertices,
   report r.non_manifold_edges,
   report r.non_manifold_facets,
   report r.negative_polyhedra]

/-- All the lists of `UniqueVerticesInspectionResult`. -/
def listsUniqueVerticesInspectionResult (r : UniqueVerticesInspectionResult) : List Report :=
  [report r.colocated_unique_vertices_groups,
   report r.unique_vertices_linked_to_different_points]

/-- All the lists of `MeshesColocationInspectionResult`. -/
def listsMeshesColocationInspectionResult (r : MeshesColocationInspectionResult) : List Report :=
  [reportMap r.colocated_points_groups]

/-- All the lists of `SectionMeshesAdjacencyInspectionResult`. -/
def listsSectionMeshesAdjacencyInspectionResult (r : SectionMeshesAdjacencyInspectionResult) : List Report :=
  [reportMap r.surfaces_edges_with_wrong_adjacencies]

/-- All the lists of `BRepMeshesAdjacencyInspectionResult`. -/
def listsBRepMeshesAdjacencyInspectionResult (r : BRepMeshesAdjacencyInspectionResult) : List Report :=
  [reportMap r.surfaces_edges_with_wrong_adjacencies,
   reportMap r.blocks_facets_with_wrong_adjacencies]

/-- All the lists of `SectionMeshesDegenerationInspectionResult`. -/
def listsSectionMeshesDegenerationInspectionResult (r : SectionMeshesDegenerationInspectionResult) : List Report :=
  [reportMap r.degenerated_edges,
   reportMap r.degenerated_polygons]

/-- All the lists of `BRepMeshesDegenerationInspectionResult`. -/
def listsBRepMeshesDegenerationInspectionResult (r : BRepMeshesDegenerationInspectionResult) : List Report :=
  [reportMap r.degenerated_edges,
   reportMap r.degenerated_polygons,
   reportMap r.degenerated_polyhedra]

/-- All the lists of `ElementsIntersectionsInspectionResult`. -/
def listsElementsIntersectionsInspectionResult (r : ElementsIntersectionsInspectionResult) : List Report :=
  [report r.elements_intersections]

/-- All the lists of `SectionMeshesManifoldInspectionResult`. -/
def listsSectionMeshesManifoldInspectionResult (r : SectionMeshesManifoldInspectionResult) : List Report :=
  [reportMap r.meshes_non_manifold_vertices,
   reportMap r.meshes_non_manifold_edges]

/-- All the lists of `BRepMeshesManifoldInspectionResult`. -/
def listsBRepMeshesManifoldInspectionResult (r : BRepMeshesManifoldInspectionResult) : List Report :=
  [reportMap r.meshes_non_manifold_vertices,
   reportMap r.meshes_non_manifold_edges,
   reportMap r.meshes_non_manifold_facets,
   report r.brep_non_manifold_edges,
   report r.brep_non_manifold_facets]

/-- All the lists of `SectionMeshesNegativeElementsInspectionResult`. -/
def listsSectionMeshesNegativeElementsInspectionResult (r : SectionMeshesNegativeElementsInspectionResult) : List Report :=
  [reportMap r.negative_polygons]

/-- All the lists of `BRepMeshesNegativeElementsInspectionResult`. -/
def listsBRepMeshesNegativeElementsInspectionResult (r : BRepMeshesNegativeElementsInspectionResult) : List Report :=
  [reportMap r.negative_polyhedra]

/-- All the lists of `SectionMeshesInspectionResult`. -/
def listsSectionMeshesInspectionResult (r : SectionMeshesInspectionResult) : List Report :=
  listsUniqueVerticesInspectionResult r.unique_vertices_colocation
    ++ listsMeshesColocationInspectionResult r.meshes_colocation
    ++ listsSectionMeshesAdjacencyInspectionResult r.meshes_adjacencies
    ++ listsSectionMeshesDegenerationInspectionResult r.meshes_degenerations
    ++ listsElementsIntersectionsInspectionResult r.meshes_intersections
    ++ listsSectionMeshesManifoldInspectionResult r.meshes_non_manifolds
    ++ listsSectionMeshesNegativeElementsInspectionResult r.meshes_negative_elements

/-- All the lists of `BRepMeshesInspectionResult`. -/
def listsBRepMeshesInspectionResult (r : BRepMeshesInspectionResult) : List Report :=
  listsUniqueVerticesInspectionResult r.unique_vertices_colocation
    ++ listsMeshesColocationInspectionResult r.meshes_colocation
    ++ listsBRepMeshesAdjacencyInspectionResult r.meshes_adjacencies
    ++ listsBRepMeshesDegenerationInspectionResult r.meshes_degenerations
    ++ listsElementsIntersectionsInspectionResult r.meshes_intersections
    ++ listsBRepMeshesManifoldInspectionResult r.meshes_non_manifolds
    ++ listsBRepMeshesNegativeElementsInspectionResult r.meshes_negative_elements

/-- All the lists of `SectionCornersTopologyInspectionResult`. -/
def listsSectionCornersTopologyInspectionResult (r : SectionCornersTopologyInspectionResult) : List Report :=
  [report r.corners_not_meshed,
   reportMap r.corners_not_linked_to_a_unique_vertex,
   report r.unique_vertices_linked_to_multiple_corners,
   report r.unique_vertices_linked_to_multiple_internals_corner,
   report r.unique_vertices_linked_to_not_internal_nor_boundary_corner,
   report r.unique_vertices_linked_to_not_boundary_line_corner]

/-- All the lists of `BRepCornersTopologyInspectionResult`. -/
def listsBRepCornersTopologyInspectionResult (r : BRepCornersTopologyInspectionResult) : List Report :=
  [report r.corners_not_meshed,
   reportMap r.corners_not_linked_to_a_unique_vertex,
   report r.unique_vertices_linked_to_multiple_corners,
   report r.unique_vertices_linked_to_multiply_embedded_corner,
   report r.unique_vertices_linked_to_not_internal_nor_boundary_corner,
   report r.unique_vertices_linked_to_not_boundary_line_corner]

/-- All the lists of `SectionLinesTopologyInspectionResult`. -/
def listsSectionLinesTopologyInspectionResult (r : SectionLinesTopologyInspectionResult) : List Report :=
  [report r.lines_not_meshed,
   reportMap r.lines_not_linked_to_a_unique_vertex,
   report r.unique_vertices_linked_to_line_with_wrong_relationship_to_surface,
   report r.unique_vertices_linked_to_a_line_with_invalid_embeddings,
   report r.unique_vertices_linked_to_a_single_and_invalid_line,
   report r.unique_vertices_linked_to_several_lines_but_not_linked_to_a_corner]

/-- All the lists of `BRepLinesTopologyInspectionResult`. -/
def listsBRepLinesTopologyInspectionResult (r : BRepLinesTopologyInspectionResult) : List Report :=
  [report r.lines_not_meshed,
   report r.unique_vertices_linked_to_line_with_wrong_relationship_to_surface,
   reportMap r.lines_not_linked_to_a_unique_vertex,
   report r.unique_vertices_linked_to_a_line_with_invalid_embeddings,
   report r.unique_vertices_linked_to_a_single_and_invalid_line,
   report r.unique_vertices_linked_to_several_lines_but_not_linked_to_a_corner,
   reportMap r.line_edges_with_wrong_component_edges_around]

/-- All the lists of `SectionSurfacesTopologyInspectionResult`. -/
def listsSectionSurfacesTopologyInspectionResult (r : SectionSurfacesTopologyInspectionResult) : List Report :=
  [report r.surfaces_not_meshed,
   reportMap r.surfaces_not_linked_to_a_unique_vertex,
   report r.unique_vertices_linked_to_a_surface_with_invalid_embbedings,
   report r.unique_vertices_linked_to_a_line_but_is_not_on_a_surface_border]

/-- All the lists of `BRepSurfacesTopologyInspectionResult`. -/
def listsBRepSurfacesTopologyInspectionResult (r : BRepSurfacesTopologyInspectionResult) : List Report :=
  [report r.surfaces_not_meshed,
   reportMap r.surfaces_not_linked_to_a_unique_vertex,
   report r.unique_vertices_linked_to_a_surface_with_invalid_embbedings,
   report r.unique_vertices_linked_to_several_and_invalid_surfaces,
   report r.unique_vertices_linked_to_a_line_but_is_not_on_a_surface_border,
   reportMap r.surface_polygons_with_wrong_component_facets_around]

/-- All the lists of `BRepBlocksTopologyInspectionResult`. -/
def listsBRepBlocksTopologyInspectionResult (r : BRepBlocksTopologyInspectionResult) : List Report :=
  [report r.some_blocks_not_meshed,
   report r.wrong_block_boundary_surface,
   reportMap r.blocks_not_linked_to_a_unique_vertex,
   report r.blocks_with_not_closed_boundary_surfaces,
   report r.model_boundaries_dont_form_a_closed_surface,
   report r.unique_vertices_part_of_two_blocks_and_no_boundary_surface,
   report r.unique_vertices_with_incorrect_block_cmvs_count,
   report r.unique_vertices_linked_to_surface_with_wrong_relationship_to_blocks,
   report r.unique_vertices_linked_to_a_single_and_invalid_surface,
   report r.unique_vertex_linked_to_multiple_invalid_surfaces]

/-- All the lists of `SectionTopologyInspectionResult`. -/
def listsSectionTopologyInspectionResult (r : SectionTopologyInspectionResult) : List Report :=
  listsSectionCornersTopologyInspectionResult r.corners
    ++ listsSectionLinesTopologyInspectionResult r.lines
    ++ listsSectionSurfacesTopologyInspectionResult r.surfaces
    ++ [report r.unique_vertices_not_linked_to_any_component]
    ++ [report r.unique_vertices_linked_to_inexistant_cmv]
    ++ [report r.unique_vertices_nonbijectively_linked_to_cmv]

/-- All the lists of `BRepTopologyInspectionResult`. -/
def listsBRepTopologyInspectionResult (r : BRepTopologyInspectionResult) : List Report :=
  listsBRepCornersTopologyInspectionResult r.corners
    ++ listsBRepLinesTopologyInspectionResult r.lines
    ++ listsBRepSurfacesTopologyInspectionResult r.surfaces
    ++ listsBRepBlocksTopologyInspectionResult r.blocks
    ++ [report r.unique_vertices_not_linked_to_any_component]
    ++ [report r.unique_vertices_linked_to_inexistant_cmv]
    ++ [report r.unique_vertices_nonbijectively_linked_to_cmv]

/-- All the lists of `SectionInspectionResult`. -/
def listsSectionInspectionResult (r : SectionInspectionResult) : List Report :=
  listsSectionMeshesInspectionResult r.meshes
    ++ listsSectionTopologyInspectionResult r.topology

/-- All the lists of `BRepInspectionResult`. -/
def listsBRepInspectionResult (r : BRepInspectionResult) : List Report :=
  listsBRepMeshesInspectionResult r.meshes
    ++ listsBRepTopologyInspectionResult r.topology

end Inspector.Spec
