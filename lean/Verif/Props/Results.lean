import Verif.Proofs.Sums
/-
Properties C03, C04, C05 and C55: the counts and the texts of the inspection results, for every
value of every result structure.
-/
set_option linter.unusedSimpArgs false
namespace Inspector
open Spec

/-! ### C03: counts -/

theorem C03_PointSetInspectionResult (r : PointSetInspectionResult) : CountsAll r.nbIssues (listsPointSetInspectionResult r) :=
  countsAll_of_eq (sumPointSetInspectionResult r)

theorem C03_EdgedCurveInspectionResult (r : EdgedCurveInspectionResult) : CountsAll r.nbIssues (listsEdgedCurveInspectionResult r) :=
  countsAll_of_eq (sumEdgedCurveInspectionResult r)

theorem C03_SurfaceInspectionResult (r : SurfaceInspectionResult) : CountsAll r.nbIssues (listsSurfaceInspectionResult r) :=
  countsAll_of_eq (sumSurfaceInspectionResult r)

theorem C03_SolidInspectionResult (r : SolidInspectionResult) : CountsAll r.nbIssues (listsSolidInspectionResult r) :=
  countsAll_of_eq (sumSolidInspectionResult r)

theorem C03_UniqueVerticesInspectionResult (r : UniqueVerticesInspectionResult) : CountsAll r.nbIssues (listsUniqueVerticesInspectionResult r) :=
  countsAll_of_eq (sumUniqueVerticesInspectionResult r)

theorem C03_MeshesColocationInspectionResult (r : MeshesColocationInspectionResult) : CountsAll r.nbIssues (listsMeshesColocationInspectionResult r) :=
  countsAll_of_eq (sumMeshesColocationInspectionResult r)

theorem C03_SectionMeshesAdjacencyInspectionResult (r : SectionMeshesAdjacencyInspectionResult) : CountsAll r.nbIssues (listsSectionMeshesAdjacencyInspectionResult r) :=
  countsAll_of_eq (sumSectionMeshesAdjacencyInspectionResult r)

theorem C03_BRepMeshesAdjacencyInspectionResult (r : BRepMeshesAdjacencyInspectionResult) : CountsAll r.nbIssues (listsBRepMeshesAdjacencyInspectionResult r) :=
  countsAll_of_eq (sumBRepMeshesAdjacencyInspectionResult r)

theorem C03_SectionMeshesDegenerationInspectionResult (r : SectionMeshesDegenerationInspectionResult) : CountsAll r.nbIssues (listsSectionMeshesDegenerationInspectionResult r) :=
  countsAll_of_eq (sumSectionMeshesDegenerationInspectionResult r)

theorem C03_BRepMeshesDegenerationInspectionResult (r : BRepMeshesDegenerationInspectionResult) : CountsAll r.nbIssues (listsBRepMeshesDegenerationInspectionResult r) :=
  countsAll_of_eq (sumBRepMeshesDegenerationInspectionResult r)

theorem C03_ElementsIntersectionsInspectionResult (r : ElementsIntersectionsInspectionResult) : CountsAll r.nbIssues (listsElementsIntersectionsInspectionResult r) :=
  countsAll_of_eq (sumElementsIntersectionsInspectionResult r)

theorem C03_SectionMeshesManifoldInspectionResult (r : SectionMeshesManifoldInspectionResult) : CountsAll r.nbIssues (listsSectionMeshesManifoldInspectionResult r) :=
  countsAll_of_eq (sumSectionMeshesManifoldInspectionResult r)

theorem C03_BRepMeshesManifoldInspectionResult (r : BRepMeshesManifoldInspectionResult) : CountsAll r.nbIssues (listsBRepMeshesManifoldInspectionResult r) :=
  countsAll_of_eq (sumBRepMeshesManifoldInspectionResult r)

theorem C03_SectionMeshesNegativeElementsInspectionResult (r : SectionMeshesNegativeElementsInspectionResult) : CountsAll r.nbIssues (listsSectionMeshesNegativeElementsInspectionResult r) :=
  countsAll_of_eq (sumSectionMeshesNegativeElementsInspectionResult r)

theorem C03_BRepMeshesNegativeElementsInspectionResult (r : BRepMeshesNegativeElementsInspectionResult) : CountsAll r.nbIssues (listsBRepMeshesNegativeElementsInspectionResult r) :=
  countsAll_of_eq (sumBRepMeshesNegativeElementsInspectionResult r)

theorem C03_SectionMeshesInspectionResult (r : SectionMeshesInspectionResult) : CountsAll r.nbIssues (listsSectionMeshesInspectionResult r) :=
  countsAll_of_eq (sumSectionMeshesInspectionResult r)

theorem C03_BRepMeshesInspectionResult (r : BRepMeshesInspectionResult) : CountsAll r.nbIssues (listsBRepMeshesInspectionResult r) :=
  countsAll_of_eq (sumBRepMeshesInspectionResult r)

theorem C03_SectionCornersTopologyInspectionResult (r : SectionCornersTopologyInspectionResult) : CountsAll r.nbIssues (listsSectionCornersTopologyInspectionResult r) :=
  countsAll_of_eq (sumSectionCornersTopologyInspectionResult r)

theorem C03_BRepCornersTopologyInspectionResult (r : BRepCornersTopologyInspectionResult) : CountsAll r.nbIssues (listsBRepCornersTopologyInspectionResult r) :=
  countsAll_of_eq (sumBRepCornersTopologyInspectionResult r)

theorem C03_BRepLinesTopologyInspectionResult (r : BRepLinesTopologyInspectionResult) : CountsAll r.nbIssues (listsBRepLinesTopologyInspectionResult r) :=
  countsAll_of_eq (sumBRepLinesTopologyInspectionResult r)

theorem C03_SectionSurfacesTopologyInspectionResult (r : SectionSurfacesTopologyInspectionResult) : CountsAll r.nbIssues (listsSectionSurfacesTopologyInspectionResult r) :=
  countsAll_of_eq (sumSectionSurfacesTopologyInspectionResult r)

theorem C03_BRepBlocksTopologyInspectionResult (r : BRepBlocksTopologyInspectionResult) : CountsAll r.nbIssues (listsBRepBlocksTopologyInspectionResult r) :=
  countsAll_of_eq (sumBRepBlocksTopologyInspectionResult r)

/-- the hypothesis of C03 is met by a result with issues in several lists, and the count is right -/
example : let r : SurfaceInspectionResult :=
      { degenerated_edges := { description := "d", issues := [4, 7], messages := ["a", "b"] },
        non_manifold_edges := { description := "e", issues := [(0, 1)], messages := ["c"] } }
    total (listsSurfaceInspectionResult r) < 2 ^ 32 ∧ r.nbIssues.toNat = 3 := by
  decide

/-- The bound of C03 cannot be removed: `nb_issues()` is a 32 bits count, 2^32 issues count as 0. -/
theorem C03_bound_is_needed : ∃ r : PointSetInspectionResult,
    r.nbIssues = 0 ∧ r.colocated_points_groups.issues ≠ [] := by
  refine ⟨{ colocated_points_groups :=
    { description := "", issues := List.replicate (2 ^ 32) [0, 1] } }, ?_, ?_⟩
  · simp only [PointSetInspectionResult.nbIssues, Issues.nbIssues, List.length_replicate]
    rfl
  · intro h
    have := congrArg List.length h
    simp only [List.length_replicate, List.length_nil] at this
    omega

/-! ### C04: BRep Surfaces topology -/

/-- C04 is false: a result with a non empty list counts 0 issues and says there is none. -/
theorem C04_surfaces_count_and_text_forget_polygons :
    ∃ r : BRepSurfacesTopologyInspectionResult,
      r.nbIssues = 0 ∧ r.string = "no issues with Surfaces topology \n" ∧
      ∃ l ∈ listsBRepSurfacesTopologyInspectionResult r, l.count ≠ 0 := by
  refine ⟨{ surface_polygons_with_wrong_component_facets_around :=
    (IssuesMap.new "d").addIssues 3 ((Issues.new "e").add 12 "polygon 12") }, rfl, rfl,
    _, List.mem_cons_of_mem _ (List.mem_cons_of_mem _ (List.mem_cons_of_mem _ (List.mem_cons_of_mem _
      (List.mem_cons_of_mem _ (List.mem_cons_self ..))))), by decide⟩

/-- C04 without its last list: the count is right for the first five.  Missing from C04:
`surface_polygons_with_wrong_component_facets_around`, see the theorem above; the text is in
`C55_BRepSurfacesTopologyInspectionResult_text_partial`. -/
theorem C04_surfaces_count_partial (r : BRepSurfacesTopologyInspectionResult) :
    CountsAll r.nbIssues ((listsBRepSurfacesTopologyInspectionResult r).take 5) :=
  countsAll_of_eq (sumBRepSurfacesTopologyInspectionResult r)

/-! ### C05: Section Lines topology -/

/-- C05 is false: a result with a non empty list counts 0 issues (its text shows it, though). -/
theorem C05_lines_count_forgets_corners :
    ∃ r : SectionLinesTopologyInspectionResult,
      r.nbIssues = 0 ∧ r.string ≠ "no issues with Lines topology \n" ∧
      ∃ l ∈ listsSectionLinesTopologyInspectionResult r, l.count ≠ 0 := by
  refine ⟨{ unique_vertices_linked_to_several_lines_but_not_linked_to_a_corner :=
    (Issues.new "e").add 12 "vertex 12" }, rfl, by decide,
    _, List.mem_cons_of_mem _ (List.mem_cons_of_mem _ (List.mem_cons_of_mem _ (List.mem_cons_of_mem _
      (List.mem_cons_of_mem _ (List.mem_cons_self ..))))), by decide⟩

/-- C05 without its last list. -/
theorem C05_lines_count_partial (r : SectionLinesTopologyInspectionResult) :
    CountsAll r.nbIssues ((listsSectionLinesTopologyInspectionResult r).take 5) :=
  countsAll_of_eq (sumSectionLinesTopologyInspectionResult r)

/-! ### C55: texts -/

/-- The text of a `MeshesColocationInspectionResult` tells about every list. -/
theorem C55_MeshesColocationInspectionResult_text (r : MeshesColocationInspectionResult) :
    Tells r.string "no issues of colocation in meshes \n" (listsMeshesColocationInspectionResult r) := by
  refine tells_of_build
    [(reportMap r.colocated_points_groups, "")] ?_ ?_ (by exact ⟨'n', _, rfl, rfl⟩) ?_
  · intro l; simp [listsMeshesColocationInspectionResult]
  · simp [buildText, buildMessage, MeshesColocationInspectionResult.string, report, reportMap, Issues.nbIssues,
      IssuesMap.nbIssues]
  · intro l hl
    simp only [List.map_cons, List.map_nil, List.mem_cons, List.not_mem_nil, or_false] at hl
    rcases hl with rfl <;> first | exact goodReport _ | exact goodReportMap _

/-- The text of a `SectionMeshesAdjacencyInspectionResult` tells about every list. -/
theorem C55_SectionMeshesAdjacencyInspectionResult_text (r : SectionMeshesAdjacencyInspectionResult) :
    Tells r.string "no adjacency issues in model meshes \n" (listsSectionMeshesAdjacencyInspectionResult r) := by
  refine tells_of_build
    [(reportMap r.surfaces_edges_with_wrong_adjacencies, "")] ?_ ?_ (by exact ⟨'n', _, rfl, rfl⟩) ?_
  · intro l; simp [listsSectionMeshesAdjacencyInspectionResult]
  · simp [buildText, buildMessage, SectionMeshesAdjacencyInspectionResult.string, report, reportMap, Issues.nbIssues,
      IssuesMap.nbIssues]
  · intro l hl
    simp only [List.map_cons, List.map_nil, List.mem_cons, List.not_mem_nil, or_false] at hl
    rcases hl with rfl <;> first | exact goodReport _ | exact goodReportMap _

/-- The text of a `BRepMeshesAdjacencyInspectionResult` tells about every list. -/
theorem C55_BRepMeshesAdjacencyInspectionResult_text (r : BRepMeshesAdjacencyInspectionResult) :
    Tells r.string "no adjacency issues in model meshes \n" (listsBRepMeshesAdjacencyInspectionResult r) := by
  refine tells_of_build
    [(reportMap r.surfaces_edges_with_wrong_adjacencies, ""),
      (reportMap r.blocks_facets_with_wrong_adjacencies, "")] ?_ ?_ (by exact ⟨'n', _, rfl, rfl⟩) ?_
  · intro l; simp [listsBRepMeshesAdjacencyInspectionResult]
  · simp [buildText, buildMessage, BRepMeshesAdjacencyInspectionResult.string, report, reportMap, Issues.nbIssues,
      IssuesMap.nbIssues]
  · intro l hl
    simp only [List.map_cons, List.map_nil, List.mem_cons, List.not_mem_nil, or_false] at hl
    rcases hl with rfl | rfl <;> first | exact goodReport _ | exact goodReportMap _

/-- The text of a `SectionMeshesDegenerationInspectionResult` tells about every list. -/
theorem C55_SectionMeshesDegenerationInspectionResult_text (r : SectionMeshesDegenerationInspectionResult) :
    Tells r.string "no degeneration issues in model meshes \n" (listsSectionMeshesDegenerationInspectionResult r) := by
  refine tells_of_build
    [(reportMap r.degenerated_edges, ""),
      (reportMap r.degenerated_polygons, "")] ?_ ?_ (by exact ⟨'n', _, rfl, rfl⟩) ?_
  · intro l; simp [listsSectionMeshesDegenerationInspectionResult]
  · simp [buildText, buildMessage, SectionMeshesDegenerationInspectionResult.string, report, reportMap, Issues.nbIssues,
      IssuesMap.nbIssues]
  · intro l hl
    simp only [List.map_cons, List.map_nil, List.mem_cons, List.not_mem_nil, or_false] at hl
    rcases hl with rfl | rfl <;> first | exact goodReport _ | exact goodReportMap _

/-- The text of a `BRepMeshesDegenerationInspectionResult` tells about every list. -/
theorem C55_BRepMeshesDegenerationInspectionResult_text (r : BRepMeshesDegenerationInspectionResult) :
    Tells r.string "no degeneration issues in model meshes\n" (listsBRepMeshesDegenerationInspectionResult r) := by
  refine tells_of_build
    [(reportMap r.degenerated_edges, ""),
      (reportMap r.degenerated_polygons, ""),
      (reportMap r.degenerated_polyhedra, "")] ?_ ?_ (by exact ⟨'n', _, rfl, rfl⟩) ?_
  · intro l; simp [listsBRepMeshesDegenerationInspectionResult]
  · simp [buildText, buildMessage, BRepMeshesDegenerationInspectionResult.string, report, reportMap, Issues.nbIssues,
      IssuesMap.nbIssues]
  · intro l hl
    simp only [List.map_cons, List.map_nil, List.mem_cons, List.not_mem_nil, or_false] at hl
    rcases hl with rfl | rfl | rfl <;> first | exact goodReport _ | exact goodReportMap _

/-- The text of a `SectionMeshesManifoldInspectionResult` tells about every list. -/
theorem C55_SectionMeshesManifoldInspectionResult_text (r : SectionMeshesManifoldInspectionResult) :
    Tells r.string "no manifold issues in model meshes \n" (listsSectionMeshesManifoldInspectionResult r) := by
  refine tells_of_build
    [(reportMap r.meshes_non_manifold_vertices, ""),
      (reportMap r.meshes_non_manifold_edges, "")] ?_ ?_ (by exact ⟨'n', _, rfl, rfl⟩) ?_
  · intro l; simp [listsSectionMeshesManifoldInspectionResult]
  · simp [buildText, buildMessage, SectionMeshesManifoldInspectionResult.string, report, reportMap, Issues.nbIssues,
      IssuesMap.nbIssues]
  · intro l hl
    simp only [List.map_cons, List.map_nil, List.mem_cons, List.not_mem_nil, or_false] at hl
    rcases hl with rfl | rfl <;> first | exact goodReport _ | exact goodReportMap _

/-- The text of a `BRepMeshesManifoldInspectionResult` tells about every list. -/
theorem C55_BRepMeshesManifoldInspectionResult_text (r : BRepMeshesManifoldInspectionResult) :
    Tells r.string "no manifold issues in model meshes \n" (listsBRepMeshesManifoldInspectionResult r) := by
  refine tells_of_build
    [(reportMap r.meshes_non_manifold_vertices, ""),
      (reportMap r.meshes_non_manifold_edges, ""),
      (reportMap r.meshes_non_manifold_facets, ""),
      (report r.brep_non_manifold_edges, ""),
      (report r.brep_non_manifold_facets, "")] ?_ ?_ (by exact ⟨'n', _, rfl, rfl⟩) ?_
  · intro l; simp [listsBRepMeshesManifoldInspectionResult]
  · simp [buildText, buildMessage, BRepMeshesManifoldInspectionResult.string, report, reportMap, Issues.nbIssues,
      IssuesMap.nbIssues]
  · intro l hl
    simp only [List.map_cons, List.map_nil, List.mem_cons, List.not_mem_nil, or_false] at hl
    rcases hl with rfl | rfl | rfl | rfl | rfl <;> first | exact goodReport _ | exact goodReportMap _

/-- The text of a `SectionMeshesNegativeElementsInspectionResult` tells about every list. -/
theorem C55_SectionMeshesNegativeElementsInspectionResult_text (r : SectionMeshesNegativeElementsInspectionResult) :
    Tells r.string "no negative polygons in model meshes\n" (listsSectionMeshesNegativeElementsInspectionResult r) := by
  refine tells_of_build
    [(reportMap r.negative_polygons, "")] ?_ ?_ (by exact ⟨'n', _, rfl, rfl⟩) ?_
  · intro l; simp [listsSectionMeshesNegativeElementsInspectionResult]
  · simp [buildText, buildMessage, SectionMeshesNegativeElementsInspectionResult.string, report, reportMap, Issues.nbIssues,
      IssuesMap.nbIssues]
  · intro l hl
    simp only [List.map_cons, List.map_nil, List.mem_cons, List.not_mem_nil, or_false] at hl
    rcases hl with rfl <;> first | exact goodReport _ | exact goodReportMap _

/-- The text of a `BRepMeshesNegativeElementsInspectionResult` tells about every list. -/
theorem C55_BRepMeshesNegativeElementsInspectionResult_text (r : BRepMeshesNegativeElementsInspectionResult) :
    Tells r.string "no negative polyhedra in model meshes\n" (listsBRepMeshesNegativeElementsInspectionResult r) := by
  refine tells_of_build
    [(reportMap r.negative_polyhedra, "")] ?_ ?_ (by exact ⟨'n', _, rfl, rfl⟩) ?_
  · intro l; simp [listsBRepMeshesNegativeElementsInspectionResult]
  · simp [buildText, buildMessage, BRepMeshesNegativeElementsInspectionResult.string, report, reportMap, Issues.nbIssues,
      IssuesMap.nbIssues]
  · intro l hl
    simp only [List.map_cons, List.map_nil, List.mem_cons, List.not_mem_nil, or_false] at hl
    rcases hl with rfl <;> first | exact goodReport _ | exact goodReportMap _

/-- The text of a `SectionCornersTopologyInspectionResult` tells about every list. -/
theorem C55_SectionCornersTopologyInspectionResult_text (r : SectionCornersTopologyInspectionResult) :
    Tells r.string "no issues with Corners topology \n" (listsSectionCornersTopologyInspectionResult r) := by
  refine tells_of_build
    [(report r.corners_not_meshed, ""),
      (reportMap r.corners_not_linked_to_a_unique_vertex, ""),
      (report r.unique_vertices_linked_to_multiple_corners, ""),
      (report r.unique_vertices_linked_to_multiple_internals_corner, ""),
      (report r.unique_vertices_linked_to_not_internal_nor_boundary_corner, ""),
      (report r.unique_vertices_linked_to_not_boundary_line_corner, "")] ?_ ?_ (by exact ⟨'n', _, rfl, rfl⟩) ?_
  · intro l; simp [listsSectionCornersTopologyInspectionResult]
  · simp [buildText, buildMessage, SectionCornersTopologyInspectionResult.string, report, reportMap, Issues.nbIssues,
      IssuesMap.nbIssues]
  · intro l hl
    simp only [List.map_cons, List.map_nil, List.mem_cons, List.not_mem_nil, or_false] at hl
    rcases hl with rfl | rfl | rfl | rfl | rfl | rfl <;> first | exact goodReport _ | exact goodReportMap _

/-- The text of a `BRepCornersTopologyInspectionResult` tells about every list. -/
theorem C55_BRepCornersTopologyInspectionResult_text (r : BRepCornersTopologyInspectionResult) :
    Tells r.string "no issues with Corners topology \n" (listsBRepCornersTopologyInspectionResult r) := by
  refine tells_of_build
    [(report r.corners_not_meshed, ""),
      (reportMap r.corners_not_linked_to_a_unique_vertex, ""),
      (report r.unique_vertices_linked_to_multiple_corners, ""),
      (report r.unique_vertices_linked_to_multiply_embedded_corner, ""),
      (report r.unique_vertices_linked_to_not_internal_nor_boundary_corner, ""),
      (report r.unique_vertices_linked_to_not_boundary_line_corner, "")] ?_ ?_ (by exact ⟨'n', _, rfl, rfl⟩) ?_
  · intro l; simp [listsBRepCornersTopologyInspectionResult]
  · simp [buildText, buildMessage, BRepCornersTopologyInspectionResult.string, report, reportMap, Issues.nbIssues,
      IssuesMap.nbIssues]
  · intro l hl
    simp only [List.map_cons, List.map_nil, List.mem_cons, List.not_mem_nil, or_false] at hl
    rcases hl with rfl | rfl | rfl | rfl | rfl | rfl <;> first | exact goodReport _ | exact goodReportMap _

/-- The text of a `SectionLinesTopologyInspectionResult` tells about every list. -/
theorem C55_SectionLinesTopologyInspectionResult_text (r : SectionLinesTopologyInspectionResult) :
    Tells r.string "no issues with Lines topology \n" (listsSectionLinesTopologyInspectionResult r) := by
  refine tells_of_build
    [(report r.lines_not_meshed, ""),
      (reportMap r.lines_not_linked_to_a_unique_vertex, ""),
      (report r.unique_vertices_linked_to_line_with_wrong_relationship_to_surface, ""),
      (report r.unique_vertices_linked_to_a_line_with_invalid_embeddings, ""),
      (report r.unique_vertices_linked_to_a_single_and_invalid_line, ""),
      (report r.unique_vertices_linked_to_several_lines_but_not_linked_to_a_corner, "")] ?_ ?_ (by exact ⟨'n', _, rfl, rfl⟩) ?_
  · intro l; simp [listsSectionLinesTopologyInspectionResult]
  · simp [buildText, buildMessage, SectionLinesTopologyInspectionResult.string, report, reportMap, Issues.nbIssues,
      IssuesMap.nbIssues]
  · intro l hl
    simp only [List.map_cons, List.map_nil, List.mem_cons, List.not_mem_nil, or_false] at hl
    rcases hl with rfl | rfl | rfl | rfl | rfl | rfl <;> first | exact goodReport _ | exact goodReportMap _

/-- The text of a `BRepLinesTopologyInspectionResult` tells about every list. -/
theorem C55_BRepLinesTopologyInspectionResult_text (r : BRepLinesTopologyInspectionResult) :
    Tells r.string "no issues with Lines topology \n" (listsBRepLinesTopologyInspectionResult r) := by
  refine tells_of_build
    [(report r.lines_not_meshed, ""),
      (report r.unique_vertices_linked_to_line_with_wrong_relationship_to_surface, "\n"),
      (reportMap r.lines_not_linked_to_a_unique_vertex, ""),
      (report r.unique_vertices_linked_to_a_line_with_invalid_embeddings, ""),
      (report r.unique_vertices_linked_to_a_single_and_invalid_line, "\n"),
      (report r.unique_vertices_linked_to_several_lines_but_not_linked_to_a_corner, ""),
      (reportMap r.line_edges_with_wrong_component_edges_around, "")] ?_ ?_ (by exact ⟨'n', _, rfl, rfl⟩) ?_
  · intro l; simp [listsBRepLinesTopologyInspectionResult]
  · simp [buildText, buildMessage, BRepLinesTopologyInspectionResult.string, report, reportMap, Issues.nbIssues,
      IssuesMap.nbIssues]
  · intro l hl
    simp only [List.map_cons, List.map_nil, List.mem_cons, List.not_mem_nil, or_false] at hl
    rcases hl with rfl | rfl | rfl | rfl | rfl | rfl | rfl <;> first | exact goodReport _ | exact goodReportMap _

/-- The text of a `SectionSurfacesTopologyInspectionResult` tells about every list. -/
theorem C55_SectionSurfacesTopologyInspectionResult_text (r : SectionSurfacesTopologyInspectionResult) :
    Tells r.string "no issues with Surfaces topology \n" (listsSectionSurfacesTopologyInspectionResult r) := by
  refine tells_of_build
    [(report r.surfaces_not_meshed, ""),
      (reportMap r.surfaces_not_linked_to_a_unique_vertex, ""),
      (report r.unique_vertices_linked_to_a_surface_with_invalid_embbedings, ""),
      (report r.unique_vertices_linked_to_a_line_but_is_not_on_a_surface_border, "")] ?_ ?_ (by exact ⟨'n', _, rfl, rfl⟩) ?_
  · intro l; simp [listsSectionSurfacesTopologyInspectionResult]
  · simp [buildText, buildMessage, SectionSurfacesTopologyInspectionResult.string, report, reportMap, Issues.nbIssues,
      IssuesMap.nbIssues]
  · intro l hl
    simp only [List.map_cons, List.map_nil, List.mem_cons, List.not_mem_nil, or_false] at hl
    rcases hl with rfl | rfl | rfl | rfl <;> first | exact goodReport _ | exact goodReportMap _

/-- The text of a `BRepSurfacesTopologyInspectionResult` tells about every list but the last one (see `C04_surfaces_text_forgets_polygons`). -/
theorem C55_BRepSurfacesTopologyInspectionResult_text_partial (r : BRepSurfacesTopologyInspectionResult) :
    Tells r.string "no issues with Surfaces topology \n" ((listsBRepSurfacesTopologyInspectionResult r).take 5) := by
  refine tells_of_build
    [(report r.surfaces_not_meshed, ""),
      (reportMap r.surfaces_not_linked_to_a_unique_vertex, ""),
      (report r.unique_vertices_linked_to_a_surface_with_invalid_embbedings, ""),
      (report r.unique_vertices_linked_to_several_and_invalid_surfaces, ""),
      (report r.unique_vertices_linked_to_a_line_but_is_not_on_a_surface_border, "")] ?_ ?_ (by exact ⟨'n', _, rfl, rfl⟩) ?_
  · intro l; simp [listsBRepSurfacesTopologyInspectionResult]
  · simp [buildText, buildMessage, BRepSurfacesTopologyInspectionResult.string, report, reportMap, Issues.nbIssues,
      IssuesMap.nbIssues]
  · intro l hl
    simp only [List.map_cons, List.map_nil, List.mem_cons, List.not_mem_nil, or_false] at hl
    rcases hl with rfl | rfl | rfl | rfl | rfl <;> first | exact goodReport _ | exact goodReportMap _

/-- The text of a `BRepBlocksTopologyInspectionResult` tells about every list. -/
theorem C55_BRepBlocksTopologyInspectionResult_text (r : BRepBlocksTopologyInspectionResult) :
    Tells r.string "no issues with Blocks topology \n" (listsBRepBlocksTopologyInspectionResult r) := by
  refine tells_of_build
    [(report r.some_blocks_not_meshed, "\n"),
      (report r.wrong_block_boundary_surface, ""),
      (reportMap r.blocks_not_linked_to_a_unique_vertex, ""),
      (report r.blocks_with_not_closed_boundary_surfaces, ""),
      (report r.model_boundaries_dont_form_a_closed_surface, ""),
      (report r.unique_vertices_part_of_two_blocks_and_no_boundary_surface, "\n"),
      (report r.unique_vertices_with_incorrect_block_cmvs_count, "\n"),
      (report r.unique_vertices_linked_to_surface_with_wrong_relationship_to_blocks, "\n"),
      (report r.unique_vertices_linked_to_a_single_and_invalid_surface, "\n"),
      (report r.unique_vertex_linked_to_multiple_invalid_surfaces, "\n")] ?_ ?_ (by exact ⟨'n', _, rfl, rfl⟩) ?_
  · intro l; simp [listsBRepBlocksTopologyInspectionResult]
  · simp [buildText, buildMessage, BRepBlocksTopologyInspectionResult.string, report, reportMap, Issues.nbIssues,
      IssuesMap.nbIssues]
  · intro l hl
    simp only [List.map_cons, List.map_nil, List.mem_cons, List.not_mem_nil, or_false] at hl
    rcases hl with rfl | rfl | rfl | rfl | rfl | rfl | rfl | rfl | rfl | rfl <;> first | exact goodReport _ | exact goodReportMap _

/-- the hypothesis of the C55 theorems is met by a result with issues -/
example : let r : SectionLinesTopologyInspectionResult :=
      { lines_not_meshed := (Issues.new "d").add 4 "m" }
    (∀ l ∈ listsSectionLinesTopologyInspectionResult r, l.count < 2 ^ 32) ∧
      r.string ≠ "no issues with Lines topology \n" := by
  decide

/-! ### C56: texts of the results made of several results -/


/-- The text of a `PointSetInspectionResult` contains the text of each of its lists. -/
theorem C56_PointSetInspectionResult (r : PointSetInspectionResult) :
    ∀ l ∈ listsPointSetInspectionResult r, Contains r.string l.text := by
  have e : r.string = String.join [r.colocated_points_groups.string] := by
    simp [PointSetInspectionResult.string, String.join_cons, String.join_nil, String.append_assoc]
  intro l hl
  rw [e]
  refine contains_join (t := l.text) ?_ (contains_self _)
  simp only [listsPointSetInspectionResult, List.mem_cons, List.not_mem_nil, or_false] at hl
  rcases hl with rfl <;> simp [report]

/-- The text of a `EdgedCurveInspectionResult` contains the text of each of its lists. -/
theorem C56_EdgedCurveInspectionResult (r : EdgedCurveInspectionResult) :
    ∀ l ∈ listsEdgedCurveInspectionResult r, Contains r.string l.text := by
  have e : r.string = String.join [r.colocated_points_groups.string, r.degenerated_edges.string] := by
    simp [EdgedCurveInspectionResult.string, String.join_cons, String.join_nil, String.append_assoc]
  intro l hl
  rw [e]
  refine contains_join (t := l.text) ?_ (contains_self _)
  simp only [listsEdgedCurveInspectionResult, List.mem_cons, List.not_mem_nil, or_false] at hl
  rcases hl with rfl | rfl <;> simp [report]

/-- The text of a `SurfaceInspectionResult` contains the text of each of its lists. -/
theorem C56_SurfaceInspectionResult (r : SurfaceInspectionResult) :
    ∀ l ∈ listsSurfaceInspectionResult r, Contains r.string l.text := by
  have e : r.string = String.join [r.polygon_edges_with_wrong_adjacency.string, r.colocated_points_groups.string, r.degenerated_edges.string, r.degenerated_polygons.string, r.non_manifold_edges.string, r.non_manifold_vertices.string, r.intersecting_elements.string, r.negative_polygons.string] := by
    simp [SurfaceInspectionResult.string, String.join_cons, String.join_nil, String.append_assoc]
  intro l hl
  rw [e]
  refine contains_join (t := l.text) ?_ (contains_self _)
  simp only [listsSurfaceInspectionResult, List.mem_cons, List.not_mem_nil, or_false] at hl
  rcases hl with rfl | rfl | rfl | rfl | rfl | rfl | rfl | rfl <;> simp [report]

/-- The text of a `SolidInspectionResult` contains the text of each of its lists. -/
theorem C56_SolidInspectionResult (r : SolidInspectionResult) :
    ∀ l ∈ listsSolidInspectionResult r, Contains r.string l.text := by
  have e : r.string = String.join [r.polyhedron_facets_with_wrong_adjacency.string, r.colocated_points_groups.string, r.degenerated_edges.string, r.degenerated_polyhedra.string, r.non_manifold_vertices.string, r.non_manifold_edges.string, r.non_manifold_facets.string, r.negative_polyhedra.string] := by
    simp [SolidInspectionResult.string, String.join_cons, String.join_nil, String.append_assoc]
  intro l hl
  rw [e]
  refine contains_join (t := l.text) ?_ (contains_self _)
  simp only [listsSolidInspectionResult, List.mem_cons, List.not_mem_nil, or_false] at hl
  rcases hl with rfl | rfl | rfl | rfl | rfl | rfl | rfl | rfl <;> simp [report]

/-- The text of a `UniqueVerticesInspectionResult` contains the text of each of its lists. -/
theorem C56_UniqueVerticesInspectionResult (r : UniqueVerticesInspectionResult) :
    ∀ l ∈ listsUniqueVerticesInspectionResult r, Contains r.string l.text := by
  have e : r.string = String.join [r.colocated_unique_vertices_groups.string, r.unique_vertices_linked_to_different_points.string] := by
    simp [UniqueVerticesInspectionResult.string, String.join_cons, String.join_nil, String.append_assoc]
  intro l hl
  rw [e]
  refine contains_join (t := l.text) ?_ (contains_self _)
  simp only [listsUniqueVerticesInspectionResult, List.mem_cons, List.not_mem_nil, or_false] at hl
  rcases hl with rfl | rfl <;> simp [report]

/-- The text of a `ElementsIntersectionsInspectionResult` contains the text of each of its lists. -/
theorem C56_ElementsIntersectionsInspectionResult (r : ElementsIntersectionsInspectionResult) :
    ∀ l ∈ listsElementsIntersectionsInspectionResult r, Contains r.string l.text := by
  have e : r.string = String.join [r.elements_intersections.string] := by
    simp [ElementsIntersectionsInspectionResult.string, String.join_cons, String.join_nil, String.append_assoc]
  intro l hl
  rw [e]
  refine contains_join (t := l.text) ?_ (contains_self _)
  simp only [listsElementsIntersectionsInspectionResult, List.mem_cons, List.not_mem_nil, or_false] at hl
  rcases hl with rfl <;> simp [report]

theorem mem_take_five {r : BRepSurfacesTopologyInspectionResult} {l : Report}
    (h : l ∈ listsBRepSurfacesTopologyInspectionResult r) :
    l ∈ (listsBRepSurfacesTopologyInspectionResult r).take 5 ∨
      l = reportMap r.surface_polygons_with_wrong_component_facets_around := by
  simp [listsBRepSurfacesTopologyInspectionResult] at h ⊢
  rcases h with h | h | h | h | h | h <;> simp [h]

/-- The text of a `SectionMeshesInspectionResult` contains the text of each of its non-empty lists. -/
theorem C56_SectionMeshesInspectionResult (r : SectionMeshesInspectionResult) (hb : ∀ l ∈ listsSectionMeshesInspectionResult r, l.count < 2 ^ 32) :
    ∀ l ∈ listsSectionMeshesInspectionResult r, l.count ≠ 0 → Contains r.string l.text := by
  have e : r.string = String.join [r.unique_vertices_colocation.string, r.meshes_colocation.string, r.meshes_adjacencies.string, r.meshes_degenerations.string, r.meshes_intersections.string, r.meshes_non_manifolds.string, r.meshes_negative_elements.string] := by
    simp [SectionMeshesInspectionResult.string, String.join_cons, String.join_nil, String.append_assoc]
  intro l hl hc
  rw [e]
  simp only [listsSectionMeshesInspectionResult, List.mem_append] at hl hb
  rcases hl with (((((hl | hl) | hl) | hl) | hl) | hl) | hl
  · exact contains_join (t := r.unique_vertices_colocation.string) (by simp) (C56_UniqueVerticesInspectionResult r.unique_vertices_colocation l hl)
  · exact contains_join (t := r.meshes_colocation.string) (by simp)
      ((C55_MeshesColocationInspectionResult_text r.meshes_colocation (fun l' h' => hb l' (Or.inl (Or.inl (Or.inl (Or.inl (Or.inl (Or.inr h')))))))).2 l hl hc)
  · exact contains_join (t := r.meshes_adjacencies.string) (by simp)
      ((C55_SectionMeshesAdjacencyInspectionResult_text r.meshes_adjacencies (fun l' h' => hb l' (Or.inl (Or.inl (Or.inl (Or.inl (Or.inr h'))))))).2 l hl hc)
  · exact contains_join (t := r.meshes_degenerations.string) (by simp)
      ((C55_SectionMeshesDegenerationInspectionResult_text r.meshes_degenerations (fun l' h' => hb l' (Or.inl (Or.inl (Or.inl (Or.inr h')))))).2 l hl hc)
  · exact contains_join (t := r.meshes_intersections.string) (by simp) (C56_ElementsIntersectionsInspectionResult r.meshes_intersections l hl)
  · exact contains_join (t := r.meshes_non_manifolds.string) (by simp)
      ((C55_SectionMeshesManifoldInspectionResult_text r.meshes_non_manifolds (fun l' h' => hb l' (Or.inl (Or.inr h')))).2 l hl hc)
  · exact contains_join (t := r.meshes_negative_elements.string) (by simp)
      ((C55_SectionMeshesNegativeElementsInspectionResult_text r.meshes_negative_elements (fun l' h' => hb l' (Or.inr h'))).2 l hl hc)

/-- The text of a `BRepMeshesInspectionResult` contains the text of each of its non-empty lists. -/
theorem C56_BRepMeshesInspectionResult (r : BRepMeshesInspectionResult) (hb : ∀ l ∈ listsBRepMeshesInspectionResult r, l.count < 2 ^ 32) :
    ∀ l ∈ listsBRepMeshesInspectionResult r, l.count ≠ 0 → Contains r.string l.text := by
  have e : r.string = String.join [r.unique_vertices_colocation.string, r.meshes_colocation.string, r.meshes_adjacencies.string, r.meshes_degenerations.string, r.meshes_intersections.string, r.meshes_non_manifolds.string, r.meshes_negative_elements.string] := by
    simp [BRepMeshesInspectionResult.string, String.join_cons, String.join_nil, String.append_assoc]
  intro l hl hc
  rw [e]
  simp only [listsBRepMeshesInspectionResult, List.mem_append] at hl hb
  rcases hl with (((((hl | hl) | hl) | hl) | hl) | hl) | hl
  · exact contains_join (t := r.unique_vertices_colocation.string) (by simp) (C56_UniqueVerticesInspectionResult r.unique_vertices_colocation l hl)
  · exact contains_join (t := r.meshes_colocation.string) (by simp)
      ((C55_MeshesColocationInspectionResult_text r.meshes_colocation (fun l' h' => hb l' (Or.inl (Or.inl (Or.inl (Or.inl (Or.inl (Or.inr h')))))))).2 l hl hc)
  · exact contains_join (t := r.meshes_adjacencies.string) (by simp)
      ((C55_BRepMeshesAdjacencyInspectionResult_text r.meshes_adjacencies (fun l' h' => hb l' (Or.inl (Or.inl (Or.inl (Or.inl (Or.inr h'))))))).2 l hl hc)
  · exact contains_join (t := r.meshes_degenerations.string) (by simp)
      ((C55_BRepMeshesDegenerationInspectionResult_text r.meshes_degenerations (fun l' h' => hb l' (Or.inl (Or.inl (Or.inl (Or.inr h')))))).2 l hl hc)
  · exact contains_join (t := r.meshes_intersections.string) (by simp) (C56_ElementsIntersectionsInspectionResult r.meshes_intersections l hl)
  · exact contains_join (t := r.meshes_non_manifolds.string) (by simp)
      ((C55_BRepMeshesManifoldInspectionResult_text r.meshes_non_manifolds (fun l' h' => hb l' (Or.inl (Or.inr h')))).2 l hl hc)
  · exact contains_join (t := r.meshes_negative_elements.string) (by simp)
      ((C55_BRepMeshesNegativeElementsInspectionResult_text r.meshes_negative_elements (fun l' h' => hb l' (Or.inr h'))).2 l hl hc)

/-- The text of a `SectionTopologyInspectionResult` contains the text of each of its non-empty lists. -/
theorem C56_SectionTopologyInspectionResult (r : SectionTopologyInspectionResult) (hb : ∀ l ∈ listsSectionTopologyInspectionResult r, l.count < 2 ^ 32) :
    ∀ l ∈ listsSectionTopologyInspectionResult r, l.count ≠ 0 → Contains r.string l.text := by
  have e : r.string = String.join [r.corners.string, r.lines.string, r.surfaces.string, r.unique_vertices_not_linked_to_any_component.string, r.unique_vertices_linked_to_inexistant_cmv.string, r.unique_vertices_nonbijectively_linked_to_cmv.string] := by
    simp [SectionTopologyInspectionResult.string, String.join_cons, String.join_nil, String.append_assoc]
  intro l hl hc
  rw [e]
  simp only [listsSectionTopologyInspectionResult, List.mem_append] at hl hb
  rcases hl with ((((hl | hl) | hl) | hl) | hl) | hl
  · exact contains_join (t := r.corners.string) (by simp)
      ((C55_SectionCornersTopologyInspectionResult_text r.corners (fun l' h' => hb l' (Or.inl (Or.inl (Or.inl (Or.inl (Or.inl (h')))))))).2 l hl hc)
  · exact contains_join (t := r.lines.string) (by simp)
      ((C55_SectionLinesTopologyInspectionResult_text r.lines (fun l' h' => hb l' (Or.inl (Or.inl (Or.inl (Or.inl (Or.inr h'))))))).2 l hl hc)
  · exact contains_join (t := r.surfaces.string) (by simp)
      ((C55_SectionSurfacesTopologyInspectionResult_text r.surfaces (fun l' h' => hb l' (Or.inl (Or.inl (Or.inl (Or.inr h')))))).2 l hl hc)
  · rw [List.mem_singleton] at hl
    subst hl
    exact contains_join (t := r.unique_vertices_not_linked_to_any_component.string) (by simp) (contains_self _)
  · rw [List.mem_singleton] at hl
    subst hl
    exact contains_join (t := r.unique_vertices_linked_to_inexistant_cmv.string) (by simp) (contains_self _)
  · rw [List.mem_singleton] at hl
    subst hl
    exact contains_join (t := r.unique_vertices_nonbijectively_linked_to_cmv.string) (by simp) (contains_self _)

/-- The text of a `BRepTopologyInspectionResult` contains the text of each of its non-empty lists, except the one of C04. -/
theorem C56_BRepTopologyInspectionResult_partial (r : BRepTopologyInspectionResult) (hb : ∀ l ∈ listsBRepTopologyInspectionResult r, l.count < 2 ^ 32) :
    ∀ l ∈ listsBRepTopologyInspectionResult r, l.count ≠ 0
      → l ≠ reportMap r.surfaces.surface_polygons_with_wrong_component_facets_around → Contains r.string l.text := by
  have e : r.string = String.join [r.corners.string, r.lines.string, r.surfaces.string, r.blocks.string, r.unique_vertices_not_linked_to_any_component.string, r.unique_vertices_linked_to_inexistant_cmv.string, r.unique_vertices_nonbijectively_linked_to_cmv.string] := by
    simp [BRepTopologyInspectionResult.string, String.join_cons, String.join_nil, String.append_assoc]
  intro l hl hc hs
  rw [e]
  simp only [listsBRepTopologyInspectionResult, List.mem_append] at hl hb
  rcases hl with (((((hl | hl) | hl) | hl) | hl) | hl) | hl
  · exact contains_join (t := r.corners.string) (by simp)
      ((C55_BRepCornersTopologyInspectionResult_text r.corners (fun l' h' => hb l' (Or.inl (Or.inl (Or.inl (Or.inl (Or.inl (Or.inl (h'))))))))).2 l hl hc)
  · exact contains_join (t := r.lines.string) (by simp)
      ((C55_BRepLinesTopologyInspectionResult_text r.lines (fun l' h' => hb l' (Or.inl (Or.inl (Or.inl (Or.inl (Or.inl (Or.inr h')))))))).2 l hl hc)
  · refine contains_join (t := r.surfaces.string) (by simp)
      ((C55_BRepSurfacesTopologyInspectionResult_text_partial r.surfaces (fun l' h' => hb l' (Or.inl (Or.inl (Or.inl (Or.inl (Or.inr (List.mem_of_mem_take h')))))))).2 l ?_ hc)
    rcases mem_take_five hl with h | h
    · exact h
    · exact absurd h hs
  · exact contains_join (t := r.blocks.string) (by simp)
      ((C55_BRepBlocksTopologyInspectionResult_text r.blocks (fun l' h' => hb l' (Or.inl (Or.inl (Or.inl (Or.inr h')))))).2 l hl hc)
  · rw [List.mem_singleton] at hl
    subst hl
    exact contains_join (t := r.unique_vertices_not_linked_to_any_component.string) (by simp) (contains_self _)
  · rw [List.mem_singleton] at hl
    subst hl
    exact contains_join (t := r.unique_vertices_linked_to_inexistant_cmv.string) (by simp) (contains_self _)
  · rw [List.mem_singleton] at hl
    subst hl
    exact contains_join (t := r.unique_vertices_nonbijectively_linked_to_cmv.string) (by simp) (contains_self _)

/-- The text of a `SectionInspectionResult` contains the text of each of its non-empty lists. -/
theorem C56_SectionInspectionResult (r : SectionInspectionResult) (hb : ∀ l ∈ listsSectionInspectionResult r, l.count < 2 ^ 32) :
    ∀ l ∈ listsSectionInspectionResult r, l.count ≠ 0 → Contains r.string l.text := by
  have e : r.string = String.join [r.meshes.string, r.topology.string] := by
    simp [SectionInspectionResult.string, String.join_cons, String.join_nil, String.append_assoc]
  intro l hl hc
  rw [e]
  simp only [listsSectionInspectionResult, List.mem_append] at hl hb
  rcases hl with hl | hl
  · exact contains_join (t := r.meshes.string) (by simp)
      (C56_SectionMeshesInspectionResult r.meshes (fun l' h' => hb l' (Or.inl (h'))) l hl hc)
  · exact contains_join (t := r.topology.string) (by simp)
      (C56_SectionTopologyInspectionResult r.topology (fun l' h' => hb l' (Or.inr h')) l hl hc)

/-- The text of a `BRepInspectionResult` contains the text of each of its non-empty lists, except the one of C04. -/
theorem C56_BRepInspectionResult_partial (r : BRepInspectionResult) (hb : ∀ l ∈ listsBRepInspectionResult r, l.count < 2 ^ 32) :
    ∀ l ∈ listsBRepInspectionResult r, l.count ≠ 0
      → l ≠ reportMap r.topology.surfaces.surface_polygons_with_wrong_component_facets_around → Contains r.string l.text := by
  have e : r.string = String.join [r.meshes.string, r.topology.string] := by
    simp [BRepInspectionResult.string, String.join_cons, String.join_nil, String.append_assoc]
  intro l hl hc hs
  rw [e]
  simp only [listsBRepInspectionResult, List.mem_append] at hl hb
  rcases hl with hl | hl
  · exact contains_join (t := r.meshes.string) (by simp)
      (C56_BRepMeshesInspectionResult r.meshes (fun l' h' => hb l' (Or.inl (h'))) l hl hc)
  · exact contains_join (t := r.topology.string) (by simp)
      (C56_BRepTopologyInspectionResult_partial r.topology (fun l' h' => hb l' (Or.inr h')) l hl hc hs)

/-- C56 is false for a BRep: the text does not contain the only list with issues. -/
theorem C56_brep_text_forgets_a_list : ∃ r : BRepInspectionResult,
    r.string = ({} : BRepInspectionResult).string ∧
      ∃ l ∈ listsBRepInspectionResult r, l.count ≠ 0 := by
  refine ⟨{ topology.surfaces.surface_polygons_with_wrong_component_facets_around :=
    ((IssuesMap.new "d").addIssues 3 ((Issues.new "e").add 12 "polygon 12")) }, rfl,
    reportMap ((IssuesMap.new "d").addIssues 3 ((Issues.new "e").add 12 "polygon 12")), ?_, by decide⟩
  simp [listsBRepInspectionResult, listsBRepTopologyInspectionResult,
    listsBRepSurfacesTopologyInspectionResult]

/-- the hypotheses of C56 are met by a model with issues in two lists -/
example : let r : SectionInspectionResult :=
      { meshes.meshes_intersections.elements_intersections :=
          ⟨"x", [(⟨⟨.surface, 1⟩, 2⟩, ⟨⟨.surface, 3⟩, 4⟩)], ["m"]⟩,
        topology.lines.lines_not_meshed := ((Issues.new "d").add 4 "m") }
    (∀ l ∈ listsSectionInspectionResult r, l.count < 2 ^ 32) ∧
      (nonEmpty (listsSectionInspectionResult r)).length = 2 := by
  decide

end Inspector
