import Verif.Proofs.Results
/-! Each `nb_issues()` as a 32 bits sum over the lists of the structure. -/
set_option linter.unusedSimpArgs false
namespace Inspector
open Spec

/-- `PointSetInspectionResult::nb_issues` is the (32 bits) sum over all the lists. -/
theorem sumPointSetInspectionResult (r : PointSetInspectionResult) :
    r.nbIssues = UInt32.ofNat (total (listsPointSetInspectionResult r)) := by
  simp [PointSetInspectionResult.nbIssues, listsPointSetInspectionResult, report, reportMap, Issues.nbIssues, IssuesMap.nbIssues,
    UInt32.ofNat_add, UInt32.add_assoc]

/-- `EdgedCurveInspectionResult::nb_issues` is the (32 bits) sum over all the lists. -/
theorem sumEdgedCurveInspectionResult (r : EdgedCurveInspectionResult) :
    r.nbIssues = UInt32.ofNat (total (listsEdgedCurveInspectionResult r)) := by
  simp [EdgedCurveInspectionResult.nbIssues, listsEdgedCurveInspectionResult, report, reportMap, Issues.nbIssues, IssuesMap.nbIssues,
    UInt32.ofNat_add, UInt32.add_assoc]

/-- `SurfaceInspectionResult::nb_issues` is the (32 bits) sum over all the lists. -/
theorem sumSurfaceInspectionResult (r : SurfaceInspectionResult) :
    r.nbIssues = UInt32.ofNat (total (listsSurfaceInspectionResult r)) := by
  simp [SurfaceInspectionResult.nbIssues, listsSurfaceInspectionResult, report, reportMap, Issues.nbIssues, IssuesMap.nbIssues,
    UInt32.ofNat_add, UInt32.add_assoc]

/-- `SolidInspectionResult::nb_issues` is the (32 bits) sum over all the lists. -/
theorem sumSolidInspectionResult (r : SolidInspectionResult) :
    r.nbIssues = UInt32.ofNat (total (listsSolidInspectionResult r)) := by
  simp [SolidInspectionResult.nbIssues, listsSolidInspectionResult, report, reportMap, Issues.nbIssues, IssuesMap.nbIssues,
    UInt32.ofNat_add, UInt32.add_assoc]

/-- `UniqueVerticesInspectionResult::nb_issues` is the (32 bits) sum over all the lists. -/
theorem sumUniqueVerticesInspectionResult (r : UniqueVerticesInspectionResult) :
    r.nbIssues = UInt32.ofNat (total (listsUniqueVerticesInspectionResult r)) := by
  simp [UniqueVerticesInspectionResult.nbIssues, listsUniqueVerticesInspectionResult, report, reportMap, Issues.nbIssues, IssuesMap.nbIssues,
    UInt32.ofNat_add, UInt32.add_assoc]

/-- `MeshesColocationInspectionResult::nb_issues` is the (32 bits) sum over all the lists. -/
theorem sumMeshesColocationInspectionResult (r : MeshesColocationInspectionResult) :
    r.nbIssues = UInt32.ofNat (total (listsMeshesColocationInspectionResult r)) := by
  simp [MeshesColocationInspectionResult.nbIssues, listsMeshesColocationInspectionResult, report, reportMap, Issues.nbIssues, IssuesMap.nbIssues,
    UInt32.ofNat_add, UInt32.add_assoc]

/-- `SectionMeshesAdjacencyInspectionResult::nb_issues` is the (32 bits) sum over all the lists. -/
theorem sumSectionMeshesAdjacencyInspectionResult (r : SectionMeshesAdjacencyInspectionResult) :
    r.nbIssues = UInt32.ofNat (total (listsSectionMeshesAdjacencyInspectionResult r)) := by
  simp [SectionMeshesAdjacencyInspectionResult.nbIssues, listsSectionMeshesAdjacencyInspectionResult, report, reportMap, Issues.nbIssues, IssuesMap.nbIssues,
    UInt32.ofNat_add, UInt32.add_assoc]

/-- `BRepMeshesAdjacencyInspectionResult::nb_issues` is the (32 bits) sum over all the lists. -/
theorem sumBRepMeshesAdjacencyInspectionResult (r : BRepMeshesAdjacencyInspectionResult) :
    r.nbIssues = UInt32.ofNat (total (listsBRepMeshesAdjacencyInspectionResult r)) := by
  simp [BRepMeshesAdjacencyInspectionResult.nbIssues, listsBRepMeshesAdjacencyInspectionResult, report, reportMap, Issues.nbIssues, IssuesMap.nbIssues,
    UInt32.ofNat_add, UInt32.add_assoc]

/-- `SectionMeshesDegenerationInspectionResult::nb_issues` is the (32 bits) sum over all the lists. -/
theorem sumSectionMeshesDegenerationInspectionResult (r : SectionMeshesDegenerationInspectionResult) :
    r.nbIssues = UInt32.ofNat (total (listsSectionMeshesDegenerationInspectionResult r)) := by
  simp [SectionMeshesDegenerationInspectionResult.nbIssues, listsSectionMeshesDegenerationInspectionResult, report, reportMap, Issues.nbIssues, IssuesMap.nbIssues,
    UInt32.ofNat_add, UInt32.add_assoc]

/-- `BRepMeshesDegenerationInspectionResult::nb_issues` is the (32 bits) sum over all the lists. -/
theorem sumBRepMeshesDegenerationInspectionResult (r : BRepMeshesDegenerationInspectionResult) :
    r.nbIssues = UInt32.ofNat (total (listsBRepMeshesDegenerationInspectionResult r)) := by
  simp [BRepMeshesDegenerationInspectionResult.nbIssues, listsBRepMeshesDegenerationInspectionResult, report, reportMap, Issues.nbIssues, IssuesMap.nbIssues,
    UInt32.ofNat_add, UInt32.add_assoc]

/-- `ElementsIntersectionsInspectionResult::nb_issues` is the (32 bits) sum over all the lists. -/
theorem sumElementsIntersectionsInspectionResult (r : ElementsIntersectionsInspectionResult) :
    r.nbIssues = UInt32.ofNat (total (listsElementsIntersectionsInspectionResult r)) := by
  simp [ElementsIntersectionsInspectionResult.nbIssues, listsElementsIntersectionsInspectionResult, report, reportMap, Issues.nbIssues, IssuesMap.nbIssues,
    UInt32.ofNat_add, UInt32.add_assoc]

/-- `SectionMeshesManifoldInspectionResult::nb_issues` is the (32 bits) sum over all the lists. -/
theorem sumSectionMeshesManifoldInspectionResult (r : SectionMeshesManifoldInspectionResult) :
    r.nbIssues = UInt32.ofNat (total (listsSectionMeshesManifoldInspectionResult r)) := by
  simp [SectionMeshesManifoldInspectionResult.nbIssues, listsSectionMeshesManifoldInspectionResult, report, reportMap, Issues.nbIssues, IssuesMap.nbIssues,
    UInt32.ofNat_add, UInt32.add_assoc]

/-- `BRepMeshesManifoldInspectionResult::nb_issues` is the (32 bits) sum over all the lists. -/
theorem sumBRepMeshesManifoldInspectionResult (r : BRepMeshesManifoldInspectionResult) :
    r.nbIssues = UInt32.ofNat (total (listsBRepMeshesManifoldInspectionResult r)) := by
  simp [BRepMeshesManifoldInspectionResult.nbIssues, listsBRepMeshesManifoldInspectionResult, report, reportMap, Issues.nbIssues, IssuesMap.nbIssues,
    UInt32.ofNat_add, UInt32.add_assoc]

/-- `SectionMeshesNegativeElementsInspectionResult::nb_issues` is the (32 bits) sum over all the lists. -/
theorem sumSectionMeshesNegativeElementsInspectionResult (r : SectionMeshesNegativeElementsInspectionResult) :
    r.nbIssues = UInt32.ofNat (total (listsSectionMeshesNegativeElementsInspectionResult r)) := by
  simp [SectionMeshesNegativeElementsInspectionResult.nbIssues, listsSectionMeshesNegativeElementsInspectionResult, report, reportMap, Issues.nbIssues, IssuesMap.nbIssues,
    UInt32.ofNat_add, UInt32.add_assoc]

/-- `BRepMeshesNegativeElementsInspectionResult::nb_issues` is the (32 bits) sum over all the lists. -/
theorem sumBRepMeshesNegativeElementsInspectionResult (r : BRepMeshesNegativeElementsInspectionResult) :
    r.nbIssues = UInt32.ofNat (total (listsBRepMeshesNegativeElementsInspectionResult r)) := by
  simp [BRepMeshesNegativeElementsInspectionResult.nbIssues, listsBRepMeshesNegativeElementsInspectionResult, report, reportMap, Issues.nbIssues, IssuesMap.nbIssues,
    UInt32.ofNat_add, UInt32.add_assoc]

/-- `SectionMeshesInspectionResult::nb_issues` is the (32 bits) sum over all the lists. -/
theorem sumSectionMeshesInspectionResult (r : SectionMeshesInspectionResult) :
    r.nbIssues = UInt32.ofNat (total (listsSectionMeshesInspectionResult r)) := by
  simp [SectionMeshesInspectionResult.nbIssues, listsSectionMeshesInspectionResult, sumUniqueVerticesInspectionResult, sumMeshesColocationInspectionResult, sumSectionMeshesAdjacencyInspectionResult, sumSectionMeshesDegenerationInspectionResult, sumElementsIntersectionsInspectionResult, sumSectionMeshesManifoldInspectionResult, sumSectionMeshesNegativeElementsInspectionResult, report, reportMap, Issues.nbIssues, IssuesMap.nbIssues,
    UInt32.ofNat_add, UInt32.add_assoc]

/-- `BRepMeshesInspectionResult::nb_issues` is the (32 bits) sum over all the lists. -/
theorem sumBRepMeshesInspectionResult (r : BRepMeshesInspectionResult) :
    r.nbIssues = UInt32.ofNat (total (listsBRepMeshesInspectionResult r)) := by
  simp [BRepMeshesInspectionResult.nbIssues, listsBRepMeshesInspectionResult, sumUniqueVerticesInspectionResult, sumMeshesColocationInspectionResult, sumBRepMeshesAdjacencyInspectionResult, sumBRepMeshesDegenerationInspectionResult, sumElementsIntersectionsInspectionResult, sumBRepMeshesManifoldInspectionResult, sumBRepMeshesNegativeElementsInspectionResult, report, reportMap, Issues.nbIssues, IssuesMap.nbIssues,
    UInt32.ofNat_add, UInt32.add_assoc]

/-- `SectionCornersTopologyInspectionResult::nb_issues` is the (32 bits) sum over all the lists. -/
theorem sumSectionCornersTopologyInspectionResult (r : SectionCornersTopologyInspectionResult) :
    r.nbIssues = UInt32.ofNat (total (listsSectionCornersTopologyInspectionResult r)) := by
  simp [SectionCornersTopologyInspectionResult.nbIssues, listsSectionCornersTopologyInspectionResult, report, reportMap, Issues.nbIssues, IssuesMap.nbIssues,
    UInt32.ofNat_add, UInt32.add_assoc]

/-- `BRepCornersTopologyInspectionResult::nb_issues` is the (32 bits) sum over all the lists. -/
theorem sumBRepCornersTopologyInspectionResult (r : BRepCornersTopologyInspectionResult) :
    r.nbIssues = UInt32.ofNat (total (listsBRepCornersTopologyInspectionResult r)) := by
  simp [BRepCornersTopologyInspectionResult.nbIssues, listsBRepCornersTopologyInspectionResult, report, reportMap, Issues.nbIssues, IssuesMap.nbIssues,
    UInt32.ofNat_add, UInt32.add_assoc]

/-- `BRepLinesTopologyInspectionResult::nb_issues` is the (32 bits) sum over all the lists. -/
theorem sumBRepLinesTopologyInspectionResult (r : BRepLinesTopologyInspectionResult) :
    r.nbIssues = UInt32.ofNat (total (listsBRepLinesTopologyInspectionResult r)) := by
  simp [BRepLinesTopologyInspectionResult.nbIssues, listsBRepLinesTopologyInspectionResult, report, reportMap, Issues.nbIssues, IssuesMap.nbIssues,
    UInt32.ofNat_add, UInt32.add_assoc]

/-- `SectionSurfacesTopologyInspectionResult::nb_issues` is the (32 bits) sum over all the lists. -/
theorem sumSectionSurfacesTopologyInspectionResult (r : SectionSurfacesTopologyInspectionResult) :
    r.nbIssues = UInt32.ofNat (total (listsSectionSurfacesTopologyInspectionResult r)) := by
  simp [SectionSurfacesTopologyInspectionResult.nbIssues, listsSectionSurfacesTopologyInspectionResult, report, reportMap, Issues.nbIssues, IssuesMap.nbIssues,
    UInt32.ofNat_add, UInt32.add_assoc]

/-- `BRepBlocksTopologyInspectionResult::nb_issues` is the (32 bits) sum over all the lists. -/
theorem sumBRepBlocksTopologyInspectionResult (r : BRepBlocksTopologyInspectionResult) :
    r.nbIssues = UInt32.ofNat (total (listsBRepBlocksTopologyInspectionResult r)) := by
  simp [BRepBlocksTopologyInspectionResult.nbIssues, listsBRepBlocksTopologyInspectionResult, report, reportMap, Issues.nbIssues, IssuesMap.nbIssues,
    UInt32.ofNat_add, UInt32.add_assoc]

/-- `SectionLinesTopologyInspectionResult::nb_issues` adds the first five lists only. -/
theorem sumSectionLinesTopologyInspectionResult (r : SectionLinesTopologyInspectionResult) :
    r.nbIssues = UInt32.ofNat (total ((listsSectionLinesTopologyInspectionResult r).take 5)) := by
  simp [SectionLinesTopologyInspectionResult.nbIssues, listsSectionLinesTopologyInspectionResult,
    report, reportMap, Issues.nbIssues, IssuesMap.nbIssues, UInt32.ofNat_add, UInt32.add_assoc]

/-- `BRepSurfacesTopologyInspectionResult::nb_issues` adds the first five lists only. -/
theorem sumBRepSurfacesTopologyInspectionResult (r : BRepSurfacesTopologyInspectionResult) :
    r.nbIssues = UInt32.ofNat (total ((listsBRepSurfacesTopologyInspectionResult r).take 5)) := by
  have h : total ((listsBRepSurfacesTopologyInspectionResult r).take 5)
      = r.surfaces_not_meshed.issues.length
        + r.surfaces_not_linked_to_a_unique_vertex.entries.length
        + r.unique_vertices_linked_to_a_surface_with_invalid_embbedings.issues.length
        + r.unique_vertices_linked_to_a_line_but_is_not_on_a_surface_border.issues.length
        + r.unique_vertices_linked_to_several_and_invalid_surfaces.issues.length := by
    simp [listsBRepSurfacesTopologyInspectionResult, report, reportMap]
    omega
  rw [h]
  simp [BRepSurfacesTopologyInspectionResult.nbIssues, Issues.nbIssues, IssuesMap.nbIssues,
    UInt32.ofNat_add]

theorem totalSectionLines (r : SectionLinesTopologyInspectionResult) :
    total (listsSectionLinesTopologyInspectionResult r)
      = total ((listsSectionLinesTopologyInspectionResult r).take 5)
        + r.unique_vertices_linked_to_several_lines_but_not_linked_to_a_corner.issues.length := by
  simp [listsSectionLinesTopologyInspectionResult, report, reportMap]
  omega

theorem totalBRepSurfaces (r : BRepSurfacesTopologyInspectionResult) :
    total (listsBRepSurfacesTopologyInspectionResult r)
      = total ((listsBRepSurfacesTopologyInspectionResult r).take 5)
        + r.surface_polygons_with_wrong_component_facets_around.entries.length := by
  simp [listsBRepSurfacesTopologyInspectionResult, report, reportMap]
  omega

/-- `SectionInspectionResult::nb_issues` is the sum over all the lists but one. -/
theorem sumSectionInspectionResult (r : SectionInspectionResult) :
    ∃ n, r.nbIssues = UInt32.ofNat n ∧ total (listsSectionInspectionResult r)
      = n + r.topology.lines.unique_vertices_linked_to_several_lines_but_not_linked_to_a_corner.issues.length := by
  refine ⟨total (listsSectionMeshesInspectionResult r.meshes)
    + (total (listsSectionCornersTopologyInspectionResult r.topology.corners)
    + total ((listsSectionLinesTopologyInspectionResult r.topology.lines).take 5)
    + total (listsSectionSurfacesTopologyInspectionResult r.topology.surfaces)
    + r.topology.unique_vertices_not_linked_to_any_component.issues.length
    + r.topology.unique_vertices_linked_to_inexistant_cmv.issues.length
    + r.topology.unique_vertices_nonbijectively_linked_to_cmv.issues.length), ?_, ?_⟩
  · simp only [SectionInspectionResult.nbIssues, SectionTopologyInspectionResult.nbIssues,
      sumSectionMeshesInspectionResult, sumSectionCornersTopologyInspectionResult,
      sumSectionLinesTopologyInspectionResult, sumSectionSurfacesTopologyInspectionResult,
      Issues.nbIssues, UInt32.ofNat_add]
  · simp only [listsSectionInspectionResult, listsSectionTopologyInspectionResult, total_append,
      totalSectionLines, total_cons, total_nil, report]
    omega

/-- `BRepInspectionResult::nb_issues` is the sum over all the lists but one. -/
theorem sumBRepInspectionResult (r : BRepInspectionResult) :
    ∃ n, r.nbIssues = UInt32.ofNat n ∧ total (listsBRepInspectionResult r)
      = n + r.topology.surfaces.surface_polygons_with_wrong_component_facets_around.entries.length := by
  refine ⟨total (listsBRepMeshesInspectionResult r.meshes)
    + (total (listsBRepCornersTopologyInspectionResult r.topology.corners)
    + total (listsBRepLinesTopologyInspectionResult r.topology.lines)
    + total ((listsBRepSurfacesTopologyInspectionResult r.topology.surfaces).take 5)
    + total (listsBRepBlocksTopologyInspectionResult r.topology.blocks)
    + r.topology.unique_vertices_not_linked_to_any_component.issues.length
    + r.topology.unique_vertices_linked_to_inexistant_cmv.issues.length
    + r.topology.unique_vertices_nonbijectively_linked_to_cmv.issues.length), ?_, ?_⟩
  · simp only [BRepInspectionResult.nbIssues, BRepTopologyInspectionResult.nbIssues,
      sumBRepMeshesInspectionResult, sumBRepCornersTopologyInspectionResult,
      sumBRepLinesTopologyInspectionResult, sumBRepSurfacesTopologyInspectionResult,
      sumBRepBlocksTopologyInspectionResult,
      Issues.nbIssues, UInt32.ofNat_add]
  · simp only [listsBRepInspectionResult, listsBRepTopologyInspectionResult, total_append,
      totalBRepSurfaces, total_cons, total_nil, report]
    omega

end Inspector
