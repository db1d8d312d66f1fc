import Verif.Model.Validity
import Verif.Spec.Validity
import Verif.Proofs.Results
/-! Helper lemmas about validity verdicts: what each piece of code appends. -/
set_option linter.unusedSimpArgs false
namespace Inspector
open Spec

/-- texts of the lists whose 32 bits counter is not 0 -/
def texts (ls : List Report) : List String :=
  ls.flatMap fun l => if UInt32.ofNat l.count != 0 then [l.text] else []

@[simp] theorem texts_nil : texts [] = [] := rfl
theorem texts_cons (l : Report) (ls : List Report) :
    texts (l :: ls) = (if UInt32.ofNat l.count != 0 then [l.text] else []) ++ texts ls := rfl
@[simp] theorem texts_append (a b : List Report) : texts (a ++ b) = texts a ++ texts b := by
  simp [texts]

theorem push_ite_ne (v : ObjectValidity) (nb : UInt32) (t : String) :
    (if nb != 0 then v.push t else v).invalidities
      = v.invalidities ++ (if nb != 0 then [t] else []) := by
  by_cases h : (nb != 0) = true <;> simp [h, ObjectValidity.push]

theorem push_ite_gt (v : ObjectValidity) (nb : UInt32) (t : String) :
    (if nb > 0 then v.push t else v).invalidities
      = v.invalidities ++ (if nb != 0 then [t] else []) := by
  by_cases h : nb = 0
  · subst h; simp
  · have h' : nb > 0 := UInt32.pos_iff_ne_zero.2 h
    simp [h, h', ObjectValidity.push]

theorem texts_eq (ls : List Report) (h : ∀ l ∈ ls, l.count < 2 ^ 32) :
    texts ls = (nonEmpty ls).map Report.text := by
  induction ls with
  | nil => rfl
  | cons x xs ih =>
    rw [texts_cons, ih (fun l hl => h l (List.mem_cons_of_mem _ hl))]
    have hx := ofNat_eq_zero_iff (h x (List.mem_cons_self ..))
    by_cases h0 : x.count = 0
    · simp [nonEmpty, h0]
    · have : UInt32.ofNat x.count ≠ 0 := fun e => h0 (hx.1 e)
      simp [nonEmpty, h0, this]

theorem foldl_append_string (l : List String) (acc : String) :
    l.foldl (fun result s => result ++ s) acc = acc ++ String.join l := by
  induction l generalizing acc with
  | nil => simp [String.join_nil]
  | cons x xs ih => rw [List.foldl_cons, ih]; simp [String.join_cons, String.append_assoc]

theorem string_eq_join (v : ObjectValidity) : v.string = String.join v.invalidities := by
  simp [ObjectValidity.string, foldl_append_string]

theorem verdict_of_perm {v : ObjectValidity} {ls : List Report} (h : v.invalidities.Perm (texts ls)) :
    Verdict v.isValid v.nbIssues v.string ls := by
  intro hl
  rw [texts_eq ls hl] at h
  have hlen : v.invalidities.length = (nonEmpty ls).length := by
    simpa using h.length_eq
  refine ⟨?_, ?_, ⟨v.invalidities, h, string_eq_join v⟩⟩
  · have : v.isValid = true ↔ (nonEmpty ls).length = 0 := by
      rw [← hlen]; simp [ObjectValidity.isValid]
    rw [this]; simp [nonEmpty]
  · intro hb
    rw [ObjectValidity.nbIssues, hlen, UInt32.toNat_ofNat_of_lt' (by simpa using hb)]

theorem verdictInOrder_of_eq {v : ObjectValidity} {ls : List Report} (h : v.invalidities = texts ls) :
    VerdictInOrder v.isValid v.nbIssues v.string ls := by
  intro hl
  obtain ⟨h1, h2, _⟩ := verdict_of_perm (v := v) (h ▸ List.Perm.refl _) hl
  exact ⟨h1, h2, by rw [string_eq_join, h, texts_eq ls hl]⟩

theorem isPointsetValid_texts (r : PointSetInspectionResult) :
    (isPointsetValid r).invalidities = texts (listsPointSetInspectionResult r) := by
  simp only [isPointsetValid, push_ite_ne, push_ite_gt]
  simp only [PointSetInspectionResult.nbIssues, PointSetInspectionResult.string, listsPointSetInspectionResult, report, reportMap, Issues.nbIssues, IssuesMap.nbIssues, push_ite_ne, push_ite_gt, texts_cons,
    texts_append, texts_nil, List.append_nil, List.nil_append, List.append_assoc]
  all_goals rfl

theorem isEdgedCurveValid_texts (r : EdgedCurveInspectionResult) :
    (isEdgedCurveValid r).invalidities = texts (listsEdgedCurveInspectionResult r) := by
  simp only [isEdgedCurveValid, push_ite_ne, push_ite_gt]
  simp only [listsEdgedCurveInspectionResult, report, reportMap, Issues.nbIssues, IssuesMap.nbIssues, push_ite_ne, push_ite_gt, texts_cons,
    texts_append, texts_nil, List.append_nil, List.nil_append, List.append_assoc]
  all_goals rfl

theorem isSurfaceValid_texts (r : SurfaceInspectionResult) :
    (isSurfaceValid r).invalidities = texts (listsSurfaceInspectionResult r) := by
  simp only [isSurfaceValid, push_ite_ne, push_ite_gt]
  simp only [listsSurfaceInspectionResult, report, reportMap, Issues.nbIssues, IssuesMap.nbIssues, push_ite_ne, push_ite_gt, texts_cons,
    texts_append, texts_nil, List.append_nil, List.nil_append, List.append_assoc]
  all_goals rfl

theorem isSolidValid_texts (r : SolidInspectionResult) :
    (isSolidValid r).invalidities = texts (listsSolidInspectionResult r) := by
  simp only [isSolidValid, push_ite_ne, push_ite_gt]
  simp only [listsSolidInspectionResult, report, reportMap, Issues.nbIssues, IssuesMap.nbIssues, push_ite_ne, push_ite_gt, texts_cons,
    texts_append, texts_nil, List.append_nil, List.nil_append, List.append_assoc]
  all_goals rfl

theorem addSectionColocationIssues_texts (r : SectionMeshesInspectionResult) (v : ObjectValidity) :
    (addSectionColocationIssues r v).invalidities = v.invalidities ++ texts (listsUniqueVerticesInspectionResult r.unique_vertices_colocation
      ++ listsMeshesColocationInspectionResult r.meshes_colocation) := by
  simp only [addSectionColocationIssues, push_ite_ne, push_ite_gt]
  simp only [listsUniqueVerticesInspectionResult, listsMeshesColocationInspectionResult, report, reportMap, Issues.nbIssues, IssuesMap.nbIssues, push_ite_ne, push_ite_gt, texts_cons,
    texts_append, texts_nil, List.append_nil, List.nil_append, List.append_assoc]
  all_goals rfl

theorem addSectionAdjacenciesIssues_texts (r : SectionMeshesInspectionResult) (v : ObjectValidity) :
    (addSectionAdjacenciesIssues r v).invalidities = v.invalidities ++ texts (listsSectionMeshesAdjacencyInspectionResult r.meshes_adjacencies) := by
  simp only [addSectionAdjacenciesIssues, push_ite_ne, push_ite_gt]
  simp only [listsSectionMeshesAdjacencyInspectionResult, report, reportMap, Issues.nbIssues, IssuesMap.nbIssues, push_ite_ne, push_ite_gt, texts_cons,
    texts_append, texts_nil, List.append_nil, List.nil_append, List.append_assoc]
  all_goals rfl

theorem addSectionDegenerationIssues_texts (r : SectionMeshesInspectionResult) (v : ObjectValidity) :
    (addSectionDegenerationIssues r v).invalidities = v.invalidities ++ texts (listsSectionMeshesDegenerationInspectionResult r.meshes_degenerations) := by
  simp only [addSectionDegenerationIssues, push_ite_ne, push_ite_gt]
  simp only [listsSectionMeshesDegenerationInspectionResult, report, reportMap, Issues.nbIssues, IssuesMap.nbIssues, push_ite_ne, push_ite_gt, texts_cons,
    texts_append, texts_nil, List.append_nil, List.nil_append, List.append_assoc]
  all_goals rfl

theorem addSectionManifoldIssues_texts (r : SectionMeshesInspectionResult) (v : ObjectValidity) :
    (addSectionManifoldIssues r v).invalidities = v.invalidities ++ texts (listsSectionMeshesManifoldInspectionResult r.meshes_non_manifolds) := by
  simp only [addSectionManifoldIssues, push_ite_ne, push_ite_gt]
  simp only [listsSectionMeshesManifoldInspectionResult, report, reportMap, Issues.nbIssues, IssuesMap.nbIssues, push_ite_ne, push_ite_gt, texts_cons,
    texts_append, texts_nil, List.append_nil, List.nil_append, List.append_assoc]
  all_goals rfl

theorem addSectionMeshesInvalidities_texts (r : SectionMeshesInspectionResult) (v : ObjectValidity) :
    (addSectionMeshesInvalidities r v).invalidities = v.invalidities ++ texts (listsSectionMeshesInspectionResult r) := by
  simp only [addSectionMeshesInvalidities, addSectionColocationIssues_texts, addSectionAdjacenciesIssues_texts, addSectionDegenerationIssues_texts, addSectionManifoldIssues_texts,
    push_ite_ne, push_ite_gt]
  simp only [listsSectionMeshesInspectionResult, listsElementsIntersectionsInspectionResult,
    listsSectionMeshesNegativeElementsInspectionResult, report, reportMap, Issues.nbIssues, IssuesMap.nbIssues, push_ite_ne, push_ite_gt, texts_cons,
    texts_append, texts_nil, List.append_nil, List.nil_append, List.append_assoc]
  all_goals rfl

theorem addSectionCornersTopologyIssues_texts (r : SectionTopologyInspectionResult) (v : ObjectValidity) :
    (addSectionCornersTopologyIssues r v).invalidities = v.invalidities ++ texts (listsSectionCornersTopologyInspectionResult r.corners) := by
  simp only [addSectionCornersTopologyIssues, push_ite_ne, push_ite_gt]
  simp only [listsSectionCornersTopologyInspectionResult, report, reportMap, Issues.nbIssues, IssuesMap.nbIssues, push_ite_ne, push_ite_gt, texts_cons,
    texts_append, texts_nil, List.append_nil, List.nil_append, List.append_assoc]
  all_goals rfl

theorem addSectionLinesTopologyIssues_texts (r : SectionTopologyInspectionResult) (v : ObjectValidity) :
    (addSectionLinesTopologyIssues r v).invalidities = v.invalidities ++ texts (listsSectionLinesTopologyInspectionResult r.lines) := by
  simp only [addSectionLinesTopologyIssues, push_ite_ne, push_ite_gt]
  simp only [listsSectionLinesTopologyInspectionResult, report, reportMap, Issues.nbIssues, IssuesMap.nbIssues, push_ite_ne, push_ite_gt, texts_cons,
    texts_append, texts_nil, List.append_nil, List.nil_append, List.append_assoc]
  all_goals rfl

theorem addSectionSurfacesTopologyIssues_texts (r : SectionTopologyInspectionResult) (v : ObjectValidity) :
    (addSectionSurfacesTopologyIssues r v).invalidities = v.invalidities ++ texts (listsSectionSurfacesTopologyInspectionResult r.surfaces) := by
  simp only [addSectionSurfacesTopologyIssues, push_ite_ne, push_ite_gt]
  simp only [listsSectionSurfacesTopologyInspectionResult, report, reportMap, Issues.nbIssues, IssuesMap.nbIssues, push_ite_ne, push_ite_gt, texts_cons,
    texts_append, texts_nil, List.append_nil, List.nil_append, List.append_assoc]
  all_goals rfl

theorem addSectionUvTopologyIssues_texts (r : SectionTopologyInspectionResult) (v : ObjectValidity) :
    (addSectionUvTopologyIssues r v).invalidities = v.invalidities ++ texts ([report r.unique_vertices_not_linked_to_any_component,
      report r.unique_vertices_linked_to_inexistant_cmv,
      report r.unique_vertices_nonbijectively_linked_to_cmv]) := by
  simp only [addSectionUvTopologyIssues, push_ite_ne, push_ite_gt]
  simp only [report, reportMap, Issues.nbIssues, IssuesMap.nbIssues, push_ite_ne, push_ite_gt, texts_cons,
    texts_append, texts_nil, List.append_nil, List.nil_append, List.append_assoc]
  all_goals rfl

theorem addSectionTopologyInvalidities_texts (r : SectionTopologyInspectionResult) (v : ObjectValidity) :
    (addSectionTopologyInvalidities r v).invalidities = v.invalidities ++ texts (listsSectionTopologyInspectionResult r) := by
  simp only [addSectionTopologyInvalidities, addSectionCornersTopologyIssues_texts, addSectionLinesTopologyIssues_texts, addSectionSurfacesTopologyIssues_texts, addSectionUvTopologyIssues_texts,
    push_ite_ne, push_ite_gt]
  simp only [listsSectionTopologyInspectionResult, report, reportMap, Issues.nbIssues, IssuesMap.nbIssues, push_ite_ne, push_ite_gt, texts_cons,
    texts_append, texts_nil, List.append_nil, List.nil_append, List.append_assoc]
  all_goals rfl

theorem isSectionValid_texts (r : SectionInspectionResult) :
    (isSectionValid r).invalidities = texts (listsSectionInspectionResult r) := by
  simp [isSectionValid, listsSectionInspectionResult, addSectionMeshesInvalidities_texts,
    addSectionTopologyInvalidities_texts]

theorem addBrepColocationIssues_texts (r : BRepMeshesInspectionResult) (v : ObjectValidity) :
    (addBrepColocationIssues r v).invalidities = v.invalidities ++ texts (listsUniqueVerticesInspectionResult r.unique_vertices_colocation
      ++ listsMeshesColocationInspectionResult r.meshes_colocation) := by
  simp only [addBrepColocationIssues, push_ite_ne, push_ite_gt]
  simp only [listsUniqueVerticesInspectionResult, listsMeshesColocationInspectionResult, report, reportMap, Issues.nbIssues, IssuesMap.nbIssues, push_ite_ne, push_ite_gt, texts_cons,
    texts_append, texts_nil, List.append_nil, List.nil_append, List.append_assoc]
  all_goals rfl

theorem addBrepAdjacenciesIssues_texts (r : BRepMeshesInspectionResult) (v : ObjectValidity) :
    (addBrepAdjacenciesIssues r v).invalidities = v.invalidities ++ texts (listsBRepMeshesAdjacencyInspectionResult r.meshes_adjacencies) := by
  simp only [addBrepAdjacenciesIssues, push_ite_ne, push_ite_gt]
  simp only [listsBRepMeshesAdjacencyInspectionResult, report, reportMap, Issues.nbIssues, IssuesMap.nbIssues, push_ite_ne, push_ite_gt, texts_cons,
    texts_append, texts_nil, List.append_nil, List.nil_append, List.append_assoc]
  all_goals rfl

theorem addBrepDegenerationIssues_texts (r : BRepMeshesInspectionResult) (v : ObjectValidity) :
    (addBrepDegenerationIssues r v).invalidities = v.invalidities ++ texts (listsBRepMeshesDegenerationInspectionResult r.meshes_degenerations) := by
  simp only [addBrepDegenerationIssues, push_ite_ne, push_ite_gt]
  simp only [listsBRepMeshesDegenerationInspectionResult, report, reportMap, Issues.nbIssues, IssuesMap.nbIssues, push_ite_ne, push_ite_gt, texts_cons,
    texts_append, texts_nil, List.append_nil, List.nil_append, List.append_assoc]
  all_goals rfl

theorem addBrepManifoldIssues_texts (r : BRepMeshesInspectionResult) (v : ObjectValidity) :
    (addBrepManifoldIssues r v).invalidities = v.invalidities ++ texts (listsBRepMeshesManifoldInspectionResult r.meshes_non_manifolds) := by
  simp only [addBrepManifoldIssues, push_ite_ne, push_ite_gt]
  simp only [listsBRepMeshesManifoldInspectionResult, report, reportMap, Issues.nbIssues, IssuesMap.nbIssues, push_ite_ne, push_ite_gt, texts_cons,
    texts_append, texts_nil, List.append_nil, List.nil_append, List.append_assoc]
  all_goals rfl

theorem addBrepMeshesInvalidities_texts (r : BRepMeshesInspectionResult) (v : ObjectValidity) :
    (addBrepMeshesInvalidities r v).invalidities = v.invalidities ++ texts (listsBRepMeshesInspectionResult r) := by
  simp only [addBrepMeshesInvalidities, addBrepColocationIssues_texts, addBrepAdjacenciesIssues_texts, addBrepDegenerationIssues_texts, addBrepManifoldIssues_texts,
    push_ite_ne, push_ite_gt]
  simp only [listsBRepMeshesInspectionResult, listsElementsIntersectionsInspectionResult,
    listsBRepMeshesNegativeElementsInspectionResult, report, reportMap, Issues.nbIssues, IssuesMap.nbIssues, push_ite_ne, push_ite_gt, texts_cons,
    texts_append, texts_nil, List.append_nil, List.nil_append, List.append_assoc]
  all_goals rfl

theorem addBrepCornersTopologyIssues_texts (r : BRepTopologyInspectionResult) (v : ObjectValidity) :
    (addBrepCornersTopologyIssues r v).invalidities = v.invalidities ++ texts (listsBRepCornersTopologyInspectionResult r.corners) := by
  simp only [addBrepCornersTopologyIssues, push_ite_ne, push_ite_gt]
  simp only [listsBRepCornersTopologyInspectionResult, report, reportMap, Issues.nbIssues, IssuesMap.nbIssues, push_ite_ne, push_ite_gt, texts_cons,
    texts_append, texts_nil, List.append_nil, List.nil_append, List.append_assoc]
  all_goals rfl

theorem addBrepLinesTopologyIssues_texts (r : BRepTopologyInspectionResult) (v : ObjectValidity) :
    (addBrepLinesTopologyIssues r v).invalidities = v.invalidities ++ texts (listsBRepLinesTopologyInspectionResult r.lines) := by
  simp only [addBrepLinesTopologyIssues, push_ite_ne, push_ite_gt]
  simp only [listsBRepLinesTopologyInspectionResult, report, reportMap, Issues.nbIssues, IssuesMap.nbIssues, push_ite_ne, push_ite_gt, texts_cons,
    texts_append, texts_nil, List.append_nil, List.nil_append, List.append_assoc]
  all_goals rfl

theorem addBrepSurfacesTopologyIssues_texts (r : BRepTopologyInspectionResult) (v : ObjectValidity) :
    (addBrepSurfacesTopologyIssues r v).invalidities = v.invalidities ++ texts (listsBRepSurfacesTopologyInspectionResult r.surfaces) := by
  simp only [addBrepSurfacesTopologyIssues, push_ite_ne, push_ite_gt]
  simp only [listsBRepSurfacesTopologyInspectionResult, report, reportMap, Issues.nbIssues, IssuesMap.nbIssues, push_ite_ne, push_ite_gt, texts_cons,
    texts_append, texts_nil, List.append_nil, List.nil_append, List.append_assoc]
  all_goals rfl

theorem addBrepUvTopologyIssues_texts (r : BRepTopologyInspectionResult) (v : ObjectValidity) :
    (addBrepUvTopologyIssues r v).invalidities = v.invalidities ++ texts ([report r.unique_vertices_not_linked_to_any_component,
      report r.unique_vertices_linked_to_inexistant_cmv,
      report r.unique_vertices_nonbijectively_linked_to_cmv]) := by
  simp only [addBrepUvTopologyIssues, push_ite_ne, push_ite_gt]
  simp only [report, reportMap, Issues.nbIssues, IssuesMap.nbIssues, push_ite_ne, push_ite_gt, texts_cons,
    texts_append, texts_nil, List.append_nil, List.nil_append, List.append_assoc]
  all_goals rfl

/-- the order in which `add_brep_blocks_topology_issues` looks at the lists -/
def blocksOrder (r : BRepBlocksTopologyInspectionResult) : List Report :=
  [report r.some_blocks_not_meshed,
   report r.wrong_block_boundary_surface,
   reportMap r.blocks_not_linked_to_a_unique_vertex]
  ++ ([report r.unique_vertices_part_of_two_blocks_and_no_boundary_surface,
   report r.unique_vertices_with_incorrect_block_cmvs_count,
   report r.unique_vertices_linked_to_surface_with_wrong_relationship_to_blocks,
   report r.unique_vertices_linked_to_a_single_and_invalid_surface]
  ++ ([report r.blocks_with_not_closed_boundary_surfaces,
   report r.model_boundaries_dont_form_a_closed_surface]
  ++ [report r.unique_vertex_linked_to_multiple_invalid_surfaces]))

theorem blocksOrder_perm (r : BRepBlocksTopologyInspectionResult) :
    (blocksOrder r).Perm (listsBRepBlocksTopologyInspectionResult r) := by
  refine List.Perm.append_left _ ?_
  rw [← List.append_assoc]
  exact List.Perm.append_right _ List.perm_append_comm

theorem texts_perm {a b : List Report} (h : a.Perm b) : (texts a).Perm (texts b) :=
  h.flatMap_right _

theorem addBrepBlocksTopologyIssues_texts (r : BRepTopologyInspectionResult) (v : ObjectValidity) :
    (addBrepBlocksTopologyIssues r v).invalidities = v.invalidities ++ texts (blocksOrder r.blocks) := by
  simp only [addBrepBlocksTopologyIssues, push_ite_ne, push_ite_gt]
  simp only [blocksOrder, report, reportMap, Issues.nbIssues, IssuesMap.nbIssues, push_ite_ne, push_ite_gt, texts_cons,
    texts_append, texts_nil, List.append_nil, List.nil_append, List.append_assoc]
  all_goals rfl

theorem addBrepTopologyInvalidities_texts (r : BRepTopologyInspectionResult) (v : ObjectValidity) :
    (addBrepTopologyInvalidities r v).invalidities.Perm
      (v.invalidities ++ texts (listsBRepTopologyInspectionResult r)) := by
  simp only [addBrepTopologyInvalidities, addBrepCornersTopologyIssues_texts,
    addBrepLinesTopologyIssues_texts, addBrepSurfacesTopologyIssues_texts,
    addBrepBlocksTopologyIssues_texts, addBrepUvTopologyIssues_texts,
    listsBRepTopologyInspectionResult, texts_append, List.append_assoc]
  refine List.Perm.append_left _ (List.Perm.append_left _ (List.Perm.append_left _
    (List.Perm.append_left _ ?_)))
  rw [← texts_append, ← texts_append, ← texts_append, ← texts_append]
  exact texts_perm ((blocksOrder_perm _).append_right _)

theorem isBRepValid_texts (r : BRepInspectionResult) :
    (isBRepValid r).invalidities.Perm (texts (listsBRepInspectionResult r)) := by
  simp only [isBRepValid]
  refine (addBrepTopologyInvalidities_texts _ _).trans ?_
  rw [addBrepMeshesInvalidities_texts]
  simp [listsBRepInspectionResult]

end Inspector
