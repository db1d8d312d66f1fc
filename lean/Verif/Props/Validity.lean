import Verif.Proofs.Validity
import Verif.Proofs.Sums
/-
Properties C06, C07 and C08: the validity verdicts, for every inspection result.
-/
namespace Inspector
open Spec

/-! ### C06: meshes -/

theorem C06_pointset (r : PointSetInspectionResult) :
    VerdictInOrder (isPointsetValid r).isValid (isPointsetValid r).nbIssues
      (isPointsetValid r).string (listsPointSetInspectionResult r) :=
  verdictInOrder_of_eq (isPointsetValid_texts r)

theorem C06_edged_curve (r : EdgedCurveInspectionResult) :
    VerdictInOrder (isEdgedCurveValid r).isValid (isEdgedCurveValid r).nbIssues
      (isEdgedCurveValid r).string (listsEdgedCurveInspectionResult r) :=
  verdictInOrder_of_eq (isEdgedCurveValid_texts r)

theorem C06_surface (r : SurfaceInspectionResult) :
    VerdictInOrder (isSurfaceValid r).isValid (isSurfaceValid r).nbIssues
      (isSurfaceValid r).string (listsSurfaceInspectionResult r) :=
  verdictInOrder_of_eq (isSurfaceValid_texts r)

theorem C06_solid (r : SolidInspectionResult) :
    VerdictInOrder (isSolidValid r).isValid (isSolidValid r).nbIssues
      (isSolidValid r).string (listsSolidInspectionResult r) :=
  verdictInOrder_of_eq (isSolidValid_texts r)

/-- an invalid solid with two non-empty lists meets the hypotheses -/
example : let r : SolidInspectionResult :=
      { degenerated_edges := ((Issues.new "d").add 4 "m"),
        negative_polyhedra := ((Issues.new "n").add 1 "p") }
    (∀ l ∈ listsSolidInspectionResult r, l.count < 2 ^ 32) ∧
      (isSolidValid r).isValid = false ∧ (isSolidValid r).nbIssues = 2 := by
  decide

/-! ### C07: models -/

theorem C07_section (r : SectionInspectionResult) :
    VerdictInOrder (isSectionValid r).isValid (isSectionValid r).nbIssues
      (isSectionValid r).string (listsSectionInspectionResult r) :=
  verdictInOrder_of_eq (isSectionValid_texts r)

/-- For a BRep the order of the texts is not the one of the lists (Blocks lists are permuted). -/
theorem C07_brep (r : BRepInspectionResult) :
    Verdict (isBRepValid r).isValid (isBRepValid r).nbIssues
      (isBRepValid r).string (listsBRepInspectionResult r) :=
  verdict_of_perm (isBRepValid_texts r)

/-- an invalid BRep, by a list that its own `nb_issues()` forgets, meets the hypotheses -/
example : let r : BRepInspectionResult :=
      { topology.surfaces.surface_polygons_with_wrong_component_facets_around :=
          ((IssuesMap.new "d").addIssues 3 ((Issues.new "e").add 12 "polygon 12")) }
    (∀ l ∈ listsBRepInspectionResult r, l.count < 2 ^ 32) ∧ (isBRepValid r).isValid = false := by
  decide

/-! ### C08: verdict and count -/

/-- C08 is false for Sections: an invalid Section whose inspection counts 0 issues. -/
theorem C08_section_invalid_without_issue : ∃ r : SectionInspectionResult,
    r.nbIssues = 0 ∧ (isSectionValid r).isValid = false :=
  ⟨{ topology.lines.unique_vertices_linked_to_several_lines_but_not_linked_to_a_corner :=
      ((Issues.new "e").add 12 "vertex 12") }, by decide, by decide⟩

/-- C08 is false for BReps: an invalid BRep whose inspection counts 0 issues. -/
theorem C08_brep_invalid_without_issue : ∃ r : BRepInspectionResult,
    r.nbIssues = 0 ∧ (isBRepValid r).isValid = false :=
  ⟨{ topology.surfaces.surface_polygons_with_wrong_component_facets_around :=
      ((IssuesMap.new "d").addIssues 3 ((Issues.new "e").add 12 "polygon 12")) },
    by decide, by decide⟩

/-- What holds of C08 for Sections: the verdict is "count is 0 and the forgotten list is empty"
(in particular a valid Section counts no issue). -/
theorem C08_section_partial (r : SectionInspectionResult)
    (hb : total (listsSectionInspectionResult r) < 2 ^ 32) :
    (isSectionValid r).isValid = true ↔
      r.nbIssues = 0 ∧
      r.topology.lines.unique_vertices_linked_to_several_lines_but_not_linked_to_a_corner.issues = [] := by
  have hl : ∀ l ∈ listsSectionInspectionResult r, l.count < 2 ^ 32 := fun l hl =>
    Nat.lt_of_le_of_lt (count_le_total hl) hb
  rw [(C07_section r hl).1, ← total_eq_zero]
  obtain ⟨n, e, ht⟩ := sumSectionInspectionResult r
  rw [ht] at hb ⊢
  rw [e, ofNat_eq_zero_iff (by omega), ← List.length_eq_zero_iff]
  omega

/-- What holds of C08 for BReps. -/
theorem C08_brep_partial (r : BRepInspectionResult)
    (hb : total (listsBRepInspectionResult r) < 2 ^ 32) :
    (isBRepValid r).isValid = true ↔
      r.nbIssues = 0 ∧
      r.topology.surfaces.surface_polygons_with_wrong_component_facets_around.entries = [] := by
  have hl : ∀ l ∈ listsBRepInspectionResult r, l.count < 2 ^ 32 := fun l hl =>
    Nat.lt_of_le_of_lt (count_le_total hl) hb
  rw [(C07_brep r hl).1, ← total_eq_zero]
  obtain ⟨n, e, ht⟩ := sumBRepInspectionResult r
  rw [ht] at hb ⊢
  rw [e, ofNat_eq_zero_iff (by omega), ← List.length_eq_zero_iff]
  omega

/-- For the four kinds of mesh C08 holds: the verdict is exactly `nb_issues() = 0`. -/
theorem C08_surface (r : SurfaceInspectionResult)
    (hb : total (listsSurfaceInspectionResult r) < 2 ^ 32) :
    (isSurfaceValid r).isValid = true ↔ r.nbIssues = 0 := by
  have hl : ∀ l ∈ listsSurfaceInspectionResult r, l.count < 2 ^ 32 := fun l hl =>
    Nat.lt_of_le_of_lt (count_le_total hl) hb
  rw [(C06_surface r hl).1, (countsAll_of_eq (sumSurfaceInspectionResult r) hb).2]

theorem C08_solid (r : SolidInspectionResult)
    (hb : total (listsSolidInspectionResult r) < 2 ^ 32) :
    (isSolidValid r).isValid = true ↔ r.nbIssues = 0 := by
  have hl : ∀ l ∈ listsSolidInspectionResult r, l.count < 2 ^ 32 := fun l hl =>
    Nat.lt_of_le_of_lt (count_le_total hl) hb
  rw [(C06_solid r hl).1, (countsAll_of_eq (sumSolidInspectionResult r) hb).2]

theorem C08_edged_curve (r : EdgedCurveInspectionResult)
    (hb : total (listsEdgedCurveInspectionResult r) < 2 ^ 32) :
    (isEdgedCurveValid r).isValid = true ↔ r.nbIssues = 0 := by
  have hl : ∀ l ∈ listsEdgedCurveInspectionResult r, l.count < 2 ^ 32 := fun l hl =>
    Nat.lt_of_le_of_lt (count_le_total hl) hb
  rw [(C06_edged_curve r hl).1, (countsAll_of_eq (sumEdgedCurveInspectionResult r) hb).2]

theorem C08_pointset (r : PointSetInspectionResult)
    (hb : total (listsPointSetInspectionResult r) < 2 ^ 32) :
    (isPointsetValid r).isValid = true ↔ r.nbIssues = 0 := by
  have hl : ∀ l ∈ listsPointSetInspectionResult r, l.count < 2 ^ 32 := fun l hl =>
    Nat.lt_of_le_of_lt (count_le_total hl) hb
  rw [(C06_pointset r hl).1, (countsAll_of_eq (sumPointSetInspectionResult r) hb).2]

/-- the hypothesis of the C08 theorems is met by a result with an issue -/
example : let r : SectionInspectionResult :=
      { topology.lines.lines_not_meshed := ((Issues.new "d").add 4 "m") }
    total (listsSectionInspectionResult r) < 2 ^ 32 ∧ (isSectionValid r).isValid = false := by
  decide

end Inspector
