import Verif.Spec.Negative
import Verif.Proofs.Degeneration
/-
Property C32: negative elements.
-/
namespace Inspector
open Spec

theorem C32_negative_polygons (mesh : SignedSurface) :
    Exactly (· < ·) (NegativePolygon mesh) (negativePolygons 2 mesh).issues ∧
    (surfaceHasNegativeElements 2 mesh = true ↔ (negativePolygons 2 mesh).issues ≠ []) := by
  have h : Exactly (· < ·) (NegativePolygon mesh) (negativePolygons 2 mesh).issues := by
    simp only [negativePolygons, beq_self_eq_true, if_true, collect_issues]
    exact exactly_range _ _ _ (fun x => beq_iff_eq)
  refine ⟨h, ?_⟩
  rw [exactly_nil_iff h]
  simp only [surfaceHasNegativeElements, beq_self_eq_true, if_true]
  rw [loopAny_iff]
  exact exists_congr fun p => by rw [List.mem_range, beq_iff_eq]; rfl

/-- **C32.** A surface in 3D never has negative polygons. -/
theorem C32_no_negative_polygon_in_3d (mesh : SignedSurface) :
    surfaceHasNegativeElements 3 mesh = false ∧ (negativePolygons 3 mesh).issues = [] := ⟨rfl, rfl⟩

theorem polyhedronHasNegativeVolume_iff (mesh : SignedSolid) (p : Index) :
    (p < mesh.nbPolyhedra ∧ polyhedronHasNegativeVolume mesh p = true) ↔ NegativePolyhedron mesh p := by
  unfold NegativePolyhedron polyhedronHasNegativeVolume
  refine and_congr_right fun _ => ?_
  by_cases h : mesh.nbPolyhedronVertices p = 4
  · simp [h]
  · simp [h, lt_iff]

/-- **C32** (solids). -/
theorem C32_negative_polyhedra (mesh : SignedSolid) :
    Exactly (· < ·) (NegativePolyhedron mesh) (negativePolyhedra mesh).issues ∧
    (solidHasNegativeElements mesh = true ↔ (negativePolyhedra mesh).issues ≠ []) := by
  have h : Exactly (· < ·) (NegativePolyhedron mesh) (negativePolyhedra mesh).issues := by
    rw [negativePolyhedra, collect_issues]
    exact exactly_filter List.pairwise_lt_range _ _
      (fun x => by rw [List.mem_range]; exact polyhedronHasNegativeVolume_iff mesh x)
  refine ⟨h, ?_⟩
  rw [exactly_nil_iff h]
  unfold solidHasNegativeElements
  rw [loopAny_iff]
  exact exists_congr fun p => by rw [List.mem_range]; exact polyhedronHasNegativeVolume_iff mesh p

/-- **C32** (Section): one list per active Surface having a negative polygon. -/
theorem C32_section (surfaces : List (MeasuredComponent SignedSurface))
    (hn : (surfaces.map MeasuredComponent.id).Nodup)
    (hs : ∀ s ∈ surfaces, s.mesh.nbPolygons < 2 ^ 32) :
    MapReports (inspectSectionNegativeElements surfaces).negative_polygons
      (surfaces.filter fun s => s.active) MeasuredComponent.id
      (fun s l => Exactly (· < ·) (NegativePolygon s.mesh) l) := by
  apply mapReports_of_adds
  · exact hn.sublist (List.filter_sublist.map _)
  · intro s h
    exact Nat.lt_of_le_of_lt (exactly_lt_length (C32_negative_polygons s.mesh).1)
      (hs s (List.mem_filter.1 h).1)
  · intro s _
    exact (C32_negative_polygons s.mesh).1

/-- **C32** (BRep): one list per active Block having a negative polyhedron. -/
theorem C32_brep (blocks : List (MeasuredComponent SignedSolid))
    (hn : (blocks.map MeasuredComponent.id).Nodup)
    (hs : ∀ b ∈ blocks, b.mesh.nbPolyhedra < 2 ^ 32) :
    MapReports (inspectBRepNegativeElements blocks).negative_polyhedra
      (blocks.filter fun b => b.active) MeasuredComponent.id
      (fun b l => Exactly (· < ·) (NegativePolyhedron b.mesh) l) := by
  apply mapReports_of_adds
  · exact hn.sublist (List.filter_sublist.map _)
  · intro s h
    exact Nat.lt_of_le_of_lt (exactly_lt_length (C32_negative_polyhedra s.mesh).1)
      (hs s (List.mem_filter.1 h).1)
  · intro s _
    exact (C32_negative_polyhedra s.mesh).1

/-- polygons 1 and 3 of five are negative -/
def exampleSignedSurface : SignedSurface where
  nbPolygons := 5
  polygonAreaSign p := if p % 2 == 1 then .negative else if p == 2 then .zero else .positive

/-- a positive tetrahedron, a negative one, and two hexahedra of volume -4 and NaN -/
def exampleSignedSolid : SignedSolid where
  nbPolyhedra := 4
  nbPolyhedronVertices p := if p < 2 then 4 else 8
  polyhedronVertex x := x.1 + x.2
  tetrahedronVolumeSign v _ _ _ := if v = 0 then .positive else .negative
  polyhedronVolume p := if p = 2 then .num (-4) else .nan

example : (negativePolygons 2 exampleSignedSurface).issues = [1, 3] ∧
    (negativePolyhedra exampleSignedSolid).issues = [1, 2] := by decide

example : (([⟨1, true, "a", exampleSignedSurface⟩, ⟨2, false, "b", exampleSignedSurface⟩] :
      List (MeasuredComponent SignedSurface)).map MeasuredComponent.id).Nodup ∧
    (inspectSectionNegativeElements [⟨1, true, "a", exampleSignedSurface⟩,
      ⟨2, false, "b", exampleSignedSurface⟩]).negative_polygons.entries.map (fun e => (e.1, e.2.issues))
      = [(1, [1, 3])] := by decide

end Inspector
