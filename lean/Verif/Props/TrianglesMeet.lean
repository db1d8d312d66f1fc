import Verif.Proofs.TrianglesMeet
import Verif.Props.Triangles
/-
Property C105: when two triangles of Surfaces of a model are said to intersect, whatever the unique vertices they share.
One more disagreement for C57.
-/
namespace Inspector
open Spec

/-- **C105** (Section): two triangles are said to intersect exactly as told by `SectionTrianglesMeet`, whatever their common
vertices. -/
theorem C105_section {P : Type} (g : Geometry P) (hg : PositionsOk g) (s1 s2 : ModelSurface P) (t1 t2 : List Index)
    (h1 : t1.length = 3) (h2 : t2.length = 3) :
    trianglesIntersectionDetection (sectionTrianglesIntersect g) s1 s2 t1 t2 = .ok true ↔
      SectionTrianglesMeet g s1 s2 t1 t2 := by
  obtain ⟨a, b, c, rfl⟩ := List.length_eq_three.1 h1
  obtain ⟨d, e, f, rfl⟩ := List.length_eq_three.1 h2
  exact Meet.section_iff g hg s1 s2 a b c d e f

/-- **C105** (BRep): two triangles are said to intersect exactly as told by `BRepTrianglesMeet`, and said not to
otherwise. -/
theorem C105_brep {P : Type} (g : Geometry P) (hg : PositionsOk g) (s1 s2 : ModelSurface P) (t1 t2 : List Index)
    (h1 : t1.length = 3) (h2 : t2.length = 3) :
    ∃ r, trianglesIntersectionDetection (brepTrianglesIntersect g) s1 s2 t1 t2 = .ok r ∧
      (r = true ↔ BRepTrianglesMeet g s1 s2 t1 t2) := by
  obtain ⟨r, hr⟩ := brepTest_ok g s1 s2 t1 t2 h1
  refine ⟨r, hr, ?_⟩
  obtain ⟨a, b, c, rfl⟩ := List.length_eq_three.1 h1
  obtain ⟨d, e, f, rfl⟩ := List.length_eq_three.1 h2
  rw [← Meet.brep_iff g hg s1 s2 a b c d e f, hr]
  exact ⟨fun h => by rw [h], fun h => Except.ok.inj h⟩

/-- folded triangles: the edges of (0, 1, 2) and (0, 1, 3) cross -/
def foldedSurface : ModelSurface (Int × Int) := { upperTriangle with
    nbPolygons := 2
    nbVertices := 4
    polygonVertices := fun p => if p = 0 then [0, 1, 2] else [0, 1, 3]
    point := fun v => if v = 0 then (0, 0) else if v = 1 then (4, 0) else if v = 2 then (0, 4) else (4, 4) }

example : SectionTrianglesMeet planeGeometry foldedSurface foldedSurface [0, 1, 2] [0, 1, 3] ∧
    trianglesIntersectionDetection (sectionTrianglesIntersect planeGeometry) foldedSurface foldedSurface [0, 1, 2] [0, 1, 3]
      = .ok true := by
  have h : trianglesIntersectionDetection (sectionTrianglesIntersect planeGeometry) foldedSurface foldedSurface [0, 1, 2]
      [0, 1, 3] = .ok true := by decide
  exact ⟨(C105_section planeGeometry planeGeometry_positions _ _ _ _ rfl rfl).1 h, h⟩

/-- triangles that do not meet -/
example : ¬ SectionTrianglesMeet planeGeometry (pointsTriangle 0 (0, 0) (4, 0) (2, 4))
    (pointsTriangle 2 (2, 4) (5, 4) (5, 8)) [0, 1, 2] [0, 1, 2] := by
  rw [← C105_section planeGeometry planeGeometry_positions _ _ _ _ rfl rfl]
  decide

example : BRepTrianglesMeet spaceGeometry (numberTriangle 5 1 3) (numberTriangle 2 3 5) [0, 1, 2] [0, 1, 2] ∧
    ¬ BRepTrianglesMeet spaceGeometry (numberTriangle 1 2 3) (numberTriangle 4 6 7) [0, 1, 2] [0, 1, 2] := by
  obtain ⟨r, h1, h2⟩ := C105_brep spaceGeometry spaceGeometry_positions (numberTriangle 5 1 3) (numberTriangle 2 3 5)
    [0, 1, 2] [0, 1, 2] rfl rfl
  obtain ⟨r', h1', h2'⟩ := C105_brep spaceGeometry spaceGeometry_positions (numberTriangle 1 2 3) (numberTriangle 4 6 7)
    [0, 1, 2] [0, 1, 2] rfl rfl
  rw [← h2, ← h2']
  exact ⟨(Except.ok.inj (h1.symm.trans (by decide : _ = Except.ok true))),
    fun h => Bool.false_ne_true ((Except.ok.inj ((by decide : Except.ok false = _).trans h1')).trans h)⟩

/-- **C57** is false, overlapping triangles not reported: two triangles of two Surfaces of a Section, on the same side of a
common edge and the edges of which cross, are said not to intersect. -/
theorem C57_missed_overlap_false :
    ∃ (g : Geometry (Int × Int)) (s1 s2 : ModelSurface (Int × Int)),
      (∀ v ∈ [0, 1, 2], ∀ w ∈ [1, 3, 2], s1.uniqueVertex v = s2.uniqueVertex w → s1.point v = s2.point w) ∧
      CommonVertices s1 s2 [0, 1, 2] [1, 3, 2] [(0, 1), (1, 3)] ∧
      SectionAdjacentMeet g s1 s2 [0, 1, 2] [1, 3, 2] (0, 1) (1, 3) (s1.point 1) ∧
      trianglesIntersectionDetection (sectionTrianglesIntersect g) s1 s2 [0, 1, 2] [1, 3, 2] = .ok false := by
  refine ⟨planeGeometry,
    { foldedSurface with
      point := fun v => if v = 0 then (0, 0) else if v = 1 then (4, 0) else if v = 2 then (0, 4) else (100, 90)
      uniqueVertex := fun v => v },
    { foldedSurface with
      id := 2
      point := fun v => if v = 1 then (0, 0) else if v = 3 then (4, 0) else (4, 4)
      uniqueVertex := fun v => if v = 1 then 0 else if v = 3 then 1 else v + 10 }, by decide, ⟨by decide, ?_⟩, ?_, by decide⟩
  · intro c hc
    simp only [List.mem_cons, List.not_mem_nil, or_false] at hc
    rcases hc with rfl | rfl
    · exact ⟨[], [3, 2], rfl, rfl, fun _ h => (by cases h)⟩
    · refine ⟨[1], [2], rfl, rfl, fun u h => ?_⟩
      rw [List.mem_singleton.1 h]
      unfold Shared
      decide
  · refine ⟨2, 2, _, _, ⟨[0, 1], [], rfl, by decide, ?_⟩, ⟨[1, 3], [], rfl, by decide, ?_⟩, ⟨0, 1, 2, rfl, rfl⟩,
      ⟨1, 3, 2, rfl, rfl⟩, .inr (.inl (by decide))⟩
    · intro u hu
      simp only [List.mem_cons, List.not_mem_nil, or_false] at hu
      rcases hu with rfl | rfl <;> decide
    · intro u hu
      simp only [List.mem_cons, List.not_mem_nil, or_false] at hu
      rcases hu with rfl | rfl <;> decide

end Inspector
