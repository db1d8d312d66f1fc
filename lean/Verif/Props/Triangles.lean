import Verif.Proofs.Triangles
import Verif.Props.Intersections
/-
Properties C83 to C85: when two triangles of Surfaces of a model are said to intersect.
-/
namespace Inspector
open Spec

/-! ### C83: triangles without common edge -/

/-- **C83** (Section, no common vertex): two triangles are said to intersect exactly when two of their edges cross. -/
theorem C83_section_apart {P : Type} (g : Geometry P) (s1 s2 : ModelSurface P) (a b c d e f : Index)
    (h : ∀ v ∈ [a, b, c], ∀ w ∈ [d, e, f], ¬ Shared s1 s2 v w) :
    ∃ r, trianglesIntersectionDetection (sectionTrianglesIntersect g) s1 s2 [a, b, c] [d, e, f] = .ok r ∧
      (r = true ↔ ∃ e1 ∈ edgesOf [a, b, c], ∃ e2 ∈ edgesOf [d, e, f], EdgesCross g s1 s2 e1 e2) :=
  section_apart g s1 s2 a b c d e f h

/-- **C83** (Section, one common vertex): exactly when two of their edges cross elsewhere than at this vertex. -/
theorem C83_section_one_vertex {P : Type} (g : Geometry P) (hg : PositionsOk g) (s1 s2 : ModelSurface P)
    (a b c d e f : Index) (hn : [a, b, c].Nodup) (x : Index × Index) (h : OneShared s1 s2 [a, b, c] [d, e, f] x) :
    ∃ r, trianglesIntersectionDetection (sectionTrianglesIntersect g) s1 s2 [a, b, c] [d, e, f] = .ok r ∧
      (r = true ↔ ∃ e1 ∈ edgesOf [a, b, c], ∃ e2 ∈ edgesOf [d, e, f], EdgesCross g s1 s2 e1 e2 ∧
        ¬ FoundAt g [e1.1, e1.2] [e2.1, e2.2] (g.segmentSegment (segmentOf s1 e1) (segmentOf s2 e2)) x) :=
  section_one g hg s1 s2 a b c d e f hn x h

/-- **C83** (BRep, no common vertex): two triangles are said to intersect exactly when an edge of one of them is not
outside the other. -/
theorem C83_brep_apart {P : Type} (g : Geometry P) (s1 s2 : ModelSurface P) (a b c d e f : Index)
    (h : ∀ v ∈ [a, b, c], ∀ w ∈ [d, e, f], ¬ Shared s1 s2 v w) :
    ∃ r, trianglesIntersectionDetection (brepTrianglesIntersect g) s1 s2 [a, b, c] [d, e, f] = .ok r ∧
      (r = true ↔ (∃ e1 ∈ edgesOf [a, b, c], EdgeMeets g s1 s2 e1 [d, e, f]) ∨
        ∃ e2 ∈ edgesOf [d, e, f], EdgeMeets g s2 s1 e2 [a, b, c]) :=
  brep_apart g s1 s2 a b c d e f h

/-- **C83** (BRep, one common vertex): exactly when an edge of one of them meets the other elsewhere than at this
vertex. -/
theorem C83_brep_one_vertex {P : Type} (g : Geometry P) (hg : PositionsOk g) (s1 s2 : ModelSurface P)
    (a b c d e f : Index) (hn : [a, b, c].Nodup) (x : Index × Index) (h : OneShared s1 s2 [a, b, c] [d, e, f] x) :
    ∃ r, trianglesIntersectionDetection (brepTrianglesIntersect g) s1 s2 [a, b, c] [d, e, f] = .ok r ∧
      (r = true ↔ (∃ e1 ∈ edgesOf [a, b, c], EdgeMeetsElsewhere g s1 s2 e1 [d, e, f] x) ∨
        ∃ e2 ∈ edgesOf [d, e, f], EdgeMeetsElsewhere g s2 s1 e2 [a, b, c] (x.2, x.1)) :=
  brep_one g hg s1 s2 a b c d e f hn x h

/-- A triangle with given points, the unique vertices of which start from `first`. -/
def pointsTriangle (first : Nat) (p q r : Int × Int) : ModelSurface (Int × Int) :=
  { id := first, active := true, nbPolygons := 1, polygonVertices := fun _ => [0, 1, 2], nbVertices := 3,
    point := fun v => if v = 0 then p else if v = 1 then q else r
    uniqueVertex := fun v => first + v }

theorem planeGeometry_positions : PositionsOk planeGeometry := by
  have h1 : ∀ a b, (planeGeometry.segmentSegment a b).1 ∈ [Position.parallel, .outside, .vertex0, .vertex1, .inside] ∧
      (planeGeometry.segmentSegment a b).2 ∈ [Position.parallel, .outside, .vertex0, .vertex1, .inside] := by
    intro a b
    unfold planeGeometry
    simp only
    split
    · simp
    · split
      · simp
      · simp only
        constructor
        · split
          · simp
          · split <;> simp
        · split
          · simp
          · split <;> simp
  have h2 : ∀ x ∈ [Position.parallel, .outside, .vertex0, .vertex1, .inside], ∀ i,
      planeGeometry.positionToIndex x = some i → i < 2 := by
    intro x hx i h
    simp only [List.mem_cons, List.not_mem_nil, or_false] at hx
    rcases hx with rfl | rfl | rfl | rfl | rfl <;> cases h <;> decide
  exact ⟨fun a b i => h2 _ (h1 a b).1 i, fun a b i => h2 _ (h1 a b).2 i, fun _ _ _ h => (by cases h),
    fun _ _ _ h => (by cases h)⟩

/-- two triangles which cross -/
example : ∃ r, trianglesIntersectionDetection (sectionTrianglesIntersect planeGeometry)
      (pointsTriangle 0 (0, 0) (4, 0) (2, 4)) (pointsTriangle 10 (2, 1) (8, 1) (8, 3)) [0, 1, 2] [0, 1, 2] = .ok r ∧
    r = true := by
  obtain ⟨r, h1, h2⟩ := C83_section_apart planeGeometry (pointsTriangle 0 (0, 0) (4, 0) (2, 4))
    (pointsTriangle 10 (2, 1) (8, 1) (8, 3)) 0 1 2 0 1 2 (by unfold Shared; decide)
  exact ⟨r, h1, h2.2 ⟨(1, 2), by decide, (0, 1), by decide, by unfold EdgesCross; decide⟩⟩

/-- two triangles which have only a vertex in common -/
example : ∃ r, trianglesIntersectionDetection (sectionTrianglesIntersect planeGeometry)
      (pointsTriangle 0 (0, 0) (4, 0) (2, 4)) (pointsTriangle 2 (2, 4) (5, 4) (5, 8)) [0, 1, 2] [0, 1, 2] = .ok r ∧
    r = false := by
  obtain ⟨r, h1, h2⟩ := C83_section_one_vertex planeGeometry planeGeometry_positions
    (pointsTriangle 0 (0, 0) (4, 0) (2, 4)) (pointsTriangle 2 (2, 4) (5, 4) (5, 8)) 0 1 2 0 1 2 (by decide) (2, 0)
    (by unfold OneShared Shared; decide)
  exact ⟨r, h1, by rw [show r = _ from by injection (h1.symm.trans (show _ = Except.ok false by decide))]⟩

/-- a geometry of space: an edge is in a triangle if its first point is, found at vertex 1 of the edge and 0 of the
triangle -/
def spaceGeometry : Geometry Nat where
  segmentSegment _ _ := (.outside, .outside)
  pointTriangle _ _ := .outside
  segmentTriangle s t := if s.2 = t.1 then (.vertex1, .vertex0) else if s.1 = 5 then (.parallel, .parallel)
    else (.outside, .outside)
  positionToIndex
    | .vertex0 => some 0 | .vertex1 => some 1 | .vertex2 => some 2 | _ => none

def numberTriangle (p q r : Nat) : ModelSurface Nat :=
  { id := p, active := true, nbPolygons := 1, polygonVertices := fun _ => [0, 1, 2], nbVertices := 3,
    point := fun v => if v = 0 then p else if v = 1 then q else r
    uniqueVertex := fun v => if v = 0 then p else if v = 1 then q else r }

theorem spaceGeometry_positions : PositionsOk spaceGeometry := by
  refine ⟨fun _ _ _ h => (by cases h), fun _ _ _ h => (by cases h), ?_, ?_⟩
  all_goals
    intro a b i h
    by_cases h1 : a.2 = b.1
    · have : spaceGeometry.segmentTriangle a b = (.vertex1, .vertex0) := if_pos h1
      rw [this] at h
      cases h
      decide
    · by_cases h2 : a.1 = 5
      · have : spaceGeometry.segmentTriangle a b = (.parallel, .parallel) := (if_neg h1).trans (if_pos h2)
        rw [this] at h
        cases h
      · have : spaceGeometry.segmentTriangle a b = (.outside, .outside) := (if_neg h1).trans (if_neg h2)
        rw [this] at h
        cases h

example : ∃ r, trianglesIntersectionDetection (brepTrianglesIntersect spaceGeometry) (numberTriangle 1 2 3)
    (numberTriangle 4 5 6) [0, 1, 2] [0, 1, 2] = .ok r ∧ r = true := by
  obtain ⟨r, h1, h2⟩ := C83_brep_apart spaceGeometry (numberTriangle 1 2 3) (numberTriangle 4 5 6) 0 1 2 0 1 2
    (by unfold Shared; decide)
  exact ⟨r, h1, h2.2 (Or.inr ⟨(1, 2), by decide, _, ⟨0, 1, 2, rfl, rfl⟩, by decide⟩)⟩

/-- two triangles which have only a vertex in common: the edges 2-3 and 6-3 meet the other triangle there -/
example : ∃ r, trianglesIntersectionDetection (brepTrianglesIntersect spaceGeometry) (numberTriangle 1 2 3)
    (numberTriangle 3 4 6) [0, 1, 2] [0, 1, 2] = .ok r ∧ r = false := by
  obtain ⟨r, h1, h2⟩ := C83_brep_one_vertex spaceGeometry spaceGeometry_positions (numberTriangle 1 2 3)
    (numberTriangle 3 4 6) 0 1 2 0 1 2 (by decide) (2, 0) (by unfold OneShared Shared; decide)
  exact ⟨r, h1, by rw [show r = _ from by injection (h1.symm.trans (show _ = Except.ok false by decide))]⟩

/-! ### C84: adjacent triangles of a BRep -/

/-- **C84**: two triangles of a BRep with two common vertices `v0`, `v1` are said to intersect exactly when a free edge of
the first one is parallel to the second one. -/
theorem C84_brep_adjacent {P : Type} (g : Geometry P) (s1 s2 : ModelSurface P) (t1 : List Index) (d e f : Index)
    (v0 v1 x : Index) (h : TwoShared s1 s2 t1 [d, e, f] v0 v1 x) :
    ∃ r, trianglesIntersectionDetection (brepTrianglesIntersect g) s1 s2 t1 [d, e, f] = .ok r ∧
      (r = true ↔ ∃ y, TriangleOf s2 [d, e, f] y ∧
        ((g.segmentTriangle (segmentOf s1 (v0, x)) y).1 = .parallel ∨
          (g.segmentTriangle (segmentOf s1 (v1, x)) y).1 = .parallel)) :=
  brep_two g s1 s2 t1 d e f v0 v1 x h

example : ∃ r, trianglesIntersectionDetection (brepTrianglesIntersect spaceGeometry) (numberTriangle 5 1 3)
    (numberTriangle 2 3 5) [0, 1, 2] [0, 1, 2] = .ok r ∧ r = true := by
  obtain ⟨r, h1, h2⟩ := C84_brep_adjacent spaceGeometry (numberTriangle 5 1 3) (numberTriangle 2 3 5) [0, 1, 2] 0 1 2
    2 0 1 (by unfold TwoShared Shared; decide)
  exact ⟨r, h1, h2.2 ⟨_, ⟨0, 1, 2, rfl, rfl⟩, Or.inr (by decide)⟩⟩

/-! ### C85: overlapping triangles of a Section -/

/-- **C85 is false**: a triangle of a Section in the interior of another one is not said to intersect it; nor is a
triangle with one vertex in common with another one and its other vertices in the interior of it. -/
theorem C85_nested_triangles_false :
    (∃ (g : Geometry (Int × Int)) (s1 s2 : ModelSurface (Int × Int)),
      (∀ v ∈ [0, 1, 2], ∀ w ∈ [0, 1, 2], ¬ Shared s1 s2 v w) ∧
      (∀ w ∈ [0, 1, 2], g.pointTriangle (s2.point w) (s1.point 0, s1.point 1, s1.point 2) = .inside) ∧
      trianglesIntersectionDetection (sectionTrianglesIntersect g) s1 s2 [0, 1, 2] [0, 1, 2] = .ok false) ∧
    ∃ (g : Geometry (Int × Int)) (s1 s2 : ModelSurface (Int × Int)), OneShared s1 s2 [0, 1, 2] [0, 1, 2] (2, 0) ∧
      s1.point 2 = s2.point 0 ∧
      (∀ w ∈ [1, 2], g.pointTriangle (s2.point w) (s1.point 0, s1.point 1, s1.point 2) = .inside) ∧
      trianglesIntersectionDetection (sectionTrianglesIntersect g) s1 s2 [0, 1, 2] [0, 1, 2] = .ok false :=
  ⟨⟨planeGeometry, pointsTriangle 0 (0, 0) (10, 0) (0, 10), pointsTriangle 10 (1, 1) (3, 1) (1, 3),
      by unfold Shared; decide, by decide, by decide⟩,
    ⟨planeGeometry, pointsTriangle 0 (0, 0) (10, 0) (0, 10), pointsTriangle 2 (0, 10) (1, 1) (2, 1),
      by unfold OneShared Shared; decide, by decide, by decide, by decide⟩⟩

/-- **C85**, what holds: two triangles of a Section without common vertex which overlap with two of their edges crossing
are said to intersect.  Missing: a triangle inside another one. -/
theorem C85_crossing_triangles_partial {P : Type} (g : Geometry P) (s1 s2 : ModelSurface P) (a b c d e f : Index)
    (h : ∀ v ∈ [a, b, c], ∀ w ∈ [d, e, f], ¬ Shared s1 s2 v w)
    (hx : ∃ e1 ∈ edgesOf [a, b, c], ∃ e2 ∈ edgesOf [d, e, f], EdgesCross g s1 s2 e1 e2) :
    trianglesIntersectionDetection (sectionTrianglesIntersect g) s1 s2 [a, b, c] [d, e, f] = .ok true := by
  obtain ⟨r, h1, h2⟩ := section_apart g s1 s2 a b c d e f h
  rw [h1, h2.2 hx]

example : ∃ e1 ∈ edgesOf [0, 1, 2], ∃ e2 ∈ edgesOf [0, 1, 2], EdgesCross planeGeometry
    (pointsTriangle 0 (0, 0) (4, 0) (2, 4)) (pointsTriangle 10 (2, 1) (8, 1) (8, 3)) e1 e2 :=
  ⟨(1, 2), by decide, (0, 1), by decide, by unfold EdgesCross; decide⟩

end Inspector
