import Verif.Proofs.Overlap
/-
Property C116: the intersections of the Surfaces of a BRep, as a statement of geometry on their triangles.
-/
namespace Inspector
open Spec
variable {K : Type} [Field K] [LinearOrder K] [IsStrictOrderedRing K]

/-- **C116** (two triangles): triangles of a BRep in general position are said to intersect exactly when they have a point in
common elsewhere than at their common vertices and edge, whatever the number of their common unique vertices. -/
theorem C116_triangles (g : Geometry (K × K × K)) (hg : ExactSpace g) (hpos : PositionsOk g) (s1 s2 : ModelSurface (K × K × K))
    (a b c d e f : Index) (h : GeneralPosition s1 s2 [a, b, c] [d, e, f]) :
    ∃ r, trianglesIntersectionDetection (brepTrianglesIntersect g) s1 s2 [a, b, c] [d, e, f] = .ok r ∧
      (r = true ↔ Overlap s1 s2 [a, b, c] [d, e, f]) :=
  Overlap.detection g hg hpos s1 s2 a b c d e f h

/-- the polygons of a triangle are itself -/
theorem fan_triangle (a b c : Index) : fan [a, b, c] = [[a, b, c]] := rfl

/-- **C116** (the report): in a BRep (without empty mesh, with different uuids, trees giving all the pairs of polygons with a
common point, polygons of at most 256 vertices), two different triangles in general position of active Surfaces are reported, in
one order or the other, exactly when they have a point in common elsewhere than at their common vertices and edge; nothing is
assumed of the other polygons. -/
theorem C116_report (m : IntersectionModel (K × K × K)) (hg : ExactSpace m.geometry) (hpos : PositionsOk m.geometry)
    (hb : m.trianglesIntersect = brepTrianglesIntersect m.geometry) (c : Candidates (K × K × K)) (ht : TreesOk m c)
    (hsmall : AllSmall m) (hne : NoEmptySurface m) (hnl : NoEmptyLine m)
    (hid : ∀ s1 ∈ m.surfaces, ∀ s2 ∈ m.surfaces, s1.id = s2.id → s1 = s2)
    (hover : ∀ ss ∈ m.overlappingSurfaces, ss.1 ∈ m.surfaces ∧ ss.2 ∈ m.surfaces)
    (s1 s2 : ModelSurface (K × K × K)) (h1 : s1 ∈ m.surfaces) (h2 : s2 ∈ m.surfaces) (p q : Index)
    (hdiff : ¬ (s1.id = s2.id ∧ p = q)) (t1 t2 : List Index) (hp : s1.polygonVertices p = t1) (hq : s2.polygonVertices q = t2)
    (l1 : t1.length = 3) (l2 : t2.length = 3)
    (hcomplete : (∃ x, InSpaceTriangle (spaceTriangleOf s1 t1) x ∧ InSpaceTriangle (spaceTriangleOf s2 t2) x) →
      ∃ y ∈ comparisons m c, (y.1 = (s1, s2) ∧ (p, q) ∈ y.2) ∨ (y.1 = (s2, s1) ∧ (q, p) ∈ y.2))
    (hgen : GeneralPosition s1 s2 t1 t2) :
    ∃ b r, modelHasIntersectingSurfaces m = .ok b ∧ inspectIntersections 3 m = .ok r ∧
      ((polygonsOf s1 s2 (p, q) ∈ r.elements_intersections.issues ∨
        polygonsOf s2 s1 (q, p) ∈ r.elements_intersections.issues) ↔ Overlap s1 s2 t1 t2) ∧
      (Overlap s1 s2 t1 t2 → b = true) := by
  obtain ⟨b, r, hb1, hr, hperm, hbool⟩ := C36_brep_list m c ht hsmall (brepTestsOk m c hb) hne hnl
  obtain ⟨a, b', c', rfl⟩ : ∃ a b c, t1 = [a, b, c] := by
    match t1, l1 with
    | [a, b, c], _ => exact ⟨a, b, c, rfl⟩
  obtain ⟨d, e, f, rfl⟩ : ∃ a b c, t2 = [a, b, c] := by
    match t2, l2 with
    | [a, b, c], _ => exact ⟨a, b, c, rfl⟩
  have test : ∀ (u1 u2 : ModelSurface (K × K × K)) (i j : Index) (x y z x' y' z' : Index),
      u1.polygonVertices i = [x, y, z] → u2.polygonVertices j = [x', y', z'] → ¬ (u1.id = u2.id ∧ i = j) →
      GeneralPosition u1 u2 [x, y, z] [x', y', z'] →
      (PolygonsMeet m u1 u2 (i, j) ↔ Overlap u1 u2 [x, y, z] [x', y', z']) := by
    intro u1 u2 i j x y z x' y' z' e1 e2 hd hG
    obtain ⟨r, hr, hiff⟩ := C116_triangles m.geometry hg hpos u1 u2 x y z x' y' z' hG
    rw [← hiff]
    unfold PolygonsMeet triangleTest
    rw [hb]
    simp only [e1, e2, fan_triangle, List.mem_singleton, exists_eq_left, hr, Except.ok.injEq]
    exact ⟨fun h => h.2, fun h => ⟨hd, h⟩⟩
  have hsurf : ∀ x ∈ comparisons m c, x.1.1 ∈ m.surfaces ∧ x.1.2 ∈ m.surfaces := by
    intro x hx
    unfold comparisons at hx
    rcases List.mem_append.1 hx with hx | hx
    · obtain ⟨s, hs, rfl⟩ := List.mem_map.1 hx
      exact ⟨(List.mem_filter.1 hs).1, (List.mem_filter.1 hs).1⟩
    · obtain ⟨s, hs, rfl⟩ := List.mem_map.1 hx
      exact hover s hs
  have hmeet : ∀ (u1 u2 : ModelSurface (K × K × K)) (i j : Index), u1 ∈ m.surfaces → u2 ∈ m.surfaces →
      (polygonsOf u1 u2 (i, j) ∈ meetingPolygons m c ↔
        PolygonsMeet m u1 u2 (i, j) ∧ ∃ x ∈ comparisons m c, x.1 = (u1, u2) ∧ (i, j) ∈ x.2) := by
    intro u1 u2 i j hu1 hu2
    unfold meetingPolygons
    simp only [List.mem_flatMap, List.mem_map, List.mem_filter, decide_eq_true_eq]
    constructor
    · rintro ⟨x, hx, ⟨i', j'⟩, ⟨hmem, hm⟩, heq⟩
      obtain ⟨m1, m2⟩ := hsurf x hx
      simp only [polygonsOf, Prod.mk.injEq, ComponentMeshElement.mk.injEq, ComponentID.mk.injEq, true_and] at heq
      obtain ⟨⟨i1, rfl⟩, i2, rfl⟩ := heq
      have e1 := hid _ m1 _ hu1 i1
      have e2 := hid _ m2 _ hu2 i2
      rw [e1, e2] at hm
      exact ⟨hm, x, hx, Prod.ext e1 e2, hmem⟩
    · rintro ⟨hm, x, hx, heq, hmem⟩
      exact ⟨x, hx, (i, j), ⟨hmem, by rw [heq]; exact hm⟩, by rw [heq]⟩
  have hnot : ∀ (u1 u2 : ModelSurface (K × K × K)) (i j : Index), polygonsOf u1 u2 (i, j) ∉ meetingEdges m c := by
    intro u1 u2 i j hmem
    unfold meetingEdges at hmem
    simp only [List.mem_flatMap, List.mem_map] at hmem
    obtain ⟨s, _, l, _, x, _, heq⟩ := hmem
    have := congrArg (fun y : ComponentMeshElement × ComponentMeshElement => y.2.component_id.type) heq
    simp [polygonsOf] at this
  have hin : ∀ (u1 u2 : ModelSurface (K × K × K)) (i j : Index), polygonsOf u1 u2 (i, j) ∈ r.elements_intersections.issues ↔
      polygonsOf u1 u2 (i, j) ∈ meetingPolygons m c := by
    intro u1 u2 i j
    rw [hperm.mem_iff, List.mem_append]
    exact ⟨fun h => h.resolve_right (hnot u1 u2 i j), Or.inl⟩
  have T12 := test s1 s2 p q a b' c' d e f hp hq hdiff hgen
  have T21 := test s2 s1 q p d e f a b' c' hq hp (fun h => hdiff ⟨h.1.symm, h.2.symm⟩) (Overlap.general_swap hgen)
  have hswap : Overlap s2 s1 [d, e, f] [a, b', c'] ↔ Overlap s1 s2 [a, b', c'] [d, e, f] :=
    ⟨Overlap.overlap_swap fun v hv w hw hs => (hgen.points w hw v hv hs.symm).symm, Overlap.overlap_swap hgen.points⟩
  have hiff : (polygonsOf s1 s2 (p, q) ∈ meetingPolygons m c ∨ polygonsOf s2 s1 (q, p) ∈ meetingPolygons m c) ↔
      Overlap s1 s2 [a, b', c'] [d, e, f] := by
    rw [hmeet s1 s2 p q h1 h2, hmeet s2 s1 q p h2 h1, T12, T21, hswap]
    constructor
    · rintro (h | h) <;> exact h.1
    · intro h
      have h' := h
      obtain ⟨x, x1, x2, _⟩ := h'
      obtain ⟨y, hy, ⟨e1, e2⟩ | ⟨e1, e2⟩⟩ := hcomplete ⟨x, x1, x2⟩
      · exact Or.inl ⟨h, y, hy, e1, e2⟩
      · exact Or.inr ⟨h, y, hy, e1, e2⟩
  refine ⟨b, r, hb1, hr, by rw [hin, hin]; exact hiff, fun h => ?_⟩
  rw [hbool]
  rcases hiff.2 h with h | h <;> exact List.ne_nil_of_mem h

/-! ### examples -/

/-- a triangle of the horizontal plane -/
def lyingSurface : ModelSurface (ℚ × ℚ × ℚ) := spaceTriangle 1 (0, 0, 0) (4, 0, 0) (0, 4, 0) id

/-- a triangle across it -/
def crossingSurface : ModelSurface (ℚ × ℚ × ℚ) := spaceTriangle 2 (1, 1, -1) (1, 1, 1) (5, 5, 1) (· + 10)

/-- a triangle with the edge 0-1 of the first one -/
def standingSurface : ModelSurface (ℚ × ℚ × ℚ) :=
  spaceTriangle 3 (0, 0, 0) (4, 0, 0) (1, 1, 1) (fun v => if v = 2 then 20 else v)

theorem crossing_general : GeneralPosition lyingSurface crossingSurface [0, 1, 2] [0, 1, 2] := by
  refine ⟨?_, ?_, ?_, ?_, ?_, ?_⟩
  · show ¬ FlatInSpace (spaceTriangleAt (spaceTriangle 1 (0, 0, 0) (4, 0, 0) (0, 4, 0) id) 0 1 2)
    unfold FlatInSpace spaceTriangleAt spaceTriangle normal crossProduct vector; norm_num
  · show ¬ FlatInSpace (spaceTriangleAt (spaceTriangle 2 (1, 1, -1) (1, 1, 1) (5, 5, 1) (· + 10)) 0 1 2)
    unfold FlatInSpace spaceTriangleAt spaceTriangle normal crossProduct vector; norm_num
  · show ¬ SamePlane (spaceTriangleAt (spaceTriangle 1 (0, 0, 0) (4, 0, 0) (0, 4, 0) id) 0 1 2)
      (spaceTriangleAt (spaceTriangle 2 (1, 1, -1) (1, 1, 1) (5, 5, 1) (· + 10)) 0 1 2)
    unfold SamePlane InPlane spaceTriangleAt spaceTriangle normal crossProduct dotProduct vector; norm_num
  · intro e he h1 h2
    exfalso
    simp only [edgesOf, List.mem_cons, List.not_mem_nil, or_false] at he
    change InPlane (spaceTriangleAt (spaceTriangle 2 (1, 1, -1) (1, 1, 1) (5, 5, 1) (· + 10)) 0 1 2) _ at h1 h2
    unfold InPlane spaceTriangleAt lyingSurface spaceTriangle normal crossProduct dotProduct vector at h1 h2
    rcases he with rfl | rfl | rfl <;> first | (norm_num at h1; done) | (norm_num at h2; done)
  · intro e he h1 h2
    exfalso
    simp only [edgesOf, List.mem_cons, List.not_mem_nil, or_false] at he
    change InPlane (spaceTriangleAt (spaceTriangle 1 (0, 0, 0) (4, 0, 0) (0, 4, 0) id) 0 1 2) _ at h1 h2
    unfold InPlane spaceTriangleAt crossingSurface spaceTriangle normal crossProduct dotProduct vector at h1 h2
    rcases he with rfl | rfl | rfl <;> first | (norm_num at h1; done) | (norm_num at h2; done)
  · unfold Shared lyingSurface crossingSurface spaceTriangle
    decide

theorem crossing_overlap : Overlap lyingSurface crossingSurface [0, 1, 2] [0, 1, 2] := by
  refine ⟨(1, 1, 0), ?_, ?_, ?_⟩
  · show InSpaceTriangle (spaceTriangleAt (spaceTriangle 1 (0, 0, 0) (4, 0, 0) (0, 4, 0) id) 0 1 2) (1, 1, 0)
    exact ⟨1 / 2, 1 / 4, 1 / 4, by unfold spaceTriangleAt spaceTriangle; norm_num⟩
  · show InSpaceTriangle (spaceTriangleAt (spaceTriangle 2 (1, 1, -1) (1, 1, 1) (5, 5, 1) (· + 10)) 0 1 2) (1, 1, 0)
    exact ⟨1 / 2, 1 / 2, 0, by unfold spaceTriangleAt spaceTriangle; norm_num⟩
  · rintro ⟨v, hv, _, _, ⟨w, hw, hs⟩, _, _⟩
    have hno : ∀ v ∈ [0, 1, 2], ∀ w ∈ [0, 1, 2], ¬ Shared lyingSurface crossingSurface v w := by
      unfold Shared lyingSurface crossingSurface spaceTriangle
      decide
    exact hno v hv w hw hs

/-- triangles with a common edge in general position -/
theorem standing_general : GeneralPosition lyingSurface standingSurface [0, 1, 2] [0, 1, 2] := by
  refine ⟨?_, ?_, ?_, ?_, ?_, ?_⟩
  · show ¬ FlatInSpace (spaceTriangleAt (spaceTriangle 1 (0, 0, 0) (4, 0, 0) (0, 4, 0) id) 0 1 2)
    unfold FlatInSpace spaceTriangleAt spaceTriangle normal crossProduct vector; norm_num
  · show ¬ FlatInSpace (spaceTriangleAt standingSurface 0 1 2)
    unfold FlatInSpace spaceTriangleAt standingSurface spaceTriangle normal crossProduct vector; norm_num
  · show ¬ SamePlane (spaceTriangleAt (spaceTriangle 1 (0, 0, 0) (4, 0, 0) (0, 4, 0) id) 0 1 2)
      (spaceTriangleAt standingSurface 0 1 2)
    unfold SamePlane InPlane spaceTriangleAt standingSurface spaceTriangle normal crossProduct dotProduct vector; norm_num
  · intro e he h1 h2
    simp only [edgesOf, List.mem_cons, List.not_mem_nil, or_false] at he
    change InPlane (spaceTriangleAt standingSurface 0 1 2) _ at h1 h2
    rcases he with rfl | rfl | rfl
    · unfold IsCommon Shared lyingSurface standingSurface spaceTriangle
      decide
    all_goals
      exfalso
      unfold InPlane spaceTriangleAt lyingSurface standingSurface spaceTriangle normal crossProduct dotProduct vector at h1 h2
      first | (norm_num at h1; done) | (norm_num at h2; done)
  · intro e he h1 h2
    simp only [edgesOf, List.mem_cons, List.not_mem_nil, or_false] at he
    change InPlane (spaceTriangleAt lyingSurface 0 1 2) _ at h1 h2
    rcases he with rfl | rfl | rfl
    · unfold IsCommon Shared lyingSurface standingSurface spaceTriangle
      decide
    all_goals
      exfalso
      unfold InPlane spaceTriangleAt lyingSurface standingSurface spaceTriangle normal crossProduct dotProduct vector at h1 h2
      first | (norm_num at h1; done) | (norm_num at h2; done)
  · unfold Shared lyingSurface standingSurface spaceTriangle
    decide +kernel

/-- a BRep with the three Surfaces -/
noncomputable def threeTriangles : IntersectionModel (ℚ × ℚ × ℚ) where
  surfaces := [lyingSurface, crossingSurface, standingSurface]
  geometry := exactSpaceGeometry
  selfTraversal := fun _ => untilStop []
  otherTraversal := fun _ _ => untilStop [(0, 0)]
  lineTraversal := fun _ _ => untilStop []
  overlappingSurfaces := [(lyingSurface, crossingSurface), (lyingSurface, standingSurface), (standingSurface, crossingSurface)]
  trianglesIntersect := brepTrianglesIntersect exactSpaceGeometry

/-- the first two triangles are reported -/
example : ∃ b r, modelHasIntersectingSurfaces threeTriangles = .ok b ∧ inspectIntersections 3 threeTriangles = .ok r ∧
    b = true ∧ (polygonsOf lyingSurface crossingSurface (0, 0) ∈ r.elements_intersections.issues ∨
      polygonsOf crossingSurface lyingSurface (0, 0) ∈ r.elements_intersections.issues) := by
  obtain ⟨b, r, h1, h2, h3, h4⟩ := C116_report threeTriangles exactSpaceGeometry_ok exactSpaceGeometry_positions rfl
    ⟨fun _ => [], fun _ _ => [(0, 0)], fun _ _ => []⟩
    ⟨fun _ => untilStop_isTraversal [], fun _ _ => untilStop_isTraversal [(0, 0)], fun _ _ => untilStop_isTraversal []⟩
    ⟨by
      intro s hs p
      simp only [threeTriangles, List.mem_cons, List.not_mem_nil, or_false] at hs
      rcases hs with rfl | rfl | rfl <;> exact (by decide : 3 ≤ 256), by
      intro s hs
      simp only [threeTriangles, List.mem_cons, List.not_mem_nil, or_false] at hs
      rcases hs with rfl | rfl | rfl <;> exact ⟨fun p => (by decide : 3 ≤ 256), fun p => (by decide : 3 ≤ 256)⟩⟩
    (by
      intro s hs _
      simp only [threeTriangles, List.mem_cons, List.not_mem_nil, or_false] at hs
      rcases hs with rfl | rfl | rfl <;> decide)
    (by intro l hl; cases hl)
    (by
      intro s hs s' hs' hid
      simp only [threeTriangles, List.mem_cons, List.not_mem_nil, or_false] at hs hs'
      rcases hs with rfl | rfl | rfl <;> rcases hs' with rfl | rfl | rfl <;> first | rfl | exact absurd hid (by decide))
    (by
      intro ss hss
      simp only [threeTriangles, List.mem_cons, List.not_mem_nil, or_false] at hss
      rcases hss with rfl | rfl | rfl <;> simp [threeTriangles])
    lyingSurface crossingSurface (by simp [threeTriangles]) (by simp [threeTriangles]) 0 0 (by decide) [0, 1, 2] [0, 1, 2] rfl rfl
    rfl rfl (fun _ => ⟨((lyingSurface, crossingSurface), [(0, 0)]), by simp [comparisons, threeTriangles],
      Or.inl ⟨rfl, by simp⟩⟩) crossing_general
  exact ⟨b, r, h1, h2, h4 crossing_overlap, h3.2 crossing_overlap⟩

end Inspector
