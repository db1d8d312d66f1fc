import Mathlib.Algebra.Order.Ring.Rat
import Mathlib.Tactic.NormNum
import Verif.Proofs.SpaceTriangles
import Verif.Props.Triangles
/-
Property C113: what the tests of triangles of a BRep mean in the space, when the predicates of the space are exact.
-/
namespace Inspector
open Spec
variable {K : Type} [Field K] [LinearOrder K] [IsStrictOrderedRing K]

/-- **C113** (no common unique vertex): two triangles of a BRep which are not in a same plane and have a point in common are
said to intersect. -/
theorem C113_found (g : Geometry (K × K × K)) (hg : ExactSpace g) (s1 s2 : ModelSurface (K × K × K)) (a b c d e f : Index)
    (h1 : ¬ FlatInSpace (spaceTriangleAt s1 a b c)) (h2 : ¬ FlatInSpace (spaceTriangleAt s2 d e f))
    (hn : ¬ SamePlane (spaceTriangleAt s1 a b c) (spaceTriangleAt s2 d e f))
    (h : ∀ v ∈ [a, b, c], ∀ w ∈ [d, e, f], ¬ Shared s1 s2 v w) (p : K × K × K)
    (hp1 : InSpaceTriangle (spaceTriangleAt s1 a b c) p) (hp2 : InSpaceTriangle (spaceTriangleAt s2 d e f) p) :
    trianglesIntersectionDetection (brepTrianglesIntersect g) s1 s2 [a, b, c] [d, e, f] = .ok true := by
  obtain ⟨r, hr, hiff⟩ := C83_brep_apart g s1 s2 a b c d e f h
  rw [hr, hiff.2 (Space.apart_found g hg s1 s2 a b c d e f h1 h2 hn p hp1 hp2)]

/-- **C113** (no common unique vertex): when no edge of one of the triangles is in the plane of the other, they are said to
intersect exactly when they have a point in common. -/
theorem C113_apart (g : Geometry (K × K × K)) (hg : ExactSpace g) (s1 s2 : ModelSurface (K × K × K)) (a b c d e f : Index)
    (h1 : ¬ FlatInSpace (spaceTriangleAt s1 a b c)) (h2 : ¬ FlatInSpace (spaceTriangleAt s2 d e f))
    (hn : NoEdgeInPlane (spaceTriangleAt s1 a b c) (spaceTriangleAt s2 d e f))
    (h : ∀ v ∈ [a, b, c], ∀ w ∈ [d, e, f], ¬ Shared s1 s2 v w) :
    ∃ r, trianglesIntersectionDetection (brepTrianglesIntersect g) s1 s2 [a, b, c] [d, e, f] = .ok r ∧
      (r = true ↔ ∃ x, InSpaceTriangle (spaceTriangleAt s1 a b c) x ∧ InSpaceTriangle (spaceTriangleAt s2 d e f) x) := by
  obtain ⟨r, hr, hiff⟩ := C83_brep_apart g s1 s2 a b c d e f h
  exact ⟨r, hr, hiff.trans (Space.apart_iff g hg s1 s2 a b c d e f h1 h2 hn)⟩

/-- **C113** (one common unique vertex, at the same point of the two Surfaces): triangles which are not in a same plane and
have another point in common are said to intersect. -/
theorem C113_one_vertex_found (g : Geometry (K × K × K)) (hg : ExactSpace g) (hpos : PositionsOk g)
    (s1 s2 : ModelSurface (K × K × K)) (a b c d e f : Index)
    (h1 : ¬ FlatInSpace (spaceTriangleAt s1 a b c)) (h2 : ¬ FlatInSpace (spaceTriangleAt s2 d e f))
    (hn : ¬ SamePlane (spaceTriangleAt s1 a b c) (spaceTriangleAt s2 d e f)) (z : Index × Index)
    (h : OneShared s1 s2 [a, b, c] [d, e, f] z) (hz : s1.point z.1 = s2.point z.2) (p : K × K × K)
    (hp1 : InSpaceTriangle (spaceTriangleAt s1 a b c) p) (hp2 : InSpaceTriangle (spaceTriangleAt s2 d e f) p)
    (hp : p ≠ s1.point z.1) :
    trianglesIntersectionDetection (brepTrianglesIntersect g) s1 s2 [a, b, c] [d, e, f] = .ok true := by
  obtain ⟨r, hr, hiff⟩ := C83_brep_one_vertex g hpos s1 s2 a b c d e f (Space.nodup_at s1 a b c h1) z h
  rw [hr, hiff.2 (Space.one_found g hg s1 s2 a b c d e f h1 h2 z h.1 h.2.1 hz hn p hp1 hp2 hp)]

/-- **C113** (one common unique vertex): when no edge of one of the triangles is in the plane of the other, they are said to
intersect exactly when they have another point in common. -/
theorem C113_one_vertex (g : Geometry (K × K × K)) (hg : ExactSpace g) (hpos : PositionsOk g)
    (s1 s2 : ModelSurface (K × K × K)) (a b c d e f : Index)
    (h1 : ¬ FlatInSpace (spaceTriangleAt s1 a b c)) (h2 : ¬ FlatInSpace (spaceTriangleAt s2 d e f))
    (hn : NoEdgeInPlane (spaceTriangleAt s1 a b c) (spaceTriangleAt s2 d e f)) (z : Index × Index)
    (h : OneShared s1 s2 [a, b, c] [d, e, f] z) (hz : s1.point z.1 = s2.point z.2) :
    ∃ r, trianglesIntersectionDetection (brepTrianglesIntersect g) s1 s2 [a, b, c] [d, e, f] = .ok r ∧
      (r = true ↔ ∃ x, InSpaceTriangle (spaceTriangleAt s1 a b c) x ∧ InSpaceTriangle (spaceTriangleAt s2 d e f) x ∧
        x ≠ s1.point z.1) := by
  obtain ⟨r, hr, hiff⟩ := C83_brep_one_vertex g hpos s1 s2 a b c d e f (Space.nodup_at s1 a b c h1) z h
  exact ⟨r, hr, hiff.trans (Space.one_iff g hg s1 s2 a b c d e f h1 h2 z h.1 h.2.1 hz hn)⟩

/-- **C113** (two common unique vertices `v0` and `v1`, at the same points of the two Surfaces): triangles which are not in a
same plane are never said to intersect, and all their common points are on their common edge. -/
theorem C113_adjacent (g : Geometry (K × K × K)) (hg : ExactSpace g) (s1 s2 : ModelSurface (K × K × K)) (t1 : List Index)
    (d e f v0 v1 x : Index) (h2 : ¬ FlatInSpace (spaceTriangleAt s2 d e f))
    (hn : ¬ SamePlane (spaceTriangleAt s1 v0 v1 x) (spaceTriangleAt s2 d e f))
    (h : TwoShared s1 s2 t1 [d, e, f] v0 v1 x)
    (hp : ∀ v ∈ t1, ∀ w ∈ [d, e, f], Shared s1 s2 v w → s1.point v = s2.point w) :
    trianglesIntersectionDetection (brepTrianglesIntersect g) s1 s2 t1 [d, e, f] = .ok false ∧
    ∀ y, InSpaceTriangle (spaceTriangleAt s1 v0 v1 x) y → InSpaceTriangle (spaceTriangleAt s2 d e f) y →
      OnSpaceSegment (s1.point v0, s1.point v1) y := by
  have m0 : v0 ∈ t1 := h.1.mem_iff.2 (by simp)
  have m1 : v1 ∈ t1 := h.1.mem_iff.2 (by simp)
  obtain ⟨px, hy⟩ := Space.adjacent_plane s1 s2 d e f v0 v1 x h2 hn
    (h.2.2.1.imp fun w hw => ⟨hw.1, hp v0 m0 w hw.1 hw.2⟩) (h.2.2.2.1.imp fun w hw => ⟨hw.1, hp v1 m1 w hw.1 hw.2⟩)
  obtain ⟨r, hr, hiff⟩ := brep_two g s1 s2 t1 d e f v0 v1 x h
  refine ⟨?_, hy⟩
  have hf : ¬ r = true := by
    rw [hiff]
    rintro ⟨T, hT, hpar⟩
    rw [Space.triangle_at] at hT
    rw [hT] at hpar
    rcases hpar with hpar | hpar
    · exact (hg.crossing (segmentOf s1 (v0, x)) _ h2 (fun hl => px hl.2)).1 hpar
    · exact (hg.crossing (segmentOf s1 (v1, x)) _ h2 (fun hl => px hl.2)).1 hpar
  rw [hr]
  cases r with
  | false => rfl
  | true => exact absurd rfl hf

/-! ### exact predicates exist, and meet the hypotheses -/

open Classical in
/-- where a point is on a segment -/
noncomputable def exactEnd (s : (K × K × K) × (K × K × K)) (x : K × K × K) : Position :=
  if x = s.1 then .vertex0 else if x = s.2 then .vertex1 else .inside

open Classical in
/-- where a point is in a triangle -/
noncomputable def exactVertex (T : (K × K × K) × (K × K × K) × (K × K × K)) (x : K × K × K) : Position :=
  if x = T.1 then .vertex0 else if x = T.2.1 then .vertex1 else if x = T.2.2 then .vertex2 else .inside

open Classical in
/-- exact predicates of the space, segments in the plane of the triangle being called parallel -/
noncomputable def exactSpaceGeometry : Geometry (K × K × K) where
  segmentSegment _ _ := (.outside, .outside)
  pointTriangle _ _ := .outside
  segmentTriangle s T :=
    if InPlane T s.1 ∧ InPlane T s.2 then (.parallel, .parallel)
    else if h : ∃ x, OnSpaceSegment s x ∧ InSpaceTriangle T x then (exactEnd s h.choose, exactVertex T h.choose)
    else (.outside, .outside)
  positionToIndex
    | .vertex0 => some 0
    | .vertex1 => some 1
    | .vertex2 => some 2
    | _ => none

open Classical in
theorem exactSpaceGeometry_ok : ExactSpace (exactSpaceGeometry (K := K)) := by
  have unique : ∀ (s : (K × K × K) × (K × K × K)) (T : (K × K × K) × (K × K × K) × (K × K × K)) (x y : K × K × K),
      ¬ FlatInSpace T → ¬ (InPlane T s.1 ∧ InPlane T s.2) → OnSpaceSegment s x → InSpaceTriangle T x → OnSpaceSegment s y →
      InSpaceTriangle T y → x = y := by
    rintro s T x y hT hl ⟨t, _, _, x1, x2, x3⟩ hx ⟨u, _, _, y1, y2, y3⟩ hy
    have px := ((Space.in_iff hT x).1 hx).1
    have py := ((Space.in_iff hT y).1 hy).1
    by_cases htu : t = u
    · subst htu
      exact Space.ext3 (x1.trans y1.symm) (x2.trans y2.symm) (x3.trans y3.symm)
    · refine absurd ?_ hl
      unfold InPlane at px py ⊢
      generalize normal T = n at *
      unfold dotProduct vector at *
      simp only at *
      have hz : n.1 * (s.2.1 - s.1.1) + n.2.1 * (s.2.2.1 - s.1.2.1) + n.2.2 * (s.2.2.2 - s.1.2.2) = 0 := by
        refine (mul_eq_zero.1 (?_ : (t - u) * _ = 0)).resolve_left (sub_ne_zero.2 htu)
        rw [x1, x2, x3] at px
        rw [y1, y2, y3] at py
        linear_combination px - py
      have h1 : n.1 * (s.1.1 - T.1.1) + n.2.1 * (s.1.2.1 - T.1.2.1) + n.2.2 * (s.1.2.2 - T.1.2.2) = 0 := by
        rw [x1, x2, x3] at px
        linear_combination px - t * hz
      exact ⟨h1, by linear_combination h1 + hz⟩
  have found : ∀ (s : (K × K × K) × (K × K × K)) (T : (K × K × K) × (K × K × K) × (K × K × K)) (x : K × K × K),
      ¬ FlatInSpace T → ¬ (InPlane T s.1 ∧ InPlane T s.2) → OnSpaceSegment s x → InSpaceTriangle T x →
      s.1 ≠ s.2 ∧ (exactSpaceGeometry (K := K)).segmentTriangle s T = (exactEnd s x, exactVertex T x) := by
    intro s T x hT hl h1 h2
    have hex : ∃ x, OnSpaceSegment s x ∧ InSpaceTriangle T x := ⟨x, h1, h2⟩
    have hx : hex.choose = x := unique s T _ _ hT hl hex.choose_spec.1 hex.choose_spec.2 h1 h2
    refine ⟨fun h => hl ?_, ?_⟩
    · have px := ((Space.in_iff hT x).1 h2).1
      obtain ⟨t, _, _, x1, x2, x3⟩ := h1
      rw [h] at x1 x2 x3
      have ex : x = s.2 := Space.ext3 (by rw [x1]; ring) (by rw [x2]; ring) (by rw [x3]; ring)
      rw [h, ← ex]
      exact ⟨px, px⟩
    · show (if InPlane T s.1 ∧ InPlane T s.2 then _ else if h : ∃ x, OnSpaceSegment s x ∧ InSpaceTriangle T x then _ else _) = _
      rw [if_neg hl, dif_pos hex, hx]
  refine ⟨?_, ?_, ?_⟩
  · intro s T hT hl
    by_cases hex : ∃ x, OnSpaceSegment s x ∧ InSpaceTriangle T x
    · obtain ⟨x, h1, h2⟩ := hex
      obtain ⟨n1, he⟩ := found s T x hT hl h1 h2
      rw [he]
      have : exactEnd s x ≠ .parallel ∧ exactEnd s x ≠ .outside := by
        unfold exactEnd
        split
        · decide
        · split <;> decide
      exact ⟨this.1, fun _ => ⟨x, h1, h2⟩, fun _ => this.2⟩
    · have he : (exactSpaceGeometry (K := K)).segmentTriangle s T = (.outside, .outside) := by
        show (if InPlane T s.1 ∧ InPlane T s.2 then _ else if h : ∃ x, OnSpaceSegment s x ∧ InSpaceTriangle T x then _ else _) = _
        rw [if_neg hl, dif_neg hex]
      rw [he]
      exact ⟨by decide, fun h => absurd rfl h, fun h => absurd h hex⟩
  · intro s T x hT hl h1 h2
    obtain ⟨n1, he⟩ := found s T x hT hl h1 h2
    rw [he]
    unfold exactEnd exactSpaceGeometry
    by_cases h0 : x = s.1
    · simp [h0, n1]
    · by_cases h1 : x = s.2
      · simp [h1, n1.symm]
      · simp [h0, h1]
  · intro s T x hT hl h1 h2
    obtain ⟨_, he⟩ := found s T x hT hl h1 h2
    rw [he]
    obtain ⟨d1, d2, d3⟩ : T.1 ≠ T.2.1 ∧ T.2.1 ≠ T.2.2 ∧ T.2.2 ≠ T.1 := by
      refine ⟨?_, ?_, ?_⟩ <;>
        (intro h
         apply hT
         unfold FlatInSpace normal
         rw [h]
         refine Space.ext3 ?_ ?_ ?_ <;> (unfold crossProduct vector; simp only; ring))
    unfold exactVertex exactSpaceGeometry
    by_cases h0 : x = T.1
    · simp [h0, d1, d3.symm]
    · by_cases h1 : x = T.2.1
      · simp [h1, d1.symm, d2]
      · by_cases h2 : x = T.2.2
        · simp [h2, d3, d2.symm]
        · simp [h0, h1, h2]

open Classical in
theorem exactSpaceGeometry_positions : PositionsOk (exactSpaceGeometry (K := K)) := by
  have pos : ∀ (s : (K × K × K) × (K × K × K)) x i, (exactSpaceGeometry (K := K)).positionToIndex (exactEnd s x) = some i →
      i < 2 := by
    intro s x i h
    unfold exactEnd at h
    split at h
    · cases h; decide
    · split at h
      · cases h; decide
      · cases h
  have pos' : ∀ (T : (K × K × K) × (K × K × K) × (K × K × K)) x i,
      (exactSpaceGeometry (K := K)).positionToIndex (exactVertex T x) = some i → i < 3 := by
    intro s x i h
    unfold exactVertex at h
    split at h
    · cases h; decide
    · split at h
      · cases h; decide
      · split at h
        · cases h; decide
        · cases h
  have both : ∀ (s : (K × K × K) × (K × K × K)) (T : (K × K × K) × (K × K × K) × (K × K × K)) i,
      ((exactSpaceGeometry (K := K)).positionToIndex ((exactSpaceGeometry (K := K)).segmentTriangle s T).1 = some i → i < 2) ∧
      ((exactSpaceGeometry (K := K)).positionToIndex ((exactSpaceGeometry (K := K)).segmentTriangle s T).2 = some i → i < 3) := by
    intro s T i
    show ((exactSpaceGeometry (K := K)).positionToIndex (if InPlane T s.1 ∧ InPlane T s.2 then _ else
      if h : ∃ x, OnSpaceSegment s x ∧ InSpaceTriangle T x then _ else _ : Position × Position).1 = some i → i < 2) ∧
      ((exactSpaceGeometry (K := K)).positionToIndex (if InPlane T s.1 ∧ InPlane T s.2 then _ else
      if h : ∃ x, OnSpaceSegment s x ∧ InSpaceTriangle T x then _ else _ : Position × Position).2 = some i → i < 3)
    split
    · exact ⟨fun h => (by cases h), fun h => (by cases h)⟩
    · split
      · exact ⟨pos _ _ i, pos' _ _ i⟩
      · exact ⟨fun h => (by cases h), fun h => (by cases h)⟩
  exact ⟨fun _ _ _ h => (by cases h), fun _ _ _ h => (by cases h), fun a b i => (both a b i).1, fun a b i => (both a b i).2⟩

/-- a Surface of one triangle, with unique vertices -/
def spaceTriangle (id : Nat) (p q r : ℚ × ℚ × ℚ) (unique : Index → Index) : ModelSurface (ℚ × ℚ × ℚ) :=
  { id := id, active := true, nbPolygons := 1, polygonVertices := fun _ => [0, 1, 2], nbVertices := 3,
    point := fun v => if v = 0 then p else if v = 1 then q else r
    uniqueVertex := unique }

/-- triangles which cross, without common vertex -/
example : ∃ s1 s2 : ModelSurface (ℚ × ℚ × ℚ), ¬ FlatInSpace (spaceTriangleAt s1 0 1 2) ∧
    ¬ FlatInSpace (spaceTriangleAt s2 0 1 2) ∧ ¬ SamePlane (spaceTriangleAt s1 0 1 2) (spaceTriangleAt s2 0 1 2) ∧
    NoEdgeInPlane (spaceTriangleAt s1 0 1 2) (spaceTriangleAt s2 0 1 2) ∧
    (∀ v ∈ [0, 1, 2], ∀ w ∈ [0, 1, 2], ¬ Shared s1 s2 v w) ∧
    (∃ p, InSpaceTriangle (spaceTriangleAt s1 0 1 2) p ∧ InSpaceTriangle (spaceTriangleAt s2 0 1 2) p) ∧
    trianglesIntersectionDetection (brepTrianglesIntersect exactSpaceGeometry) s1 s2 [0, 1, 2] [0, 1, 2] = .ok true := by
  have f1 : ¬ FlatInSpace (spaceTriangleAt (spaceTriangle 1 (0, 0, 0) (4, 0, 0) (0, 4, 0) id) 0 1 2) := by
    unfold FlatInSpace spaceTriangleAt spaceTriangle normal crossProduct vector; norm_num
  have f2 : ¬ FlatInSpace (spaceTriangleAt (spaceTriangle 2 (1, 1, -1) (1, 1, 1) (5, 5, 1) (· + 10)) 0 1 2) := by
    unfold FlatInSpace spaceTriangleAt spaceTriangle normal crossProduct vector; norm_num
  have hn : ¬ SamePlane (spaceTriangleAt (spaceTriangle 1 (0, 0, 0) (4, 0, 0) (0, 4, 0) id) 0 1 2)
      (spaceTriangleAt (spaceTriangle 2 (1, 1, -1) (1, 1, 1) (5, 5, 1) (· + 10)) 0 1 2) := by
    unfold SamePlane InPlane spaceTriangleAt spaceTriangle normal crossProduct dotProduct vector; norm_num
  have he : NoEdgeInPlane (spaceTriangleAt (spaceTriangle 1 (0, 0, 0) (4, 0, 0) (0, 4, 0) id) 0 1 2)
      (spaceTriangleAt (spaceTriangle 2 (1, 1, -1) (1, 1, 1) (5, 5, 1) (· + 10)) 0 1 2) := by
    unfold NoEdgeInPlane spaceSides InPlane spaceTriangleAt spaceTriangle normal crossProduct dotProduct vector; norm_num
  have hs : ∀ v ∈ [0, 1, 2], ∀ w ∈ [0, 1, 2], ¬ Shared (spaceTriangle 1 (0, 0, 0) (4, 0, 0) (0, 4, 0) id)
      (spaceTriangle 2 (1, 1, -1) (1, 1, 1) (5, 5, 1) (· + 10)) v w := by unfold Shared spaceTriangle; decide
  have p1 : InSpaceTriangle (spaceTriangleAt (spaceTriangle 1 (0, 0, 0) (4, 0, 0) (0, 4, 0) id) 0 1 2) (1, 1, 0) :=
    ⟨1 / 2, 1 / 4, 1 / 4, by unfold spaceTriangleAt spaceTriangle; norm_num⟩
  have p2 : InSpaceTriangle (spaceTriangleAt (spaceTriangle 2 (1, 1, -1) (1, 1, 1) (5, 5, 1) (· + 10)) 0 1 2) (1, 1, 0) :=
    ⟨1 / 2, 1 / 2, 0, by unfold spaceTriangleAt spaceTriangle; norm_num⟩
  exact ⟨_, _, f1, f2, hn, he, hs, ⟨_, p1, p2⟩, C113_found exactSpaceGeometry exactSpaceGeometry_ok _ _ 0 1 2 0 1 2 f1 f2 hn hs
    _ p1 p2⟩

/-- triangles which cross beside their common vertex -/
example : ∃ s1 s2 : ModelSurface (ℚ × ℚ × ℚ), ¬ FlatInSpace (spaceTriangleAt s1 0 1 2) ∧
    ¬ FlatInSpace (spaceTriangleAt s2 0 1 2) ∧ ¬ SamePlane (spaceTriangleAt s1 0 1 2) (spaceTriangleAt s2 0 1 2) ∧
    NoEdgeInPlane (spaceTriangleAt s1 0 1 2) (spaceTriangleAt s2 0 1 2) ∧
    OneShared s1 s2 [0, 1, 2] [0, 1, 2] (0, 0) ∧ s1.point 0 = s2.point 0 ∧
    (∃ p, InSpaceTriangle (spaceTriangleAt s1 0 1 2) p ∧ InSpaceTriangle (spaceTriangleAt s2 0 1 2) p ∧ p ≠ s1.point 0) ∧
    trianglesIntersectionDetection (brepTrianglesIntersect exactSpaceGeometry) s1 s2 [0, 1, 2] [0, 1, 2] = .ok true := by
  have f1 : ¬ FlatInSpace (spaceTriangleAt (spaceTriangle 1 (0, 0, 0) (4, 0, 0) (0, 4, 0) id) 0 1 2) := by
    unfold FlatInSpace spaceTriangleAt spaceTriangle normal crossProduct vector; norm_num
  have f2 : ¬ FlatInSpace (spaceTriangleAt (spaceTriangle 2 (0, 0, 0) (2, 1, -1) (1, 2, 1)
      (fun v => if v = 0 then 0 else v + 10)) 0 1 2) := by
    unfold FlatInSpace spaceTriangleAt spaceTriangle normal crossProduct vector; norm_num
  have hn : ¬ SamePlane (spaceTriangleAt (spaceTriangle 1 (0, 0, 0) (4, 0, 0) (0, 4, 0) id) 0 1 2)
      (spaceTriangleAt (spaceTriangle 2 (0, 0, 0) (2, 1, -1) (1, 2, 1) (fun v => if v = 0 then 0 else v + 10)) 0 1 2) := by
    unfold SamePlane InPlane spaceTriangleAt spaceTriangle normal crossProduct dotProduct vector; norm_num
  have he : NoEdgeInPlane (spaceTriangleAt (spaceTriangle 1 (0, 0, 0) (4, 0, 0) (0, 4, 0) id) 0 1 2)
      (spaceTriangleAt (spaceTriangle 2 (0, 0, 0) (2, 1, -1) (1, 2, 1) (fun v => if v = 0 then 0 else v + 10)) 0 1 2) := by
    unfold NoEdgeInPlane spaceSides InPlane spaceTriangleAt spaceTriangle normal crossProduct dotProduct vector; norm_num
  have hs : OneShared (spaceTriangle 1 (0, 0, 0) (4, 0, 0) (0, 4, 0) id)
      (spaceTriangle 2 (0, 0, 0) (2, 1, -1) (1, 2, 1) (fun v => if v = 0 then 0 else v + 10)) [0, 1, 2] [0, 1, 2] (0, 0) := by
    unfold OneShared Shared spaceTriangle; decide
  have p1 : InSpaceTriangle (spaceTriangleAt (spaceTriangle 1 (0, 0, 0) (4, 0, 0) (0, 4, 0) id) 0 1 2) (3 / 2, 3 / 2, 0) :=
    ⟨1 / 4, 3 / 8, 3 / 8, by unfold spaceTriangleAt spaceTriangle; norm_num⟩
  have p2 : InSpaceTriangle (spaceTriangleAt (spaceTriangle 2 (0, 0, 0) (2, 1, -1) (1, 2, 1)
      (fun v => if v = 0 then 0 else v + 10)) 0 1 2) (3 / 2, 3 / 2, 0) :=
    ⟨0, 1 / 2, 1 / 2, by unfold spaceTriangleAt spaceTriangle; norm_num⟩
  have hne : ((3 / 2, 3 / 2, 0) : ℚ × ℚ × ℚ) ≠ (spaceTriangle 1 (0, 0, 0) (4, 0, 0) (0, 4, 0) id).point 0 := by
    unfold spaceTriangle; norm_num
  exact ⟨_, _, f1, f2, hn, he, hs, rfl, ⟨_, p1, p2, hne⟩, C113_one_vertex_found exactSpaceGeometry exactSpaceGeometry_ok
    exactSpaceGeometry_positions _ _ 0 1 2 0 1 2 f1 f2 hn _ hs rfl _ p1 p2 hne⟩

/-- triangles with an edge in common, in two planes -/
example : ∃ s1 s2 : ModelSurface (ℚ × ℚ × ℚ), ¬ FlatInSpace (spaceTriangleAt s2 0 1 2) ∧
    ¬ SamePlane (spaceTriangleAt s1 0 1 2) (spaceTriangleAt s2 0 1 2) ∧ TwoShared s1 s2 [0, 1, 2] [0, 1, 2] 0 1 2 ∧
    (∀ v ∈ [0, 1, 2], ∀ w ∈ [0, 1, 2], Shared s1 s2 v w → s1.point v = s2.point w) := by
  refine ⟨spaceTriangle 1 (0, 0, 0) (4, 0, 0) (0, 4, 0) id,
    spaceTriangle 2 (0, 0, 0) (4, 0, 0) (0, 0, 4) (fun v => if v = 2 then 3 else v), ?_, ?_, ?_, ?_⟩
  · unfold FlatInSpace spaceTriangleAt spaceTriangle normal crossProduct vector; norm_num
  · unfold SamePlane InPlane spaceTriangleAt spaceTriangle normal crossProduct dotProduct vector; norm_num
  · exact ⟨List.Perm.refl _, by decide, ⟨0, by decide, rfl⟩, ⟨1, by decide, rfl⟩, by unfold Shared spaceTriangle; decide⟩
  · unfold Shared spaceTriangle; decide

end Inspector
