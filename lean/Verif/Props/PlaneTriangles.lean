import Mathlib.Algebra.Order.Ring.Rat
import Mathlib.Tactic.NormNum
import Verif.Proofs.PlaneTriangles
import Verif.Props.TrianglesMeet
/-
Property C112: what the tests of triangles of a Section mean in the plane, when the predicates of the plane are exact.
-/
namespace Inspector
open Spec
variable {K : Type} [Field K] [LinearOrder K] [IsStrictOrderedRing K]

/-- **C112** (no common unique vertex): two triangles of a Section are said to intersect exactly when their borders have a
point in common. -/
theorem C112_apart (g : Geometry (K × K)) (hg : ExactPlane g) (s1 s2 : ModelSurface (K × K)) (a b c d e f : Index)
    (h1 : ¬ Flat (triangleAt s1 a b c)) (h2 : ¬ Flat (triangleAt s2 d e f))
    (h : ∀ v ∈ [a, b, c], ∀ w ∈ [d, e, f], ¬ Shared s1 s2 v w) :
    ∃ r, trianglesIntersectionDetection (sectionTrianglesIntersect g) s1 s2 [a, b, c] [d, e, f] = .ok r ∧
      (r = true ↔ ∃ x, OnBothBorders (triangleAt s1 a b c) (triangleAt s2 d e f) x) := by
  obtain ⟨r, hr, hiff⟩ := section_apart g s1 s2 a b c d e f h
  exact ⟨r, hr, hiff.trans (Plane.apart_iff g hg s1 s2 a b c d e f h1 h2)⟩

/-- **C112** (no common unique vertex): triangles which overlap and are said not to intersect are one in the other. -/
theorem C112_apart_overlap (g : Geometry (K × K)) (hg : ExactPlane g) (s1 s2 : ModelSurface (K × K)) (a b c d e f : Index)
    (h1 : ¬ Flat (triangleAt s1 a b c)) (h2 : ¬ Flat (triangleAt s2 d e f))
    (h : ∀ v ∈ [a, b, c], ∀ w ∈ [d, e, f], ¬ Shared s1 s2 v w)
    (hr : trianglesIntersectionDetection (sectionTrianglesIntersect g) s1 s2 [a, b, c] [d, e, f] = .ok false)
    (p : K × K) (hp1 : InsideTriangle (triangleAt s1 a b c) p) (hp2 : InsideTriangle (triangleAt s2 d e f) p) :
    (∀ x, InTriangle (triangleAt s1 a b c) x → InTriangle (triangleAt s2 d e f) x) ∨
      ∀ x, InTriangle (triangleAt s2 d e f) x → InTriangle (triangleAt s1 a b c) x := by
  obtain ⟨r, hr', hiff⟩ := C112_apart g hg s1 s2 a b c d e f h1 h2 h
  have hf : ¬ r = true := by rw [hr] at hr'; rw [← Except.ok.inj hr']; decide
  exact Plane.nested h1 h2 (fun _ => False) ⟨fun _ _ h => h.elim, fun _ h => h.elim, fun _ h => h.elim⟩
    (fun x hx => hf (hiff.2 ⟨x, hx⟩)) p hp1 hp2

/-- **C112** (one common unique vertex, at the same point of the two Surfaces): exactly when their borders have a point in
common elsewhere than at this vertex. -/
theorem C112_one_vertex (g : Geometry (K × K)) (hg : ExactPlane g) (hpos : PositionsOk g) (s1 s2 : ModelSurface (K × K))
    (a b c d e f : Index) (h1 : ¬ Flat (triangleAt s1 a b c)) (h2 : ¬ Flat (triangleAt s2 d e f)) (z : Index × Index)
    (h : OneShared s1 s2 [a, b, c] [d, e, f] z) (hp : s1.point z.1 = s2.point z.2) :
    ∃ r, trianglesIntersectionDetection (sectionTrianglesIntersect g) s1 s2 [a, b, c] [d, e, f] = .ok r ∧
      (r = true ↔ ∃ x, OnBothBorders (triangleAt s1 a b c) (triangleAt s2 d e f) x ∧ x ≠ s1.point z.1) := by
  obtain ⟨r, hr, hiff⟩ := C83_section_one_vertex g hpos s1 s2 a b c d e f (Plane.nodup_at s1 a b c h1) z h
  exact ⟨r, hr, hiff.trans (Plane.one_iff g hg s1 s2 a b c d e f h1 h2 z h.1 h.2.1 hp)⟩

/-- **C112** (one common unique vertex): triangles which overlap and are said not to intersect are one in the other. -/
theorem C112_one_vertex_overlap (g : Geometry (K × K)) (hg : ExactPlane g) (hpos : PositionsOk g)
    (s1 s2 : ModelSurface (K × K)) (a b c d e f : Index) (h1 : ¬ Flat (triangleAt s1 a b c))
    (h2 : ¬ Flat (triangleAt s2 d e f)) (z : Index × Index) (h : OneShared s1 s2 [a, b, c] [d, e, f] z)
    (hp : s1.point z.1 = s2.point z.2)
    (hr : trianglesIntersectionDetection (sectionTrianglesIntersect g) s1 s2 [a, b, c] [d, e, f] = .ok false)
    (p : K × K) (hp1 : InsideTriangle (triangleAt s1 a b c) p) (hp2 : InsideTriangle (triangleAt s2 d e f) p) :
    (∀ x, InTriangle (triangleAt s1 a b c) x → InTriangle (triangleAt s2 d e f) x) ∨
      ∀ x, InTriangle (triangleAt s2 d e f) x → InTriangle (triangleAt s1 a b c) x := by
  obtain ⟨r, hr', hiff⟩ := C112_one_vertex g hg hpos s1 s2 a b c d e f h1 h2 z h hp
  have hf : ¬ r = true := by rw [hr] at hr'; rw [← Except.ok.inj hr']; decide
  refine Plane.nested h1 h2 (fun x => x = s1.point z.1)
    ⟨fun _ _ h h' => h.trans h'.symm, fun x hx => ?_, fun x hx => ?_⟩ (fun x hx => ?_) p hp1 hp2
  · rw [hx]; exact Plane.vertex_at s1 a b c z.1 h.1
  · rw [hx, hp]; exact Plane.vertex_at s2 d e f z.2 h.2.1
  · by_contra hn
    exact hf (hiff.2 ⟨x, hx, hn⟩)

/-- **C112** (two common unique vertices, in a same Surface in which unique vertices are at one point): exactly when the
interiors of the triangles overlap. -/
theorem C112_adjacent (g : Geometry (K × K)) (hg : ExactPlane g) (s : ModelSurface (K × K)) (a b c d e f v0 v1 x : Index)
    (h1 : ¬ Flat (triangleAt s a b c)) (h2 : ¬ Flat (triangleAt s d e f)) (hv : ∀ v ∈ [d, e, f], v < s.nbVertices)
    (hp : ∀ v w, s.uniqueVertex v = s.uniqueVertex w → s.point v = s.point w)
    (h : TwoShared s s [a, b, c] [d, e, f] v0 v1 x) :
    ∃ r, trianglesIntersectionDetection (sectionTrianglesIntersect g) s s [a, b, c] [d, e, f] = .ok r ∧
      (r = true ↔ ∃ p, InsideTriangle (triangleAt s a b c) p ∧ InsideTriangle (triangleAt s d e f) p) := by
  obtain ⟨c0, c1, q1, q2, r, hc, m1, n1, n1', m2, n2, n2', hr, hiff⟩ := C57_same_surface_partial g s [a, b, c] [d, e, f] rfl rfl
    (Plane.nodup_at s d e f h2) hv hp (Plane.two_common h)
  refine ⟨r, hr, hiff.trans ?_⟩
  obtain ⟨k0, k0', e0⟩ := common_mem s s [a, b, c] [d, e, f] c0 (by rw [hc]; simp)
  obtain ⟨k1, k1', e1⟩ := common_mem s s [a, b, c] [d, e, f] c1 (by rw [hc]; simp)
  exact Plane.adjacent_overlap g hg s s a b c d e f c0 c1 q1 q2 h1 h2 k0 k0' (hp _ _ e0) k1 k1' (hp _ _ e1)
    (Plane.common_ne hc h) m1 n1 n1' m2 n2 n2'

/-- **C112** (two common unique vertices, in two Surfaces): exactly when the interiors of the triangles overlap, as long as
the point read for the second common vertex is the right one (C57). -/
theorem C112_adjacent_surfaces_partial (g : Geometry (K × K)) (hg : ExactPlane g) (s1 s2 : ModelSurface (K × K))
    (a b c d e f v0 v1 x : Index)
    (h1 : ¬ Flat (triangleAt s1 a b c)) (h2 : ¬ Flat (triangleAt s2 d e f))
    (hp : ∀ v ∈ [a, b, c], ∀ w ∈ [d, e, f], Shared s1 s2 v w → s1.point v = s2.point w)
    (h : TwoShared s1 s2 [a, b, c] [d, e, f] v0 v1 x)
    (hread : ∀ v ∈ [a, b, c], ∀ w ∈ [d, e, f], Shared s1 s2 v w → w < s1.nbVertices ∧ s1.point w = s2.point w) :
    ∃ r, trianglesIntersectionDetection (sectionTrianglesIntersect g) s1 s2 [a, b, c] [d, e, f] = .ok r ∧
      (r = true ↔ ∃ p, InsideTriangle (triangleAt s1 a b c) p ∧ InsideTriangle (triangleAt s2 d e f) p) := by
  obtain ⟨c0, c1, q1, q2, r, hc, m1, n1, n1', m2, n2, n2', hr, _, hiff⟩ := C57_two_surfaces_partial g s1 s2 [a, b, c] [d, e, f]
    rfl rfl (Plane.nodup_at s2 d e f h2) (Plane.two_common h) (fun v hv w hw hs => (hread v hv w hw hs).1)
  obtain ⟨k0, k0', e0⟩ := common_mem s1 s2 [a, b, c] [d, e, f] c0 (by rw [hc]; simp)
  obtain ⟨k1, k1', e1⟩ := common_mem s1 s2 [a, b, c] [d, e, f] c1 (by rw [hc]; simp)
  refine ⟨r, hr, (hiff ((hread _ k1 _ k1' e1).2.trans (hp _ k1 _ k1' e1).symm)).trans ?_⟩
  exact Plane.adjacent_overlap g hg s1 s2 a b c d e f c0 c1 q1 q2 h1 h2 k0 k0' (hp _ k0 _ k0' e0) k1 k1' (hp _ k1 _ k1' e1)
    (Plane.common_ne hc h) m1 n1 n1' m2 n2 n2'

/-- **C85**, what holds with exact predicates: triangles with at most one common unique vertex (at one point) whose interiors
overlap are said to intersect, unless one of them is in the other. -/
theorem C85_overlap_partial (g : Geometry (K × K)) (hg : ExactPlane g) (hpos : PositionsOk g) (s1 s2 : ModelSurface (K × K))
    (a b c d e f : Index) (h1 : ¬ Flat (triangleAt s1 a b c)) (h2 : ¬ Flat (triangleAt s2 d e f))
    (h : (∀ v ∈ [a, b, c], ∀ w ∈ [d, e, f], ¬ Shared s1 s2 v w) ∨
      ∃ z, OneShared s1 s2 [a, b, c] [d, e, f] z ∧ s1.point z.1 = s2.point z.2)
    (p : K × K) (hp1 : InsideTriangle (triangleAt s1 a b c) p) (hp2 : InsideTriangle (triangleAt s2 d e f) p)
    (x y : K × K) (hx : InTriangle (triangleAt s1 a b c) x ∧ ¬ InTriangle (triangleAt s2 d e f) x)
    (hy : InTriangle (triangleAt s2 d e f) y ∧ ¬ InTriangle (triangleAt s1 a b c) y) :
    trianglesIntersectionDetection (sectionTrianglesIntersect g) s1 s2 [a, b, c] [d, e, f] = .ok true := by
  have nest : ¬ ((∀ x, InTriangle (triangleAt s1 a b c) x → InTriangle (triangleAt s2 d e f) x) ∨
      ∀ x, InTriangle (triangleAt s2 d e f) x → InTriangle (triangleAt s1 a b c) x) := by
    rintro (h | h)
    · exact hx.2 (h x hx.1)
    · exact hy.2 (h y hy.1)
  rcases h with h | ⟨z, h, hp⟩
  · obtain ⟨r, hr, _⟩ := C112_apart g hg s1 s2 a b c d e f h1 h2 h
    cases r with
    | true => exact hr
    | false => exact absurd (C112_apart_overlap g hg s1 s2 a b c d e f h1 h2 h hr p hp1 hp2) nest
  · obtain ⟨r, hr, _⟩ := C112_one_vertex g hg hpos s1 s2 a b c d e f h1 h2 z h hp
    cases r with
    | true => exact hr
    | false => exact absurd (C112_one_vertex_overlap g hg hpos s1 s2 a b c d e f h1 h2 z h hp hr p hp1 hp2) nest

/-! ### exact predicates exist, and meet the hypotheses -/

open Classical in
/-- where a point is on a segment -/
noncomputable def exactPosition (s : (K × K) × (K × K)) (x : K × K) : Position :=
  if x = s.1 then .vertex0 else if x = s.2 then .vertex1 else .inside

open Classical in
/-- exact predicates of the plane -/
noncomputable def exactGeometry : Geometry (K × K) where
  segmentSegment s1 s2 :=
    if OnLine s1 s2 then (.parallel, .parallel)
    else if h : ∃ x, OnSegment s1 x ∧ OnSegment s2 x then (exactPosition s1 h.choose, exactPosition s2 h.choose)
    else (.outside, .outside)
  pointTriangle p T := if InTriangle T p then .inside else .outside
  segmentTriangle _ _ := (.outside, .outside)
  positionToIndex
    | .vertex0 => some 0
    | .vertex1 => some 1
    | .vertex2 => some 2
    | _ => none

open Classical in
theorem exactPosition_ok (s : (K × K) × (K × K)) (hs : s.1 ≠ s.2) (x : K × K) :
    exactPosition s x ≠ .outside ∧ exactPosition s x ≠ .parallel ∧
    ((exactGeometry (K := K)).positionToIndex (exactPosition s x) = some 0 ↔ x = s.1) ∧
    ((exactGeometry (K := K)).positionToIndex (exactPosition s x) = some 1 ↔ x = s.2) := by
  unfold exactPosition exactGeometry
  by_cases h0 : x = s.1
  · have h1 : x ≠ s.2 := fun h => hs (h0.symm.trans h)
    simp [h0, hs]
  · by_cases h1 : x = s.2
    · simp [h1, hs.symm]
    · simp [h0, h1]

open Classical in
theorem exactGeometry_ok : ExactPlane (exactGeometry (K := K)) := by
  have found : ∀ (s1 s2 : (K × K) × (K × K)) (x : K × K), ¬ OnLine s1 s2 → OnSegment s1 x → OnSegment s2 x →
      s1.1 ≠ s1.2 ∧ s2.1 ≠ s2.2 ∧
      (exactGeometry (K := K)).segmentSegment s1 s2 = (exactPosition s1 x, exactPosition s2 x) := by
    intro s1 s2 x hl h1 h2
    have hex : ∃ x, OnSegment s1 x ∧ OnSegment s2 x := ⟨x, h1, h2⟩
    have hx : hex.choose = x :=
      Plane.common_unique s1 s2 hl _ _ hex.choose_spec.1 hex.choose_spec.2 h1 h2
    refine ⟨fun h => hl ?_, fun h => hl ?_, ?_⟩
    · constructor <;> (unfold orientation; rw [h]; ring)
    · obtain ⟨t, _, _, tx, ty⟩ := h1
      obtain ⟨u, _, _, ux, uy⟩ := h2
      rw [h] at ux uy
      have ex : x = s2.2 := by ext <;> [rw [ux]; rw [uy]] <;> ring
      have hz : orientation s1.1 s1.2 s2.2 = 0 := by rw [← ex]; exact Plane.on_line _ _ _ t tx ty
      exact ⟨by rw [h]; exact hz, hz⟩
    · show (if OnLine s1 s2 then _ else if h : ∃ x, OnSegment s1 x ∧ OnSegment s2 x then _ else _) = _
      rw [if_neg hl, dif_pos hex, hx]
  refine ⟨?_, ?_, ?_, ?_, ?_⟩
  · intro s1 s2 h
    right
    show (if OnLine s1 s2 then _ else _ : Position × Position).1 = _
    rw [if_pos h]
  · intro s1 s2 hl
    by_cases hex : ∃ x, OnSegment s1 x ∧ OnSegment s2 x
    · obtain ⟨x, h1, h2⟩ := hex
      obtain ⟨n1, _, he⟩ := found s1 s2 x hl h1 h2
      rw [he]
      exact ⟨(exactPosition_ok s1 n1 x).2.1, fun _ => ⟨x, h1, h2⟩, fun _ => (exactPosition_ok s1 n1 x).1⟩
    · have he : (exactGeometry (K := K)).segmentSegment s1 s2 = (.outside, .outside) := by
        show (if OnLine s1 s2 then _ else if h : ∃ x, OnSegment s1 x ∧ OnSegment s2 x then _ else _) = _
        rw [if_neg hl, dif_neg hex]
      rw [he]
      exact ⟨by decide, fun h => absurd rfl h, fun h => absurd h hex⟩
  · intro s1 s2 x hl h1 h2
    obtain ⟨n1, n2, he⟩ := found s1 s2 x hl h1 h2
    rw [he]
    exact (exactPosition_ok s1 n1 x).2.2
  · intro s1 s2 x hl h1 h2
    obtain ⟨n1, n2, he⟩ := found s1 s2 x hl h1 h2
    rw [he]
    exact (exactPosition_ok s2 n2 x).2.2
  · intro p T
    show (if InTriangle T p then Position.inside else .outside) ≠ _ ↔ _
    by_cases h : InTriangle T p
    · rw [if_pos h]; exact ⟨fun _ => h, fun _ => by decide⟩
    · rw [if_neg h]; exact ⟨fun h => absurd rfl h, fun h' => absurd h' h⟩

open Classical in
theorem exactGeometry_positions : PositionsOk (exactGeometry (K := K)) := by
  have pos : ∀ (s : (K × K) × (K × K)) x i, (exactGeometry (K := K)).positionToIndex (exactPosition s x) = some i → i < 2 := by
    intro s x i h
    unfold exactPosition at h
    split at h
    · cases h; decide
    · split at h
      · cases h; decide
      · cases h
  have both : ∀ (s1 s2 : (K × K) × (K × K)) i, ((exactGeometry (K := K)).positionToIndex
      ((exactGeometry (K := K)).segmentSegment s1 s2).1 = some i → i < 2) ∧ ((exactGeometry (K := K)).positionToIndex
      ((exactGeometry (K := K)).segmentSegment s1 s2).2 = some i → i < 2) := by
    intro s1 s2 i
    show ((exactGeometry (K := K)).positionToIndex (if OnLine s1 s2 then _ else if h : ∃ x, OnSegment s1 x ∧ OnSegment s2 x
      then _ else _ : Position × Position).1 = some i → i < 2) ∧ ((exactGeometry (K := K)).positionToIndex (if OnLine s1 s2
      then _ else if h : ∃ x, OnSegment s1 x ∧ OnSegment s2 x then _ else _ : Position × Position).2 = some i → i < 2)
    split
    · exact ⟨fun h => (by cases h), fun h => (by cases h)⟩
    · split
      · exact ⟨pos _ _ i, pos _ _ i⟩
      · exact ⟨fun h => (by cases h), fun h => (by cases h)⟩
  exact ⟨fun a b i => (both a b i).1, fun a b i => (both a b i).2, fun _ _ _ h => (by cases h), fun _ _ _ h => (by cases h)⟩

/-- a Surface of four vertices, with unique vertices -/
def fourVertices (id : Nat) (p q r t : ℚ × ℚ) (unique : Index → Index) : ModelSurface (ℚ × ℚ) :=
  { id := id, active := true, nbPolygons := 1, polygonVertices := fun _ => [0, 1, 2], nbVertices := 4,
    point := fun v => if v = 0 then p else if v = 1 then q else if v = 2 then r else t
    uniqueVertex := unique }

/-- triangles whose borders meet, without common vertex -/
example : ∃ s1 s2 : ModelSurface (ℚ × ℚ), ¬ Flat (triangleAt s1 0 1 2) ∧ ¬ Flat (triangleAt s2 0 1 2) ∧
    (∀ v ∈ [0, 1, 2], ∀ w ∈ [0, 1, 2], ¬ Shared s1 s2 v w) ∧
    trianglesIntersectionDetection (sectionTrianglesIntersect exactGeometry) s1 s2 [0, 1, 2] [0, 1, 2] = .ok true := by
  have f1 : ¬ Flat (triangleAt (fourVertices 1 (0, 0) (4, 0) (0, 4) (0, 0) id) 0 1 2) := by
    unfold Flat triangleAt orientation fourVertices; norm_num
  have f2 : ¬ Flat (triangleAt (fourVertices 2 (1, 1) (5, 1) (1, 5) (0, 0) (· + 10)) 0 1 2) := by
    unfold Flat triangleAt orientation fourVertices; norm_num
  have hs : ∀ v ∈ [0, 1, 2], ∀ w ∈ [0, 1, 2], ¬ Shared (fourVertices 1 (0, 0) (4, 0) (0, 4) (0, 0) id)
      (fourVertices 2 (1, 1) (5, 1) (1, 5) (0, 0) (· + 10)) v w := by unfold Shared fourVertices; decide
  obtain ⟨r, hr, hiff⟩ := C112_apart exactGeometry exactGeometry_ok _ _ 0 1 2 0 1 2 f1 f2 hs
  have hx : r = true := hiff.2 ⟨(1, 3), ⟨((4, 0), (0, 4)), List.mem_cons_of_mem _ List.mem_cons_self, 3 / 4, by norm_num⟩,
    ((1, 5), (1, 1)), List.mem_cons_of_mem _ (List.mem_cons_of_mem _ List.mem_cons_self), 1 / 2, by norm_num⟩
  exact ⟨_, _, f1, f2, hs, by rw [hr, hx]⟩

/-- these triangles overlap, and none is in the other -/
example : ∃ s1 s2 : ModelSurface (ℚ × ℚ), ∃ p x y, (∀ v ∈ [0, 1, 2], ∀ w ∈ [0, 1, 2], ¬ Shared s1 s2 v w) ∧
    InsideTriangle (triangleAt s1 0 1 2) p ∧ InsideTriangle (triangleAt s2 0 1 2) p ∧
    (InTriangle (triangleAt s1 0 1 2) x ∧ ¬ InTriangle (triangleAt s2 0 1 2) x) ∧
    (InTriangle (triangleAt s2 0 1 2) y ∧ ¬ InTriangle (triangleAt s1 0 1 2) y) := by
  refine ⟨fourVertices 1 (0, 0) (4, 0) (0, 4) (0, 0) id, fourVertices 2 (1, 1) (5, 1) (1, 5) (0, 0) (· + 10), (3 / 2, 3 / 2),
    (0, 0), (5, 1), by unfold Shared fourVertices; decide, ⟨1 / 4, 3 / 8, 3 / 8, ?_⟩, ⟨3 / 4, 1 / 8, 1 / 8, ?_⟩,
    ⟨⟨1, 0, 0, ?_⟩, ?_⟩, ⟨0, 1, 0, ?_⟩, ?_⟩
  · unfold triangleAt fourVertices; norm_num
  · unfold triangleAt fourVertices; norm_num
  · unfold triangleAt fourVertices; norm_num
  · rintro ⟨u, v, w, hu, hv, hw, h, h1, h2⟩
    unfold triangleAt fourVertices at h1
    norm_num at h1
    linarith
  · unfold triangleAt fourVertices; norm_num
  · rintro ⟨u, v, w, hu, hv, hw, h, h1, h2⟩
    unfold triangleAt fourVertices at h1 h2
    norm_num at h1 h2
    linarith

/-- a triangle in another one: they are said not to intersect -/
example : ∃ s1 s2 : ModelSurface (ℚ × ℚ), ¬ Flat (triangleAt s1 0 1 2) ∧ ¬ Flat (triangleAt s2 0 1 2) ∧
    (∀ v ∈ [0, 1, 2], ∀ w ∈ [0, 1, 2], ¬ Shared s1 s2 v w) ∧
    (∃ p, InsideTriangle (triangleAt s1 0 1 2) p ∧ InsideTriangle (triangleAt s2 0 1 2) p) ∧
    trianglesIntersectionDetection (sectionTrianglesIntersect exactGeometry) s1 s2 [0, 1, 2] [0, 1, 2] = .ok false := by
  have f1 : ¬ Flat (triangleAt (fourVertices 1 (0, 0) (10, 0) (0, 10) (0, 0) id) 0 1 2) := by
    unfold Flat triangleAt orientation fourVertices; norm_num
  have f2 : ¬ Flat (triangleAt (fourVertices 2 (1, 1) (2, 1) (1, 2) (0, 0) (· + 10)) 0 1 2) := by
    unfold Flat triangleAt orientation fourVertices; norm_num
  have hs : ∀ v ∈ [0, 1, 2], ∀ w ∈ [0, 1, 2], ¬ Shared (fourVertices 1 (0, 0) (10, 0) (0, 10) (0, 0) id)
      (fourVertices 2 (1, 1) (2, 1) (1, 2) (0, 0) (· + 10)) v w := by unfold Shared fourVertices; decide
  obtain ⟨r, hr, hiff⟩ := C112_apart exactGeometry exactGeometry_ok _ _ 0 1 2 0 1 2 f1 f2 hs
  have hx : ¬ r = true := by
    rw [hiff]
    rintro ⟨x, ⟨e, he, t, t0, t1, tx, ty⟩, e', he', u, u0, u1, ux, uy⟩
    simp only [sides, triangleAt, fourVertices, List.mem_cons, List.not_mem_nil, or_false] at he he'
    norm_num at he he'
    rcases he with rfl | rfl | rfl <;> rcases he' with rfl | rfl | rfl <;> norm_num at tx ty ux uy <;> linarith
  refine ⟨_, _, f1, f2, hs, ⟨(4 / 3, 4 / 3), ⟨1 - 8 / 30, 4 / 30, 4 / 30, ?_⟩, ⟨1 / 3, 1 / 3, 1 / 3, ?_⟩⟩, by
    rw [hr]; cases r <;> [rfl; exact absurd rfl hx]⟩ <;> (unfold triangleAt fourVertices; norm_num)

/-- triangles with a common vertex whose borders meet elsewhere, and only there -/
example : ∃ s1 s2 : ModelSurface (ℚ × ℚ), ¬ Flat (triangleAt s1 0 1 2) ∧ ¬ Flat (triangleAt s2 0 1 2) ∧
    OneShared s1 s2 [0, 1, 2] [0, 1, 2] (0, 0) ∧ s1.point 0 = s2.point 0 ∧
    trianglesIntersectionDetection (sectionTrianglesIntersect exactGeometry) s1 s2 [0, 1, 2] [0, 1, 2] = .ok true := by
  have f1 : ¬ Flat (triangleAt (fourVertices 1 (0, 0) (4, 0) (0, 4) (0, 0) id) 0 1 2) := by
    unfold Flat triangleAt orientation fourVertices; norm_num
  have f2 : ¬ Flat (triangleAt (fourVertices 2 (0, 0) (5, 1) (1, 5) (0, 0) (fun v => if v = 0 then 0 else v + 10)) 0 1 2) := by
    unfold Flat triangleAt orientation fourVertices; norm_num
  have hs : OneShared (fourVertices 1 (0, 0) (4, 0) (0, 4) (0, 0) id)
      (fourVertices 2 (0, 0) (5, 1) (1, 5) (0, 0) (fun v => if v = 0 then 0 else v + 10)) [0, 1, 2] [0, 1, 2] (0, 0) := by
    unfold OneShared Shared fourVertices; decide
  obtain ⟨r, hr, hiff⟩ := C112_one_vertex exactGeometry exactGeometry_ok exactGeometry_positions _ _ 0 1 2 0 1 2 f1 f2 _ hs rfl
  have hx : r = true := hiff.2 ⟨(10 / 3, 2 / 3), ⟨⟨((4, 0), (0, 4)), List.mem_cons_of_mem _ List.mem_cons_self, 1 / 6, by norm_num⟩,
    ((0, 0), (5, 1)), List.mem_cons_self, 2 / 3, by norm_num⟩, by unfold fourVertices; norm_num⟩
  exact ⟨_, _, f1, f2, hs, rfl, by rw [hr, hx]⟩

example : ∃ s1 s2 : ModelSurface (ℚ × ℚ), ¬ Flat (triangleAt s1 0 1 2) ∧ ¬ Flat (triangleAt s2 0 1 2) ∧
    OneShared s1 s2 [0, 1, 2] [0, 1, 2] (0, 0) ∧ s1.point 0 = s2.point 0 ∧
    (∃ p, InsideTriangle (triangleAt s1 0 1 2) p ∧ InsideTriangle (triangleAt s2 0 1 2) p) ∧
    trianglesIntersectionDetection (sectionTrianglesIntersect exactGeometry) s1 s2 [0, 1, 2] [0, 1, 2] = .ok false := by
  have f1 : ¬ Flat (triangleAt (fourVertices 1 (0, 0) (10, 0) (0, 10) (0, 0) id) 0 1 2) := by
    unfold Flat triangleAt orientation fourVertices; norm_num
  have f2 : ¬ Flat (triangleAt (fourVertices 2 (0, 0) (2, 1) (1, 2) (0, 0) (fun v => if v = 0 then 0 else v + 10)) 0 1 2) := by
    unfold Flat triangleAt orientation fourVertices; norm_num
  have hs : OneShared (fourVertices 1 (0, 0) (10, 0) (0, 10) (0, 0) id)
      (fourVertices 2 (0, 0) (2, 1) (1, 2) (0, 0) (fun v => if v = 0 then 0 else v + 10)) [0, 1, 2] [0, 1, 2] (0, 0) := by
    unfold OneShared Shared fourVertices; decide
  obtain ⟨r, hr, hiff⟩ := C112_one_vertex exactGeometry exactGeometry_ok exactGeometry_positions _ _ 0 1 2 0 1 2 f1 f2 _ hs rfl
  have hx : ¬ r = true := by
    rw [hiff]
    rintro ⟨x, ⟨⟨e, he, t, t0, t1, tx, ty⟩, e', he', u, u0, u1, ux, uy⟩, hne⟩
    simp only [sides, triangleAt, fourVertices, List.mem_cons, List.not_mem_nil, or_false] at he he'
    norm_num at he he'
    rcases he with rfl | rfl | rfl <;> rcases he' with rfl | rfl | rfl <;> norm_num at tx ty ux uy <;>
      first
      | linarith
      | exact hne (by unfold fourVertices; ext <;> norm_num <;> linarith)
  refine ⟨_, _, f1, f2, hs, rfl, ⟨(1, 1), ⟨8 / 10, 1 / 10, 1 / 10, ?_⟩, ⟨1 / 3, 1 / 3, 1 / 3, ?_⟩⟩, by
    rw [hr]; cases r <;> [rfl; exact absurd rfl hx]⟩ <;> (unfold triangleAt fourVertices; norm_num)

/-- two triangles of a Surface with an edge in common, on the same side of it, and on both sides of it -/
example : ∃ s s' : ModelSurface (ℚ × ℚ), ¬ Flat (triangleAt s 0 1 2) ∧ ¬ Flat (triangleAt s 0 1 3) ∧
    ¬ Flat (triangleAt s' 0 1 2) ∧ ¬ Flat (triangleAt s' 0 1 3) ∧
    TwoShared s s [0, 1, 2] [0, 1, 3] 0 1 2 ∧ TwoShared s' s' [0, 1, 2] [0, 1, 3] 0 1 2 ∧
    trianglesIntersectionDetection (sectionTrianglesIntersect exactGeometry) s s [0, 1, 2] [0, 1, 3] = .ok true ∧
    trianglesIntersectionDetection (sectionTrianglesIntersect exactGeometry) s' s' [0, 1, 2] [0, 1, 3] = .ok false := by
  have f1 : ¬ Flat (triangleAt (fourVertices 1 (0, 0) (4, 0) (0, 4) (4, 4) id) 0 1 2) := by
    unfold Flat triangleAt orientation fourVertices; norm_num
  have f2 : ¬ Flat (triangleAt (fourVertices 1 (0, 0) (4, 0) (0, 4) (4, 4) id) 0 1 3) := by
    unfold Flat triangleAt orientation fourVertices; norm_num
  have g1 : ¬ Flat (triangleAt (fourVertices 1 (0, 0) (4, 0) (0, 4) (4, -4) id) 0 1 2) := by
    unfold Flat triangleAt orientation fourVertices; norm_num
  have g2 : ¬ Flat (triangleAt (fourVertices 1 (0, 0) (4, 0) (0, 4) (4, -4) id) 0 1 3) := by
    unfold Flat triangleAt orientation fourVertices; norm_num
  have hs : ∀ p, TwoShared (fourVertices 1 (0, 0) (4, 0) (0, 4) p id) (fourVertices 1 (0, 0) (4, 0) (0, 4) p id) [0, 1, 2]
      [0, 1, 3] 0 1 2 := by
    intro p
    exact ⟨List.Perm.refl _, by decide, ⟨0, by decide, rfl⟩, ⟨1, by decide, rfl⟩,
      by show ∀ w ∈ [0, 1, 3], ¬ 2 = w; decide⟩
  obtain ⟨r, hr, hiff⟩ := C112_adjacent exactGeometry exactGeometry_ok _ 0 1 2 0 1 3 0 1 2 f1 f2
    (by unfold fourVertices; decide) (fun v w (h : v = w) => by rw [h]) (hs _)
  obtain ⟨r', hr', hiff'⟩ := C112_adjacent exactGeometry exactGeometry_ok _ 0 1 2 0 1 3 0 1 2 g1 g2
    (by unfold fourVertices; decide) (fun v w (h : v = w) => by rw [h]) (hs _)
  have hx : r = true := hiff.2 ⟨(2, 1), ⟨1 / 4, 1 / 2, 1 / 4, by unfold triangleAt fourVertices; norm_num⟩, 1 / 2, 1 / 4,
    1 / 4, by unfold triangleAt fourVertices; norm_num⟩
  have hx' : ¬ r' = true := by
    rw [hiff']
    rintro ⟨x, ⟨u, v, w, hu, hv, hw, h, h1, h2⟩, u', v', w', hu', hv', hw', h', h1', h2'⟩
    unfold triangleAt fourVertices at h2 h2'
    norm_num at h2 h2'
    linarith
  exact ⟨_, _, f1, f2, g1, g2, hs _, hs _, by rw [hr, hx], by rw [hr']; cases r' <;> [rfl; exact absurd rfl hx']⟩

/-- two triangles of two Surfaces, the same points and vertices -/
example : ∃ s1 s2 : ModelSurface (ℚ × ℚ), ¬ Flat (triangleAt s1 0 1 2) ∧ ¬ Flat (triangleAt s2 0 1 2) ∧
    TwoShared s1 s2 [0, 1, 2] [0, 1, 2] 0 1 2 ∧
    (∀ v ∈ [0, 1, 2], ∀ w ∈ [0, 1, 2], Shared s1 s2 v w → s1.point v = s2.point w) ∧
    ∀ v ∈ [0, 1, 2], ∀ w ∈ [0, 1, 2], Shared s1 s2 v w → w < s1.nbVertices ∧ s1.point w = s2.point w := by
  refine ⟨fourVertices 1 (0, 0) (4, 0) (0, 4) (0, 0) id,
    fourVertices 2 (0, 0) (4, 0) (4, -4) (0, 0) (fun v => if v = 2 then 3 else v), ?_, ?_, ?_, ?_, ?_⟩
  · unfold Flat triangleAt orientation fourVertices; norm_num
  · unfold Flat triangleAt orientation fourVertices; norm_num
  · exact ⟨List.Perm.refl _, by decide, ⟨0, by decide, rfl⟩, ⟨1, by decide, rfl⟩, by unfold Shared fourVertices; decide⟩
  · unfold Shared fourVertices; decide
  · unfold Shared fourVertices; decide

/-- **C112 is false** for two Surfaces, whatever the exact predicates: the vertices with the same unique vertex being at the
same points, two triangles with two common vertices are said to intersect although they have no inside point in common, and
two others are said not to intersect although their interiors overlap (the point read for the second common vertex is another
vertex of the first Surface). -/
theorem C112_false (g : Geometry (ℚ × ℚ)) (hg : ExactPlane g) :
    ∃ s1 s2 s3 s4 : ModelSurface (ℚ × ℚ),
      (¬ Flat (triangleAt s1 0 1 2) ∧ ¬ Flat (triangleAt s2 1 3 2) ∧
        (∀ v ∈ [0, 1, 2], ∀ w ∈ [1, 3, 2], Shared s1 s2 v w → s1.point v = s2.point w) ∧
        TwoShared s1 s2 [0, 1, 2] [1, 3, 2] 0 1 2 ∧
        trianglesIntersectionDetection (sectionTrianglesIntersect g) s1 s2 [0, 1, 2] [1, 3, 2] = .ok true ∧
        ¬ ∃ p, InsideTriangle (triangleAt s1 0 1 2) p ∧ InsideTriangle (triangleAt s2 1 3 2) p) ∧
      (¬ Flat (triangleAt s3 0 1 2) ∧ ¬ Flat (triangleAt s4 1 3 2) ∧
        (∀ v ∈ [0, 1, 2], ∀ w ∈ [1, 3, 2], Shared s3 s4 v w → s3.point v = s4.point w) ∧
        TwoShared s3 s4 [0, 1, 2] [1, 3, 2] 0 1 2 ∧
        trianglesIntersectionDetection (sectionTrianglesIntersect g) s3 s4 [0, 1, 2] [1, 3, 2] = .ok false ∧
        ∃ p, InsideTriangle (triangleAt s3 0 1 2) p ∧ InsideTriangle (triangleAt s4 1 3 2) p) := by
  have shared : ∀ R Q : ℚ × ℚ, TwoShared (fourVertices 1 (0, 0) (4, 0) (0, 4) R id)
      (fourVertices 2 (9, 9) (0, 0) Q (4, 0) fun v => if v = 1 then 0 else if v = 3 then 1 else v + 10)
      [0, 1, 2] [1, 3, 2] 0 1 2 ∧ (∀ v ∈ [0, 1, 2], ∀ w ∈ [1, 3, 2], Shared (fourVertices 1 (0, 0) (4, 0) (0, 4) R id)
        (fourVertices 2 (9, 9) (0, 0) Q (4, 0) fun v => if v = 1 then 0 else if v = 3 then 1 else v + 10) v w →
        (fourVertices 1 (0, 0) (4, 0) (0, 4) R id).point v = (fourVertices 2 (9, 9) (0, 0) Q (4, 0)
          fun v => if v = 1 then 0 else if v = 3 then 1 else v + 10).point w) ∧
      trianglesCommonVertices (fourVertices 1 (0, 0) (4, 0) (0, 4) R id) (fourVertices 2 (9, 9) (0, 0) Q (4, 0)
        fun v => if v = 1 then 0 else if v = 3 then 1 else v + 10) [0, 1, 2] [1, 3, 2] = [(0, 1), (1, 3)] := by
    intro R Q
    refine ⟨⟨List.Perm.refl _, by decide, ⟨1, by simp, rfl⟩, ⟨3, by simp, rfl⟩, ?_⟩, ?_, rfl⟩
    · intro w hw h
      simp only [List.mem_cons, List.not_mem_nil, or_false] at hw
      rcases hw with rfl | rfl | rfl <;> cases h
    · intro v hv w hw h
      simp only [List.mem_cons, List.not_mem_nil, or_false] at hv hw
      rcases hv with rfl | rfl | rfl <;> rcases hw with rfl | rfl | rfl <;> first | rfl | cases h
  have answer : ∀ R Q : ℚ × ℚ, ∃ b, trianglesIntersectionDetection (sectionTrianglesIntersect g)
      (fourVertices 1 (0, 0) (4, 0) (0, 4) R id)
      (fourVertices 2 (9, 9) (0, 0) Q (4, 0) fun v => if v = 1 then 0 else if v = 3 then 1 else v + 10)
      [0, 1, 2] [1, 3, 2] = .ok b ∧
      (b = true ↔ AdjacentOverlap g (0, 0) R (0, 4) Q ((0, 0), (4, 0), (0, 4)) ((0, 0), (4, 0), Q)) := by
    intro R Q
    obtain ⟨h1, h2, h3⟩ := shared R Q
    obtain ⟨c0, c1, q1, q2, b, hc, m1, n1, n1', m2, n2, n2', hb, hiff, _⟩ := C57_two_surfaces_partial g
      (fourVertices 1 (0, 0) (4, 0) (0, 4) R id)
      (fourVertices 2 (9, 9) (0, 0) Q (4, 0) fun v => if v = 1 then 0 else if v = 3 then 1 else v + 10)
      [0, 1, 2] [1, 3, 2] rfl rfl (by decide) (by rw [h3]; rfl) (by
        intro v _ w hw _
        show w < 4
        simp only [List.mem_cons, List.not_mem_nil, or_false] at hw
        rcases hw with rfl | rfl | rfl <;> decide)
    rw [h3] at hc
    simp only [List.cons.injEq, and_true] at hc
    obtain ⟨rfl, rfl⟩ := hc
    obtain rfl : q1 = 2 := by
      simp only [List.mem_cons, List.not_mem_nil, or_false] at m1
      rcases m1 with rfl | rfl | rfl <;> first | rfl | exact absurd rfl n1 | exact absurd rfl n1'
    obtain rfl : q2 = 2 := by
      simp only [List.mem_cons, List.not_mem_nil, or_false] at m2
      rcases m2 with rfl | rfl | rfl <;> first | rfl | exact absurd rfl n2 | exact absurd rfl n2'
    exact ⟨b, hb, hiff⟩
  refine ⟨fourVertices 1 (0, 0) (4, 0) (0, 4) (-2, 4) id, fourVertices 2 (9, 9) (0, 0) (4, -4) (4, 0)
      fun v => if v = 1 then 0 else if v = 3 then 1 else v + 10, fourVertices 1 (0, 0) (4, 0) (0, 4) (100, 90) id,
    fourVertices 2 (9, 9) (0, 0) (4, 4) (4, 0) fun v => if v = 1 then 0 else if v = 3 then 1 else v + 10,
    ⟨?_, ?_, (shared _ _).2.1, (shared _ _).1, ?_, ?_⟩, ?_, ?_, (shared _ _).2.1, (shared _ _).1, ?_, (2, 1), ?_, ?_⟩
  · unfold Flat triangleAt orientation fourVertices; norm_num
  · unfold Flat triangleAt orientation fourVertices; norm_num
  · obtain ⟨b, hb, hiff⟩ := answer (-2, 4) (4, -4)
    rw [hb, hiff.2 (.inl ((hg.crossing _ _ ?_).2.2 ⟨(0, 4 / 3), ⟨1 / 3, by norm_num⟩, ⟨1 / 3, by norm_num⟩⟩))]
    unfold OnLine orientation
    norm_num
  · rintro ⟨p, ⟨u, v, w, hu, hv, hw, h, h1, h2⟩, u', v', w', hu', hv', hw', h', h1', h2'⟩
    unfold triangleAt fourVertices at h2 h2'
    norm_num at h2 h2'
    linarith
  · unfold Flat triangleAt orientation fourVertices; norm_num
  · unfold Flat triangleAt orientation fourVertices; norm_num
  · obtain ⟨b, hb, hiff⟩ := answer (100, 90) (4, 4)
    have hf : ¬ b = true := by
      rw [hiff]
      rintro (h | h | h | h)
      · obtain ⟨x, ⟨t, h0, h1, hx, hy⟩, t', h0', h1', hx', hy'⟩ := (hg.crossing _ _ (by
          unfold OnLine orientation; norm_num)).2.1 h
        norm_num at hx hx'
        linarith
      · obtain ⟨x, ⟨t, h0, h1, hx, hy⟩, t', h0', h1', hx', hy'⟩ := (hg.crossing _ _ (by
          unfold OnLine orientation; norm_num)).2.1 h
        norm_num at hx hx' hy hy'
        linarith
      · obtain ⟨u, v, w, hu, hv, hw, h, h1, h2⟩ := (hg.point _ _).1 h
        norm_num at h1 h2
        linarith
      · obtain ⟨u, v, w, hu, hv, hw, h, h1, h2⟩ := (hg.point _ _).1 h
        norm_num at h1 h2
        linarith
    rw [hb, Bool.eq_false_iff.2 hf]
  · refine ⟨1 / 4, 1 / 2, 1 / 4, ?_⟩
    unfold triangleAt fourVertices
    norm_num
  · refine ⟨1 / 2, 1 / 4, 1 / 4, ?_⟩
    unfold triangleAt fourVertices
    norm_num

end Inspector
