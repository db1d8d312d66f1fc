import Mathlib.Algebra.Order.Ring.Rat
import Mathlib.Tactic.NormNum
import Verif.Proofs.Crossing
import Verif.Props.Intersections
/-
Properties C114 (edges of a curve crossing triangles of a surface) and C115 (edges of Lines crossing polygons of a BRep): what
is reported in terms of geometry, when the predicates are exact.
-/
namespace Inspector
open Spec
variable {K : Type} [Field K] [LinearOrder K] [IsStrictOrderedRing K]

/-! ### C114: the plane -/

theorem meets2D_seen (m : SurfaceCurve (K × K)) (hg : ExactCrossing m.pointTriangle m.segmentSegment)
    (hm : EdgesOfTriangles m) (t e : Index) (hT : ¬ Flat (m.triangle t)) :
    SegmentMeetsTriangle2D m t e ↔ Crossing.Seen m.segmentSegment (m.segment e) (m.triangle t) := by
  obtain ⟨h0, h1, h2⟩ := hm t
  unfold SegmentMeetsTriangle2D Crossing.Seen
  refine or_congr ?_ ?_
  · constructor
    · rintro ⟨v, rfl | rfl, h⟩
      · exact Or.inl ((hg.point _ _ hT).1 h)
      · exact Or.inr ((hg.point _ _ hT).1 h)
    · rintro (h | h)
      · exact ⟨_, Or.inl rfl, (hg.point _ _ hT).2 h⟩
      · exact ⟨_, Or.inr rfl, (hg.point _ _ hT).2 h⟩
  · simp only [sides, List.mem_cons, List.not_mem_nil, or_false]
    constructor
    · rintro ⟨k, hk, h⟩
      obtain rfl | rfl | rfl : k = 0 ∨ k = 1 ∨ k = 2 := by omega
      · exact ⟨_, Or.inl rfl, h0 ▸ h⟩
      · exact ⟨_, Or.inr (Or.inl rfl), h1 ▸ h⟩
      · exact ⟨_, Or.inr (Or.inr rfl), h2 ▸ h⟩
    · rintro ⟨x, rfl | rfl | rfl, h⟩
      · exact ⟨0, by omega, by rw [h0]; exact h⟩
      · exact ⟨1, by omega, by rw [h1]; exact h⟩
      · exact ⟨2, by omega, by rw [h2]; exact h⟩

/-- **C114** (plane), what holds: an edge of a curve which is not on the line of an edge of a triangle is said to intersect it
exactly when they have a point in common other than an end of the edge at a vertex of the triangle. -/
theorem C114_plane_partial (m : SurfaceCurve (K × K)) (hg : ExactCrossing m.pointTriangle m.segmentSegment)
    (hm : EdgesOfTriangles m) (t e : Index) (hT : ¬ Flat (m.triangle t)) (hs : (m.segment e).1 ≠ (m.segment e).2)
    (hl : ¬ AlongEdge (m.segment e) (m.triangle t)) :
    edgeIntersectsTriangle2D m (t, e) = true ↔ CrossesTriangle (m.segment e) (m.triangle t) := by
  rw [edge2D_iff, meets2D_seen m hg hm t e hT, Crossing.seen_iff hg hT hs hl]

/-- **C114** (plane), the other edges: an edge of a curve which is on the line of an edge of a triangle is said to intersect it
exactly when it goes through a vertex of the triangle. -/
theorem C114_plane_along_partial (m : SurfaceCurve (K × K)) (hg : ExactCrossing m.pointTriangle m.segmentSegment)
    (hm : EdgesOfTriangles m) (t e : Index) (hT : ¬ Flat (m.triangle t)) (hs : (m.segment e).1 ≠ (m.segment e).2)
    (hl : AlongEdge (m.segment e) (m.triangle t)) :
    edgeIntersectsTriangle2D m (t, e) = true ↔ VertexWithin (m.segment e) (m.triangle t) := by
  rw [edge2D_iff, meets2D_seen m hg hm t e hT, Crossing.seen_along hg hT hs hl]

/-- **C114** (plane), no false report: an edge which is said to intersect a triangle has a point in common with it, other than
an end of the edge at a vertex of the triangle. -/
theorem C114_plane_sound (m : SurfaceCurve (K × K)) (hg : ExactCrossing m.pointTriangle m.segmentSegment)
    (hm : EdgesOfTriangles m) (t e : Index) (hT : ¬ Flat (m.triangle t)) (hs : (m.segment e).1 ≠ (m.segment e).2)
    (h : edgeIntersectsTriangle2D m (t, e) = true) : CrossesTriangle (m.segment e) (m.triangle t) := by
  by_cases hl : AlongEdge (m.segment e) (m.triangle t)
  · exact Crossing.within_crosses hT ((C114_plane_along_partial m hg hm t e hT hs hl).1 h)
  · exact (C114_plane_partial m hg hm t e hT hs hl).1 h

/-- **C114** (plane), the lists: with exact predicates and complete trees, for a surface without flat triangle and a curve
without edge of null length, what is reported. -/
theorem C114_plane_list_partial (m : SurfaceCurve (K × K)) (hg : ExactCrossing m.pointTriangle m.segmentSegment)
    (hm : EdgesOfTriangles m) (nbTriangles nbEdges : Nat) (candidates : List ElementPair)
    (hc : CurveCandidates m nbTriangles nbEdges (fun s T => ∃ x, OnSegment s x ∧ InTriangle T x) candidates)
    (traverse traverse' : Traversal) (ht : IsTraversal traverse candidates) (ht' : IsTraversal traverse' candidates)
    (hT : ∀ t < nbTriangles, ¬ Flat (m.triangle t)) (hs : ∀ e < nbEdges, (m.segment e).1 ≠ (m.segment e).2) :
    ∃ issues b, curveIntersectingElements traverse (edgeIntersectsTriangle2D m) = .ok issues ∧
      meshesHaveIntersections traverse' (edgeIntersectsTriangle2D m) = .ok b ∧
      (∀ t e, (t, e) ∈ issues.issues ↔ t < nbTriangles ∧ e < nbEdges ∧
        ((¬ AlongEdge (m.segment e) (m.triangle t) ∧ CrossesTriangle (m.segment e) (m.triangle t)) ∨
          (AlongEdge (m.segment e) (m.triangle t) ∧ VertexWithin (m.segment e) (m.triangle t)))) ∧
      (b = true ↔ ∃ t e, (t, e) ∈ issues.issues) := by
  obtain ⟨issues, b, h1, h2, h3, h4⟩ :=
    triangle_edge_intersections (edgeIntersectsTriangle2D m) candidates traverse traverse' ht ht'
  refine ⟨issues, b, h1, h2, ?_, ?_⟩
  · intro t e
    rw [h3.mem_iff, List.mem_filter]
    constructor
    · rintro ⟨hmem, h⟩
      obtain ⟨r1, r2⟩ := hc.range _ hmem
      refine ⟨r1, r2, ?_⟩
      by_cases hl : AlongEdge (m.segment e) (m.triangle t)
      · exact Or.inr ⟨hl, (C114_plane_along_partial m hg hm t e (hT t r1) (hs e r2) hl).1 h⟩
      · exact Or.inl ⟨hl, (C114_plane_partial m hg hm t e (hT t r1) (hs e r2) hl).1 h⟩
    · rintro ⟨r1, r2, h⟩
      have hx : CrossesTriangle (m.segment e) (m.triangle t) :=
        h.elim (fun h => h.2) fun h => Crossing.within_crosses (hT t r1) h.2
      obtain ⟨x, x1, x2, _⟩ := hx
      refine ⟨hc.complete t e r1 r2 ⟨x, x1, x2⟩, ?_⟩
      rcases h with ⟨hl, h⟩ | ⟨hl, h⟩
      · exact (C114_plane_partial m hg hm t e (hT t r1) (hs e r2) hl).2 h
      · exact (C114_plane_along_partial m hg hm t e (hT t r1) (hs e r2) hl).2 h
  · rw [h4]
    cases issues.issues with
    | nil => simp
    | cons x l => exact ⟨fun _ => ⟨x.1, x.2, by simp⟩, fun _ => by simp⟩

/-! #### exact predicates of the plane exist -/

open Classical in
/-- where a point is on a segment -/
noncomputable def whereOnSegment {P : Type} (s : P × P) (x : P) : Position :=
  if x = s.1 then .vertex0 else if x = s.2 then .vertex1 else .inside

open Classical in
/-- exact positions of two segments -/
noncomputable def exactSegments (s1 s2 : (K × K) × (K × K)) : Position × Position :=
  if OnLine s1 s2 then (.parallel, .parallel)
  else if h : ∃ x, OnSegment s1 x ∧ OnSegment s2 x then (whereOnSegment s1 h.choose, whereOnSegment s2 h.choose)
  else (.outside, .outside)

open Classical in
/-- exact position of a point and a triangle -/
noncomputable def exactPoint (p : K × K) (T : (K × K) × (K × K) × (K × K)) : Position :=
  if InsideTriangle T p then .inside else .outside

theorem whereOnSegment_inside {P : Type} (s : P × P) (x : P) :
    whereOnSegment s x = .inside ↔ ¬ (x = s.1 ∨ x = s.2) := by
  unfold whereOnSegment
  by_cases h1 : x = s.1
  · rw [if_pos h1]; simp [h1]
  · rw [if_neg h1]
    by_cases h2 : x = s.2
    · rw [if_pos h2]; simp [h2]
    · rw [if_neg h2]; simp [h1, h2]

theorem exactCrossing_ok : ExactCrossing (exactPoint (K := K)) exactSegments := by
  have found : ∀ (s1 s2 : (K × K) × (K × K)) (x : K × K), ¬ OnLine s1 s2 → OnSegment s1 x → OnSegment s2 x →
      exactSegments s1 s2 = (whereOnSegment s1 x, whereOnSegment s2 x) := by
    intro s1 s2 x hl h1 h2
    have hex : ∃ x, OnSegment s1 x ∧ OnSegment s2 x := ⟨x, h1, h2⟩
    have hx : hex.choose = x := Plane.common_unique s1 s2 hl _ _ hex.choose_spec.1 hex.choose_spec.2 h1 h2
    unfold exactSegments
    rw [if_neg hl, dif_pos hex, hx]
  refine ⟨?_, ?_, ?_, ?_, ?_⟩
  · intro p T _
    unfold exactPoint
    by_cases h : InsideTriangle T p <;> simp [h]
  · intro s1 s2 hl
    unfold exactSegments
    rw [if_pos hl]
    simp
  · intro s1 s2 hl hex
    unfold exactSegments
    rw [if_neg hl, dif_neg hex]
  · intro s1 s2 x hl h1 h2
    rw [found s1 s2 x hl h1 h2]
    exact whereOnSegment_inside _ _
  · intro s1 s2 x hl h1 h2
    rw [found s1 s2 x hl h1 h2]
    exact whereOnSegment_inside _ _

/-- a surface of one triangle and a curve of one edge, in the plane -/
noncomputable def oneTriangleOneEdge (T : (K × K) × (K × K) × (K × K)) (s : (K × K) × (K × K)) : SurfaceCurve (K × K) where
  triangle _ := T
  triangleEdge _ k := if k = 0 then (T.1, T.2.1) else if k = 1 then (T.2.1, T.2.2) else (T.2.2, T.1)
  segment _ := s
  pointTriangle := exactPoint
  segmentSegment := exactSegments
  segmentTriangle _ _ := (.outside, .outside)

theorem oneTriangleOneEdge_edges (T : (K × K) × (K × K) × (K × K)) (s : (K × K) × (K × K)) :
    EdgesOfTriangles (oneTriangleOneEdge T s) := fun _ => ⟨rfl, rfl, rfl⟩

/-- **C114** is false in the plane: with exact predicates, an edge of a curve inside an edge of a triangle (here from (1, 0) to
(2, 0), the triangle having the vertices (0, 0), (3, 0) and (0, 3)) is not reported, although the points (1, 0) to (2, 0) are
common to them and are not vertices of the triangle. -/
theorem C114_plane_false : ∃ m : SurfaceCurve (ℚ × ℚ), ExactCrossing m.pointTriangle m.segmentSegment ∧ EdgesOfTriangles m ∧
    ¬ Flat (m.triangle 0) ∧ (m.segment 0).1 ≠ (m.segment 0).2 ∧ CrossesTriangle (m.segment 0) (m.triangle 0) ∧
    edgeIntersectsTriangle2D m (0, 0) = false ∧
    ∀ traverse, IsTraversal traverse [(0, 0)] →
      ∃ issues, curveIntersectingElements traverse (edgeIntersectsTriangle2D m) = .ok issues ∧ issues.issues = [] ∧
        meshesHaveIntersections traverse (edgeIntersectsTriangle2D m) = .ok false := by
  have hT : ¬ Flat (((0, 0), (3, 0), (0, 3)) : (ℚ × ℚ) × (ℚ × ℚ) × (ℚ × ℚ)) := by
    unfold Flat orientation; norm_num
  have hs : ((1, 0) : ℚ × ℚ) ≠ (2, 0) := by intro h; injection h with h _; norm_num at h
  have hl : AlongEdge (((1, 0), (2, 0)) : (ℚ × ℚ) × (ℚ × ℚ)) ((0, 0), (3, 0), (0, 3)) :=
    ⟨((0, 0), (3, 0)), by simp [sides], by unfold OnLine orientation; norm_num⟩
  have hno : edgeIntersectsTriangle2D (oneTriangleOneEdge (((0, 0), (3, 0), (0, 3)) : (ℚ × ℚ) × (ℚ × ℚ) × (ℚ × ℚ))
      ((1, 0), (2, 0))) (0, 0) = false := by
    rw [Bool.eq_false_iff]
    intro h
    obtain ⟨v, hv, ⟨t, h0, h1, hx, hy⟩, _⟩ := (C114_plane_along_partial (oneTriangleOneEdge ((0, 0), (3, 0), (0, 3)) ((1, 0), (2, 0)))
      exactCrossing_ok (oneTriangleOneEdge_edges _ _) 0 0 hT hs hl).1 h
    simp only [oneTriangleOneEdge] at hv hx hy
    rcases hv with rfl | rfl | rfl <;> simp only at hx hy
    · linarith
    · linarith
    · norm_num at hy
  refine ⟨oneTriangleOneEdge ((0, 0), (3, 0), (0, 3)) ((1, 0), (2, 0)), exactCrossing_ok, oneTriangleOneEdge_edges _ _, hT, hs,
    ?_, hno, ?_⟩
  · refine ⟨(1, 0), ⟨0, le_refl _, zero_le_one, by simp [oneTriangleOneEdge], by simp [oneTriangleOneEdge]⟩,
      ⟨2 / 3, 1 / 3, 0, by norm_num, by norm_num, by norm_num, by norm_num, by simp [oneTriangleOneEdge],
        by simp [oneTriangleOneEdge]⟩, ?_⟩
    rintro ⟨_, h | h | h⟩ <;> simp [oneTriangleOneEdge] at h
  · intro traverse ht
    obtain ⟨issues, b, h1, h2, h3, h4⟩ := triangle_edge_intersections (edgeIntersectsTriangle2D (oneTriangleOneEdge
      (((0, 0), (3, 0), (0, 3)) : (ℚ × ℚ) × (ℚ × ℚ) × (ℚ × ℚ)) ((1, 0), (2, 0)))) _ traverse traverse ht ht
    have hnil : issues.issues = [] := by
      rw [perm_nil_iff h3]
      simp [hno]
    refine ⟨issues, h1, hnil, ?_⟩
    rw [h2]
    cases b with
    | false => rfl
    | true => exact absurd hnil (h4.1 rfl)

/-- an edge crossing a triangle is reported -/
example : ∃ m : SurfaceCurve (ℚ × ℚ), ExactCrossing m.pointTriangle m.segmentSegment ∧ EdgesOfTriangles m ∧
    ¬ Flat (m.triangle 0) ∧ (m.segment 0).1 ≠ (m.segment 0).2 ∧ ¬ AlongEdge (m.segment 0) (m.triangle 0) ∧
    edgeIntersectsTriangle2D m (0, 0) = true := by
  have hT : ¬ Flat (((0, 0), (3, 0), (0, 3)) : (ℚ × ℚ) × (ℚ × ℚ) × (ℚ × ℚ)) := by
    unfold Flat orientation; norm_num
  have hs : ((-1, 1) : ℚ × ℚ) ≠ (3, 1) := by intro h; injection h with h _; norm_num at h
  have hl : ¬ AlongEdge (((-1, 1), (3, 1)) : (ℚ × ℚ) × (ℚ × ℚ)) ((0, 0), (3, 0), (0, 3)) := by
    rintro ⟨e, he, h1, h2⟩
    simp only [sides, List.mem_cons, List.not_mem_nil, or_false] at he
    unfold orientation at h1 h2
    rcases he with rfl | rfl | rfl <;> norm_num at h1
  refine ⟨oneTriangleOneEdge ((0, 0), (3, 0), (0, 3)) ((-1, 1), (3, 1)), exactCrossing_ok, oneTriangleOneEdge_edges _ _, hT,
    hs, hl, ?_⟩
  rw [C114_plane_partial (oneTriangleOneEdge ((0, 0), (3, 0), (0, 3)) ((-1, 1), (3, 1))) exactCrossing_ok
    (oneTriangleOneEdge_edges _ _) 0 0 hT hs hl]
  refine ⟨(0, 1), ⟨1 / 4, by norm_num, by norm_num, by simp only [oneTriangleOneEdge]; norm_num, by simp [oneTriangleOneEdge]⟩,
    ⟨2 / 3, 0, 1 / 3, by norm_num, by norm_num, by norm_num, by norm_num, by simp [oneTriangleOneEdge],
      by simp [oneTriangleOneEdge]⟩, ?_⟩
  rintro ⟨_, h | h | h⟩ <;> simp [oneTriangleOneEdge] at h

/-- an edge along an edge of the triangle, going through a vertex, is reported -/
example : ∃ m : SurfaceCurve (ℚ × ℚ), ExactCrossing m.pointTriangle m.segmentSegment ∧ EdgesOfTriangles m ∧
    ¬ Flat (m.triangle 0) ∧ AlongEdge (m.segment 0) (m.triangle 0) ∧ edgeIntersectsTriangle2D m (0, 0) = true := by
  have hT : ¬ Flat (((0, 0), (3, 0), (0, 3)) : (ℚ × ℚ) × (ℚ × ℚ) × (ℚ × ℚ)) := by
    unfold Flat orientation; norm_num
  have hs : ((-1, 0) : ℚ × ℚ) ≠ (1, 0) := by intro h; injection h with h _; norm_num at h
  have hl : AlongEdge (((-1, 0), (1, 0)) : (ℚ × ℚ) × (ℚ × ℚ)) ((0, 0), (3, 0), (0, 3)) :=
    ⟨((0, 0), (3, 0)), by simp [sides], by unfold OnLine orientation; norm_num⟩
  refine ⟨oneTriangleOneEdge ((0, 0), (3, 0), (0, 3)) ((-1, 0), (1, 0)), exactCrossing_ok, oneTriangleOneEdge_edges _ _, hT,
    hl, ?_⟩
  rw [C114_plane_along_partial (oneTriangleOneEdge ((0, 0), (3, 0), (0, 3)) ((-1, 0), (1, 0))) exactCrossing_ok
    (oneTriangleOneEdge_edges _ _) 0 0 hT hs hl]
  exact ⟨(0, 0), Or.inl rfl, ⟨1 / 2, by norm_num, by norm_num, by simp only [oneTriangleOneEdge]; norm_num,
    by simp [oneTriangleOneEdge]⟩, by simp [oneTriangleOneEdge], by simp [oneTriangleOneEdge]⟩

/-- the trees of these meshes -/
example (T : (ℚ × ℚ) × (ℚ × ℚ) × (ℚ × ℚ)) (s : (ℚ × ℚ) × (ℚ × ℚ)) : CurveCandidates (oneTriangleOneEdge T s) 1 1
    (fun s T => ∃ x, OnSegment s x ∧ InTriangle T x) [(0, 0)] :=
  ⟨fun p hp => by simp at hp; subst hp; decide, fun t e ht he _ => by
    obtain rfl : t = 0 := by omega
    obtain rfl : e = 0 := by omega
    simp⟩

/-! ### C114: the space -/

/-- **C114** (space): an edge of a curve which is not in the plane of a triangle is said to intersect it exactly when they have
a point in common other than an end of the edge at a vertex of the triangle. -/
theorem C114_space (m : SurfaceCurve (K × K × K)) (hg : ExactSpaceCrossing m.segmentTriangle)
    (hp : SoundPoints m.pointTriangle) (t e : Index) (hT : ¬ FlatInSpace (m.triangle t))
    (hl : ¬ SegmentInPlane (m.segment e) (m.triangle t)) :
    edgeIntersectsTriangle3D m (t, e) = true ↔ CrossesSpaceTriangle (m.segment e) (m.triangle t) := by
  rw [edge3D_iff]
  unfold SegmentMeetsTriangle3D
  simp only
  constructor
  · rintro (⟨v, hv, h⟩ | ⟨n1, _, h⟩)
    · obtain ⟨h1, h2⟩ := hp _ _ hT h
      refine ⟨v, ?_, h1, fun h => h2 h.2⟩
      rcases hv with rfl | rfl
      · exact ⟨0, le_refl _, zero_le_one, by ring, by ring, by ring⟩
      · exact ⟨1, zero_le_one, le_refl _, by ring, by ring, by ring⟩
    · by_cases hex : ∃ x, OnSpaceSegment (m.segment e) x ∧ InSpaceTriangle (m.triangle t) x
      · obtain ⟨x, h1, h2⟩ := hex
        refine ⟨x, h1, h2, fun hv => ?_⟩
        rcases hg.first _ _ x hT hl h1 h2 with ⟨f, _⟩ | ⟨_, f⟩
        swap
        · exact f hv.1
        rcases hg.second _ _ x hT hl h1 h2 with ⟨g, _⟩ | ⟨_, g⟩
        swap
        · exact g hv.2
        simp only [List.mem_cons, List.not_mem_nil, or_false] at f g h
        rcases f with f | f <;> rcases g with g | g | g <;> rw [f, g] at h <;> simp at h
      · rw [hg.apart _ _ hT hl hex] at n1
        exact absurd rfl n1
  · rintro ⟨x, h1, h2, hne⟩
    refine Or.inr ?_
    rcases hg.first _ _ x hT hl h1 h2 with ⟨f, f'⟩ | ⟨f, _⟩ <;>
      rcases hg.second _ _ x hT hl h1 h2 with ⟨g, g'⟩ | ⟨g, _⟩
    · exact absurd ⟨f', g'⟩ hne
    all_goals
      simp only [List.mem_cons, List.not_mem_nil, or_false] at f g ⊢
    · refine ⟨?_, ?_, Or.inr (Or.inl g)⟩
      · rcases f with f | f <;> rw [f] <;> decide
      · rcases g with g | g | g | g <;> rw [g] <;> decide
    · refine ⟨?_, ?_, Or.inl f⟩
      · rw [f]; decide
      · rcases g with g | g | g <;> rw [g] <;> decide
    · refine ⟨?_, ?_, Or.inl f⟩
      · rw [f]; decide
      · rcases g with g | g | g | g <;> rw [g] <;> decide

/-- **C114** (space), the lists: with exact predicates and complete trees, for a surface without flat triangle and a curve
without edge in the plane of a triangle, exactly the pairs with a common point other than an end at a vertex are reported. -/
theorem C114_space_list (m : SurfaceCurve (K × K × K)) (hg : ExactSpaceCrossing m.segmentTriangle)
    (hp : SoundPoints m.pointTriangle) (nbTriangles nbEdges : Nat) (candidates : List ElementPair)
    (hc : CurveCandidates m nbTriangles nbEdges (fun s T => ∃ x, OnSpaceSegment s x ∧ InSpaceTriangle T x) candidates)
    (traverse traverse' : Traversal) (ht : IsTraversal traverse candidates) (ht' : IsTraversal traverse' candidates)
    (hT : ∀ t < nbTriangles, ¬ FlatInSpace (m.triangle t))
    (hl : ∀ t < nbTriangles, ∀ e < nbEdges, ¬ SegmentInPlane (m.segment e) (m.triangle t)) :
    ∃ issues b, curveIntersectingElements traverse (edgeIntersectsTriangle3D m) = .ok issues ∧
      meshesHaveIntersections traverse' (edgeIntersectsTriangle3D m) = .ok b ∧
      (∀ t e, (t, e) ∈ issues.issues ↔ t < nbTriangles ∧ e < nbEdges ∧
        CrossesSpaceTriangle (m.segment e) (m.triangle t)) ∧
      (b = true ↔ ∃ t e, t < nbTriangles ∧ e < nbEdges ∧ CrossesSpaceTriangle (m.segment e) (m.triangle t)) := by
  obtain ⟨issues, b, h1, h2, h3, h4⟩ :=
    triangle_edge_intersections (edgeIntersectsTriangle3D m) candidates traverse traverse' ht ht'
  have hmem : ∀ t e, (t, e) ∈ issues.issues ↔ t < nbTriangles ∧ e < nbEdges ∧
      CrossesSpaceTriangle (m.segment e) (m.triangle t) := by
    intro t e
    rw [h3.mem_iff, List.mem_filter]
    constructor
    · rintro ⟨hmem, h⟩
      obtain ⟨r1, r2⟩ := hc.range _ hmem
      exact ⟨r1, r2, (C114_space m hg hp t e (hT t r1) (hl t r1 e r2)).1 h⟩
    · rintro ⟨r1, r2, h⟩
      refine ⟨?_, (C114_space m hg hp t e (hT t r1) (hl t r1 e r2)).2 h⟩
      obtain ⟨x, x1, x2, _⟩ := h
      exact hc.complete t e r1 r2 ⟨x, x1, x2⟩
  refine ⟨issues, b, h1, h2, hmem, ?_⟩
  rw [h4]
  constructor
  · intro h
    obtain ⟨x, hx⟩ := List.exists_mem_of_ne_nil _ h
    exact ⟨x.1, x.2, (hmem x.1 x.2).1 hx⟩
  · rintro ⟨t, e, h⟩ hnil
    have := (hmem t e).2 h
    rw [hnil] at this
    cases this

/-- **C114** (space), edges in the plane of a triangle, when the predicate calls them parallel: they are said to intersect the
triangle unless they join two of its vertices, even when they have no point in common. -/
theorem C114_space_in_plane_partial {P : Type} (m : SurfaceCurve P) (t e : Index)
    (hpar : m.segmentTriangle (m.segment e) (m.triangle t) = (.parallel, .parallel)) :
    edgeIntersectsTriangle3D m (t, e) = true ↔
      ¬ (m.pointTriangle (m.segment e).1 (m.triangle t) ∈ [Position.vertex0, .vertex1, .vertex2] ∧
        m.pointTriangle (m.segment e).2 (m.triangle t) ∈ [Position.vertex0, .vertex1, .vertex2]) := by
  rw [edge3D_iff]
  unfold SegmentMeetsTriangle3D
  simp only [hpar]
  constructor
  · rintro (⟨v, rfl | rfl, h⟩ | ⟨_, _, h | h | ⟨_, v, rfl | rfl, h⟩⟩)
    · rw [h]; simp
    · rw [h]; simp
    · simp at h
    · simp at h
    · exact fun h' => h h'.1
    · exact fun h' => h h'.2
  · intro h
    refine Or.inr ⟨by decide, by decide, Or.inr (Or.inr ⟨trivial, ?_⟩)⟩
    rcases Classical.not_and_iff_not_or_not.1 h with h | h
    · exact ⟨_, Or.inl rfl, h⟩
    · exact ⟨_, Or.inr rfl, h⟩

/-! #### exact predicates of the space exist -/

open Classical in
/-- where a point is in a triangle -/
noncomputable def whereInTriangle {P : Type} (T : P × P × P) (x : P) : Position :=
  if x = T.1 then .vertex0 else if x = T.2.1 then .vertex1 else if x = T.2.2 then .vertex2 else .inside

open Classical in
/-- exact positions of a segment and a triangle of the space, segments in its plane being called parallel -/
noncomputable def exactSegmentTriangle (s : (K × K × K) × (K × K × K)) (T : (K × K × K) × (K × K × K) × (K × K × K)) :
    Position × Position :=
  if SegmentInPlane s T then (.parallel, .parallel)
  else if h : ∃ x, OnSpaceSegment s x ∧ InSpaceTriangle T x then (whereOnSegment s h.choose, whereInTriangle T h.choose)
  else (.outside, .outside)

open Classical in
/-- exact position of a point and a triangle of the space -/
noncomputable def exactSpacePoint (p : K × K × K) (T : (K × K × K) × (K × K × K) × (K × K × K)) : Position :=
  if InSpaceTriangle T p then whereInTriangle T p else .outside

theorem whereOnSegment_cases {P : Type} (s : P × P) (x : P) :
    (whereOnSegment s x ∈ [Position.vertex0, .vertex1] ∧ (x = s.1 ∨ x = s.2)) ∨
    (whereOnSegment s x = .inside ∧ ¬ (x = s.1 ∨ x = s.2)) := by
  unfold whereOnSegment
  by_cases h1 : x = s.1
  · rw [if_pos h1]; exact Or.inl ⟨by simp, Or.inl h1⟩
  · rw [if_neg h1]
    by_cases h2 : x = s.2
    · rw [if_pos h2]; exact Or.inl ⟨by simp, Or.inr h2⟩
    · rw [if_neg h2]; exact Or.inr ⟨rfl, fun h => h.elim h1 h2⟩

theorem whereInTriangle_cases {P : Type} (T : P × P × P) (x : P) :
    (whereInTriangle T x ∈ [Position.vertex0, .vertex1, .vertex2] ∧ (x = T.1 ∨ x = T.2.1 ∨ x = T.2.2)) ∨
    (whereInTriangle T x = .inside ∧ ¬ (x = T.1 ∨ x = T.2.1 ∨ x = T.2.2)) := by
  unfold whereInTriangle
  by_cases h1 : x = T.1
  · rw [if_pos h1]; exact Or.inl ⟨by simp, Or.inl h1⟩
  · rw [if_neg h1]
    by_cases h2 : x = T.2.1
    · rw [if_pos h2]; exact Or.inl ⟨by simp, Or.inr (Or.inl h2)⟩
    · rw [if_neg h2]
      by_cases h3 : x = T.2.2
      · rw [if_pos h3]; exact Or.inl ⟨by simp, Or.inr (Or.inr h3)⟩
      · rw [if_neg h3]; exact Or.inr ⟨rfl, fun h => h.elim h1 fun h => h.elim h2 h3⟩

theorem exactSpaceCrossing_ok : ExactSpaceCrossing (exactSegmentTriangle (K := K)) := by
  have found : ∀ (s : (K × K × K) × (K × K × K)) (T : (K × K × K) × (K × K × K) × (K × K × K)) (x : K × K × K),
      ¬ FlatInSpace T → ¬ SegmentInPlane s T → OnSpaceSegment s x → InSpaceTriangle T x →
      exactSegmentTriangle s T = (whereOnSegment s x, whereInTriangle T x) := by
    intro s T x hT hl h1 h2
    have hex : ∃ x, OnSpaceSegment s x ∧ InSpaceTriangle T x := ⟨x, h1, h2⟩
    have hx : hex.choose = x := Crossing.space_unique s T _ _ hT hl hex.choose_spec.1 hex.choose_spec.2 h1 h2
    unfold exactSegmentTriangle
    rw [if_neg hl, dif_pos hex, hx]
  refine ⟨?_, ?_, ?_⟩
  · intro s T _ hl hex
    unfold exactSegmentTriangle
    rw [if_neg hl, dif_neg hex]
  · intro s T x hT hl h1 h2
    rw [found s T x hT hl h1 h2]
    exact whereOnSegment_cases s x
  · intro s T x hT hl h1 h2
    rw [found s T x hT hl h1 h2]
    refine (whereInTriangle_cases T x).imp id fun h => ⟨?_, h.2⟩
    simp only [h.1]
    simp

theorem exactSpacePoint_ok : SoundPoints (exactSpacePoint (K := K)) := by
  intro p T _ h
  unfold exactSpacePoint at h
  split at h
  · rename_i hin
    refine ⟨hin, ?_⟩
    rcases whereInTriangle_cases T p with ⟨h', _⟩ | ⟨_, h'⟩
    · rw [h] at h'; simp at h'
    · exact h'
  · cases h

/-- a surface of one triangle and a curve of one edge, in the space -/
noncomputable def oneSpaceTriangle (T : (K × K × K) × (K × K × K) × (K × K × K)) (s : (K × K × K) × (K × K × K)) :
    SurfaceCurve (K × K × K) where
  triangle _ := T
  triangleEdge _ k := if k = 0 then (T.1, T.2.1) else if k = 1 then (T.2.1, T.2.2) else (T.2.2, T.1)
  segment _ := s
  pointTriangle := exactSpacePoint
  segmentSegment _ _ := (.outside, .outside)
  segmentTriangle := exactSegmentTriangle

/-- an edge through a triangle is reported -/
example : ∃ m : SurfaceCurve (ℚ × ℚ × ℚ), ExactSpaceCrossing m.segmentTriangle ∧ SoundPoints m.pointTriangle ∧
    ¬ FlatInSpace (m.triangle 0) ∧ ¬ SegmentInPlane (m.segment 0) (m.triangle 0) ∧
    edgeIntersectsTriangle3D m (0, 0) = true := by
  have hT : ¬ FlatInSpace (((0, 0, 0), (4, 0, 0), (0, 4, 0)) : (ℚ × ℚ × ℚ) × (ℚ × ℚ × ℚ) × (ℚ × ℚ × ℚ)) := by
    unfold FlatInSpace normal crossProduct vector
    simp
  have hl : ¬ SegmentInPlane (((1, 1, -1), (1, 1, 1)) : (ℚ × ℚ × ℚ) × (ℚ × ℚ × ℚ)) ((0, 0, 0), (4, 0, 0), (0, 4, 0)) := by
    unfold SegmentInPlane InPlane dotProduct normal crossProduct vector
    norm_num
  refine ⟨oneSpaceTriangle ((0, 0, 0), (4, 0, 0), (0, 4, 0)) ((1, 1, -1), (1, 1, 1)), exactSpaceCrossing_ok,
    exactSpacePoint_ok, hT, hl, ?_⟩
  rw [C114_space (oneSpaceTriangle ((0, 0, 0), (4, 0, 0), (0, 4, 0)) ((1, 1, -1), (1, 1, 1))) exactSpaceCrossing_ok
    exactSpacePoint_ok 0 0 hT hl]
  refine ⟨(1, 1, 0), ⟨1 / 2, by norm_num, by norm_num, by simp [oneSpaceTriangle], by simp [oneSpaceTriangle],
    by simp [oneSpaceTriangle]; norm_num⟩, ⟨1 / 2, 1 / 4, 1 / 4, by norm_num, by norm_num, by norm_num, by norm_num,
      by simp [oneSpaceTriangle], by simp [oneSpaceTriangle], by simp [oneSpaceTriangle]⟩, ?_⟩
  rintro ⟨h | h, _⟩ <;> simp [oneSpaceTriangle] at h

/-- with these predicates an edge in the plane of the triangle is called parallel -/
example : (oneSpaceTriangle (((0, 0, 0), (4, 0, 0), (0, 4, 0)) : (ℚ × ℚ × ℚ) × (ℚ × ℚ × ℚ) × (ℚ × ℚ × ℚ))
    ((9, 9, 0), (8, 8, 0))).segmentTriangle ((9, 9, 0), (8, 8, 0)) ((0, 0, 0), (4, 0, 0), (0, 4, 0)) =
    (.parallel, .parallel) := by
  have : SegmentInPlane (((9, 9, 0), (8, 8, 0)) : (ℚ × ℚ × ℚ) × (ℚ × ℚ × ℚ)) ((0, 0, 0), (4, 0, 0), (0, 4, 0)) := by
    unfold SegmentInPlane InPlane dotProduct normal crossProduct vector
    norm_num
  show exactSegmentTriangle _ _ = _
  unfold exactSegmentTriangle
  rw [if_pos this]

/-! ### C115: edges of Lines and polygons of Surfaces of a BRep -/

/-- **C115**: an edge of a Line and a polygon of a BRep (of at most 256 vertices, whose triangles from the first vertex are not
flat, the edge not being in the plane of one of them) are said to intersect exactly when the edge and one of these triangles
have a point in common other than an end of the edge at a vertex of the triangle. -/
theorem C115_edge (g : Geometry (K × K × K)) (hg : ExactSpaceCrossing g.segmentTriangle) (s : ModelSurface (K × K × K))
    (l : ModelLine (K × K × K)) (p e : Index) (h256 : (s.polygonVertices p).length ≤ 256)
    (hT : ∀ t ∈ fan (s.polygonVertices p), ¬ FlatInSpace (spaceTriangleAt s (t.getD 0 0) (t.getD 1 0) (t.getD 2 0)) ∧
      ¬ SegmentInPlane (l.segment e) (spaceTriangleAt s (t.getD 0 0) (t.getD 1 0) (t.getD 2 0))) :
    polygonEdgeIntersect g s l (p, e) = true ↔ ∃ t ∈ fan (s.polygonVertices p),
      CrossesSpaceTriangle (l.segment e) (spaceTriangleAt s (t.getD 0 0) (t.getD 1 0) (t.getD 2 0)) := by
  unfold polygonEdgeIntersect
  rw [loopAny_iff, fan_spec _ h256]
  apply exists_congr
  intro t
  apply and_congr_right
  intro ht
  obtain ⟨hF, hl⟩ := hT t ht
  have hmesh : meshTriangle s t = spaceTriangleAt s (t.getD 0 0) (t.getD 1 0) (t.getD 2 0) := rfl
  simp only [hmesh, Bool.or_eq_true, beq_iff_eq]
  generalize spaceTriangleAt s (t.getD 0 0) (t.getD 1 0) (t.getD 2 0) = T at *
  constructor
  · intro h
    by_cases hex : ∃ x, OnSpaceSegment (l.segment e) x ∧ InSpaceTriangle T x
    · obtain ⟨x, h1, h2⟩ := hex
      refine ⟨x, h1, h2, fun hv => ?_⟩
      rcases hg.first _ _ x hF hl h1 h2 with ⟨f, _⟩ | ⟨_, f⟩
      swap
      · exact f hv.1
      rcases hg.second _ _ x hF hl h1 h2 with ⟨k, _⟩ | ⟨_, k⟩
      swap
      · exact k hv.2
      simp only [List.mem_cons, List.not_mem_nil, or_false] at f k
      rcases f with f | f <;> rcases k with k | k | k <;> rw [f, k] at h <;> simp at h
    · rw [hg.apart _ _ hF hl hex] at h
      simp at h
  · rintro ⟨x, h1, h2, hne⟩
    rcases hg.first _ _ x hF hl h1 h2 with ⟨f, f'⟩ | ⟨f, _⟩
    swap
    · simp [f]
    rcases hg.second _ _ x hF hl h1 h2 with ⟨k, k'⟩ | ⟨k, _⟩
    · exact absurd ⟨f', k'⟩ hne
    · simp only [List.mem_cons, List.not_mem_nil, or_false] at k
      rcases k with k | k | k | k <;> simp [k]

/-- **C115**, edges in the plane of a polygon, when the predicate calls them parallel to all its triangles: they are never
reported, whatever they have in common with the polygon. -/
theorem C115_in_plane_partial {P : Type} (g : Geometry P) (s : ModelSurface P) (l : ModelLine P) (p e : Index)
    (h256 : (s.polygonVertices p).length ≤ 256) (hpar : ∀ t ∈ fan (s.polygonVertices p), g.segmentTriangle (l.segment e)
      (s.point (t.getD 0 0), s.point (t.getD 1 0), s.point (t.getD 2 0)) = (.parallel, .parallel)) :
    polygonEdgeIntersect g s l (p, e) = false := by
  rw [Bool.eq_false_iff]
  intro h
  unfold polygonEdgeIntersect at h
  rw [loopAny_iff, fan_spec _ h256] at h
  obtain ⟨t, ht, h⟩ := h
  have hm : meshTriangle s t = (s.point (t.getD 0 0), s.point (t.getD 1 0), s.point (t.getD 2 0)) := rfl
  rw [hm] at h
  simp only [hpar t ht] at h
  revert h
  decide

/-- **C115**, the list: in a BRep without empty mesh, when no triangle of a polygon is flat and no edge of a Line embedded in a
Block is in the plane of one, what is reported about Lines is exactly the pairs of a polygon of an active Surface and an edge of
an active Line embedded in a Block which have a point in common other than an end of the edge at a vertex of the triangle. -/
theorem C115_list (m : IntersectionModel (K × K × K)) (hg : ExactSpaceCrossing m.geometry.segmentTriangle)
    (c : Candidates (K × K × K)) (ht : TreesOk m c) (hsmall : AllSmall m) (hne : NoEmptySurface m) (hnl : NoEmptyLine m)
    (hrange : ∀ s ∈ m.surfaces, ∀ l ∈ m.lines, ∀ p ∈ c.line s l, p.1 < s.nbPolygons ∧ p.2 < l.nbEdges)
    (hcomplete : ∀ s ∈ m.surfaces, ∀ l ∈ m.lines, ∀ p < s.nbPolygons, ∀ e < l.nbEdges, PolygonCrossed s l p e →
      (p, e) ∈ c.line s l)
    (hT : ∀ s ∈ m.surfaces, ∀ l ∈ m.lines, ∀ p < s.nbPolygons, ∀ e < l.nbEdges, ∀ t ∈ fan (s.polygonVertices p),
      ¬ FlatInSpace (spaceTriangleAt s (t.getD 0 0) (t.getD 1 0) (t.getD 2 0)) ∧
      ¬ SegmentInPlane (l.segment e) (spaceTriangleAt s (t.getD 0 0) (t.getD 1 0) (t.getD 2 0)))
    (issues : Issues (ComponentMeshElement × ComponentMeshElement)) :
    ∃ r added, addIntersectingLinesSurfacesElements 3 m issues = .ok r ∧ r.issues = issues.issues ++ added ∧
      ∀ x, x ∈ added ↔ ∃ s ∈ m.surfaces, s.active = true ∧ ∃ l ∈ m.lines, l.active = true ∧ l.nbEmbeddingBlocks ≠ 0 ∧
        ∃ p < s.nbPolygons, ∃ e < l.nbEdges, PolygonCrossed s l p e ∧
          x = (⟨⟨.surface, s.id⟩, p⟩, ⟨⟨.line, l.id⟩, e⟩) := by
  obtain ⟨r, added, h1, h2, h3⟩ := C59_lines_surfaces m c ht hsmall hne hnl issues
  refine ⟨r, added, h1, h2, fun x => ?_⟩
  have key : ∀ s ∈ m.surfaces, ∀ l ∈ m.lines, ∀ p < s.nbPolygons, ∀ e < l.nbEdges,
      (EdgeMeetsPolygon m s l (p, e) ↔ PolygonCrossed s l p e) := by
    intro s hs l hl p hp e he
    rw [← polygonEdge_iff m s l (p, e) (hsmall.1 s hs)]
    exact C115_edge m.geometry hg s l p e (hsmall.1 s hs p) (hT s hs l hl p hp e he)
  rw [h3.mem_iff]
  unfold meetingEdges
  simp only [List.mem_flatMap, List.mem_map, List.mem_filter, Bool.and_eq_true, decide_eq_true_eq]
  constructor
  · rintro ⟨s, ⟨hs, ha⟩, l, ⟨hl, ha', hb⟩, ⟨p, e⟩, ⟨hmem, hmeet⟩, rfl⟩
    obtain ⟨r1, r2⟩ := hrange s hs l hl _ hmem
    exact ⟨s, hs, ha, l, hl, ha', hb, p, r1, e, r2, (key s hs l hl p r1 e r2).1 hmeet, rfl⟩
  · rintro ⟨s, hs, ha, l, hl, ha', hb, p, r1, e, r2, hmeet, rfl⟩
    exact ⟨s, ⟨hs, ha⟩, l, ⟨hl, ha', hb⟩, (p, e), ⟨hcomplete s hs l hl p r1 e r2 hmeet, (key s hs l hl p r1 e r2).2 hmeet⟩,
      rfl⟩

/-- exact predicates of the space -/
noncomputable def spaceCrossingGeometry : Geometry (K × K × K) where
  segmentSegment _ _ := (.outside, .outside)
  pointTriangle := exactSpacePoint
  segmentTriangle := exactSegmentTriangle
  positionToIndex _ := none

/-- a Surface of one square -/
def squareSurface : ModelSurface (ℚ × ℚ × ℚ) :=
  { id := 1, active := true, nbPolygons := 1, polygonVertices := fun _ => [0, 1, 2, 3], nbVertices := 4
    point := fun v => if v = 0 then (0, 0, 0) else if v = 1 then (4, 0, 0) else if v = 2 then (4, 4, 0) else (0, 4, 0)
    uniqueVertex := id }

/-- a Line of one edge, embedded in a Block, through the square (above the second triangle of its fan) -/
def throughLine : ModelLine (ℚ × ℚ × ℚ) :=
  { id := 2, active := true, nbEdges := 1, segment := fun _ => ((1, 3, -1), (1, 3, 1)), nbEmbeddingBlocks := 1 }

/-- a BRep with this Surface and this Line -/
noncomputable def squareModel : IntersectionModel (ℚ × ℚ × ℚ) where
  surfaces := [squareSurface]
  lines := [throughLine]
  geometry := spaceCrossingGeometry
  selfTraversal := fun _ => untilStop []
  otherTraversal := fun _ _ => untilStop []
  lineTraversal := fun _ _ => untilStop [(0, 0)]
  overlappingSurfaces := []
  trianglesIntersect := brepTrianglesIntersect spaceCrossingGeometry

theorem square_triangles : ∀ t ∈ fan [0, 1, 2, 3],
    ¬ FlatInSpace (spaceTriangleAt squareSurface (t.getD 0 0) (t.getD 1 0) (t.getD 2 0)) ∧
    ¬ SegmentInPlane (throughLine.segment 0) (spaceTriangleAt squareSurface (t.getD 0 0) (t.getD 1 0) (t.getD 2 0)) := by
  intro t ht
  obtain rfl | rfl : t = [0, 1, 2] ∨ t = [0, 2, 3] := by simpa [fan, List.range_succ] using ht
  · constructor
    · show ¬ FlatInSpace (((0, 0, 0), (4, 0, 0), (4, 4, 0)) : (ℚ × ℚ × ℚ) × (ℚ × ℚ × ℚ) × (ℚ × ℚ × ℚ))
      unfold FlatInSpace normal crossProduct vector
      simp
    · show ¬ SegmentInPlane (((1, 3, -1), (1, 3, 1)) : (ℚ × ℚ × ℚ) × (ℚ × ℚ × ℚ)) ((0, 0, 0), (4, 0, 0), (4, 4, 0))
      unfold SegmentInPlane InPlane dotProduct normal crossProduct vector
      norm_num
  · constructor
    · show ¬ FlatInSpace (((0, 0, 0), (4, 4, 0), (0, 4, 0)) : (ℚ × ℚ × ℚ) × (ℚ × ℚ × ℚ) × (ℚ × ℚ × ℚ))
      unfold FlatInSpace normal crossProduct vector
      simp
    · show ¬ SegmentInPlane (((1, 3, -1), (1, 3, 1)) : (ℚ × ℚ × ℚ) × (ℚ × ℚ × ℚ)) ((0, 0, 0), (4, 4, 0), (0, 4, 0))
      unfold SegmentInPlane InPlane dotProduct normal crossProduct vector
      norm_num

theorem square_crossed : PolygonCrossed squareSurface throughLine 0 0 := by
  refine ⟨[0, 2, 3], by simp [fan, squareSurface, List.range_succ], (1, 3, 0), ?_, ?_, ?_⟩
  · exact ⟨1 / 2, by norm_num, by norm_num, by simp [throughLine], by simp [throughLine], by simp only [throughLine]; norm_num⟩
  · show InSpaceTriangle (((0, 0, 0), (4, 4, 0), (0, 4, 0)) : (ℚ × ℚ × ℚ) × (ℚ × ℚ × ℚ) × (ℚ × ℚ × ℚ)) (1, 3, 0)
    exact ⟨1 / 4, 1 / 4, 1 / 2, by norm_num, by norm_num, by norm_num, by norm_num, by norm_num, by norm_num, by norm_num⟩
  · rintro ⟨h | h, _⟩ <;> simp [throughLine] at h

/-- the hypotheses of **C115** for this BRep, where the square and the edge are reported -/
example (issues : Issues (ComponentMeshElement × ComponentMeshElement)) :
    ∃ r added, addIntersectingLinesSurfacesElements 3 squareModel issues = .ok r ∧ r.issues = issues.issues ++ added ∧
      ((⟨⟨.surface, 1⟩, 0⟩, ⟨⟨.line, 2⟩, 0⟩) : ComponentMeshElement × ComponentMeshElement) ∈ added := by
  refine (fun hlist => ?_) (C115_list squareModel exactSpaceCrossing_ok
    ⟨fun _ => [], fun _ _ => [], fun _ _ => [(0, 0)]⟩ ⟨fun _ => untilStop_isTraversal [],
      fun _ _ => untilStop_isTraversal [], fun _ _ => untilStop_isTraversal [(0, 0)]⟩ ⟨?_, fun _ h => (by cases h)⟩
    ?_ ?_ ?_ ?_ ?_ issues)
  · obtain ⟨r, added, h1, h2, h3⟩ := hlist
    exact ⟨r, added, h1, h2, (h3 _).2 ⟨squareSurface, by simp [squareModel], rfl, throughLine, by simp [squareModel], rfl,
      by decide, 0, by decide, 0, by decide, square_crossed, rfl⟩⟩
  · intro s hs
    obtain rfl : s = squareSurface := by simpa [squareModel] using hs
    exact fun _ => (by decide : [0, 1, 2, 3].length ≤ 256)
  · intro s hs
    obtain rfl : s = squareSurface := by simpa [squareModel] using hs
    exact fun _ => (by decide)
  · intro l hl
    obtain rfl : l = throughLine := by simpa [squareModel] using hl
    exact fun _ => (by decide)
  · intro s hs l hl p hp
    obtain rfl : s = squareSurface := by simpa [squareModel] using hs
    obtain rfl : l = throughLine := by simpa [squareModel] using hl
    obtain rfl : p = (0, 0) := by simpa using hp
    decide
  · intro s hs l hl p hp e he _
    obtain rfl : s = squareSurface := by simpa [squareModel] using hs
    obtain rfl : l = throughLine := by simpa [squareModel] using hl
    obtain rfl : p = 0 := by simp only [squareSurface] at hp; omega
    obtain rfl : e = 0 := by simp only [throughLine] at he; omega
    simp
  · intro s hs l hl p hp e he
    obtain rfl : s = squareSurface := by simpa [squareModel] using hs
    obtain rfl : l = throughLine := by simpa [squareModel] using hl
    exact square_triangles

/-- **C115 is false**: with exact predicates which call a segment in the plane of a triangle parallel to it, an edge of a Line
across a square of a Surface, in its plane, is not reported. -/
theorem C115_false : ∃ (g : Geometry (ℚ × ℚ × ℚ)) (s : ModelSurface (ℚ × ℚ × ℚ)) (l : ModelLine (ℚ × ℚ × ℚ)),
    ExactSpaceCrossing g.segmentTriangle ∧ (s.polygonVertices 0).length ≤ 256 ∧
    (∀ t ∈ fan (s.polygonVertices 0), ¬ FlatInSpace (spaceTriangleAt s (t.getD 0 0) (t.getD 1 0) (t.getD 2 0))) ∧
    PolygonCrossed s l 0 0 ∧ polygonEdgeIntersect g s l (0, 0) = false := by
  refine ⟨spaceCrossingGeometry, squareSurface, { throughLine with segment := fun _ => ((-1, 1, 0), (5, 1, 0)) },
    exactSpaceCrossing_ok, by decide, ?_, ?_, ?_⟩
  · intro t ht
    exact (square_triangles t ht).1
  · refine ⟨[0, 1, 2], List.mem_cons_self, (2, 1, 0), ⟨1 / 2, by norm_num⟩, ⟨1 / 2, 1 / 4, 1 / 4, ?_⟩, ?_⟩
    · show _ ∧ _ ∧ _ ∧ _ ∧ _
      unfold spaceTriangleAt squareSurface
      norm_num
    · norm_num
  · refine C115_in_plane_partial _ _ _ _ _ (by decide) ?_
    intro t ht
    have ht : t ∈ [[0, 1, 2], [0, 2, 3]] := ht
    simp only [List.mem_cons, List.not_mem_nil, or_false] at ht
    show exactSegmentTriangle _ _ = _
    unfold exactSegmentTriangle
    rw [if_pos]
    rcases ht with rfl | rfl <;>
      (unfold SegmentInPlane InPlane dotProduct normal crossProduct vector squareSurface; norm_num)

end Inspector
