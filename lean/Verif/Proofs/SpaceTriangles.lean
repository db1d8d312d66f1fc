import Verif.Proofs.Space
import Verif.Proofs.Triangles
/-
Proofs of C113: the tests of triangles of a BRep when the predicates of the space are exact.
-/
namespace Inspector.Space
open Inspector Spec
variable {K : Type} [Field K] [LinearOrder K] [IsStrictOrderedRing K]

theorem sides_at (s : ModelSurface (K × K × K)) (a b c : Index) :
    spaceSides (spaceTriangleAt s a b c) = (edgesOf [a, b, c]).map (segmentOf s) := rfl

theorem triangle_at (s : ModelSurface (K × K × K)) (a b c : Index) (x : (K × K × K) × (K × K × K) × (K × K × K)) :
    TriangleOf s [a, b, c] x ↔ x = spaceTriangleAt s a b c := by
  constructor
  · rintro ⟨a', b', c', h, rfl⟩
    simp only [List.cons.injEq, and_true] at h
    obtain ⟨rfl, rfl, rfl⟩ := h
    rfl
  · rintro rfl
    exact ⟨a, b, c, rfl, rfl⟩

/-- an edge meets the other triangle -/
theorem meets_iff (g : Geometry (K × K × K)) (hg : ExactSpace g) (s1 s2 : ModelSurface (K × K × K)) (e : Index × Index)
    (a b c : Index) (hT : ¬ FlatInSpace (spaceTriangleAt s2 a b c))
    (hl : ¬ (InPlane (spaceTriangleAt s2 a b c) (s1.point e.1) ∧ InPlane (spaceTriangleAt s2 a b c) (s1.point e.2))) :
    EdgeMeets g s1 s2 e [a, b, c] ↔ ∃ x, OnSpaceSegment (segmentOf s1 e) x ∧ InSpaceTriangle (spaceTriangleAt s2 a b c) x := by
  unfold EdgeMeets
  rw [← (hg.crossing (segmentOf s1 e) _ hT hl).2]
  constructor
  · rintro ⟨x, hx, h⟩
    rw [triangle_at] at hx
    rw [hx] at h
    exact h
  · intro h
    exact ⟨_, (triangle_at s2 a b c _).2 rfl, h⟩

theorem side_in {T : (K × K × K) × (K × K × K) × (K × K × K)} (e : (K × K × K) × (K × K × K)) (he : e ∈ spaceSides T) (x : K × K × K)
    (hx : OnSpaceSegment e x) : InSpaceTriangle T x := by
  obtain ⟨t, t0, t1, h1, h2, h3⟩ := hx
  simp only [spaceSides, List.mem_cons, List.not_mem_nil, or_false] at he
  rcases he with rfl | rfl | rfl
  · exact ⟨1 - t, t, 0, by linarith, t0, le_refl _, by ring, by rw [h1]; ring, by rw [h2]; ring, by rw [h3]; ring⟩
  · exact ⟨0, 1 - t, t, le_refl _, by linarith, t0, by ring, by rw [h1]; ring, by rw [h2]; ring, by rw [h3]; ring⟩
  · exact ⟨t, 0, 1 - t, t0, le_refl _, by linarith, by ring, by rw [h1]; ring, by rw [h2]; ring, by rw [h3]; ring⟩

theorem side_of (s : ModelSurface (K × K × K)) (a b c : Index) (e : (K × K × K) × (K × K × K))
    (he : e ∈ spaceSides (spaceTriangleAt s a b c)) : ∃ i ∈ edgesOf [a, b, c], e = segmentOf s i := by
  rw [sides_at] at he
  obtain ⟨i, hi, rfl⟩ := List.mem_map.1 he
  exact ⟨i, hi, rfl⟩

theorem edge_side (s : ModelSurface (K × K × K)) (a b c : Index) (e : Index × Index) (he : e ∈ edgesOf [a, b, c]) :
    segmentOf s e ∈ spaceSides (spaceTriangleAt s a b c) := by
  rw [sides_at]; exact List.mem_map_of_mem he

theorem apart_found (g : Geometry (K × K × K)) (hg : ExactSpace g) (s1 s2 : ModelSurface (K × K × K)) (a b c d e f : Index)
    (h1 : ¬ FlatInSpace (spaceTriangleAt s1 a b c)) (h2 : ¬ FlatInSpace (spaceTriangleAt s2 d e f))
    (hn : ¬ SamePlane (spaceTriangleAt s1 a b c) (spaceTriangleAt s2 d e f)) (p : K × K × K)
    (hp1 : InSpaceTriangle (spaceTriangleAt s1 a b c) p) (hp2 : InSpaceTriangle (spaceTriangleAt s2 d e f) p) :
    (∃ e1 ∈ edgesOf [a, b, c], EdgeMeets g s1 s2 e1 [d, e, f]) ∨ ∃ e2 ∈ edgesOf [d, e, f], EdgeMeets g s2 s1 e2 [a, b, c] := by
  obtain ⟨x, _, x1, x2, he⟩ := crossing_edge h1 h2 hn (fun _ => False) (fun _ _ h => h.elim) (fun _ h => h.elim)
    (fun _ h => h.elim) p hp1 hp2 (fun h => h)
  rcases he with ⟨e', m, hs, hl⟩ | ⟨e', m, hs, hl⟩
  · obtain ⟨i, mi, rfl⟩ := side_of s1 a b c e' m
    exact .inl ⟨i, mi, (meets_iff g hg s1 s2 i d e f h2 hl).2 ⟨x, hs, x2⟩⟩
  · obtain ⟨i, mi, rfl⟩ := side_of s2 d e f e' m
    exact .inr ⟨i, mi, (meets_iff g hg s2 s1 i a b c h1 hl).2 ⟨x, hs, x1⟩⟩

theorem apart_iff (g : Geometry (K × K × K)) (hg : ExactSpace g) (s1 s2 : ModelSurface (K × K × K)) (a b c d e f : Index)
    (h1 : ¬ FlatInSpace (spaceTriangleAt s1 a b c)) (h2 : ¬ FlatInSpace (spaceTriangleAt s2 d e f))
    (hn : NoEdgeInPlane (spaceTriangleAt s1 a b c) (spaceTriangleAt s2 d e f)) :
    ((∃ e1 ∈ edgesOf [a, b, c], EdgeMeets g s1 s2 e1 [d, e, f]) ∨ ∃ e2 ∈ edgesOf [d, e, f], EdgeMeets g s2 s1 e2 [a, b, c]) ↔
      ∃ x, InSpaceTriangle (spaceTriangleAt s1 a b c) x ∧ InSpaceTriangle (spaceTriangleAt s2 d e f) x := by
  constructor
  · rintro (⟨i, mi, h⟩ | ⟨i, mi, h⟩)
    · obtain ⟨x, x1, x2⟩ := (meets_iff g hg s1 s2 i d e f h2 (hn.1 _ (edge_side s1 a b c i mi))).1 h
      exact ⟨x, side_in _ (edge_side s1 a b c i mi) x x1, x2⟩
    · obtain ⟨x, x1, x2⟩ := (meets_iff g hg s2 s1 i a b c h1 (hn.2 _ (edge_side s2 d e f i mi))).1 h
      exact ⟨x, x2, side_in _ (edge_side s2 d e f i mi) x x1⟩
  · rintro ⟨p, hp1, hp2⟩
    exact apart_found g hg s1 s2 a b c d e f h1 h2
      (fun h => hn.1 _ (List.mem_cons_self) ⟨h.1, h.2.1⟩) p hp1 hp2

theorem points_ne (s : ModelSurface (K × K × K)) (a b c : Index) (hT : ¬ FlatInSpace (spaceTriangleAt s a b c)) :
    s.point a ≠ s.point b ∧ s.point b ≠ s.point c ∧ s.point c ≠ s.point a := by
  refine ⟨?_, ?_, ?_⟩ <;>
    (intro h
     apply hT
     unfold FlatInSpace spaceTriangleAt normal
     simp only
     rw [h]
     refine ext3 ?_ ?_ ?_ <;> (unfold crossProduct vector; simp only; ring))

theorem nodup_at (s : ModelSurface (K × K × K)) (a b c : Index) (hT : ¬ FlatInSpace (spaceTriangleAt s a b c)) :
    [a, b, c].Nodup := by
  obtain ⟨h1, h2, h3⟩ := points_ne s a b c hT
  have n1 : a ≠ b := fun h => h1 (by rw [h])
  have n2 : b ≠ c := fun h => h2 (by rw [h])
  have n3 : a ≠ c := fun h => h3 (by rw [h])
  simp [n1, n2, n3]

theorem point_injective (s : ModelSurface (K × K × K)) (a b c : Index) (hT : ¬ FlatInSpace (spaceTriangleAt s a b c)) :
    ∀ u ∈ [a, b, c], ∀ w ∈ [a, b, c], s.point u = s.point w → u = w := by
  obtain ⟨hab, hbc, hca⟩ := points_ne s a b c hT
  intro u hu w hw h
  simp only [List.mem_cons, List.not_mem_nil, or_false] at hu hw
  rcases hu with rfl | rfl | rfl <;> rcases hw with rfl | rfl | rfl <;>
    first | rfl | exact absurd h ‹_› | exact absurd h.symm ‹_›

/-- a vertex of a triangle on one of its edges is an end of it -/
theorem vertex_end (s : ModelSurface (K × K × K)) (a b c : Index) (hT : ¬ FlatInSpace (spaceTriangleAt s a b c))
    (e : Index × Index) (he : e ∈ edgesOf [a, b, c]) (v : Index) (hv : v ∈ [a, b, c])
    (hx : OnSpaceSegment (segmentOf s e) (s.point v)) : v = e.1 ∨ v = e.2 := by
  have key : ∀ p q r : K × K × K, OnSpaceSegment (p, q) r → crossProduct (vector p q) (vector p r) = (0, 0, 0) := by
    rintro p q r ⟨t, _, _, h1, h2, h3⟩
    simp only at h1 h2 h3
    refine ext3 ?_ ?_ ?_ <;> (unfold crossProduct vector; simp only; simp only [h1, h2, h3]; ring)
  have flat : ∀ p q r : K × K × K, crossProduct (vector p q) (vector p r) = (0, 0, 0) →
      crossProduct (vector q r) (vector q p) = (0, 0, 0) := by
    intro p q r h
    have c1 := congrArg Prod.fst h
    have c2 := congrArg (fun x => x.2.1) h
    have c3 := congrArg (fun x => x.2.2) h
    unfold crossProduct vector at c1 c2 c3
    simp only at c1 c2 c3
    refine ext3 ?_ ?_ ?_ <;> (unfold crossProduct vector; simp only)
    · linear_combination c1
    · linear_combination c2
    · linear_combination c3
  have n1 : ¬ OnSpaceSegment (s.point a, s.point b) (s.point c) := fun h => hT (key _ _ _ h)
  have n2 : ¬ OnSpaceSegment (s.point b, s.point c) (s.point a) := fun h => hT (flat _ _ _ (flat _ _ _ (key _ _ _ h)))
  have n3 : ¬ OnSpaceSegment (s.point c, s.point a) (s.point b) := fun h => hT (flat _ _ _ (key _ _ _ h))
  simp only [edgesOf, List.mem_cons, List.not_mem_nil, or_false] at he hv
  rcases he with rfl | rfl | rfl <;> rcases hv with rfl | rfl | rfl <;>
    first
    | exact .inl rfl
    | exact .inr rfl
    | exact absurd hx n1
    | exact absurd hx n2
    | exact absurd hx n3

theorem found_iff (g : Geometry (K × K × K)) (hg : ExactSpace g) (s1 s2 : ModelSurface (K × K × K)) (a b c d e f : Index)
    (h1 : ¬ FlatInSpace (spaceTriangleAt s1 a b c)) (h2 : ¬ FlatInSpace (spaceTriangleAt s2 d e f)) (z : Index × Index)
    (hz1 : z.1 ∈ [a, b, c]) (hz2 : z.2 ∈ [d, e, f]) (hp : s1.point z.1 = s2.point z.2) (i : Index × Index)
    (mi : i ∈ edgesOf [a, b, c])
    (hl : ¬ (InPlane (spaceTriangleAt s2 d e f) (s1.point i.1) ∧ InPlane (spaceTriangleAt s2 d e f) (s1.point i.2)))
    (x : K × K × K) (x1 : OnSpaceSegment (segmentOf s1 i) x) (x2 : InSpaceTriangle (spaceTriangleAt s2 d e f) x) :
    FoundAt g [i.1, i.2] [d, e, f] (g.segmentTriangle (segmentOf s1 i) (spaceTriangleAt s2 d e f)) z ↔ x = s1.point z.1 := by
  obtain ⟨f0, f1⟩ := hg.first (segmentOf s1 i) _ x h2 hl x1 x2
  obtain ⟨g0, g1, g2⟩ := hg.second (segmentOf s1 i) _ x h2 hl x1 x2
  constructor
  · rintro ⟨k, j, hk, _, hgk, _⟩
    match k, hgk with
    | 0, hgk =>
      have : i.1 = z.1 := by simpa using hgk
      rw [f0.1 hk, ← this]; rfl
    | 1, hgk =>
      have : i.2 = z.1 := by simpa using hgk
      rw [f1.1 hk, ← this]; rfl
    | k + 2, hgk => simp at hgk
  · intro hx
    rw [hx] at x1
    obtain ⟨k, hk, hgk⟩ : ∃ k, g.positionToIndex (g.segmentTriangle (segmentOf s1 i) (spaceTriangleAt s2 d e f)).1 = some k ∧
        [i.1, i.2][k]? = some z.1 := by
      rcases vertex_end s1 a b c h1 i mi z.1 hz1 x1 with h | h
      · exact ⟨0, f0.2 (by rw [hx, h]; rfl), by rw [h]; rfl⟩
      · exact ⟨1, f1.2 (by rw [hx, h]; rfl), by rw [h]; rfl⟩
    obtain ⟨j, hj, hgj⟩ : ∃ j, g.positionToIndex (g.segmentTriangle (segmentOf s1 i) (spaceTriangleAt s2 d e f)).2 = some j ∧
        [d, e, f][j]? = some z.2 := by
      simp only [List.mem_cons, List.not_mem_nil, or_false] at hz2
      rcases hz2 with h | h | h
      · exact ⟨0, g0.2 (by rw [hx, hp, h]; rfl), by rw [h]; rfl⟩
      · exact ⟨1, g1.2 (by rw [hx, hp, h]; rfl), by rw [h]; rfl⟩
      · exact ⟨2, g2.2 (by rw [hx, hp, h]; rfl), by rw [h]; rfl⟩
    exact ⟨k, j, hk, hj, hgk, hgj⟩

theorem elsewhere_iff (g : Geometry (K × K × K)) (hg : ExactSpace g) (s1 s2 : ModelSurface (K × K × K)) (a b c d e f : Index)
    (h1 : ¬ FlatInSpace (spaceTriangleAt s1 a b c)) (h2 : ¬ FlatInSpace (spaceTriangleAt s2 d e f)) (z : Index × Index)
    (hz1 : z.1 ∈ [a, b, c]) (hz2 : z.2 ∈ [d, e, f]) (hp : s1.point z.1 = s2.point z.2) (i : Index × Index)
    (mi : i ∈ edgesOf [a, b, c])
    (hl : ¬ (InPlane (spaceTriangleAt s2 d e f) (s1.point i.1) ∧ InPlane (spaceTriangleAt s2 d e f) (s1.point i.2))) :
    EdgeMeetsElsewhere g s1 s2 i [d, e, f] z ↔
      ∃ x, OnSpaceSegment (segmentOf s1 i) x ∧ InSpaceTriangle (spaceTriangleAt s2 d e f) x ∧ x ≠ s1.point z.1 := by
  have hc := (hg.crossing (segmentOf s1 i) _ h2 hl).2
  unfold EdgeMeetsElsewhere
  constructor
  · rintro ⟨y, hy, h, hf⟩
    rw [triangle_at] at hy
    rw [hy] at h hf
    obtain ⟨x, x1, x2⟩ := hc.1 h
    rw [found_iff g hg s1 s2 a b c d e f h1 h2 z hz1 hz2 hp i mi hl x x1 x2] at hf
    exact ⟨x, x1, x2, hf⟩
  · rintro ⟨x, x1, x2, hx⟩
    refine ⟨_, (triangle_at s2 d e f _).2 rfl, hc.2 ⟨x, x1, x2⟩, ?_⟩
    rw [found_iff g hg s1 s2 a b c d e f h1 h2 z hz1 hz2 hp i mi hl x x1 x2]
    exact hx

theorem vertex_in (s : ModelSurface (K × K × K)) (a b c v : Index) (h : v ∈ [a, b, c]) :
    InSpaceTriangle (spaceTriangleAt s a b c) (s.point v) := by
  simp only [List.mem_cons, List.not_mem_nil, or_false] at h
  have n0 : (0 : K) ≤ 1 := zero_le_one
  rcases h with rfl | rfl | rfl
  · exact ⟨1, 0, 0, n0, le_refl _, le_refl _, by ring, by unfold spaceTriangleAt; ring, by unfold spaceTriangleAt; ring,
      by unfold spaceTriangleAt; ring⟩
  · exact ⟨0, 1, 0, le_refl _, n0, le_refl _, by ring, by unfold spaceTriangleAt; ring, by unfold spaceTriangleAt; ring,
      by unfold spaceTriangleAt; ring⟩
  · exact ⟨0, 0, 1, le_refl _, le_refl _, n0, by ring, by unfold spaceTriangleAt; ring, by unfold spaceTriangleAt; ring,
      by unfold spaceTriangleAt; ring⟩

theorem one_found (g : Geometry (K × K × K)) (hg : ExactSpace g) (s1 s2 : ModelSurface (K × K × K)) (a b c d e f : Index)
    (h1 : ¬ FlatInSpace (spaceTriangleAt s1 a b c)) (h2 : ¬ FlatInSpace (spaceTriangleAt s2 d e f)) (z : Index × Index)
    (hz1 : z.1 ∈ [a, b, c]) (hz2 : z.2 ∈ [d, e, f]) (hz : s1.point z.1 = s2.point z.2)
    (hn : ¬ SamePlane (spaceTriangleAt s1 a b c) (spaceTriangleAt s2 d e f)) (p : K × K × K)
    (hp1 : InSpaceTriangle (spaceTriangleAt s1 a b c) p) (hp2 : InSpaceTriangle (spaceTriangleAt s2 d e f) p)
    (hp : p ≠ s1.point z.1) :
    (∃ e1 ∈ edgesOf [a, b, c], EdgeMeetsElsewhere g s1 s2 e1 [d, e, f] z) ∨
      ∃ e2 ∈ edgesOf [d, e, f], EdgeMeetsElsewhere g s2 s1 e2 [a, b, c] (z.2, z.1) := by
  obtain ⟨x, hx, x1, x2, he⟩ := crossing_edge h1 h2 hn (fun x => x = s1.point z.1) (fun _ _ h h' => h.trans h'.symm)
    (fun x h => by rw [h]; exact vertex_in s1 a b c z.1 hz1) (fun x h => by rw [h, hz]; exact vertex_in s2 d e f z.2 hz2)
    p hp1 hp2 hp
  rcases he with ⟨e', m, hs, hl⟩ | ⟨e', m, hs, hl⟩
  · obtain ⟨i, mi, rfl⟩ := side_of s1 a b c e' m
    exact .inl ⟨i, mi, (elsewhere_iff g hg s1 s2 a b c d e f h1 h2 z hz1 hz2 hz i mi hl).2 ⟨x, hs, x2, hx⟩⟩
  · obtain ⟨i, mi, rfl⟩ := side_of s2 d e f e' m
    exact .inr ⟨i, mi, (elsewhere_iff g hg s2 s1 d e f a b c h2 h1 (z.2, z.1) hz2 hz1 hz.symm i mi hl).2
      ⟨x, hs, x1, fun h => hx (h.trans hz.symm)⟩⟩

theorem one_iff (g : Geometry (K × K × K)) (hg : ExactSpace g) (s1 s2 : ModelSurface (K × K × K)) (a b c d e f : Index)
    (h1 : ¬ FlatInSpace (spaceTriangleAt s1 a b c)) (h2 : ¬ FlatInSpace (spaceTriangleAt s2 d e f)) (z : Index × Index)
    (hz1 : z.1 ∈ [a, b, c]) (hz2 : z.2 ∈ [d, e, f]) (hz : s1.point z.1 = s2.point z.2)
    (hn : NoEdgeInPlane (spaceTriangleAt s1 a b c) (spaceTriangleAt s2 d e f)) :
    ((∃ e1 ∈ edgesOf [a, b, c], EdgeMeetsElsewhere g s1 s2 e1 [d, e, f] z) ∨
      ∃ e2 ∈ edgesOf [d, e, f], EdgeMeetsElsewhere g s2 s1 e2 [a, b, c] (z.2, z.1)) ↔
      ∃ x, InSpaceTriangle (spaceTriangleAt s1 a b c) x ∧ InSpaceTriangle (spaceTriangleAt s2 d e f) x ∧ x ≠ s1.point z.1 := by
  constructor
  · rintro (⟨i, mi, h⟩ | ⟨i, mi, h⟩)
    · obtain ⟨x, x1, x2, hx⟩ := (elsewhere_iff g hg s1 s2 a b c d e f h1 h2 z hz1 hz2 hz i mi
        (hn.1 _ (edge_side s1 a b c i mi))).1 h
      exact ⟨x, side_in _ (edge_side s1 a b c i mi) x x1, x2, hx⟩
    · obtain ⟨x, x1, x2, hx⟩ := (elsewhere_iff g hg s2 s1 d e f a b c h2 h1 (z.2, z.1) hz2 hz1 hz.symm i mi
        (hn.2 _ (edge_side s2 d e f i mi))).1 h
      exact ⟨x, x2, side_in _ (edge_side s2 d e f i mi) x x1, fun h => hx (h.trans hz)⟩
  · rintro ⟨p, hp1, hp2, hp⟩
    exact one_found g hg s1 s2 a b c d e f h1 h2 z hz1 hz2 hz
      (fun h => hn.1 _ (List.mem_cons_self) ⟨h.1, h.2.1⟩) p hp1 hp2 hp

/-- triangles of different planes with an edge in common -/
theorem adjacent_plane (s1 s2 : ModelSurface (K × K × K)) (d e f v0 v1 x : Index)
    (h2 : ¬ FlatInSpace (spaceTriangleAt s2 d e f))
    (hn : ¬ SamePlane (spaceTriangleAt s1 v0 v1 x) (spaceTriangleAt s2 d e f))
    (hv0 : ∃ w ∈ [d, e, f], s1.point v0 = s2.point w) (hv1 : ∃ w ∈ [d, e, f], s1.point v1 = s2.point w) :
    ¬ InPlane (spaceTriangleAt s2 d e f) (s1.point x) ∧
    ∀ y, InSpaceTriangle (spaceTriangleAt s1 v0 v1 x) y → InSpaceTriangle (spaceTriangleAt s2 d e f) y →
      OnSpaceSegment (s1.point v0, s1.point v1) y := by
  obtain ⟨w0, m0, e0⟩ := hv0
  obtain ⟨w1, m1, e1⟩ := hv1
  have p0 : InPlane (spaceTriangleAt s2 d e f) (s1.point v0) := by
    rw [e0]; exact ((in_iff h2 _).1 (vertex_in s2 d e f w0 m0)).1
  have p1 : InPlane (spaceTriangleAt s2 d e f) (s1.point v1) := by
    rw [e1]; exact ((in_iff h2 _).1 (vertex_in s2 d e f w1 m1)).1
  have px : ¬ InPlane (spaceTriangleAt s2 d e f) (s1.point x) := fun h => hn ⟨p0, p1, h⟩
  refine ⟨px, ?_⟩
  rintro y ⟨u, v, w, hu, hv, hw, h, h1, h2', h3⟩ hy
  have py := ((in_iff h2 y).1 hy).1
  have hw0 : w = 0 := by
    refine (mul_eq_zero.1 (?_ : w * dotProduct (normal (spaceTriangleAt s2 d e f))
      (vector (spaceTriangleAt s2 d e f).1 (s1.point x)) = 0)).resolve_right px
    unfold InPlane at p0 p1 py
    generalize normal (spaceTriangleAt s2 d e f) = n at *
    generalize (spaceTriangleAt s2 d e f).1 = o at *
    unfold spaceTriangleAt at h1 h2' h3
    unfold dotProduct vector at *
    simp only at *
    linear_combination py - u * p0 - v * p1 - n.1 * h1 - n.2.1 * h2' - n.2.2 * h3 +
      (n.1 * o.1 + n.2.1 * o.2.1 + n.2.2 * o.2.2) * (1 - h)
  rw [hw0] at h h1 h2' h3
  unfold spaceTriangleAt at h1 h2' h3
  simp only at h1 h2' h3
  refine ⟨v, hv, by linarith, ?_, ?_, ?_⟩ <;> simp only
  · rw [h1]; linear_combination (s1.point v0).1 * h
  · rw [h2']; linear_combination (s1.point v0).2.1 * h
  · rw [h3]; linear_combination (s1.point v0).2.2 * h

end Inspector.Space
