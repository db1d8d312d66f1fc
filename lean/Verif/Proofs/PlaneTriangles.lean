import Verif.Proofs.Plane
import Verif.Proofs.TrianglesMeet
import Verif.Props.Intersections
/-
Proofs of C112: the tests of triangles of a Section when the predicates of the plane are exact.
-/
namespace Inspector.Plane
open Inspector Spec
variable {K : Type} [Field K] [LinearOrder K] [IsStrictOrderedRing K]

theorem sides_at (s : ModelSurface (K × K)) (a b c : Index) :
    sides (triangleAt s a b c) = (edgesOf [a, b, c]).map (segmentOf s) := rfl

theorem cross_iff (g : Geometry (K × K)) (hg : ExactPlane g) (s1 s2 : ModelSurface (K × K)) (e1 e2 : Index × Index) :
    EdgesCross g s1 s2 e1 e2 ↔ ¬ OnLine (segmentOf s1 e1) (segmentOf s2 e2) ∧
      ∃ x, OnSegment (segmentOf s1 e1) x ∧ OnSegment (segmentOf s2 e2) x := by
  unfold EdgesCross
  constructor
  · rintro ⟨h1, h2⟩
    have hl : ¬ OnLine (segmentOf s1 e1) (segmentOf s2 e2) := fun hl => (hg.aligned _ _ hl).elim h1 h2
    exact ⟨hl, (hg.crossing _ _ hl).2.1 h1⟩
  · rintro ⟨hl, hx⟩
    exact ⟨(hg.crossing _ _ hl).2.2 hx, (hg.crossing _ _ hl).1⟩

theorem apart_iff (g : Geometry (K × K)) (hg : ExactPlane g) (s1 s2 : ModelSurface (K × K)) (a b c d e f : Index)
    (h1 : ¬ Flat (triangleAt s1 a b c)) (h2 : ¬ Flat (triangleAt s2 d e f)) :
    (∃ e1 ∈ edgesOf [a, b, c], ∃ e2 ∈ edgesOf [d, e, f], EdgesCross g s1 s2 e1 e2) ↔
      ∃ x, OnBothBorders (triangleAt s1 a b c) (triangleAt s2 d e f) x := by
  constructor
  · rintro ⟨e1, m1, e2, m2, hc⟩
    obtain ⟨_, x, x1, x2⟩ := (cross_iff g hg s1 s2 e1 e2).1 hc
    exact ⟨x, ⟨_, by rw [sides_at]; exact List.mem_map_of_mem m1, x1⟩, _, by rw [sides_at]; exact List.mem_map_of_mem m2, x2⟩
  · rintro ⟨x, hx⟩
    obtain ⟨s, m1, s', m2, hl, y, y1, y2, _⟩ := crossing_sides h1 h2 (fun _ => False) (fun _ _ h => h.elim) x hx (fun h => h)
    rw [sides_at] at m1 m2
    obtain ⟨e1, k1, rfl⟩ := List.mem_map.1 m1
    obtain ⟨e2, k2, rfl⟩ := List.mem_map.1 m2
    exact ⟨e1, k1, e2, k2, (cross_iff g hg s1 s2 e1 e2).2 ⟨hl, y, y1, y2⟩⟩

/-- the position on an edge is the one of a vertex of the triangle exactly when it is at its point -/
theorem edge_end (s : ModelSurface (K × K)) (a b c : Index) (hT : ¬ Flat (triangleAt s a b c)) (e : Index × Index)
    (he : e ∈ edgesOf [a, b, c]) (v : Index) (hv : v ∈ [a, b, c]) (x : K × K) (hx : OnSegment (segmentOf s e) x)
    (i : Option Nat) (h0 : i = some 0 ↔ x = (segmentOf s e).1) (h1 : i = some 1 ↔ x = (segmentOf s e).2) :
    (∃ k, i = some k ∧ [e.1, e.2][k]? = some v) ↔ x = s.point v := by
  constructor
  · rintro ⟨k, hk, hget⟩
    match k, hget with
    | 0, hget =>
      have : e.1 = v := by simpa using hget
      rw [h0.1 hk, ← this]; rfl
    | 1, hget =>
      have : e.2 = v := by simpa using hget
      rw [h1.1 hk, ← this]; rfl
    | k + 2, hget => simp at hget
  · intro hxv
    have hs : Side (triangleAt s a b c) (s.point e.1) (s.point e.2) :=
      .inl (by rw [sides_at]; exact List.mem_map_of_mem (f := segmentOf s) he)
    have hvx : Vertex (triangleAt s a b c) x := by
      rw [hxv]
      simp only [List.mem_cons, List.not_mem_nil, or_false] at hv
      rcases hv with rfl | rfl | rfl
      · exact .inl rfl
      · exact .inr (.inl rfl)
      · exact .inr (.inr rfl)
    -- vertices at the same point are the same
    have inj : ∀ u ∈ [a, b, c], ∀ w ∈ [a, b, c], s.point u = s.point w → u = w := by
      have hD : orientation (s.point a) (s.point b) (s.point c) ≠ 0 := hT
      have hab : s.point a ≠ s.point b := by intro h; rw [h] at hD; exact hD (by unfold orientation; ring)
      have hbc : s.point b ≠ s.point c := by intro h; rw [h] at hD; exact hD (by unfold orientation; ring)
      have hca : s.point c ≠ s.point a := by intro h; rw [h] at hD; exact hD (by unfold orientation; ring)
      intro u hu w hw h
      simp only [List.mem_cons, List.not_mem_nil, or_false] at hu hw
      rcases hu with rfl | rfl | rfl <;> rcases hw with rfl | rfl | rfl <;> first | rfl | exact absurd h ‹_› | exact absurd h.symm ‹_›
    have hmem : e.1 ∈ [a, b, c] ∧ e.2 ∈ [a, b, c] := by
      simp only [edgesOf, List.mem_cons, List.not_mem_nil, or_false] at he
      rcases he with rfl | rfl | rfl <;> simp
    rcases (side_vertices hT hs).2.2.2 x hx hvx with h | h
    · have : v = e.1 := inj v hv _ hmem.1 (hxv.symm.trans h)
      exact ⟨0, h0.2 h, by rw [this]; rfl⟩
    · have : v = e.2 := inj v hv _ hmem.2 (hxv.symm.trans h)
      exact ⟨1, h1.2 h, by rw [this]; rfl⟩

theorem found_iff (g : Geometry (K × K)) (hg : ExactPlane g) (s1 s2 : ModelSurface (K × K)) (a b c d e f : Index)
    (h1 : ¬ Flat (triangleAt s1 a b c)) (h2 : ¬ Flat (triangleAt s2 d e f)) (z : Index × Index) (hz1 : z.1 ∈ [a, b, c])
    (hz2 : z.2 ∈ [d, e, f]) (hp : s1.point z.1 = s2.point z.2) (e1 e2 : Index × Index) (m1 : e1 ∈ edgesOf [a, b, c])
    (m2 : e2 ∈ edgesOf [d, e, f]) (hl : ¬ OnLine (segmentOf s1 e1) (segmentOf s2 e2)) (x : K × K)
    (x1 : OnSegment (segmentOf s1 e1) x) (x2 : OnSegment (segmentOf s2 e2) x) :
    FoundAt g [e1.1, e1.2] [e2.1, e2.2] (g.segmentSegment (segmentOf s1 e1) (segmentOf s2 e2)) z ↔ x = s1.point z.1 := by
  have A := edge_end s1 a b c h1 e1 m1 z.1 hz1 x x1 _ (hg.first _ _ x hl x1 x2).1 (hg.first _ _ x hl x1 x2).2
  have B := edge_end s2 d e f h2 e2 m2 z.2 hz2 x x2 _ (hg.second _ _ x hl x1 x2).1 (hg.second _ _ x hl x1 x2).2
  constructor
  · rintro ⟨i, j, hi, _, hgi, _⟩
    exact A.1 ⟨i, hi, hgi⟩
  · intro h
    obtain ⟨i, hi, hgi⟩ := A.2 h
    obtain ⟨j, hj, hgj⟩ := B.2 (h.trans hp)
    exact ⟨i, j, hi, hj, hgi, hgj⟩

theorem one_iff (g : Geometry (K × K)) (hg : ExactPlane g) (s1 s2 : ModelSurface (K × K)) (a b c d e f : Index)
    (h1 : ¬ Flat (triangleAt s1 a b c)) (h2 : ¬ Flat (triangleAt s2 d e f)) (z : Index × Index) (hz1 : z.1 ∈ [a, b, c])
    (hz2 : z.2 ∈ [d, e, f]) (hp : s1.point z.1 = s2.point z.2) :
    (∃ e1 ∈ edgesOf [a, b, c], ∃ e2 ∈ edgesOf [d, e, f], EdgesCross g s1 s2 e1 e2 ∧
        ¬ FoundAt g [e1.1, e1.2] [e2.1, e2.2] (g.segmentSegment (segmentOf s1 e1) (segmentOf s2 e2)) z) ↔
      ∃ x, OnBothBorders (triangleAt s1 a b c) (triangleAt s2 d e f) x ∧ x ≠ s1.point z.1 := by
  constructor
  · rintro ⟨e1, m1, e2, m2, hc, hf⟩
    obtain ⟨hl, x, x1, x2⟩ := (cross_iff g hg s1 s2 e1 e2).1 hc
    rw [found_iff g hg s1 s2 a b c d e f h1 h2 z hz1 hz2 hp e1 e2 m1 m2 hl x x1 x2] at hf
    exact ⟨x, ⟨⟨_, by rw [sides_at]; exact List.mem_map_of_mem m1, x1⟩, _, by rw [sides_at]; exact List.mem_map_of_mem m2, x2⟩, hf⟩
  · rintro ⟨x, hx, hn⟩
    obtain ⟨s, m1, s', m2, hl, y, y1, y2, hy⟩ := crossing_sides h1 h2 (fun x => x = s1.point z.1)
      (fun _ _ h h' => h.trans h'.symm) x hx hn
    rw [sides_at] at m1 m2
    obtain ⟨e1, k1, rfl⟩ := List.mem_map.1 m1
    obtain ⟨e2, k2, rfl⟩ := List.mem_map.1 m2
    refine ⟨e1, k1, e2, k2, (cross_iff g hg s1 s2 e1 e2).2 ⟨hl, y, y1, y2⟩, ?_⟩
    rw [found_iff g hg s1 s2 a b c d e f h1 h2 z hz1 hz2 hp e1 e2 k1 k2 hl y y1 y2]
    exact hy

omit [Field K] [LinearOrder K] [IsStrictOrderedRing K] in
theorem vertex_at (s : ModelSurface (K × K)) (a b c v : Index) (h : v ∈ [a, b, c]) :
    Vertex (triangleAt s a b c) (s.point v) := by
  simp only [List.mem_cons, List.not_mem_nil, or_false] at h
  rcases h with rfl | rfl | rfl
  · exact .inl rfl
  · exact .inr (.inl rfl)
  · exact .inr (.inr rfl)

/-- the order of the vertices of a triangle is not observable -/
theorem reorder (point : Index → K × K) (a b c x y z : Index) (hx : x ∈ [a, b, c]) (hy : y ∈ [a, b, c]) (hz : z ∈ [a, b, c])
    (hxy : x ≠ y) (hxz : x ≠ z) (hyz : y ≠ z) :
    (∀ p, InTriangle (point a, point b, point c) p ↔ InTriangle (point x, point y, point z) p) ∧
    (∀ p, InsideTriangle (point a, point b, point c) p ↔ InsideTriangle (point x, point y, point z) p) ∧
    (Flat (point a, point b, point c) ↔ Flat (point x, point y, point z)) := by
  have swap : ∀ A B C : K × K, (∀ p, InTriangle (A, B, C) p → InTriangle (B, A, C) p) ∧
      (∀ p, InsideTriangle (A, B, C) p → InsideTriangle (B, A, C) p) ∧ (Flat (A, B, C) → Flat (B, A, C)) := by
    intro A B C
    refine ⟨?_, ?_, ?_⟩
    · rintro p ⟨u, v, w, hu, hv, hw, h, h1, h2⟩
      exact ⟨v, u, w, hv, hu, hw, by linear_combination h, by rw [h1]; ring, by rw [h2]; ring⟩
    · rintro p ⟨u, v, w, hu, hv, hw, h, h1, h2⟩
      exact ⟨v, u, w, hv, hu, hw, by linear_combination h, by rw [h1]; ring, by rw [h2]; ring⟩
    · intro h
      unfold Flat orientation at h ⊢
      simp only at h ⊢
      linear_combination - h
  have turn : ∀ A B C : K × K, (∀ p, InTriangle (A, B, C) p → InTriangle (B, C, A) p) ∧
      (∀ p, InsideTriangle (A, B, C) p → InsideTriangle (B, C, A) p) ∧ (Flat (A, B, C) → Flat (B, C, A)) := by
    intro A B C
    refine ⟨?_, ?_, ?_⟩
    · rintro p ⟨u, v, w, hu, hv, hw, h, h1, h2⟩
      exact ⟨v, w, u, hv, hw, hu, by linear_combination h, by rw [h1]; ring, by rw [h2]; ring⟩
    · rintro p ⟨u, v, w, hu, hv, hw, h, h1, h2⟩
      exact ⟨v, w, u, hv, hw, hu, by linear_combination h, by rw [h1]; ring, by rw [h2]; ring⟩
    · intro h
      unfold Flat orientation at h ⊢
      simp only at h ⊢
      linear_combination h
  have turn' : ∀ A B C : K × K, (∀ p, InTriangle (A, B, C) p ↔ InTriangle (B, C, A) p) ∧
      (∀ p, InsideTriangle (A, B, C) p ↔ InsideTriangle (B, C, A) p) ∧ (Flat (A, B, C) ↔ Flat (B, C, A)) := fun A B C =>
    ⟨fun p => ⟨(turn A B C).1 p, fun h => (turn C A B).1 p ((turn B C A).1 p h)⟩,
      fun p => ⟨(turn A B C).2.1 p, fun h => (turn C A B).2.1 p ((turn B C A).2.1 p h)⟩,
      (turn A B C).2.2, fun h => (turn C A B).2.2 ((turn B C A).2.2 h)⟩
  have swap' : ∀ A B C : K × K, (∀ p, InTriangle (A, B, C) p ↔ InTriangle (B, A, C) p) ∧
      (∀ p, InsideTriangle (A, B, C) p ↔ InsideTriangle (B, A, C) p) ∧ (Flat (A, B, C) ↔ Flat (B, A, C)) := fun A B C =>
    ⟨fun p => ⟨(swap A B C).1 p, (swap B A C).1 p⟩, fun p => ⟨(swap A B C).2.1 p, (swap B A C).2.1 p⟩,
      (swap A B C).2.2, (swap B A C).2.2⟩
  have comp : ∀ {T T' T'' : (K × K) × (K × K) × (K × K)},
      ((∀ p, InTriangle T p ↔ InTriangle T' p) ∧ (∀ p, InsideTriangle T p ↔ InsideTriangle T' p) ∧ (Flat T ↔ Flat T')) →
      ((∀ p, InTriangle T' p ↔ InTriangle T'' p) ∧ (∀ p, InsideTriangle T' p ↔ InsideTriangle T'' p) ∧ (Flat T' ↔ Flat T'')) →
      (∀ p, InTriangle T p ↔ InTriangle T'' p) ∧ (∀ p, InsideTriangle T p ↔ InsideTriangle T'' p) ∧ (Flat T ↔ Flat T'') :=
    fun h h' => ⟨fun p => (h.1 p).trans (h'.1 p), fun p => (h.2.1 p).trans (h'.2.1 p), h.2.2.trans h'.2.2⟩
  simp only [List.mem_cons, List.not_mem_nil, or_false] at hx hy hz
  rcases hx with rfl | rfl | rfl <;> rcases hy with rfl | rfl | rfl <;> rcases hz with rfl | rfl | rfl <;>
    first
    | exact absurd rfl hxy
    | exact absurd rfl hxz
    | exact absurd rfl hyz
    | exact ⟨fun _ => Iff.rfl, fun _ => Iff.rfl, Iff.rfl⟩
    | exact turn' _ _ _
    | exact comp (turn' _ _ _) (turn' _ _ _)
    | exact swap' _ _ _
    | exact comp (swap' _ _ _) (turn' _ _ _)
    | exact comp (turn' _ _ _) (swap' _ _ _)

/-- exact predicates on two triangles with an edge in common -/
theorem folded_iff (g : Geometry (K × K)) (hg : ExactPlane g) (A B p q : K × K) (T1 T2 : (K × K) × (K × K) × (K × K))
    (h1 : ¬ Flat (A, B, p)) (h2 : ¬ Flat (A, B, q)) (i1 : ∀ x, InTriangle T1 x ↔ InTriangle (A, B, p) x)
    (i2 : ∀ x, InTriangle T2 x ↔ InTriangle (A, B, q) x) :
    ((g.segmentSegment (A, p) (B, q)).1 ≠ .outside ∨ (g.segmentSegment (B, p) (A, q)).1 ≠ .outside ∨
      g.pointTriangle p T2 ≠ .outside ∨ g.pointTriangle q T1 ≠ .outside) ↔
      ∃ x, InsideTriangle (A, B, p) x ∧ InsideTriangle (A, B, q) x := by
  have l1 : ¬ OnLine (A, p) (B, q) := fun h => h1 (by
    have := h.1; unfold Flat; unfold orientation at this ⊢; simp only at this ⊢; linear_combination - this)
  have l2 : ¬ OnLine (B, p) (A, q) := fun h => h1 (by
    have := h.1; unfold Flat; unfold orientation at this ⊢; simp only at this ⊢; linear_combination this)
  rw [(hg.crossing _ _ l1).2, (hg.crossing _ _ l2).2, hg.point, hg.point, i1, i2]
  exact adjacent_iff A B p q h1 h2

theorem points_ne (s : ModelSurface (K × K)) (a b c : Index) (hT : ¬ Flat (triangleAt s a b c)) :
    s.point a ≠ s.point b ∧ s.point b ≠ s.point c ∧ s.point c ≠ s.point a := by
  have hD : orientation (s.point a) (s.point b) (s.point c) ≠ 0 := hT
  refine ⟨?_, ?_, ?_⟩ <;> (intro h; rw [h] at hD; exact hD (by unfold orientation; ring))

theorem nodup_at (s : ModelSurface (K × K)) (a b c : Index) (hT : ¬ Flat (triangleAt s a b c)) : [a, b, c].Nodup := by
  obtain ⟨h1, h2, h3⟩ := points_ne s a b c hT
  have n1 : a ≠ b := fun h => h1 (by rw [h])
  have n2 : b ≠ c := fun h => h2 (by rw [h])
  have n3 : a ≠ c := fun h => h3 (by rw [h])
  simp [n1, n2, n3]

theorem two_common {P : Type} {s1 s2 : ModelSurface P} {t1 t2 : List Index} {v0 v1 x : Index}
    (h : TwoShared s1 s2 t1 t2 v0 v1 x) : (trianglesCommonVertices s1 s2 t1 t2).length = 2 := by
  have hl := congrArg List.length (Meet.common_ok s1 s2 t1 t2).vertices
  rw [List.length_map] at hl
  rw [hl, (h.1.filter _).length_eq]
  have i0 : IsShared s1 s2 t2 v0 := h.2.2.1
  have i1 : IsShared s1 s2 t2 v1 := h.2.2.2.1
  have i2 : ¬ IsShared s1 s2 t2 x := fun ⟨w, hw, hs⟩ => h.2.2.2.2 w hw hs
  simp [i0, i1, i2]

theorem common_ne {P : Type} {s1 s2 : ModelSurface P} {t1 t2 : List Index} {v0 v1 x : Index} {c0 c1 : Index × Index}
    (hc : trianglesCommonVertices s1 s2 t1 t2 = [c0, c1]) (h : TwoShared s1 s2 t1 t2 v0 v1 x) : c0.1 ≠ c1.1 := by
  have hv := (Meet.common_ok s1 s2 t1 t2).vertices
  have hn : ((trianglesCommonVertices s1 s2 t1 t2).map Prod.fst).Nodup := by rw [hv]; exact h.2.1.filter _
  rw [hc] at hn
  simpa using hn

theorem adjacent_overlap (g : Geometry (K × K)) (hg : ExactPlane g) (s1 s2 : ModelSurface (K × K)) (a b c d e f : Index)
    (c0 c1 : Index × Index) (q1 q2 : Index) (h1 : ¬ Flat (triangleAt s1 a b c)) (h2 : ¬ Flat (triangleAt s2 d e f))
    (k0 : c0.1 ∈ [a, b, c]) (k0' : c0.2 ∈ [d, e, f]) (e0 : s1.point c0.1 = s2.point c0.2) (k1 : c1.1 ∈ [a, b, c])
    (k1' : c1.2 ∈ [d, e, f]) (e1 : s1.point c1.1 = s2.point c1.2) (hne : c0.1 ≠ c1.1) (m1 : q1 ∈ [a, b, c]) (n1 : q1 ≠ c0.1)
    (n1' : q1 ≠ c1.1) (m2 : q2 ∈ [d, e, f]) (n2 : q2 ≠ c0.2) (n2' : q2 ≠ c1.2) :
    AdjacentOverlap g (s1.point c0.1) (s1.point c1.1) (s1.point q1) (s2.point q2) (meshTriangle s1 [a, b, c])
      (meshTriangle s2 [d, e, f]) ↔
      ∃ p, InsideTriangle (triangleAt s1 a b c) p ∧ InsideTriangle (triangleAt s2 d e f) p := by
  obtain ⟨i1, j1, f1⟩ := reorder s1.point a b c c0.1 c1.1 q1 k0 k1 m1 hne n1.symm n1'.symm
  have h1' : ¬ Flat (s1.point c0.1, s1.point c1.1, s1.point q1) := fun h => h1 (f1.2 h)
  have hne' : c0.2 ≠ c1.2 := by
    intro h
    apply h1'
    rw [e0, e1, h]
    unfold Flat orientation
    ring
  obtain ⟨i2, j2, f2⟩ := reorder s2.point d e f c0.2 c1.2 q2 k0' k1' m2 hne' n2.symm n2'.symm
  have h2' : ¬ Flat (s2.point c0.2, s2.point c1.2, s2.point q2) := fun h => h2 (f2.2 h)
  rw [← e0, ← e1] at i2 j2 h2'
  unfold AdjacentOverlap
  refine (folded_iff g hg _ _ _ _ (meshTriangle s1 [a, b, c]) (meshTriangle s2 [d, e, f]) h1' h2' i1 i2).trans ?_
  exact exists_congr fun p => (and_congr (j1 p) (j2 p)).symm

end Inspector.Plane
