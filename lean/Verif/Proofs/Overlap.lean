import Verif.Spec.Overlap
import Verif.Props.SpaceTriangles
/-
Proofs for C116.
-/
namespace Inspector.Overlap
open Spec
variable {K : Type} [Field K] [LinearOrder K] [IsStrictOrderedRing K]

theorem in_swap12 {A B C x : K × K × K} (h : InSpaceTriangle (A, B, C) x) : InSpaceTriangle (B, A, C) x := by
  obtain ⟨u, v, w, hu, hv, hw, hs, h1, h2, h3⟩ := h
  simp only at h1 h2 h3
  exact ⟨v, u, w, hv, hu, hw, by rw [← hs]; ring, by simp only; rw [h1]; ring, by simp only; rw [h2]; ring,
    by simp only; rw [h3]; ring⟩

theorem in_swap23 {A B C x : K × K × K} (h : InSpaceTriangle (A, B, C) x) : InSpaceTriangle (A, C, B) x := by
  obtain ⟨u, v, w, hu, hv, hw, hs, h1, h2, h3⟩ := h
  simp only at h1 h2 h3
  exact ⟨u, w, v, hu, hw, hv, by rw [← hs]; ring, by simp only; rw [h1]; ring, by simp only; rw [h2]; ring,
    by simp only; rw [h3]; ring⟩

/-- the common part is in the second triangle too, and does not depend on the order of the triangles -/
theorem common_swap {s1 s2 : ModelSurface (K × K × K)} {t1 t2 : List Index}
    (hp : ∀ v ∈ t1, ∀ w ∈ t2, Shared s1 s2 v w → s1.point v = s2.point w) {x : K × K × K} (h : InCommonPart s1 s2 t1 t2 x) :
    InCommonPart s2 s1 t2 t1 x := by
  obtain ⟨v, hv, w, hw, ⟨v', hv', h1⟩, ⟨w', hw', h2⟩, hon⟩ := h
  refine ⟨v', hv', w', hw', ⟨v, hv, h1.symm⟩, ⟨w, hw, h2.symm⟩, ?_⟩
  rw [← hp v hv v' hv' h1, ← hp w hw w' hw' h2]
  exact hon

theorem overlap_swap {s1 s2 : ModelSurface (K × K × K)} {t1 t2 : List Index}
    (hp : ∀ v ∈ t1, ∀ w ∈ t2, Shared s1 s2 v w → s1.point v = s2.point w) (h : Overlap s1 s2 t1 t2) :
    Overlap s2 s1 t2 t1 := by
  obtain ⟨x, h1, h2, h3⟩ := h
  exact ⟨x, h2, h1, fun h => h3 (common_swap (fun v hv w hw h => (hp w hw v hv h.symm).symm) h)⟩

theorem on_point {p x : K × K × K} (h : OnSpaceSegment (p, p) x) : x = p := by
  obtain ⟨t, _, _, h1, h2, h3⟩ := h
  simp only at h1 h2 h3
  exact Space.ext3 (by rw [h1]; ring) (by rw [h2]; ring) (by rw [h3]; ring)

theorem at_point (p : K × K × K) : OnSpaceSegment (p, p) p :=
  ⟨0, le_refl _, zero_le_one, by ring, by ring, by ring⟩

theorem vertex_in_plane (T : (K × K × K) × (K × K × K) × (K × K × K)) (x : K × K × K) (h : x = T.1 ∨ x = T.2.1 ∨ x = T.2.2) :
    InPlane T x := by
  unfold InPlane dotProduct normal crossProduct vector
  rcases h with rfl | rfl | rfl <;> simp only <;> ring

theorem common_in_plane {s1 s2 : ModelSurface (K × K × K)} {t1 : List Index} {d e f : Index}
    (hp : ∀ v ∈ t1, ∀ w ∈ [d, e, f], Shared s1 s2 v w → s1.point v = s2.point w) {v : Index} (hv : v ∈ t1)
    (h : IsCommon s1 s2 [d, e, f] v) : InPlane (spaceTriangleAt s2 d e f) (s1.point v) := by
  obtain ⟨w, hw, hs⟩ := h
  apply vertex_in_plane
  rw [hp v hv w hw hs]
  simp only [List.mem_cons, List.not_mem_nil, or_false] at hw
  unfold spaceTriangleAt
  rcases hw with rfl | rfl | rfl <;> simp

open Classical in
/-- the answer for two triangles in general position -/
theorem detection (g : Geometry (K × K × K)) (hg : ExactSpace g) (hpos : PositionsOk g) (s1 s2 : ModelSurface (K × K × K))
    (a b c d e f : Index) (h : GeneralPosition s1 s2 [a, b, c] [d, e, f]) :
    ∃ r, trianglesIntersectionDetection (brepTrianglesIntersect g) s1 s2 [a, b, c] [d, e, f] = .ok r ∧
      (r = true ↔ Overlap s1 s2 [a, b, c] [d, e, f]) := by
  obtain ⟨h1, h2, hn, he1, he2, hp⟩ := h
  change ¬ FlatInSpace (spaceTriangleAt s1 a b c) at h1
  change ¬ FlatInSpace (spaceTriangleAt s2 d e f) at h2
  change ¬ SamePlane (spaceTriangleAt s1 a b c) (spaceTriangleAt s2 d e f) at hn
  have nd1 := Space.nodup_at s1 a b c h1
  have nd2 := Space.nodup_at s2 d e f h2
  have inj1 := Space.point_injective s1 a b c h1
  have inj2 := Space.point_injective s2 d e f h2
  -- when at most one vertex is common, no edge is in the plane of the other triangle
  have noEdge : (∀ v ∈ [a, b, c], ∀ w ∈ [a, b, c], IsCommon s1 s2 [d, e, f] v → IsCommon s1 s2 [d, e, f] w → v = w) →
      NoEdgeInPlane (spaceTriangleAt s1 a b c) (spaceTriangleAt s2 d e f) := by
    intro hone
    have hone' : ∀ v ∈ [d, e, f], ∀ w ∈ [d, e, f], IsCommon s2 s1 [a, b, c] v → IsCommon s2 s1 [a, b, c] w → v = w := by
      rintro v hv w hw ⟨v', hv', e1⟩ ⟨w', hw', e2⟩
      have := hone v' hv' w' hw' ⟨v, hv, e1.symm⟩ ⟨w, hw, e2.symm⟩
      subst this
      exact inj2 v hv w hw ((hp _ hv' _ hv e1.symm).symm.trans (hp _ hv' _ hw e2.symm))
    have ends : ∀ (x y z : Index), [x, y, z].Nodup → ∀ ed ∈ edgesOf [x, y, z], ed.1 ∈ [x, y, z] ∧ ed.2 ∈ [x, y, z] ∧ ed.1 ≠ ed.2 := by
      intro x y z hnd ed hed
      simp only [edgesOf, List.mem_cons, List.not_mem_nil, or_false] at hed
      simp only [List.nodup_cons, List.mem_cons, List.not_mem_nil, or_false, not_or] at hnd
      obtain ⟨⟨n1, n2⟩, n3, _⟩ := hnd
      rcases hed with rfl | rfl | rfl <;> simp [n1, n3, Ne.symm n2]
    constructor
    · intro ed hed hpl
      obtain ⟨ed', hed', rfl⟩ := Space.side_of s1 a b c ed hed
      obtain ⟨c1, c2⟩ := he1 ed' hed' hpl.1 hpl.2
      obtain ⟨m1, m2, hne⟩ := ends a b c nd1 ed' hed'
      exact hne (hone _ m1 _ m2 c1 c2)
    · intro ed hed hpl
      obtain ⟨ed', hed', rfl⟩ := Space.side_of s2 d e f ed hed
      obtain ⟨c1, c2⟩ := he2 ed' hed' hpl.1 hpl.2
      obtain ⟨m1, m2, hne⟩ := ends d e f nd2 ed' hed'
      exact hne (hone' _ m1 _ m2 c1 c2)
  -- two common vertices
  have two : ∀ v0 v1 x, [a, b, c].Perm [v0, v1, x] → (∀ y, InSpaceTriangle (spaceTriangleAt s1 a b c) y →
      InSpaceTriangle (spaceTriangleAt s1 v0 v1 x) y) → IsCommon s1 s2 [d, e, f] v0 → IsCommon s1 s2 [d, e, f] v1 →
      ¬ IsCommon s1 s2 [d, e, f] x →
      ∃ r, trianglesIntersectionDetection (brepTrianglesIntersect g) s1 s2 [a, b, c] [d, e, f] = .ok r ∧
        (r = true ↔ Overlap s1 s2 [a, b, c] [d, e, f]) := by
    intro v0 v1 x hperm hin c0 c1 cx
    have hn' : ¬ SamePlane (spaceTriangleAt s1 v0 v1 x) (spaceTriangleAt s2 d e f) := by
      rintro ⟨p0, p1, p2⟩
      have hall : ∀ v ∈ [a, b, c], InPlane (spaceTriangleAt s2 d e f) (s1.point v) := by
        intro v hv
        have := hperm.mem_iff.1 hv
        simp only [List.mem_cons, List.not_mem_nil, or_false] at this
        rcases this with rfl | rfl | rfl
        · exact p0
        · exact p1
        · exact p2
      exact hn ⟨hall a (by simp), hall b (by simp), hall c (by simp)⟩
    obtain ⟨hr, hy⟩ := C113_adjacent g hg s1 s2 [a, b, c] d e f v0 v1 x h2 hn'
      ⟨hperm, nd1, c0, c1, fun w hw hs => cx ⟨w, hw, hs⟩⟩ hp
    refine ⟨false, hr, ?_⟩
    simp only [Bool.false_eq_true, false_iff]
    rintro ⟨y, y1, y2, hno⟩
    exact hno ⟨v0, hperm.mem_iff.2 (by simp), v1, hperm.mem_iff.2 (by simp), c0, c1, hy y (hin y y1) y2⟩
  -- one common vertex
  have one : ∀ v, v ∈ [a, b, c] → IsCommon s1 s2 [d, e, f] v →
      (∀ w ∈ [a, b, c], IsCommon s1 s2 [d, e, f] w → w = v) →
      ∃ r, trianglesIntersectionDetection (brepTrianglesIntersect g) s1 s2 [a, b, c] [d, e, f] = .ok r ∧
        (r = true ↔ Overlap s1 s2 [a, b, c] [d, e, f]) := by
    rintro v hv ⟨w, hw, hs⟩ honly
    have hshared : OneShared s1 s2 [a, b, c] [d, e, f] (v, w) := by
      refine ⟨hv, hw, hs, fun v' hv' w' hw' hs' => ?_⟩
      have e1 := honly v' hv' ⟨w', hw', hs'⟩
      subst e1
      exact ⟨rfl, inj2 w' hw' w hw ((hp _ hv' _ hw' hs').symm.trans (hp _ hv' _ hw hs))⟩
    obtain ⟨r, hr, hiff⟩ := C113_one_vertex g hg hpos s1 s2 a b c d e f h1 h2
      (noEdge fun x hx y hy cx cy => (honly x hx cx).trans (honly y hy cy).symm) (v, w) hshared (hp v hv w hw hs)
    refine ⟨r, hr, hiff.trans ?_⟩
    constructor
    · rintro ⟨x, x1, x2, hx⟩
      refine ⟨x, x1, x2, ?_⟩
      rintro ⟨y, hy, z, hz, cy, cz, hon⟩
      rw [honly y hy cy, honly z hz cz] at hon
      exact hx (on_point hon)
    · rintro ⟨x, x1, x2, hx⟩
      refine ⟨x, x1, x2, fun hxv => hx ⟨v, hv, v, hv, ⟨w, hw, hs⟩, ⟨w, hw, hs⟩, ?_⟩⟩
      rw [hxv]
      exact at_point _
  have sw12 : ∀ y, InSpaceTriangle (spaceTriangleAt s1 a b c) y → InSpaceTriangle (spaceTriangleAt s1 b a c) y :=
    fun _ h => in_swap12 h
  by_cases ca : IsCommon s1 s2 [d, e, f] a <;> by_cases cb : IsCommon s1 s2 [d, e, f] b <;>
    by_cases cc : IsCommon s1 s2 [d, e, f] c
  · exact absurd ⟨common_in_plane hp (by simp) ca, common_in_plane hp (by simp) cb, common_in_plane hp (by simp) cc⟩ hn
  · exact two a b c (List.Perm.refl _) (fun _ h => h) ca cb cc
  · exact two a c b ((List.Perm.swap c b []).cons a) (fun _ h => in_swap23 h) ca cc cb
  · exact one a (by simp) ca (fun w hw hc => by
      simp only [List.mem_cons, List.not_mem_nil, or_false] at hw
      rcases hw with rfl | rfl | rfl <;> [rfl; exact absurd hc cb; exact absurd hc cc])
  · exact two b c a ((List.Perm.swap b a [c]).trans ((List.Perm.swap c a []).cons b)) (fun _ h => in_swap23 (in_swap12 h)) cb cc ca
  · exact one b (by simp) cb (fun w hw hc => by
      simp only [List.mem_cons, List.not_mem_nil, or_false] at hw
      rcases hw with rfl | rfl | rfl <;> [exact absurd hc ca; rfl; exact absurd hc cc])
  · exact one c (by simp) cc (fun w hw hc => by
      simp only [List.mem_cons, List.not_mem_nil, or_false] at hw
      rcases hw with rfl | rfl | rfl <;> [exact absurd hc ca; exact absurd hc cb; rfl])
  · have none : ∀ v ∈ [a, b, c], ¬ IsCommon s1 s2 [d, e, f] v := by
      intro v hv
      simp only [List.mem_cons, List.not_mem_nil, or_false] at hv
      rcases hv with rfl | rfl | rfl <;> assumption
    obtain ⟨r, hr, hiff⟩ := C113_apart g hg s1 s2 a b c d e f h1 h2 (noEdge fun v hv _ _ h _ => absurd h (none v hv))
      (fun v hv w hw hs => none v hv ⟨w, hw, hs⟩)
    refine ⟨r, hr, hiff.trans ?_⟩
    constructor
    · rintro ⟨x, x1, x2⟩
      exact ⟨x, x1, x2, fun ⟨v, hv, _, _, hc, _⟩ => none v hv hc⟩
    · rintro ⟨x, x1, x2, _⟩
      exact ⟨x, x1, x2⟩

theorem samePlane_symm {T1 T2 : (K × K × K) × (K × K × K) × (K × K × K)} (h1 : ¬ FlatInSpace T1) (h : SamePlane T2 T1) :
    SamePlane T1 T2 := by
  obtain ⟨hd, he, hf⟩ := h
  have hc : crossProduct (normal T2) (normal T1) = (0, 0, 0) := by
    unfold InPlane at hd he hf
    generalize normal T1 = n at *
    unfold dotProduct vector at hd he hf
    simp only at hd he hf
    have u : n.1 * (T2.2.1.1 - T2.1.1) + n.2.1 * (T2.2.1.2.1 - T2.1.2.1) + n.2.2 * (T2.2.1.2.2 - T2.1.2.2) = 0 := by
      linear_combination he - hd
    have v : n.1 * (T2.2.2.1 - T2.1.1) + n.2.1 * (T2.2.2.2.1 - T2.1.2.1) + n.2.2 * (T2.2.2.2.2 - T2.1.2.2) = 0 := by
      linear_combination hf - hd
    unfold normal crossProduct vector
    simp only
    refine Space.ext3 ?_ ?_ ?_
    · show _ = (0 : K)
      simp only
      linear_combination (T2.2.2.1 - T2.1.1) * u - (T2.2.1.1 - T2.1.1) * v
    · show _ = (0 : K)
      simp only
      linear_combination (T2.2.2.2.1 - T2.1.2.1) * u - (T2.2.1.2.1 - T2.1.2.1) * v
    · show _ = (0 : K)
      simp only
      linear_combination (T2.2.2.2.2 - T2.1.2.2) * u - (T2.2.1.2.2 - T2.1.2.2) * v
  have key : ∀ x, InPlane T1 x → InPlane T2 x := by
    intro x hx
    refine Space.parallel_normals _ _ _ h1 hc ?_
    unfold InPlane at hd hx
    generalize normal T1 = n at *
    unfold dotProduct vector at *
    simp only at *
    linear_combination hx - hd
  exact ⟨key _ (vertex_in_plane T1 _ (Or.inl rfl)), key _ (vertex_in_plane T1 _ (Or.inr (Or.inl rfl))),
    key _ (vertex_in_plane T1 _ (Or.inr (Or.inr rfl)))⟩

theorem general_swap {s1 s2 : ModelSurface (K × K × K)} {t1 t2 : List Index} (h : GeneralPosition s1 s2 t1 t2) :
    GeneralPosition s2 s1 t2 t1 :=
  ⟨h.second, h.first, fun h' => h.plane (samePlane_symm h.first h'), h.edges2, h.edges1,
    fun v hv w hw hs => (h.points w hw v hv hs.symm).symm⟩

end Inspector.Overlap
