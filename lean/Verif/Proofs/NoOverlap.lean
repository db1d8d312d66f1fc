import Verif.Spec.NoOverlap
import Verif.Props.PlaneTriangles
import Verif.Props.Overlap
namespace Inspector.NoOverlap
open Spec

/-- the vertices of a triangle of a Surface, as read by the intersection criterion -/
theorem triangle_list {P : Type} (lib : ModelLibrary P) (m : ModelData P) (s : FaceData P) (p : Index)
    (h : IsTriangle s p) : (m.modelSurface lib s).polygonVertices p =
      [s.polygonVertex (p, 0), s.polygonVertex (p, 1), s.polygonVertex (p, 2)] := by
  show (List.range (s.nbPolygonVertices p)).map _ = _
  rw [h.2]
  rfl

/-- their points -/
theorem triangle_point {P : Type} (lib : ModelLibrary P) (m : ModelData P) (s : FaceData P) (p k : Index) (z : P)
    (hv : s.polygonVertex (p, k) < s.points.length) :
    (m.modelSurface lib s).point (s.polygonVertex (p, k)) = facePoint z s p k := by
  show (s.points[s.polygonVertex (p, k)]?).getD lib.origin = (s.points[s.polygonVertex (p, k)]?).getD z
  rw [List.getElem?_eq_getElem hv]
  rfl

/-- when the vertices with the same unique vertex are those at the same point, so are those of Surfaces -/
theorem shared_iff {P : Type} (lib : ModelLibrary P) (m : ModelData P)
    (hlink : ∀ x p, VertexAt m x p → x.component_id.type = .surface → ∃ u, m.uniqueVertex x = some u)
    (hsame : ∀ x p y q u u', VertexAt m x p → VertexAt m y q → m.uniqueVertex x = some u → m.uniqueVertex y = some u' →
      (u = u' ↔ p = q)) (s1 s2 : FaceData P) (h1 : s1 ∈ m.surfaces) (a1 : s1.active = true) (h2 : s2 ∈ m.surfaces)
    (a2 : s2.active = true) (v w : Index) (hv : v < s1.points.length) (hw : w < s2.points.length) :
    Shared (m.modelSurface lib s1) (m.modelSurface lib s2) v w ↔
      (m.modelSurface lib s1).point v = (m.modelSurface lib s2).point w := by
  have at1 := VertexAt.surface s1 v _ h1 a1 (List.getElem?_eq_getElem hv)
  have at2 := VertexAt.surface s2 w _ h2 a2 (List.getElem?_eq_getElem hw)
  obtain ⟨u, hu⟩ := hlink _ _ at1 rfl
  obtain ⟨u', hu'⟩ := hlink _ _ at2 rfl
  have e1 : (m.modelSurface lib s1).point v = s1.points[v] := by
    show (s1.points[v]?).getD lib.origin = _
    rw [List.getElem?_eq_getElem hv]; rfl
  have e2 : (m.modelSurface lib s2).point w = s2.points[w] := by
    show (s2.points[w]?).getD lib.origin = _
    rw [List.getElem?_eq_getElem hw]; rfl
  rw [e1, e2, ← hsame _ _ _ _ u u' at1 at2 hu hu']
  show (m.uniqueVertex ⟨⟨.surface, s1.id⟩, v⟩).getD m.noId = (m.uniqueVertex ⟨⟨.surface, s2.id⟩, w⟩).getD m.noId ↔ _
  rw [hu, hu']
  rfl

variable {K : Type} [Field K] [LinearOrder K] [IsStrictOrderedRing K]

/-- two triangles of a Section whose interiors overlap, and which are said not to intersect -/
theorem plane_detection (g : Geometry (K × K)) (hg : ExactPlane g) (hpos : PositionsOk g) (s1 s2 : ModelSurface (K × K))
    (a b c d e f : Index) (h1 : ¬ Flat (triangleAt s1 a b c)) (h2 : ¬ Flat (triangleAt s2 d e f))
    (hp : ∀ v ∈ [a, b, c], ∀ w ∈ [d, e, f], Shared s1 s2 v w → s1.point v = s2.point w)
    (hread : (∀ v ∈ [a, b, c], ∀ w ∈ [a, b, c], IsCommon s1 s2 [d, e, f] v → IsCommon s1 s2 [d, e, f] w → v = w) ∨
      ∀ v ∈ [a, b, c], ∀ w ∈ [d, e, f], Shared s1 s2 v w → w < s1.nbVertices ∧ s1.point w = s2.point w) :
    ∃ r, trianglesIntersectionDetection (sectionTrianglesIntersect g) s1 s2 [a, b, c] [d, e, f] = .ok r ∧
      (r = false → ∀ x, InsideTriangle (triangleAt s1 a b c) x → InsideTriangle (triangleAt s2 d e f) x →
        Nested (triangleAt s1 a b c) (triangleAt s2 d e f) ∧
        ∀ v ∈ [a, b, c], ∀ w ∈ [a, b, c], IsCommon s1 s2 [d, e, f] v → IsCommon s1 s2 [d, e, f] w → v = w) := by
  have nd1 := Plane.nodup_at s1 a b c h1
  have inj2 : ∀ w ∈ [d, e, f], ∀ w' ∈ [d, e, f], s2.point w = s2.point w' → w = w' := by
    have key : ∀ A B : K × K, ¬ Flat (A, A, B) → False := by
      intro A B h
      exact h (by unfold Flat orientation; ring)
    intro w hw w' hw' he
    simp only [List.mem_cons, List.not_mem_nil, or_false] at hw hw'
    have hd : s2.point d ≠ s2.point e := fun hc => h2 (by
      unfold Flat triangleAt orientation; rw [hc]; ring)
    have he' : s2.point e ≠ s2.point f := fun hc => h2 (by
      unfold Flat triangleAt orientation; rw [hc]; ring)
    have hf : s2.point d ≠ s2.point f := fun hc => h2 (by
      unfold Flat triangleAt orientation; rw [hc]; ring)
    rcases hw with rfl | rfl | rfl <;> rcases hw' with rfl | rfl | rfl <;>
      first
      | rfl
      | exact absurd he hd
      | exact absurd he.symm hd
      | exact absurd he he'
      | exact absurd he.symm he'
      | exact absurd he hf
      | exact absurd he.symm hf
  have two : ∀ v0 v1 x, [a, b, c].Perm [v0, v1, x] → v0 ≠ v1 → IsCommon s1 s2 [d, e, f] v0 →
      IsCommon s1 s2 [d, e, f] v1 → ¬ IsCommon s1 s2 [d, e, f] x →
      ∃ r, trianglesIntersectionDetection (sectionTrianglesIntersect g) s1 s2 [a, b, c] [d, e, f] = .ok r ∧
        (r = false → ∀ y, InsideTriangle (triangleAt s1 a b c) y → ¬ InsideTriangle (triangleAt s2 d e f) y) := by
    intro v0 v1 x hperm hne c0 c1 cx
    rcases hread with hread | hread
    · exact absurd (hread v0 (hperm.mem_iff.2 (by simp)) v1 (hperm.mem_iff.2 (by simp)) c0 c1) hne
    · obtain ⟨r, hr, hiff⟩ := C112_adjacent_surfaces_partial g hg s1 s2 a b c d e f v0 v1 x h1 h2 hp
        ⟨hperm, nd1, c0, c1, fun w hw hs => cx ⟨w, hw, hs⟩⟩ hread
      refine ⟨r, hr, fun hf y y1 y2 => ?_⟩
      rw [hiff.2 ⟨y, y1, y2⟩] at hf
      cases hf
  have one : ∀ v, v ∈ [a, b, c] → IsCommon s1 s2 [d, e, f] v →
      (∀ w ∈ [a, b, c], IsCommon s1 s2 [d, e, f] w → w = v) →
      ∃ r, trianglesIntersectionDetection (sectionTrianglesIntersect g) s1 s2 [a, b, c] [d, e, f] = .ok r ∧
        (r = false → ∀ x, InsideTriangle (triangleAt s1 a b c) x → InsideTriangle (triangleAt s2 d e f) x →
          Nested (triangleAt s1 a b c) (triangleAt s2 d e f)) := by
    rintro v hv ⟨w, hw, hs⟩ honly
    have hshared : OneShared s1 s2 [a, b, c] [d, e, f] (v, w) := by
      refine ⟨hv, hw, hs, fun v' hv' w' hw' hs' => ?_⟩
      have e1 := honly v' hv' ⟨w', hw', hs'⟩
      subst e1
      exact ⟨rfl, inj2 w' hw' w hw ((hp _ hv' _ hw' hs').symm.trans (hp _ hv' _ hw hs))⟩
    obtain ⟨r, hr, _⟩ := C112_one_vertex g hg hpos s1 s2 a b c d e f h1 h2 (v, w) hshared (hp v hv w hw hs)
    refine ⟨r, hr, fun hf x x1 x2 => ?_⟩
    subst hf
    exact C112_one_vertex_overlap g hg hpos s1 s2 a b c d e f h1 h2 (v, w) hshared (hp v hv w hw hs) hr x x1 x2
  have hne : a ≠ b ∧ a ≠ c ∧ b ≠ c := by
    simp only [List.nodup_cons, List.mem_cons, List.not_mem_nil, or_false, not_or] at nd1
    exact ⟨nd1.1.1, nd1.1.2, nd1.2.1⟩
  have finish2 : ∀ {r : Bool}, (r = false → ∀ y, InsideTriangle (triangleAt s1 a b c) y →
      ¬ InsideTriangle (triangleAt s2 d e f) y) → (r = false → ∀ x, InsideTriangle (triangleAt s1 a b c) x →
        InsideTriangle (triangleAt s2 d e f) x → Nested (triangleAt s1 a b c) (triangleAt s2 d e f) ∧
        ∀ v ∈ [a, b, c], ∀ w ∈ [a, b, c], IsCommon s1 s2 [d, e, f] v → IsCommon s1 s2 [d, e, f] w → v = w) :=
    fun h hf x x1 x2 => absurd x2 (h hf x x1)
  have finish1 : ∀ v, v ∈ [a, b, c] → IsCommon s1 s2 [d, e, f] v →
      (∀ w ∈ [a, b, c], IsCommon s1 s2 [d, e, f] w → w = v) →
      ∃ r, trianglesIntersectionDetection (sectionTrianglesIntersect g) s1 s2 [a, b, c] [d, e, f] = .ok r ∧
      (r = false → ∀ x, InsideTriangle (triangleAt s1 a b c) x → InsideTriangle (triangleAt s2 d e f) x →
        Nested (triangleAt s1 a b c) (triangleAt s2 d e f) ∧
        ∀ v ∈ [a, b, c], ∀ w ∈ [a, b, c], IsCommon s1 s2 [d, e, f] v → IsCommon s1 s2 [d, e, f] w → v = w) := by
    intro v hv hc honly
    obtain ⟨r, hr, h⟩ := one v hv hc honly
    exact ⟨r, hr, fun hf x x1 x2 => ⟨h hf x x1 x2,
      fun y hy z hz cy cz => (honly y hy cy).trans (honly z hz cz).symm⟩⟩
  by_cases ca : IsCommon s1 s2 [d, e, f] a <;> by_cases cb : IsCommon s1 s2 [d, e, f] b <;>
    by_cases cc : IsCommon s1 s2 [d, e, f] c
  · refine ⟨true, C60_same_unique_vertices _ s1 s2 [a, b, c] [d, e, f] rfl ?_, fun h => (by cases h)⟩
    intro v hv
    simp only [List.mem_cons, List.not_mem_nil, or_false] at hv
    rcases hv with rfl | rfl | rfl <;> assumption
  · obtain ⟨r, hr, h⟩ := two a b c (List.Perm.refl _) hne.1 ca cb cc
    exact ⟨r, hr, finish2 h⟩
  · obtain ⟨r, hr, h⟩ := two a c b ((List.Perm.swap c b []).cons a) hne.2.1 ca cc cb
    exact ⟨r, hr, finish2 h⟩
  · exact finish1 a (by simp) ca (fun w hw hc => by
      simp only [List.mem_cons, List.not_mem_nil, or_false] at hw
      rcases hw with rfl | rfl | rfl <;> [rfl; exact absurd hc cb; exact absurd hc cc])
  · obtain ⟨r, hr, h⟩ := two b c a ((List.Perm.swap b a [c]).trans ((List.Perm.swap c a []).cons b)) hne.2.2 cb cc ca
    exact ⟨r, hr, finish2 h⟩
  · exact finish1 b (by simp) cb (fun w hw hc => by
      simp only [List.mem_cons, List.not_mem_nil, or_false] at hw
      rcases hw with rfl | rfl | rfl <;> [exact absurd hc ca; rfl; exact absurd hc cc])
  · exact finish1 c (by simp) cc (fun w hw hc => by
      simp only [List.mem_cons, List.not_mem_nil, or_false] at hw
      rcases hw with rfl | rfl | rfl <;> [exact absurd hc ca; exact absurd hc cb; rfl])
  · have none : ∀ v ∈ [a, b, c], ¬ IsCommon s1 s2 [d, e, f] v := by
      intro v hv
      simp only [List.mem_cons, List.not_mem_nil, or_false] at hv
      rcases hv with rfl | rfl | rfl <;> assumption
    have hno : ∀ v ∈ [a, b, c], ∀ w ∈ [d, e, f], ¬ Shared s1 s2 v w := fun v hv w hw hs => none v hv ⟨w, hw, hs⟩
    obtain ⟨r, hr, _⟩ := C112_apart g hg s1 s2 a b c d e f h1 h2 hno
    refine ⟨r, hr, fun hf x x1 x2 => ?_⟩
    subst hf
    exact ⟨C112_apart_overlap g hg s1 s2 a b c d e f h1 h2 hno hr x x1 x2,
      fun v hv _ _ hc _ => absurd hc (none v hv)⟩

end Inspector.NoOverlap
