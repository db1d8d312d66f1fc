import Verif.Proofs.NoOverlap
import Verif.Props.SamePlace
/-
C120: the triangles of the Surfaces of a model declared valid do not overlap.
-/
namespace Inspector
open Spec NoOverlap
variable {K : Type} [Field K] [LinearOrder K] [IsStrictOrderedRing K]

/-- the triangles of a Section, as read by the intersection criterion -/
theorem NoOverlap.faceTriangle_eq (lib : ModelLibrary (K × K)) (m : ModelData (K × K)) (s : FaceData (K × K)) (p : Index)
    (hv : ∀ k, k < 3 → s.polygonVertex (p, k) < s.points.length) :
    triangleAt (m.modelSurface lib s) (s.polygonVertex (p, 0)) (s.polygonVertex (p, 1)) (s.polygonVertex (p, 2)) =
      faceTriangle s p := by
  unfold triangleAt faceTriangle
  rw [triangle_point lib m s p 0 (0, 0) (hv 0 (by omega)), triangle_point lib m s p 1 (0, 0) (hv 1 (by omega)),
    triangle_point lib m s p 2 (0, 0) (hv 2 (by omega))]

/-- the triangles of a BRep, as read by the intersection criterion -/
theorem NoOverlap.spaceFaceTriangle_eq (lib : ModelLibrary (K × K × K)) (m : ModelData (K × K × K)) (s : FaceData (K × K × K))
    (p : Index) (hv : ∀ k, k < 3 → s.polygonVertex (p, k) < s.points.length) :
    spaceTriangleAt (m.modelSurface lib s) (s.polygonVertex (p, 0)) (s.polygonVertex (p, 1)) (s.polygonVertex (p, 2)) =
      spaceFaceTriangle s p := by
  unfold spaceTriangleAt spaceFaceTriangle
  rw [triangle_point lib m s p 0 (0, 0, 0) (hv 0 (by omega)), triangle_point lib m s p 1 (0, 0, 0) (hv 1 (by omega)),
    triangle_point lib m s p 2 (0, 0, 0) (hv 2 (by omega))]

/-- the vertices of the triangles of a model exist -/
theorem NoOverlap.vertices_exist {P : Type} (lib : ModelLibrary P) (m : ModelData P) (h : MeshesOk lib m) (s : FaceData P)
    (hs : s ∈ m.surfaces) (p : Index) (ht : IsTriangle s p) : ∀ k, k < 3 → s.polygonVertex (p, k) < s.points.length := by
  intro k hk
  exact (h.walks s hs).vertices p k ht.1 (lt_of_lt_of_eq hk ht.2.symm)

/-- the vertices of a triangle which is not flat are at different points -/
theorem NoOverlap.plane_injective (s : ModelSurface (K × K)) (d e f : Index) (h : ¬ Flat (triangleAt s d e f)) :
    ∀ v ∈ [d, e, f], ∀ w ∈ [d, e, f], s.point v = s.point w → v = w := by
  intro w hw w' hw' he
  simp only [List.mem_cons, List.not_mem_nil, or_false] at hw hw'
  have hd : s.point d ≠ s.point e := fun hc => h (by
    unfold Flat triangleAt orientation; rw [hc]; ring)
  have he' : s.point e ≠ s.point f := fun hc => h (by
    unfold Flat triangleAt orientation; rw [hc]; ring)
  have hf : s.point d ≠ s.point f := fun hc => h (by
    unfold Flat triangleAt orientation; rw [hc]; ring)
  rcases hw with rfl | rfl | rfl <;> rcases hw' with rfl | rfl | rfl <;>
    first
    | rfl
    | exact absurd he hd
    | exact absurd he.symm hd
    | exact absurd he he'
    | exact absurd he.symm he'
    | exact absurd he hf
    | exact absurd he.symm hf

/-- **C120** (Sections, partial): in a Section declared valid, when a point is inside two different triangles of active
Surfaces — two triangles with at most one vertex in common, if they are of two Surfaces —, one of the triangles contains the
other and they have at most one vertex in common. Missing: that no point is inside two triangles; this is false, nested triangles not being reported
(`C120_section_false`), nor, sometimes, triangles of two Surfaces with a common edge (C57). -/
theorem C120_section_partial (lib : ModelLibrary (K × K)) (rt : ModelRuntime) (hrt : ModelRuntimeOk rt)
    (m : ModelData (K × K)) (c : Candidates (K × K)) (h : SectionOk lib rt m c) (hg : ExactPlane lib.geometry)
    (hl : PlacesOk lib m (· = ·)) (hk : LinksKept m)
    (hh : ∀ s ∈ m.surfaces, ∀ p, IsTriangle s p → Flat (faceTriangle s p) → AtMost (s.minimumHeight p) lib.eps) :
    ∃ v, isSectionOfValid lib rt m = .ok v ∧
      (v.isValid = true → ∀ s1 ∈ m.surfaces, s1.active = true → ∀ s2 ∈ m.surfaces, s2.active = true →
        ∀ p q, IsTriangle s1 p → IsTriangle s2 q → ¬ (s1.id = s2.id ∧ p = q) →
        (s1.id ≠ s2.id → AtMostOneVertex (faceTriangle s1 p) (faceTriangle s2 q)) →
        ∀ x, InsideTriangle (faceTriangle s1 p) x → InsideTriangle (faceTriangle s2 q) x →
          Nested (faceTriangle s1 p) (faceTriangle s2 q) ∧ AtMostOneVertex (faceTriangle s1 p) (faceTriangle s2 q)) := by
  obtain ⟨v, h1, h2⟩ := C82_section lib rt hrt m c h
  obtain ⟨v', h1', h3⟩ := C119_section lib rt hrt m c h _ hl hk
  rw [h1] at h1'
  injection h1' with h1'
  subst h1'
  refine ⟨v, h1, fun hv s1 hs1 a1 s2 hs2 a2 p q t1 t2 hdiff hmost x x1 x2 => ?_⟩
  have hd := h2.1 hv
  have hlinks := h3 hv
  unfold SectionDefect at hd
  simp only [not_or] at hd
  obtain ⟨_, _, _, d4, d5, _⟩ := hd
  have e1 := vertices_exist lib m h.meshes s1 hs1 p t1
  have e2 := vertices_exist lib m h.meshes s2 hs2 q t2
  have T1 := faceTriangle_eq lib m s1 p e1
  have T2 := faceTriangle_eq lib m s2 q e2
  have n1 : ¬ Flat (faceTriangle s1 p) := fun hf =>
    d4 ⟨s1, hs1, a1, .inl (.inr (.inr (.inr (.inr (.inl ⟨p, t1.1, hh s1 hs1 p t1 hf⟩)))))⟩
  have n2 : ¬ Flat (faceTriangle s2 q) := fun hf =>
    d4 ⟨s2, hs2, a2, .inl (.inr (.inr (.inr (.inr (.inl ⟨q, t2.1, hh s2 hs2 q t2 hf⟩)))))⟩
  have sh : ∀ i j, i < s1.points.length → j < s2.points.length →
      (Shared (m.modelSurface lib s1) (m.modelSurface lib s2) i j ↔
        (m.modelSurface lib s1).point i = (m.modelSurface lib s2).point j) := by
    intro i j hi hj
    refine shared_iff lib m (fun y p' hy _ => ?_) (fun y p' z q' u u' hy hz hu hu' => ?_) s1 s2 hs1 a1 hs2 a2 i j hi hj
    · obtain ⟨u, _, hu, _⟩ := hlinks y p' y p' hy hy
      exact ⟨u, hu⟩
    · obtain ⟨w, w', hw, hw', hiff⟩ := hlinks y p' z q' hy hz
      rw [hu] at hw
      rw [hu'] at hw'
      obtain rfl := Option.some.inj hw
      obtain rfl := Option.some.inj hw'
      exact hiff
  rw [← T1] at n1 x1
  rw [← T2] at n2 x2
  have m1 : ∀ i ∈ [s1.polygonVertex (p, 0), s1.polygonVertex (p, 1), s1.polygonVertex (p, 2)], i < s1.points.length := by
    intro i hi
    simp only [List.mem_cons, List.not_mem_nil, or_false] at hi
    rcases hi with rfl | rfl | rfl <;> [exact e1 0 (by omega); exact e1 1 (by omega); exact e1 2 (by omega)]
  have m2 : ∀ i ∈ [s2.polygonVertex (q, 0), s2.polygonVertex (q, 1), s2.polygonVertex (q, 2)], i < s2.points.length := by
    intro i hi
    simp only [List.mem_cons, List.not_mem_nil, or_false] at hi
    rcases hi with rfl | rfl | rfl <;> [exact e2 0 (by omega); exact e2 1 (by omega); exact e2 2 (by omega)]
  have v1 : triangleVertices (faceTriangle s1 p) =
      [s1.polygonVertex (p, 0), s1.polygonVertex (p, 1), s1.polygonVertex (p, 2)].map (m.modelSurface lib s1).point := by
    rw [← T1]; rfl
  have v2 : triangleVertices (faceTriangle s2 q) =
      [s2.polygonVertex (q, 0), s2.polygonVertex (q, 1), s2.polygonVertex (q, 2)].map (m.modelSurface lib s2).point := by
    rw [← T2]; rfl
  have inj : ∀ i ∈ [s1.polygonVertex (p, 0), s1.polygonVertex (p, 1), s1.polygonVertex (p, 2)],
      ∀ j ∈ [s1.polygonVertex (p, 0), s1.polygonVertex (p, 1), s1.polygonVertex (p, 2)],
      (m.modelSurface lib s1).point i = (m.modelSurface lib s1).point j → i = j :=
    plane_injective _ _ _ _ n1
  have common : ∀ i ∈ [s1.polygonVertex (p, 0), s1.polygonVertex (p, 1), s1.polygonVertex (p, 2)],
      (IsCommon (m.modelSurface lib s1) (m.modelSurface lib s2)
        [s2.polygonVertex (q, 0), s2.polygonVertex (q, 1), s2.polygonVertex (q, 2)] i ↔
        (m.modelSurface lib s1).point i ∈ triangleVertices (faceTriangle s2 q)) := by
    intro i hi
    rw [v2, List.mem_map]
    exact ⟨fun ⟨j, hj, hs⟩ => ⟨j, hj, ((sh i j (m1 i hi) (m2 j hj)).1 hs).symm⟩,
      fun ⟨j, hj, he⟩ => ⟨j, hj, (sh i j (m1 i hi) (m2 j hj)).2 he.symm⟩⟩
  obtain ⟨r, hr, hres⟩ := plane_detection lib.geometry hg h.meshes.positions (m.modelSurface lib s1) (m.modelSurface lib s2)
    _ _ _ _ _ _ n1 n2 (fun i hi j hj hs => (sh i j (m1 i hi) (m2 j hj)).1 hs) (by
      by_cases hid : s1.id = s2.id
      · right
        have hs : s1 = s2 := by
          have hnd : (m.surfaces.map FaceData.id).Nodup := by
            have := h.meshes.ids
            rw [List.nodup_append, List.nodup_append] at this
            exact this.1.2.1
          exact List.inj_on_of_nodup_map hnd hs1 hs2 hid
        intro i hi j hj _
        subst hs
        exact ⟨m2 j hj, rfl⟩
      · left
        intro i hi j hj hci hcj
        refine inj i hi j hj (hmost hid _ ?_ ((common i hi).1 hci) _ ?_ ((common j hj).1 hcj)) <;>
          (rw [v1]; exact List.mem_map_of_mem ‹_›))
  have hf : r = false := by
    by_contra hc
    have hc : r = true := by simpa using hc
    subst hc
    refine d5 ⟨m.modelSurface lib s1, m.modelSurface lib s2, p, q, List.mem_map_of_mem hs1, a1, List.mem_map_of_mem hs2, a2,
      t1.1, t2.1, hdiff, _, ?_, _, ?_, hr⟩
    · rw [triangle_list lib m s1 p t1, fan_triangle]; exact List.mem_singleton_self _
    · rw [triangle_list lib m s2 q t2, fan_triangle]; exact List.mem_singleton_self _
  obtain ⟨r1, r2⟩ := hres hf x x1 x2
  rw [T1, T2] at r1
  refine ⟨r1, fun y hy hy' z hz hz' => ?_⟩
  rw [v1] at hy hz
  obtain ⟨i, hi, rfl⟩ := List.mem_map.1 hy
  obtain ⟨j, hj, rfl⟩ := List.mem_map.1 hz
  rw [r2 i hi j hj ((common i hi).2 hy') ((common j hj).2 hz')]

/-- **C120** (BReps): in a BRep declared valid, when two different triangles of active Surfaces are in general position, their
common points are common vertices, or are on the edge between two common vertices. -/
theorem C120_brep (lib : ModelLibrary (K × K × K)) (rt : ModelRuntime) (hrt : ModelRuntimeOk rt)
    (m : ModelData (K × K × K)) (c : Candidates (K × K × K)) (h : BRepOk lib rt m c) (hg : ExactSpace lib.geometry)
    (hl : PlacesOk lib m (· = ·)) (hk : LinksKept m)
    (hh : ∀ s ∈ m.surfaces, ∀ p, IsTriangle s p → FlatInSpace (spaceFaceTriangle s p) →
      AtMost (s.minimumHeight p) lib.eps) :
    ∃ v N, (∀ fuel ≥ N, isBRepOfValid lib rt fuel m = .ok v) ∧
      (v.isValid = true → ∀ s1 ∈ m.surfaces, s1.active = true → ∀ s2 ∈ m.surfaces, s2.active = true →
        ∀ p q, IsTriangle s1 p → IsTriangle s2 q → ¬ (s1.id = s2.id ∧ p = q) →
        InGeneralPosition (spaceFaceTriangle s1 p) (spaceFaceTriangle s2 q) →
        ∀ x, InSpaceTriangle (spaceFaceTriangle s1 p) x → InSpaceTriangle (spaceFaceTriangle s2 q) x →
          OnCommonPart (spaceFaceTriangle s1 p) (spaceFaceTriangle s2 q) x) := by
  obtain ⟨v, N, h1, h2, h2', _⟩ := C82_brep_partial lib rt hrt m c h
  obtain ⟨v', N', h1', h3⟩ := C119_brep lib rt hrt m c h _ hl hk
  have hvv : v = v' := by
    have := h1 (max N N') (Nat.le_max_left _ _)
    rw [h1' (max N N') (Nat.le_max_right _ _)] at this
    injection this with this
    exact this.symm
  subst hvv
  refine ⟨v, N, h1, fun hv s1 hs1 a1 s2 hs2 a2 p q t1 t2 hdiff hgen x x1 x2 => ?_⟩
  have hd : (¬ ∃ s ∈ m.surfaces, s.active = true ∧ SurfaceMeshDefect lib m s) ∧
      ¬ ∃ s1 s2 p q, SurfacesIntersect (m.intersections lib true) s1 s2 p q := by
    by_cases hu : LinesUnreadable (m.topology rt)
    · have hd := (h2' hu).2.1 hv
      unfold BRepDefectBesideLines at hd
      simp only [not_or] at hd
      exact ⟨hd.2.2.2.1, hd.2.2.2.2.2.2.2.2.1⟩
    · have hd := (h2 hu).1 hv
      unfold BRepDefect at hd
      simp only [not_or] at hd
      exact ⟨hd.2.2.2.1, hd.2.2.2.2.2.2.2.2.1⟩
  obtain ⟨d4, d5⟩ := hd
  obtain ⟨hlink, hsame⟩ := h3 hv
  have e1 := vertices_exist lib m h.meshes s1 hs1 p t1
  have e2 := vertices_exist lib m h.meshes s2 hs2 q t2
  have T1 := spaceFaceTriangle_eq lib m s1 p e1
  have T2 := spaceFaceTriangle_eq lib m s2 q e2
  have n1 : ¬ FlatInSpace (spaceFaceTriangle s1 p) := fun hf =>
    d4 ⟨s1, hs1, a1, .inr (.inr (.inr (.inr (.inl ⟨p, t1.1, hh s1 hs1 p t1 hf⟩))))⟩
  have n2 : ¬ FlatInSpace (spaceFaceTriangle s2 q) := fun hf =>
    d4 ⟨s2, hs2, a2, .inr (.inr (.inr (.inr (.inl ⟨q, t2.1, hh s2 hs2 q t2 hf⟩))))⟩
  have sh : ∀ (u1 u2 : FaceData (K × K × K)), u1 ∈ m.surfaces → u1.active = true → u2 ∈ m.surfaces → u2.active = true →
      ∀ i j, i < u1.points.length → j < u2.points.length →
      (Shared (m.modelSurface lib u1) (m.modelSurface lib u2) i j ↔
        (m.modelSurface lib u1).point i = (m.modelSurface lib u2).point j) := by
    intro u1 u2 hu1 b1 hu2 b2 i j hi hj
    refine shared_iff lib m (fun y p' hy hs => hlink y p' hy (by rw [hs]; decide)) hsame u1 u2 hu1 b1 hu2 b2 i j hi hj
  have m1 : ∀ i ∈ [s1.polygonVertex (p, 0), s1.polygonVertex (p, 1), s1.polygonVertex (p, 2)], i < s1.points.length := by
    intro i hi
    simp only [List.mem_cons, List.not_mem_nil, or_false] at hi
    rcases hi with rfl | rfl | rfl <;> [exact e1 0 (by omega); exact e1 1 (by omega); exact e1 2 (by omega)]
  have m2 : ∀ i ∈ [s2.polygonVertex (q, 0), s2.polygonVertex (q, 1), s2.polygonVertex (q, 2)], i < s2.points.length := by
    intro i hi
    simp only [List.mem_cons, List.not_mem_nil, or_false] at hi
    rcases hi with rfl | rfl | rfl <;> [exact e2 0 (by omega); exact e2 1 (by omega); exact e2 2 (by omega)]
  have v1 : triangleVertices (spaceFaceTriangle s1 p) =
      [s1.polygonVertex (p, 0), s1.polygonVertex (p, 1), s1.polygonVertex (p, 2)].map (m.modelSurface lib s1).point := by
    rw [← T1]; rfl
  have v2 : triangleVertices (spaceFaceTriangle s2 q) =
      [s2.polygonVertex (q, 0), s2.polygonVertex (q, 1), s2.polygonVertex (q, 2)].map (m.modelSurface lib s2).point := by
    rw [← T2]; rfl
  have common1 : ∀ i ∈ [s1.polygonVertex (p, 0), s1.polygonVertex (p, 1), s1.polygonVertex (p, 2)],
      (IsCommon (m.modelSurface lib s1) (m.modelSurface lib s2)
        [s2.polygonVertex (q, 0), s2.polygonVertex (q, 1), s2.polygonVertex (q, 2)] i ↔
        (m.modelSurface lib s1).point i ∈ triangleVertices (spaceFaceTriangle s2 q)) := by
    intro i hi
    rw [v2, List.mem_map]
    exact ⟨fun ⟨j, hj, hs⟩ => ⟨j, hj, ((sh s1 s2 hs1 a1 hs2 a2 i j (m1 i hi) (m2 j hj)).1 hs).symm⟩,
      fun ⟨j, hj, he⟩ => ⟨j, hj, (sh s1 s2 hs1 a1 hs2 a2 i j (m1 i hi) (m2 j hj)).2 he.symm⟩⟩
  have common2 : ∀ i ∈ [s2.polygonVertex (q, 0), s2.polygonVertex (q, 1), s2.polygonVertex (q, 2)],
      (IsCommon (m.modelSurface lib s2) (m.modelSurface lib s1)
        [s1.polygonVertex (p, 0), s1.polygonVertex (p, 1), s1.polygonVertex (p, 2)] i ↔
        (m.modelSurface lib s2).point i ∈ triangleVertices (spaceFaceTriangle s1 p)) := by
    intro i hi
    rw [v1, List.mem_map]
    exact ⟨fun ⟨j, hj, hs⟩ => ⟨j, hj, ((sh s2 s1 hs2 a2 hs1 a1 i j (m2 i hi) (m1 j hj)).1 hs).symm⟩,
      fun ⟨j, hj, he⟩ => ⟨j, hj, (sh s2 s1 hs2 a2 hs1 a1 i j (m2 i hi) (m1 j hj)).2 he.symm⟩⟩
  have G : GeneralPosition (m.modelSurface lib s1) (m.modelSurface lib s2)
      [s1.polygonVertex (p, 0), s1.polygonVertex (p, 1), s1.polygonVertex (p, 2)]
      [s2.polygonVertex (q, 0), s2.polygonVertex (q, 1), s2.polygonVertex (q, 2)] := by
    have E1 : spaceTriangleOf (m.modelSurface lib s1)
      [s1.polygonVertex (p, 0), s1.polygonVertex (p, 1), s1.polygonVertex (p, 2)] = spaceFaceTriangle s1 p := T1
    have E2 : spaceTriangleOf (m.modelSurface lib s2)
      [s2.polygonVertex (q, 0), s2.polygonVertex (q, 1), s2.polygonVertex (q, 2)] = spaceFaceTriangle s2 q := T2
    refine ⟨by rw [E1]; exact n1, by rw [E2]; exact n2, by rw [E1, E2]; exact hgen.1, ?_, ?_,
      fun i hi j hj hs => (sh s1 s2 hs1 a1 hs2 a2 i j (m1 i hi) (m2 j hj)).1 hs⟩
    · intro e he i1 i2
      rw [E2] at i1 i2
      have he' : ((m.modelSurface lib s1).point e.1, (m.modelSurface lib s1).point e.2) ∈
          spaceSides (spaceFaceTriangle s1 p) ∧
          e.1 ∈ [s1.polygonVertex (p, 0), s1.polygonVertex (p, 1), s1.polygonVertex (p, 2)] ∧
          e.2 ∈ [s1.polygonVertex (p, 0), s1.polygonVertex (p, 1), s1.polygonVertex (p, 2)] := by
        rw [← T1]
        simp only [edgesOf, List.mem_cons, List.not_mem_nil, or_false] at he
        rcases he with rfl | rfl | rfl <;> simp [spaceSides, spaceTriangleAt]
      obtain ⟨r1, r2⟩ := hgen.2.1 _ he'.1 i1 i2
      exact ⟨(common1 _ he'.2.1).2 r1, (common1 _ he'.2.2).2 r2⟩
    · intro e he i1 i2
      rw [E1] at i1 i2
      have he' : ((m.modelSurface lib s2).point e.1, (m.modelSurface lib s2).point e.2) ∈
          spaceSides (spaceFaceTriangle s2 q) ∧
          e.1 ∈ [s2.polygonVertex (q, 0), s2.polygonVertex (q, 1), s2.polygonVertex (q, 2)] ∧
          e.2 ∈ [s2.polygonVertex (q, 0), s2.polygonVertex (q, 1), s2.polygonVertex (q, 2)] := by
        rw [← T2]
        simp only [edgesOf, List.mem_cons, List.not_mem_nil, or_false] at he
        rcases he with rfl | rfl | rfl <;> simp [spaceSides, spaceTriangleAt]
      obtain ⟨r1, r2⟩ := hgen.2.2 _ he'.1 i1 i2
      exact ⟨(common2 _ he'.2.1).2 r1, (common2 _ he'.2.2).2 r2⟩
  obtain ⟨r, hr, hiff⟩ := C116_triangles lib.geometry hg h.meshes.positions _ _ _ _ _ _ _ _ G
  by_contra hno
  refine d5 ⟨m.modelSurface lib s1, m.modelSurface lib s2, p, q, List.mem_map_of_mem hs1, a1, List.mem_map_of_mem hs2, a2,
      t1.1, t2.1, hdiff, _, ?_, _, ?_, hr.trans (congrArg Except.ok (hiff.2 ?_))⟩
  · rw [triangle_list lib m s1 p t1, fan_triangle]; exact List.mem_singleton_self _
  · rw [triangle_list lib m s2 q t2, fan_triangle]; exact List.mem_singleton_self _
  · refine ⟨x, by rw [← T1] at x1; exact x1, by rw [← T2] at x2; exact x2, ?_⟩
    rintro ⟨i, hi, j, hj, ci, cj, hon⟩
    refine hno ⟨_, _, ?_, (common1 i hi).1 ci, ?_, (common1 j hj).1 cj, hon⟩ <;>
      (rw [v1]; exact List.mem_map_of_mem ‹_›)

/-! ### examples -/

/-- The model with other points. -/
def ModelData.mapPoints {P Q : Type} (f : P → Q) (m : ModelData P) : ModelData Q := { m with
  corners := m.corners.map fun c => { c with points := c.points.map f }
  lines := m.lines.map fun l => { l with points := l.points.map f }
  surfaces := m.surfaces.map fun s => { s with points := s.points.map f }
  blocks := m.blocks.map fun b => { b with points := b.points.map f }
  overlappingSurfaces := m.overlappingSurfaces.map fun x =>
    ({ x.1 with points := x.1.points.map f }, { x.2 with points := x.2.points.map f }) }

/-- Different vertices have different points. -/
def exactLibrary {P : Type} [DecidableEq P] (origin : P) (g : Geometry P) : ModelLibrary P where
  search points := ⟨List.range points.length, points⟩
  pointString _ := ""
  distance p q := if p = q then .num 0 else .num 10
  eps := .num 1
  isOpposite a b := a == b.reverse
  cycle l := (List.range 9).filter l.contains
  origin := origin
  inexactEqual p q := decide (p = q)
  geometry := g

theorem mapPoints_topology {P Q : Type} (f : P → Q) (m : ModelData P) (rt : ModelRuntime) :
    (m.mapPoints f).topology rt = m.topology rt := by
  unfold ModelData.topology
  congr 1
  · funext kind
    cases kind <;> simp [ModelData.mapPoints, List.map_map, Function.comp_def]
  · funext id e
    simp only [ModelData.mapPoints, List.find?_map, Option.map_map, Function.comp_def]
  · funext id p
    simp only [ModelData.mapPoints, List.find?_map, Option.map_map, Function.comp_def]
    rfl

theorem mapPoints_links {P Q : Type} (f : P → Q) (m : ModelData P) (h : LinksKept m) : LinksKept (m.mapPoints f) := h

theorem exact_search {P : Type} [DecidableEq P] (origin : P) (g : Geometry P) (points : List P)
    (h : points.length < 2 ^ 32) : SearchOk ((exactLibrary origin g).search points) points.length :=
  ⟨List.length_range, h, fun _ hu => List.mem_range.1 hu, fun _ hu => List.mem_range.2 hu⟩

theorem mapPoints_meshes {P : Type} [DecidableEq P] (f : Nat → P) (origin : P) (g : Geometry P) (hg : PositionsOk g)
    (m : ModelData Nat) (h : MeshesOk modelLibrary m) : MeshesOk (exactLibrary origin g) (m.mapPoints f) := by
  have hw : BlockWalksOk (m.mapPoints f) := by
    intro b hb ha v hv
    obtain ⟨b', hb', rfl⟩ := List.mem_map.1 hb
    have hv : v < (b'.points.map f).length := hv
    rw [List.length_map] at hv
    exact h.blockWalks b' hb' ha v hv
  refine ⟨?_, hw⟩
  constructor
  · simpa [ModelData.mapPoints, List.map_map, Function.comp_def] using h.ids
  · simpa [ModelData.mapPoints] using h.nbComponents
  · intro c hc
    obtain ⟨c', hc', rfl⟩ := List.mem_map.1 hc
    simpa using h.corners c' hc'
  · intro l hl
    obtain ⟨l', hl', rfl⟩ := List.mem_map.1 hl
    have := h.lines l' hl'
    exact ⟨exact_search _ _ _ (by simpa using this.1.2.1), this.2⟩
  · intro s hs
    obtain ⟨s', hs', rfl⟩ := List.mem_map.1 hs
    have := h.surfaces s' hs'
    exact ⟨exact_search _ _ _ (by simpa using this.1.2.1), this.2⟩
  · intro s hs
    obtain ⟨s', hs', rfl⟩ := List.mem_map.1 hs
    have := h.walks s' hs'
    refine ⟨fun p k hp hk => ?_, fun v hv => this.walks v ?_, ?_, this.nbEdges, this.uses⟩
    · have := this.vertices p k hp hk
      show _ < (s'.points.map f).length
      rw [List.length_map]
      exact this
    · have hv : v < (s'.points.map f).length := hv
      rw [List.length_map] at hv
      exact hv
    · show (s'.points.map f).length < _
      rw [List.length_map]
      exact this.nbVertices
  · intro b hb
    obtain ⟨b', hb', rfl⟩ := List.mem_map.1 hb
    have := h.blocks b' hb'
    refine ⟨exact_search _ _ _ (by simpa using this.search.2.1), ?_, this.turns, this.turnsOnce, this.nbEdges, this.nbPolyhedra, this.nbPolyhedronEdges, this.nbFacets⟩
    · intro p k hp hk
      have := this.vertices p k hp hk
      show _ < (b'.points.map f).length
      rw [List.length_map]
      exact this
  · rw [← activePositions_length]
    refine exact_search _ _ _ ?_
    rw [activePositions_length]
    refine Nat.lt_of_le_of_lt (List.length_filter_le ..) ?_
    rw [List.length_range]
    exact h.nbUniqueVertices
  · exact h.nbUniqueVertices
  · exact h.nbLinks
  · intro s hs
    obtain ⟨s', hs', rfl⟩ := List.mem_map.1 hs
    exact h.smallPolygons s' hs'
  · exact hg

/-- No candidate. -/
def nothing (P : Type) : Candidates P := ⟨fun _ => [], fun _ _ => [], fun _ _ => []⟩

theorem nothing_trees {P : Type} (im : IntersectionModel P) (ho : im.overlappingSurfaces = [])
    (ht : (∀ s a, im.selfTraversal s a = []) ∧ (∀ s1 s2 a, im.otherTraversal s1 s2 a = []) ∧
      ∀ s l a, im.lineTraversal s l a = [])
    (hl : ∀ l ∈ im.lines, l.nbEmbeddingBlocks = 0)
    (h : ∀ s1 ∈ im.surfaces, ∀ s2 ∈ im.surfaces, s1.nbPolygons = 1 ∧ ¬ PolygonsMeet im s1 s2 (0, 0)) :
    ModelTreesOk im (nothing P) where
  trees := by
    refine ⟨fun s v => ?_, fun s1 s2 v => ?_, fun s l v => ?_⟩
    · rw [ht.1]; exact ⟨⟨[], List.Perm.refl _, List.Sublist.refl _⟩, fun _ => List.Perm.refl _⟩
    · rw [ht.2.1]; exact ⟨⟨[], List.Perm.refl _, List.Sublist.refl _⟩, fun _ => List.Perm.refl _⟩
    · rw [ht.2.2]; exact ⟨⟨[], List.Perm.refl _, List.Sublist.refl _⟩, fun _ => List.Perm.refl _⟩
  surfaces x hx := by
    rw [comparisons, List.mem_append] at hx
    rcases hx with hx | hx
    · obtain ⟨s, hs, rfl⟩ := List.mem_map.1 hx
      rw [List.mem_filter] at hs
      exact ⟨hs.1, hs.2, hs.1, hs.2, fun p hp => absurd hp List.not_mem_nil⟩
    · rw [ho] at hx; exact absurd hx List.not_mem_nil
  complete s1 s2 p q hx := by
    obtain ⟨h1, _, h2, _, hp, hq, hm⟩ := hx
    obtain ⟨e1, hn⟩ := h s1 h1 s2 h2
    rw [e1] at hp
    rw [(h s2 h2 s1 h1).1] at hq
    obtain rfl : p = 0 := by unfold Index at *; clear hm hn; omega
    obtain rfl : q = 0 := by unfold Index at *; clear hm hn; omega
    exact absurd hm hn
  lines _ _ _ hp := absurd hp List.not_mem_nil
  linesComplete s l p e hx := absurd (hl l hx.2.2.1) hx.2.2.2.2.1
  length := by
    have h1 : meetingEdges im (nothing P) = [] := by
      unfold meetingEdges
      rw [List.flatMap_eq_nil_iff]
      intro s _
      rw [List.flatMap_eq_nil_iff]
      intro l _
      rfl
    have h2 : meetingPolygons im (nothing P) = [] := by
      unfold meetingPolygons
      rw [List.flatMap_eq_nil_iff]
      intro x hx
      rw [comparisons, List.mem_append] at hx
      rcases hx with hx | hx
      · obtain ⟨s, hs, rfl⟩ := List.mem_map.1 hx
        rfl
      · rw [ho] at hx; exact absurd hx List.not_mem_nil
    rw [h1, h2]
    decide

theorem nothing_tests {P : Type} (im : IntersectionModel P) (ho : im.overlappingSurfaces = []) : TestsOk im (nothing P) := by
  intro x hx p hp
  rw [comparisons, List.mem_append] at hx
  rcases hx with hx | hx
  · obtain ⟨s, hs, rfl⟩ := List.mem_map.1 hx
    exact absurd hp List.not_mem_nil
  · rw [ho] at hx; exact absurd hx List.not_mem_nil

theorem exact_places {P : Type} [DecidableEq P] (origin : P) (g : Geometry P) (m : ModelData P)
    (h : (activePositions (m.uniqueVertices (exactLibrary origin g))).Nodup) :
    PlacesOk (exactLibrary origin g) m (· = ·) where
  equivalence := ⟨fun _ => rfl, fun h => h.symm, fun h h' => h.trans h'⟩
  equal := fun _ _ _ _ _ _ => decide_eq_true_iff
  search := by
    intro i j p q hi hj
    obtain ⟨li, rfl⟩ := List.getElem?_eq_some_iff.1 hi
    obtain ⟨lj, rfl⟩ := List.getElem?_eq_some_iff.1 hj
    have hm : ∀ k, k < (activePositions (m.uniqueVertices (exactLibrary origin g))).length →
        ((exactLibrary origin g).search (activePositions (m.uniqueVertices
          (exactLibrary origin g)))).colocated_mapping[k]? = some k := by
      intro k hk
      exact List.getElem?_range hk
    constructor
    · rintro ⟨u, h1, h2⟩
      rw [hm i li] at h1
      rw [hm j lj] at h2
      obtain rfl := Option.some.inj h1
      obtain rfl := Option.some.inj h2
      rfl
    · intro he
      obtain rfl := (h.getElem_inj_iff).1 he
      exact ⟨i, hm i li, hm i lj⟩

/-- A Section of two triangles apart. -/
def trianglesApart : TopologyData where
  corners := [⟨1, true, 1, 0⟩, ⟨2, true, 1, 0⟩, ⟨3, true, 1, 0⟩, ⟨4, true, 1, 0⟩, ⟨5, true, 1, 0⟩, ⟨6, true, 1, 0⟩]
  lines := [⟨11, true, 2, 1⟩, ⟨12, true, 2, 1⟩, ⟨13, true, 2, 1⟩, ⟨14, true, 2, 1⟩, ⟨15, true, 2, 1⟩, ⟨16, true, 2, 1⟩]
  surfaces := [⟨21, true, 3, 1⟩, ⟨22, true, 3, 1⟩]
  vertices := [
    [⟨⟨.corner, 1⟩, 0⟩, ⟨⟨.line, 11⟩, 0⟩, ⟨⟨.line, 13⟩, 1⟩, ⟨⟨.surface, 21⟩, 0⟩],
    [⟨⟨.corner, 2⟩, 0⟩, ⟨⟨.line, 12⟩, 0⟩, ⟨⟨.line, 11⟩, 1⟩, ⟨⟨.surface, 21⟩, 1⟩],
    [⟨⟨.corner, 3⟩, 0⟩, ⟨⟨.line, 13⟩, 0⟩, ⟨⟨.line, 12⟩, 1⟩, ⟨⟨.surface, 21⟩, 2⟩],
    [⟨⟨.corner, 4⟩, 0⟩, ⟨⟨.line, 14⟩, 0⟩, ⟨⟨.line, 16⟩, 1⟩, ⟨⟨.surface, 22⟩, 0⟩],
    [⟨⟨.corner, 5⟩, 0⟩, ⟨⟨.line, 15⟩, 0⟩, ⟨⟨.line, 14⟩, 1⟩, ⟨⟨.surface, 22⟩, 1⟩],
    [⟨⟨.corner, 6⟩, 0⟩, ⟨⟨.line, 16⟩, 0⟩, ⟨⟨.line, 15⟩, 1⟩, ⟨⟨.surface, 22⟩, 2⟩]]
  boundary := [(⟨.corner, 1⟩, ⟨.line, 11⟩), (⟨.corner, 2⟩, ⟨.line, 11⟩), (⟨.corner, 2⟩, ⟨.line, 12⟩),
    (⟨.corner, 3⟩, ⟨.line, 12⟩), (⟨.corner, 3⟩, ⟨.line, 13⟩), (⟨.corner, 1⟩, ⟨.line, 13⟩),
    (⟨.line, 11⟩, ⟨.surface, 21⟩), (⟨.line, 12⟩, ⟨.surface, 21⟩), (⟨.line, 13⟩, ⟨.surface, 21⟩),
    (⟨.corner, 4⟩, ⟨.line, 14⟩), (⟨.corner, 5⟩, ⟨.line, 14⟩), (⟨.corner, 5⟩, ⟨.line, 15⟩),
    (⟨.corner, 6⟩, ⟨.line, 15⟩), (⟨.corner, 6⟩, ⟨.line, 16⟩), (⟨.corner, 4⟩, ⟨.line, 16⟩),
    (⟨.line, 14⟩, ⟨.surface, 22⟩), (⟨.line, 15⟩, ⟨.surface, 22⟩), (⟨.line, 16⟩, ⟨.surface, 22⟩)]
  border := [(21, 0), (21, 1), (21, 2), (22, 0), (22, 1), (22, 2)]

/-- The Section with the given points. -/
def planeModel (f : Nat → ℚ × ℚ) : ModelData (ℚ × ℚ) := (exampleModel trianglesApart id .positive).mapPoints f

noncomputable def planeLibrary : ModelLibrary (ℚ × ℚ) := exactLibrary (0, 0) exactGeometry

theorem plane_surfaces (f : Nat → ℚ × ℚ) : ∀ s ∈ (planeModel f).surfaces, IsTriangle s 0 ∧ s.nbPolygons = 1 ∧
    (∀ k, s.polygonVertex (0, k) = k) ∧
    ((s.id = 21 ∧ faceTriangle s 0 = (f 0, f 1, f 2)) ∨ s.id = 22 ∧ faceTriangle s 0 = (f 3, f 4, f 5)) := by
  intro s hs
  simp only [planeModel, ModelData.mapPoints, exampleModel, trianglesApart, List.map_cons, List.map_nil, List.mem_cons,
    List.not_mem_nil, or_false] at hs
  rcases hs with rfl | rfl
  · exact ⟨⟨Nat.one_pos, rfl⟩, rfl, fun _ => rfl, .inl ⟨rfl, rfl⟩⟩
  · exact ⟨⟨Nat.one_pos, rfl⟩, rfl, fun _ => rfl, .inr ⟨rfl, rfl⟩⟩

theorem mapPoints_types {P Q : Type} (f : P → Q) (m : ModelData P) (lib : ModelLibrary P) (lib' : ModelLibrary Q) (brep : Bool)
    (h : KnownTypes brep (m.uniqueVertices lib)) : KnownTypes brep ((m.mapPoints f).uniqueVertices lib') := h

theorem plane_meshes (f : Nat → ℚ × ℚ) : MeshesOk planeLibrary (planeModel f) :=
  mapPoints_meshes f _ _ exactGeometry_positions _ (exampleModel_meshes _ _ _ (by decide))

/-- the borders of the two triangles do not meet -/
def BordersApart (f : Nat → ℚ × ℚ) : Prop :=
  ¬ Flat (f 0, f 1, f 2) ∧ ¬ Flat (f 3, f 4, f 5) ∧
  ∀ x, (∃ e ∈ sides (f 0, f 1, f 2), OnSegment e x) → ¬ ∃ e ∈ sides (f 3, f 4, f 5), OnSegment e x

theorem plane_meet (f : Nat → ℚ × ℚ) (hf : BordersApart f) :
    ∀ s1 ∈ (planeModel f).surfaces, ∀ s2 ∈ (planeModel f).surfaces,
    ¬ PolygonsMeet ((planeModel f).intersections planeLibrary false) ((planeModel f).modelSurface planeLibrary s1)
      ((planeModel f).modelSurface planeLibrary s2) (0, 0) := by
  have links : ∀ i ∈ [21, 22], ∀ j ∈ [21, 22], i ≠ j → ∀ v ∈ [0, 1, 2], ∀ w ∈ [0, 1, 2],
      (exampleModel trianglesApart id .positive).uniqueVertexId .surface i v ≠
        (exampleModel trianglesApart id .positive).uniqueVertexId .surface j w := by
    decide +kernel
  intro s1 h1 s2 h2 hm
  obtain ⟨t1, _, p1, e1⟩ := plane_surfaces f s1 h1
  obtain ⟨t2, _, p2, e2⟩ := plane_surfaces f s2 h2
  have hid : s1.id ≠ s2.id := fun h => hm.1 ⟨h, rfl⟩
  have m1 : s1.id ∈ [21, 22] := by rcases e1 with ⟨e, _⟩ | ⟨e, _⟩ <;> rw [e] <;> decide
  have m2 : s2.id ∈ [21, 22] := by rcases e2 with ⟨e, _⟩ | ⟨e, _⟩ <;> rw [e] <;> decide
  have T1 := faceTriangle_eq planeLibrary (planeModel f) s1 0 (vertices_exist _ _ (plane_meshes f) s1 h1 0 t1)
  have T2 := faceTriangle_eq planeLibrary (planeModel f) s2 0 (vertices_exist _ _ (plane_meshes f) s2 h2 0 t2)
  obtain ⟨r, hr, hiff⟩ := C112_apart (exactGeometry (K := ℚ)) exactGeometry_ok ((planeModel f).modelSurface planeLibrary s1)
    ((planeModel f).modelSurface planeLibrary s2) (s1.polygonVertex (0, 0)) (s1.polygonVertex (0, 1)) (s1.polygonVertex (0, 2))
    (s2.polygonVertex (0, 0)) (s2.polygonVertex (0, 1)) (s2.polygonVertex (0, 2))
    (by rw [T1]; rcases e1 with ⟨_, e⟩ | ⟨_, e⟩ <;> rw [e]; exacts [hf.1, hf.2.1])
    (by rw [T2]; rcases e2 with ⟨_, e⟩ | ⟨_, e⟩ <;> rw [e]; exacts [hf.1, hf.2.1])
    (by
      rw [p1, p1, p1, p2, p2, p2]
      exact fun v hv w hw h => links s1.id m1 s2.id m2 hid v hv w hw h)
  obtain ⟨_, u1, hu1, u2, hu2, hm⟩ := hm
  rw [show ((planeModel f).modelSurface planeLibrary s1).polygonVertices 0 = _ from
    triangle_list planeLibrary (planeModel f) s1 0 t1, fan_triangle, List.mem_singleton] at hu1
  rw [show ((planeModel f).modelSurface planeLibrary s2).polygonVertices 0 = _ from
    triangle_list planeLibrary (planeModel f) s2 0 t2, fan_triangle, List.mem_singleton] at hu2
  subst hu1 hu2
  have hm := hm.symm.trans hr
  injection hm with hm
  obtain ⟨x, x1, x2⟩ := hiff.1 hm.symm
  rw [T1] at x1
  rw [T2] at x2
  rcases e1 with ⟨i1, e1⟩ | ⟨i1, e1⟩ <;> rcases e2 with ⟨i2, e2⟩ | ⟨i2, e2⟩
  · exact hid (i1.trans i2.symm)
  · rw [e1] at x1
    rw [e2] at x2
    exact hf.2.2 x x1 x2
  · rw [e1] at x1
    rw [e2] at x2
    exact hf.2.2 x x2 x1
  · exact hid (i1.trans i2.symm)

theorem planeModel_ok (f : Nat → ℚ × ℚ) (hf : BordersApart f) :
    SectionOk planeLibrary modelRuntime (planeModel f) (nothing _) where
  meshes := plane_meshes f
  noBlock := rfl
  types := mapPoints_types f (exampleModel trianglesApart id .positive) modelLibrary _ _ (exampleModel_types _ _ _ _ (by decide))
  trees := by
    refine nothing_trees _ rfl ⟨fun _ _ => rfl, fun _ _ _ => rfl, fun _ _ _ => rfl⟩ ?_ ?_
    · intro l hl
      obtain ⟨l', _, rfl⟩ := List.mem_map.1 hl
      rfl
    · intro s1 h1 s2 h2
      obtain ⟨s1', h1', rfl⟩ := List.mem_map.1 h1
      obtain ⟨s2', h2', rfl⟩ := List.mem_map.1 h2
      exact ⟨(plane_surfaces f s1' h1').2.1, plane_meet f hf s1' h1' s2' h2'⟩
  tests := fun _ => nothing_tests _ rfl
  topology := by
    unfold planeModel
    rw [mapPoints_topology]
    exact exampleModel_wf _ _ _ _ (by decide) (by decide) (by decide)
  embeddings := by
    intro id _ e he
    exact absurd (TopologyData.mem_select.1 he) (by simp [trianglesApart])

theorem plane_heights (f : Nat → ℚ × ℚ) (hf : BordersApart f) : ∀ s ∈ (planeModel f).surfaces, ∀ p, IsTriangle s p →
    ¬ Flat (faceTriangle s p) := by
  intro s hs p hp
  have hp' := hp.1
  rw [(plane_surfaces f s hs).2.1] at hp'
  obtain rfl : p = 0 := Nat.lt_one_iff.1 hp'
  rcases (plane_surfaces f s hs).2.2.2 with ⟨_, e⟩ | ⟨_, e⟩ <;> rw [e]
  exacts [hf.1, hf.2.1]

/-- Points of two triangles side by side. -/
def sidePoint (n : Nat) : ℚ × ℚ := [(0, 0), (4, 0), (0, 4), (5, 0), (9, 0), (5, 4)].getD n (100, 100)

/-- Points of a triangle inside another one. -/
def nestedPoint (n : Nat) : ℚ × ℚ := [(0, 0), (9, 0), (0, 9), (1, 1), (2, 1), (1, 2)].getD n (100, 100)

theorem sidePoint_apart : BordersApart sidePoint := by
  refine ⟨by norm_num [Flat, orientation, sidePoint], by norm_num [Flat, orientation, sidePoint], ?_⟩
  rintro x ⟨e, he, t, h0, h1, hx, _⟩ ⟨e', he', t', h0', h1', hx', _⟩
  simp only [sidePoint, sides, List.mem_cons, List.not_mem_nil, or_false] at he he'
  rcases he with rfl | rfl | rfl <;> rcases he' with rfl | rfl | rfl <;> norm_num at hx hx' <;> linarith

theorem nestedPoint_apart : BordersApart nestedPoint := by
  refine ⟨by norm_num [Flat, orientation, nestedPoint], by norm_num [Flat, orientation, nestedPoint], ?_⟩
  rintro x ⟨e, he, t, h0, h1, hx, hy⟩ ⟨e', he', t', h0', h1', hx', hy'⟩
  simp only [nestedPoint, sides, List.mem_cons, List.not_mem_nil, or_false] at he he'
  rcases he with rfl | rfl | rfl <;> rcases he' with rfl | rfl | rfl <;> norm_num at hx hx' hy hy' <;> linarith

theorem side_places : PlacesOk planeLibrary (planeModel sidePoint) (· = ·) :=
  exact_places _ _ _ (show (activePositions ((planeModel sidePoint).uniqueVertices (exactLibrary (0, 0)
    ⟨fun _ _ => (.outside, .outside), fun _ _ => .outside, fun _ _ => (.outside, .outside), fun _ => none⟩))).Nodup by
      decide +kernel)

theorem nested_places : PlacesOk planeLibrary (planeModel nestedPoint) (· = ·) :=
  exact_places _ _ _ (show (activePositions ((planeModel nestedPoint).uniqueVertices (exactLibrary (0, 0)
    ⟨fun _ _ => (.outside, .outside), fun _ _ => .outside, fun _ _ => (.outside, .outside), fun _ => none⟩))).Nodup by
      decide +kernel)

/-- no point is inside the two triangles (0, 0), (4, 0), (0, 4) and (5, 0), (9, 0), (5, 4) of a Section, which is declared
valid: neither is in the other -/
example : ∀ x : ℚ × ℚ, InsideTriangle ((0, 0), (4, 0), (0, 4)) x → ¬ InsideTriangle ((5, 0), (9, 0), (5, 4)) x := by
  obtain ⟨v, h1, h2⟩ := C120_section_partial planeLibrary modelRuntime modelRuntime_ok (planeModel sidePoint) _
    (planeModel_ok _ sidePoint_apart) exactGeometry_ok side_places (mapPoints_links _ _ (exampleModel_links _ _ _))
    (fun s hs p hp hf => absurd hf (plane_heights _ sidePoint_apart s hs p hp))
  have he : isSectionOfValid planeLibrary modelRuntime (planeModel sidePoint) = .ok {} := by rfl
  rw [he] at h1
  injection h1 with h1
  intro x x1 x2
  have hr := h2 (by rw [← h1]; rfl) ((planeModel sidePoint).surfaces[0]'(by decide)) (List.getElem_mem _) rfl
    ((planeModel sidePoint).surfaces[1]'(by decide)) (List.getElem_mem _) rfl 0 0 ⟨by decide, rfl⟩ ⟨by decide, rfl⟩
    (fun h => absurd h.1 (by decide))
  have E1 : faceTriangle ((planeModel sidePoint).surfaces[0]'(by decide)) 0 = ((0, 0), (4, 0), (0, 4)) := by decide +kernel
  have E2 : faceTriangle ((planeModel sidePoint).surfaces[1]'(by decide)) 0 = ((5, 0), (9, 0), (5, 4)) := by decide +kernel
  rw [E1, E2] at hr
  obtain ⟨hn, _⟩ := hr (fun _ => by
    intro y hy hy'
    simp only [triangleVertices, List.mem_cons, List.not_mem_nil, or_false] at hy hy'
    rcases hy with rfl | rfl | rfl <;> norm_num [Prod.ext_iff] at hy') x x1 x2
  rcases hn with hn | hn
  · have := hn (0, 0) ⟨1, 0, 0, by norm_num, by norm_num, by norm_num, by norm_num, by norm_num, by norm_num⟩
    obtain ⟨u, v, w, h0, h1, h2, h3, h4, h5⟩ := this
    norm_num at h4 h5
    linarith
  · have := hn (5, 0) ⟨1, 0, 0, by norm_num, by norm_num, by norm_num, by norm_num, by norm_num, by norm_num⟩
    obtain ⟨u, v, w, h0, h1, h2, h3, h4, h5⟩ := this
    norm_num at h4 h5
    linarith

/-- **C120 is false** for Sections: a Section of two Surfaces, one in the other, is declared valid; all that is assumed by
`C120_section_partial` is met. -/
theorem C120_section_false : ∃ (lib : ModelLibrary (ℚ × ℚ)) (rt : ModelRuntime) (m : ModelData (ℚ × ℚ))
    (c : Candidates (ℚ × ℚ)), ModelRuntimeOk rt ∧ SectionOk lib rt m c ∧ ExactPlane lib.geometry ∧ PlacesOk lib m (· = ·) ∧
    LinksKept m ∧
    (∀ s ∈ m.surfaces, ∀ p, IsTriangle s p → Flat (faceTriangle s p) → AtMost (s.minimumHeight p) lib.eps) ∧
    (∃ v, isSectionOfValid lib rt m = .ok v ∧ v.isValid = true) ∧
    ∃ s1 ∈ m.surfaces, s1.active = true ∧ ∃ s2 ∈ m.surfaces, s2.active = true ∧ ∃ p q, IsTriangle s1 p ∧ IsTriangle s2 q ∧
      s1.id ≠ s2.id ∧ ∃ x, InsideTriangle (faceTriangle s1 p) x ∧ InsideTriangle (faceTriangle s2 q) x := by
  refine ⟨planeLibrary, modelRuntime, planeModel nestedPoint, _, modelRuntime_ok, planeModel_ok _ nestedPoint_apart,
    exactGeometry_ok, nested_places, mapPoints_links _ _ (exampleModel_links _ _ _),
    fun s hs p hp hf => absurd hf (plane_heights _ nestedPoint_apart s hs p hp), ⟨{}, by rfl, rfl⟩,
    (planeModel nestedPoint).surfaces[0]'(by decide), List.getElem_mem _, rfl,
    (planeModel nestedPoint).surfaces[1]'(by decide), List.getElem_mem _, rfl, 0, 0, ⟨by decide, rfl⟩, ⟨by decide, rfl⟩,
    by decide, (5 / 4, 5 / 4), ?_, ?_⟩
  · rw [show faceTriangle ((planeModel nestedPoint).surfaces[0]'(by decide)) 0 = ((0, 0), (9, 0), (0, 9)) by decide +kernel]
    exact ⟨13 / 18, 5 / 36, 5 / 36, by norm_num, by norm_num, by norm_num, by norm_num, by norm_num, by norm_num⟩
  · rw [show faceTriangle ((planeModel nestedPoint).surfaces[1]'(by decide)) 0 = ((1, 1), (2, 1), (1, 2)) by decide +kernel]
    exact ⟨1 / 2, 1 / 4, 1 / 4, by norm_num, by norm_num, by norm_num, by norm_num, by norm_num, by norm_num⟩

/-- Points of the tetrahedron. -/
def spacePoint (n : Nat) : ℚ × ℚ × ℚ := [(0, 0, 0), (1, 0, 0), (0, 1, 0), (0, 0, 1)].getD n (100, 100, 100)

/-- The tetrahedron with these points. -/
def spaceModel : ModelData (ℚ × ℚ × ℚ) := (exampleModel tetrahedronBRep id .positive).mapPoints spacePoint

noncomputable def spaceLibrary : ModelLibrary (ℚ × ℚ × ℚ) := exactLibrary (0, 0, 0) exactSpaceGeometry

/-- the points of the unique vertices of a surface, given by their ids -/
theorem space_surfaces : ∀ s ∈ spaceModel.surfaces, IsTriangle s 0 ∧ s.nbPolygons = 1 ∧
    (∀ k, s.polygonVertex (0, k) = k) ∧ ¬ FlatInSpace (spaceFaceTriangle s 0) := by
  intro s hs
  simp only [spaceModel, ModelData.mapPoints, exampleModel, tetrahedronBRep, List.map_cons, List.map_nil, List.mem_cons,
    List.not_mem_nil, or_false] at hs
  rcases hs with rfl | rfl | rfl | rfl
  all_goals exact ⟨⟨by decide, rfl⟩, rfl, fun _ => rfl, by unfold FlatInSpace; decide +kernel⟩

/-- two faces have two common vertices, and are not in a same plane -/
theorem space_pairs : ∀ s1 ∈ spaceModel.surfaces, ∀ s2 ∈ spaceModel.surfaces, s1.id ≠ s2.id →
    ∃ v0 v1 x, [0, 1, 2].Perm [v0, v1, x] ∧
      (∃ w ∈ [0, 1, 2], spaceModel.uniqueVertexId .surface s1.id v0 = spaceModel.uniqueVertexId .surface s2.id w) ∧
      (∃ w ∈ [0, 1, 2], spaceModel.uniqueVertexId .surface s1.id v1 = spaceModel.uniqueVertexId .surface s2.id w) ∧
      (∀ w ∈ [0, 1, 2], spaceModel.uniqueVertexId .surface s1.id x ≠ spaceModel.uniqueVertexId .surface s2.id w) ∧
      ¬ SamePlane (facePoint (0, 0, 0) s1 0 v0, facePoint (0, 0, 0) s1 0 v1, facePoint (0, 0, 0) s1 0 x)
        (spaceFaceTriangle s2 0) ∧
      ∀ v ∈ [0, 1, 2], ∀ w ∈ [0, 1, 2],
        spaceModel.uniqueVertexId .surface s1.id v = spaceModel.uniqueVertexId .surface s2.id w →
        facePoint (0, 0, 0) s1 0 v = facePoint (0, 0, 0) s2 0 w := by
  have key : ∀ s1 ∈ spaceModel.surfaces, ∀ s2 ∈ spaceModel.surfaces, s1.id ≠ s2.id →
    ∃ y ∈ [(0, 1, 2), (0, 2, 1), (1, 2, 0)], [0, 1, 2].Perm [y.1, y.2.1, y.2.2] ∧
      (∃ w ∈ [0, 1, 2], spaceModel.uniqueVertexId .surface s1.id y.1 = spaceModel.uniqueVertexId .surface s2.id w) ∧
      (∃ w ∈ [0, 1, 2], spaceModel.uniqueVertexId .surface s1.id y.2.1 = spaceModel.uniqueVertexId .surface s2.id w) ∧
      (∀ w ∈ [0, 1, 2], spaceModel.uniqueVertexId .surface s1.id y.2.2 ≠ spaceModel.uniqueVertexId .surface s2.id w) ∧
      ¬ SamePlane (facePoint (0, 0, 0) s1 0 y.1, facePoint (0, 0, 0) s1 0 y.2.1, facePoint (0, 0, 0) s1 0 y.2.2)
        (spaceFaceTriangle s2 0) ∧
      ∀ v ∈ [0, 1, 2], ∀ w ∈ [0, 1, 2],
        spaceModel.uniqueVertexId .surface s1.id v = spaceModel.uniqueVertexId .surface s2.id w →
        facePoint (0, 0, 0) s1 0 v = facePoint (0, 0, 0) s2 0 w := by
    unfold SamePlane InPlane
    decide +kernel
  intro s1 h1 s2 h2 hid
  obtain ⟨y, _, h⟩ := key s1 h1 s2 h2 hid
  exact ⟨y.1, y.2.1, y.2.2, h⟩

theorem space_meshes : MeshesOk spaceLibrary spaceModel :=
  mapPoints_meshes spacePoint _ _ exactSpaceGeometry_positions _ (exampleModel_meshes _ _ _ (by decide))

theorem space_meet : ∀ s1 ∈ spaceModel.surfaces, ∀ s2 ∈ spaceModel.surfaces,
    ¬ PolygonsMeet (spaceModel.intersections spaceLibrary true) (spaceModel.modelSurface spaceLibrary s1)
      (spaceModel.modelSurface spaceLibrary s2) (0, 0) := by
  intro s1 h1 s2 h2 hm
  have hid : s1.id ≠ s2.id := fun h => hm.1 ⟨h, rfl⟩
  obtain ⟨t1, _, p1, f1⟩ := space_surfaces s1 h1
  obtain ⟨t2, _, p2, f2⟩ := space_surfaces s2 h2
  obtain ⟨v0, v1, x, hperm, c0, c1, cx, hn, hp⟩ := space_pairs s1 h1 s2 h2 hid
  have pt : ∀ s ∈ spaceModel.surfaces, ∀ k ∈ [0, 1, 2],
      (spaceModel.modelSurface spaceLibrary s).point k = facePoint (0, 0, 0) s 0 k := by
    intro s hs k hk
    obtain ⟨t, _, p, _⟩ := space_surfaces s hs
    have := triangle_point spaceLibrary spaceModel s 0 k (0, 0, 0) (vertices_exist _ _ space_meshes s hs 0 t k (by
      simp only [List.mem_cons, List.not_mem_nil, or_false] at hk
      rcases hk with rfl | rfl | rfl <;> decide))
    rwa [p k] at this
  have T2 : spaceTriangleAt (spaceModel.modelSurface spaceLibrary s2) 0 1 2 = spaceFaceTriangle s2 0 := by
    unfold spaceTriangleAt spaceFaceTriangle
    rw [pt s2 h2 0 (by simp), pt s2 h2 1 (by simp), pt s2 h2 2 (by simp)]
  have mem : ∀ y ∈ [v0, v1, x], y ∈ [0, 1, 2] := fun y hy => hperm.mem_iff.2 hy
  have hr := (C113_adjacent (exactSpaceGeometry (K := ℚ)) exactSpaceGeometry_ok (spaceModel.modelSurface spaceLibrary s1)
    (spaceModel.modelSurface spaceLibrary s2) [0, 1, 2] 0 1 2 v0 v1 x (by rw [T2]; exact f2) (by
      rw [T2]
      unfold spaceTriangleAt
      rw [pt s1 h1 v0 (mem _ (by simp)), pt s1 h1 v1 (mem _ (by simp)), pt s1 h1 x (mem _ (by simp))]
      exact hn) ⟨hperm, by decide, c0, c1, cx⟩ (by
      intro v hv w hw hs
      rw [pt s1 h1 v hv, pt s2 h2 w hw]
      exact hp v hv w hw hs)).1
  obtain ⟨_, u1, hu1, u2, hu2, hm⟩ := hm
  rw [show (spaceModel.modelSurface spaceLibrary s1).polygonVertices 0 = _ from triangle_list spaceLibrary spaceModel s1 0 t1,
    fan_triangle, List.mem_singleton, p1, p1, p1] at hu1
  rw [show (spaceModel.modelSurface spaceLibrary s2).polygonVertices 0 = _ from triangle_list spaceLibrary spaceModel s2 0 t2,
    fan_triangle, List.mem_singleton, p2, p2, p2] at hu2
  subst hu1 hu2
  have hm := hm.symm.trans hr
  injection hm with hm
  cases hm

theorem spaceModel_ok : BRepOk spaceLibrary modelRuntime spaceModel (nothing _) where
  meshesKnown := MeshesOk.toMeshesKnown (space_meshes)
  blockWalks := MeshesOk.blockWalks (space_meshes)
  types := mapPoints_types spacePoint (exampleModel tetrahedronBRep id .positive) modelLibrary _ _
    (exampleModel_types _ _ _ _ (by decide))
  trees := by
    refine nothing_trees _ rfl ⟨fun _ _ => rfl, fun _ _ _ => rfl, fun _ _ _ => rfl⟩ ?_ ?_
    · intro l hl
      obtain ⟨l', _, rfl⟩ := List.mem_map.1 hl
      rfl
    · intro s1 h1 s2 h2
      obtain ⟨s1', h1', rfl⟩ := List.mem_map.1 h1
      obtain ⟨s2', h2', rfl⟩ := List.mem_map.1 h2
      exact ⟨(space_surfaces s1' h1').2.1, space_meet s1' h1' s2' h2'⟩
  nbModelEdges := by decide +kernel
  topology := by
    unfold spaceModel
    rw [mapPoints_topology]
    exact exampleModel_wf _ _ _ _ (by decide) (by decide) (by decide)
  around := by
    have aw := tetrahedronBRep.aw_of_check (by decide)
    unfold spaceModel
    rw [mapPoints_topology, exampleModel_topology tetrahedronBRep _ _ modelRuntime (by decide) (by decide)]
    exact ⟨fun m => List.reverse_perm m, aw.surfaces, aw.surfaceKeys, aw.blocks, aw.blockKeys, aw.polygons,
      by decide +kernel, by decide +kernel⟩
  coherent := tetrahedronBRep.coherent_of_check (by decide)
  surfaceEmbeddings := fun id _ e he => absurd he List.not_mem_nil
  firstEdges := by decide +kernel
  counts := by
    unfold spaceModel
    rw [mapPoints_topology, exampleModel_topology tetrahedronBRep _ _ modelRuntime (by decide) (by decide)]
    exact counts_of_check tetrahedronBRep (by decide)
  graph := firstEdge_finder
  geometry := noGeometry_raises
  rays := example_rays _
  modelBoundaries := Or.inl rfl

theorem spaceModel_places : PlacesOk spaceLibrary spaceModel (· = ·) :=
  exact_places _ _ _ (show (activePositions (spaceModel.uniqueVertices (exactLibrary (0, 0, 0)
    ⟨fun _ _ => (.outside, .outside), fun _ _ => .outside, fun _ _ => (.outside, .outside), fun _ => none⟩))).Nodup by
      decide +kernel)

set_option maxRecDepth 20000 in
/-- the faces (0, 0, 0), (1, 0, 0), (0, 1, 0) and (1, 0, 0), (0, 1, 0), (0, 0, 1) of a tetrahedron, which is declared valid,
meet on the edge of (1, 0, 0) and (0, 1, 0) only -/
example : ∀ x : ℚ × ℚ × ℚ, InSpaceTriangle ((0, 0, 0), (1, 0, 0), (0, 1, 0)) x →
    InSpaceTriangle ((1, 0, 0), (0, 1, 0), (0, 0, 1)) x →
    OnCommonPart ((0, 0, 0), (1, 0, 0), (0, 1, 0)) ((1, 0, 0), (0, 1, 0), (0, 0, 1)) x := by
  obtain ⟨v, N, h1, h2⟩ := C120_brep spaceLibrary modelRuntime modelRuntime_ok spaceModel _ spaceModel_ok
    exactSpaceGeometry_ok spaceModel_places (mapPoints_links _ _ (exampleModel_links _ _ _)) (by
      intro s hs p hp hf
      have hp' := hp.1
      rw [(space_surfaces s hs).2.1] at hp'
      obtain rfl : p = 0 := Nat.lt_one_iff.1 hp'
      exact absurd hf (space_surfaces s hs).2.2.2)
  have he : ∀ N, isBRepOfValid spaceLibrary modelRuntime (N + 20) spaceModel = .ok {} := fun N => by rfl
  have h1 := h1 (N + 20) (by omega)
  rw [he] at h1
  injection h1 with h1
  have hr := h2 (by rw [← h1]; rfl) (spaceModel.surfaces[0]'(by decide)) (List.getElem_mem _) rfl
    (spaceModel.surfaces[3]'(by decide)) (List.getElem_mem _) rfl 0 0 ⟨by decide, rfl⟩ ⟨by decide, rfl⟩
    (fun h => absurd h.1 (by decide))
  have E1 : spaceFaceTriangle (spaceModel.surfaces[0]'(by decide)) 0 = ((0, 0, 0), (1, 0, 0), (0, 1, 0)) := by decide +kernel
  have E2 : spaceFaceTriangle (spaceModel.surfaces[3]'(by decide)) 0 = ((1, 0, 0), (0, 1, 0), (0, 0, 1)) := by decide +kernel
  rw [E1, E2] at hr
  refine hr ⟨by unfold SamePlane InPlane; decide +kernel, ?_, ?_⟩
  · unfold InPlane
    decide +kernel
  · unfold InPlane
    decide +kernel

end Inspector
