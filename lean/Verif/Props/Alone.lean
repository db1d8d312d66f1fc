import Verif.Proofs.Alone
/-
C123: the components of a model declared valid, inspected alone.
-/
namespace Inspector
open Spec

/-- **C123** (Sections): if a Section is declared valid, the inspection of the mesh of one of its active Lines reports
nothing but groups of colocated vertices which have the same unique vertex, and that of one of its active Surfaces these
groups and intersections only. -/
theorem C123_section {P : Type} (lib : ModelLibrary P) (rt : ModelRuntime) (hrt : ModelRuntimeOk rt) (m : ModelData P)
    (c : Candidates P) (h : SectionOk lib rt m c) (hid : NoIdIsFree m) (rt' : Runtime) (hrt' : RuntimeOk rt') :
    ∃ v, isSectionOfValid lib rt m = .ok v ∧ (v.isValid = true →
      (∀ l ∈ m.lines, l.active = true →
        ∃ r, inspectCurveMesh lib.toLibrary rt' l.toCurveData = .ok r ∧ LineMeshAlone m l r) ∧
      ∀ s ∈ m.surfaces, s.active = true → ∀ tree, SurfaceDataOk lib.toLibrary s.toSurfaceData tree →
        ∃ r, inspectSurfaceMesh 2 lib.toLibrary rt' s.toSurfaceData = .ok r ∧ SurfaceMeshAlone m s r) := by
  obtain ⟨v, h1, h2⟩ := C82_section lib rt hrt m c h
  refine ⟨v, h1, fun hv => ?_⟩
  have hd := h2.1 hv
  unfold SectionDefect at hd
  simp only [not_or] at hd
  obtain ⟨_, _, dl, ds, _⟩ := hd
  constructor
  · intro l hl ha
    obtain ⟨r, hr, hrep⟩ := C79_edged_curve lib.toLibrary rt' hrt' l.toCurveData (h.meshes.lines l hl)
    exact ⟨r, hr, Alone.line hid (fun hx => dl ⟨l, hl, ha, hx⟩) hrep⟩
  · intro s hs ha tree ht
    obtain ⟨r, hr, hrep⟩ := C79_surface 2 lib.toLibrary rt' hrt' s.toSurfaceData tree ht
    exact ⟨r, hr, Alone.surface hid (fun hx => ds ⟨s, hs, ha, .inl hx⟩)
      (fun _ p hp hn => ds ⟨s, hs, ha, .inr ⟨p, hp, hn⟩⟩) hrep⟩

/-- **C123** (BReps): the same for BReps, with their Blocks. -/
theorem C123_brep {P : Type} (lib : ModelLibrary P) (rt : ModelRuntime) (hrt : ModelRuntimeOk rt) (m : ModelData P)
    (c : Candidates P) (h : BRepOk lib rt m c) (hid : NoIdIsFree m) (rt' : Runtime) (hrt' : RuntimeOk rt') :
    ∃ v N, (∀ fuel ≥ N, isBRepOfValid lib rt fuel m = .ok v) ∧ (v.isValid = true →
      (∀ l ∈ m.lines, l.active = true →
        ∃ r, inspectCurveMesh lib.toLibrary rt' l.toCurveData = .ok r ∧ LineMeshAlone m l r) ∧
      (∀ s ∈ m.surfaces, s.active = true → ∀ tree, SurfaceDataOk lib.toLibrary s.toSurfaceData tree →
        ∃ r, inspectSurfaceMesh 3 lib.toLibrary rt' s.toSurfaceData = .ok r ∧ SurfaceMeshAlone m s r) ∧
      ∀ b ∈ m.blocks, b.active = true →
        ∃ r, inspectSolidMesh lib.toLibrary rt' b.toSolidData = .ok r ∧ BlockMeshAlone m b r) := by
  obtain ⟨v, N, h1, h2, h3, _⟩ := C82_brep_partial lib rt hrt m c h
  refine ⟨v, N, h1, fun hv => ?_⟩
  have hd : (¬ ∃ l ∈ m.lines, l.active = true ∧ LineMeshDefect lib m l) ∧
      (¬ ∃ s ∈ m.surfaces, s.active = true ∧ SurfaceMeshDefect lib m s) ∧
      ¬ ∃ b ∈ m.blocks, b.active = true ∧ BlockMeshDefect lib m b := by
    by_cases hu : LinesUnreadable (m.topology rt)
    · have hd := (h3 hu).2.1 hv
      unfold BRepDefectBesideLines at hd
      simp only [not_or] at hd
      exact ⟨hd.2.2.1, hd.2.2.2.1, hd.2.2.2.2.1⟩
    · have hd := (h2 hu).1 hv
      unfold BRepDefect at hd
      simp only [not_or] at hd
      exact ⟨hd.2.2.1, hd.2.2.2.1, hd.2.2.2.2.1⟩
  obtain ⟨dl, ds, db⟩ := hd
  refine ⟨?_, ?_, ?_⟩
  · intro l hl ha
    obtain ⟨r, hr, hrep⟩ := C79_edged_curve lib.toLibrary rt' hrt' l.toCurveData (h.meshes.lines l hl)
    exact ⟨r, hr, Alone.line hid (fun hx => dl ⟨l, hl, ha, hx⟩) hrep⟩
  · intro s hs ha tree ht
    obtain ⟨r, hr, hrep⟩ := C79_surface 3 lib.toLibrary rt' hrt' s.toSurfaceData tree ht
    exact ⟨r, hr, Alone.surface hid (fun hx => ds ⟨s, hs, ha, hx⟩) (fun h => absurd h (by decide)) hrep⟩
  · intro b hb ha
    have hk := h.meshes.blocks b hb
    obtain ⟨r, hr, hrep⟩ := C79_solid lib.toLibrary rt' hrt' b.toSolidData ⟨hk.search, hk.vertices,
      h.blockWalks b hb ha, hk.turns, hk.turnsOnce, hk.nbEdges, hk.nbPolyhedra, hk.nbPolyhedronEdges, hk.nbFacets⟩
    exact ⟨r, hr, Alone.block hid (fun hx => db ⟨b, hb, ha, hx⟩) hrep⟩

/-! ### Examples -/

theorem example_noId (d : TopologyData) (scale : Nat → Nat) (sign : Sign) (h : d.vertices.length < 2 ^ 32 - 1) :
    NoIdIsFree (exampleModel d scale sign) := by
  intro cmv he
  have he : d.vertices.findIdx? _ = some 4294967295 := he
  obtain ⟨hi, _⟩ := List.findIdx?_eq_some_iff_getElem.1 he
  omega

/-- the surface of the triangle can be inspected alone -/
theorem example_surface_ok (s : FaceData Nat) (sign : Sign)
    (hs : s ∈ (exampleModel triangleSection (10 * ·) sign).surfaces) :
    SurfaceDataOk modelLibrary.toLibrary s.toSurfaceData [] := by
  have hm := (triangleSection_ok sign).meshes
  have hw := hm.walks s hs
  have hsf := hm.surfaces s hs
  have ht : s.traverse = (fun _ => []) ∧ s.polygonsIntersect = fun _ _ => .ok false := by
    obtain ⟨x, _, rfl⟩ := List.mem_map.1 hs
    exact ⟨rfl, rfl⟩
  refine ⟨⟨hsf.1, ⟨?_, ?_, ?_, by decide⟩, hw.vertices, hw.walks, hsf.2.1, hsf.2.2.1, hsf.2.2.2, hw.uses⟩, ?_⟩
  · rw [ht.1]
    exact fun _ => ⟨⟨[], List.Perm.refl _, List.Sublist.refl _⟩, fun _ => List.Perm.refl _⟩
  · exact fun x hx => absurd hx List.not_mem_nil
  · rintro p q ⟨_, _, _, hx⟩
    rw [ht.2] at hx
    cases hx
  · exact fun x hx => absurd hx List.not_mem_nil

/-- the triangle is valid, thus so are its lines and its surface -/
example : (∀ l ∈ (exampleModel triangleSection (10 * ·) .positive).lines, l.active = true →
      ∃ r, inspectCurveMesh modelLibrary.toLibrary exampleRuntime l.toCurveData = .ok r ∧
        LineMeshAlone (exampleModel triangleSection (10 * ·) .positive) l r) ∧
    ∀ s ∈ (exampleModel triangleSection (10 * ·) .positive).surfaces, s.active = true →
      ∃ r, inspectSurfaceMesh 2 modelLibrary.toLibrary exampleRuntime s.toSurfaceData = .ok r ∧
        SurfaceMeshAlone (exampleModel triangleSection (10 * ·) .positive) s r := by
  obtain ⟨v, h1, h2⟩ := C123_section modelLibrary modelRuntime modelRuntime_ok _ _ (triangleSection_ok .positive)
    (example_noId _ _ _ (by decide)) exampleRuntime exampleRuntime_ok
  have he : isSectionOfValid modelLibrary modelRuntime (exampleModel triangleSection (10 * ·) .positive) = .ok {} := by rfl
  rw [he] at h1
  injection h1 with h1
  subst h1
  obtain ⟨h3, h4⟩ := h2 rfl
  exact ⟨h3, fun s hs ha => h4 s hs ha [] (example_surface_ok s _ hs)⟩

set_option maxRecDepth 20000 in
/-- the tetrahedron is valid, thus so is its block -/
example : ∀ b ∈ (exampleModel tetrahedronBRep (10 * ·) .positive).blocks, b.active = true →
    ∃ r, inspectSolidMesh modelLibrary.toLibrary exampleRuntime b.toSolidData = .ok r ∧
      BlockMeshAlone (exampleModel tetrahedronBRep (10 * ·) .positive) b r := by
  obtain ⟨v, N, h1, h2⟩ := C123_brep modelLibrary modelRuntime modelRuntime_ok _ _ (tetrahedronBRep_ok .positive)
    (example_noId _ _ _ (by decide)) exampleRuntime exampleRuntime_ok
  have he : isBRepOfValid modelLibrary modelRuntime (N + 20) (exampleModel tetrahedronBRep (10 * ·) .positive) = .ok {} := by
    rfl
  have h1 := h1 (N + 20) (by omega)
  rw [he] at h1
  injection h1 with h1
  subst h1
  exact (h2 rfl).2.2

end Inspector
