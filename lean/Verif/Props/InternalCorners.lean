import Verif.Props.LinesInside
/-
C149: the Corners of a valid model are internal to one component at most, or, in a BRep, to no Block; they may be out of it.
-/
namespace Inspector
open Spec SamePlace

namespace InternalCorners
variable {P : Type} {rt : ModelRuntime} {m : ModelData P}

/-- Every active Corner is at a unique vertex. -/
theorem vertex_of (hk : LinksKept m) {kinds : List ComponentType} (hc : .corner ∈ kinds)
    (h4 : ¬ HasUnmeshedComponent (m.topology rt) kinds) (h5 : ¬ HasUnlinkedVertex (m.topology rt) kinds)
    {c : CornerData P} (mc : c ∈ m.corners) (ha : c.active = true) :
    ∃ u < m.nbUniqueVertices, ActiveAt (m.topology rt) u .corner c.id := by
  have hp : c.points ≠ [] := fun he => h4 ⟨.corner, hc, _, List.mem_map_of_mem mc, ha, fun hM => hM.1 (by
      show c.points.length = 0
      rw [he]
      rfl)⟩
  obtain ⟨p, hp⟩ := List.exists_mem_of_ne_nil _ hp
  obtain ⟨i, hi, rfl⟩ := List.getElem_of_mem hp
  have hx := VertexAt.corner c i _ mc ha (List.getElem?_eq_getElem hi)
  obtain ⟨u, hu⟩ := linked_of_no_defect m rt _ h5 _ _ hx hc
  exact ⟨u, (hk _ _ hu).1, LineEnds.activeAt rt hk hx hu⟩

end InternalCorners
open InternalCorners

/-- **C149** (Sections): if a Section is declared valid, each active Corner is internal to one component at most.  Missing:
that it is at a vertex of it (false, see `C149_section_false`). -/
theorem C149_section_partial {P : Type} (lib : ModelLibrary P) (rt : ModelRuntime) (hrt : ModelRuntimeOk rt) (m : ModelData P)
    (c : Candidates P) (h : SectionOk lib rt m c) (hk : LinksKept m) :
    ∃ v, isSectionOfValid lib rt m = .ok v ∧ (v.isValid = true →
      ∀ c ∈ m.corners, c.active = true → (m.embeddings c.id).length ≤ 1) := by
  obtain ⟨v, h1, h2⟩ := C82_section lib rt hrt m c h
  refine ⟨v, h1, fun hv c mc ha => ?_⟩
  have hd := h2.1 hv
  unfold SectionDefect SectionTopologyDefect at hd
  simp only [not_or, not_not] at hd
  obtain ⟨u, hlt, hat⟩ := vertex_of hk List.mem_cons_self hd.2.2.2.2.2.2.1 hd.2.2.2.2.2.2.2.1 mc ha
  by_contra hn
  exact hd.2.2.2.2.2.2.2.2 ⟨u, hlt, .inr (.inl ⟨c.id, hat, Nat.lt_of_not_le hn⟩)⟩

/-- **C149** (BReps): if a BRep is declared valid, an active Corner internal to an active Block is internal to nothing
else.  Missing: that it is at a vertex of it (false, see `C149_brep_false`). -/
theorem C149_brep_partial {P : Type} (lib : ModelLibrary P) (rt : ModelRuntime) (hrt : ModelRuntimeOk rt) (m : ModelData P)
    (c : Candidates P) (h : BRepOk lib rt m c) (hk : LinksKept m) :
    ∃ v N, (∀ fuel ≥ N, isBRepOfValid lib rt fuel m = .ok v) ∧ (v.isValid = true →
      ∀ c ∈ m.corners, c.active = true → ∀ b ∈ m.blocks, b.active = true → ⟨.block, b.id⟩ ∈ m.embeddings c.id →
        m.embeddings c.id = [⟨.block, b.id⟩]) := by
  obtain ⟨v, N, h1, h2, h3, _⟩ := C82_brep_partial lib rt hrt m c h
  refine ⟨v, N, h1, fun hv c mc ha b mb hb he => ?_⟩
  have key : ∃ u < m.nbUniqueVertices, ActiveAt (m.topology rt) u .corner c.id ∧ ¬ CornerMultiplyEmbedded (m.topology rt) u := by
    by_cases hu : LinesUnreadable (m.topology rt)
    · have hd := (h3 hu).2.1 hv
      unfold BRepDefectBesideLines OtherTopologyDefect at hd
      simp only [not_or, not_not] at hd
      obtain ⟨u, hlt, hat⟩ := vertex_of hk List.mem_cons_self hd.2.2.2.2.2.2.2.2.2.2.2.1 hd.2.2.2.2.2.2.2.2.2.2.2.2.1 mc ha
      exact ⟨u, hlt, hat, fun hw => hd.2.2.2.2.2.2.2.2.2.2.2.2.2.1 ⟨u, hlt, .inr (.inl hw)⟩⟩
    · have hd := (h2 hu).1 hv
      unfold BRepDefect BRepTopologyDefect at hd
      simp only [not_or, not_not] at hd
      obtain ⟨u, hlt, hat⟩ := vertex_of hk List.mem_cons_self hd.2.2.2.2.2.2.2.2.2.2.2.1 hd.2.2.2.2.2.2.2.2.2.2.2.2.1 mc ha
      exact ⟨u, hlt, hat, fun hw => hd.2.2.2.2.2.2.2.2.2.2.2.2.2.1 ⟨u, hlt, .inr (.inl hw)⟩⟩
  obtain ⟨u, _, hat, hw⟩ := key
  match hq : m.embeddings c.id, he with
  | [e], he => rw [List.mem_singleton.1 he]
  | [], he => exact absurd he List.not_mem_nil
  | e :: e' :: l, he =>
    refine absurd ⟨c.id, hat, ?_, b.id, ?_, _, List.mem_map_of_mem mb, rfl, hb⟩ hw
    · show 1 < (m.embeddings c.id).length
      rw [hq]
      simp
    · show _ ∈ m.embeddings c.id
      rw [hq]
      exact he

/-- The triangle, and a Corner, 4, elsewhere, internal to it. -/
def cornerInTriangle : TopologyData := { triangleSection with
  corners := triangleSection.corners ++ [⟨4, true, 1, 0⟩]
  vertices := triangleSection.vertices ++ [[⟨⟨.corner, 4⟩, 0⟩]]
  internal := [(⟨.corner, 4⟩, ⟨.surface, 21⟩)] }

/-- The tetrahedron, and a Corner, 5, elsewhere, internal to it. -/
def cornerInTetrahedron : TopologyData := { tetrahedronBRep with
  corners := tetrahedronBRep.corners ++ [⟨5, true, 1, 0⟩]
  vertices := tetrahedronBRep.vertices ++ [[⟨⟨.corner, 5⟩, 0⟩]]
  internal := [(⟨.corner, 5⟩, ⟨.block, 31⟩)] }

theorem cornerInTriangle_ok : SectionOk modelLibrary modelRuntime (exampleModel cornerInTriangle (10 * ·) .positive) noCandidate :=
  section_ok_of_check _ (by decide) rfl (exampleModel_types _ _ _ _ (by decide)) (exampleModel_trees _ _ _ _ (by decide +kernel))
    (exampleModel_wf _ _ _ _ (by decide) (by decide) (by decide)) (by decide)

theorem cornerInTetrahedron_ok : BRepOk modelLibrary modelRuntime (exampleModel cornerInTetrahedron (10 * ·) .positive) noCandidate where
  meshesKnown := MeshesOk.toMeshesKnown (exampleModel_meshes _ _ _ (by decide))
  blockWalks := MeshesOk.blockWalks (exampleModel_meshes _ _ _ (by decide))
  types := exampleModel_types _ _ _ _ (by decide)
  trees := exampleModel_trees _ _ _ _ (by decide +kernel)
  nbModelEdges := by decide +kernel
  topology := exampleModel_wf _ _ _ _ (by decide) (by decide) (by decide)
  around := by
    have aw := cornerInTetrahedron.aw_of_check (by decide)
    rw [exampleModel_topology cornerInTetrahedron _ .positive modelRuntime (by decide) (by decide)]
    exact ⟨fun m => List.reverse_perm m, aw.surfaces, aw.surfaceKeys, aw.blocks, aw.blockKeys, aw.polygons,
      by decide +kernel, by decide +kernel⟩
  coherent := cornerInTetrahedron.coherent_of_check (by decide)
  surfaceEmbeddings := by
    rintro id ⟨c, hc, rfl, _⟩ e he
    have hc' : c ∈ (exampleModel cornerInTetrahedron (10 * ·) .positive).surfaces.map fun c =>
      (⟨c.id, c.active, c.points.length, c.nbPolygons⟩ : TopologyComponent) := hc
    have hn : ∀ x ∈ cornerInTetrahedron.surfaces, cornerInTetrahedron.toModel.embeddings x.id = [] := by decide
    obtain ⟨f, hf, rfl⟩ := List.mem_map.1 hc'
    obtain ⟨x, hx, rfl⟩ := List.mem_map.1 hf
    have he' : e ∈ cornerInTetrahedron.toModel.embeddings x.id := he
    rw [hn x hx] at he'
    exact absurd he' List.not_mem_nil
  firstEdges := by decide +kernel
  counts := by
    rw [exampleModel_topology cornerInTetrahedron _ .positive modelRuntime (by decide) (by decide)]
    exact counts_of_check cornerInTetrahedron (by decide)
  graph := firstEdge_finder
  geometry := noGeometry_raises
  rays := example_rays _
  modelBoundaries := Or.inl rfl

set_option maxRecDepth 20000 in
/-- **C149** is false of Sections: this one, a Corner of which is not at a vertex of the Surface it is internal to, is declared valid, -/
theorem C149_section_false : ∃ (m : ModelData Nat) (c : Candidates Nat), SectionOk modelLibrary modelRuntime m c ∧ LinksKept m ∧
    PlacesOk modelLibrary m (· = ·) ∧
    (∃ c ∈ m.corners, c.active = true ∧ c.points ≠ [] ∧ ∃ s ∈ m.surfaces, s.active = true ∧ s.nbPolygons ≠ 0 ∧
      ⟨.surface, s.id⟩ ∈ m.embeddings c.id ∧ ∀ p ∈ c.points, p ∉ s.points) ∧
    ∃ v, isSectionOfValid modelLibrary modelRuntime m = .ok v ∧ v.isValid = true :=
  ⟨_, _, cornerInTriangle_ok, exampleModel_links _ _ _, exampleModel_places _ _ _ (by decide +kernel), by decide +kernel, {}, by rfl, rfl⟩

set_option maxRecDepth 20000 in
/-- and of BReps: nor is this one at a vertex of the Block it is internal to. -/
theorem C149_brep_false : ∃ (m : ModelData Nat) (c : Candidates Nat), BRepOk modelLibrary modelRuntime m c ∧ LinksKept m ∧
    PlacesOk modelLibrary m (· = ·) ∧
    (∃ c ∈ m.corners, c.active = true ∧ c.points ≠ [] ∧ ∃ b ∈ m.blocks, b.active = true ∧ b.nbPolyhedra ≠ 0 ∧
      ⟨.block, b.id⟩ ∈ m.embeddings c.id ∧ ∀ p ∈ c.points, p ∉ b.points) ∧
    ∃ v, v.isValid = true ∧ ∃ N, ∀ fuel ≥ N, isBRepOfValid modelLibrary modelRuntime fuel m = .ok v := by
  refine ⟨_, _, cornerInTetrahedron_ok, exampleModel_links _ _ _, exampleModel_places _ _ _ (by decide +kernel), by decide +kernel, {},
    rfl, 30, fun fuel hf => ?_⟩
  obtain ⟨k, rfl⟩ := Nat.exists_eq_add_of_le' hf
  rfl

set_option maxRecDepth 20000 in
/-- The Corner of the triangle has one embedding, -/
example : ((exampleModel cornerInTriangle (10 * ·) .positive).embeddings 4).length ≤ 1 := by
  obtain ⟨v, h1, h2⟩ := C149_section_partial modelLibrary modelRuntime modelRuntime_ok _ _ cornerInTriangle_ok (exampleModel_links _ _ _)
  have he : isSectionOfValid modelLibrary modelRuntime (exampleModel cornerInTriangle (10 * ·) .positive) = .ok {} := by rfl
  rw [he] at h1
  injection h1 with h1
  exact h2 (by rw [← h1]; rfl) ((exampleModel cornerInTriangle (10 * ·) .positive).corners[3]'(by decide)) (List.getElem_mem _) rfl

set_option maxRecDepth 20000 in
/-- and that of the tetrahedron the Block. -/
example : (exampleModel cornerInTetrahedron (10 * ·) .positive).embeddings 5 = [⟨.block, 31⟩] := by
  obtain ⟨v, N, h1, h2⟩ := C149_brep_partial modelLibrary modelRuntime modelRuntime_ok _ _ cornerInTetrahedron_ok
    (exampleModel_links _ _ _)
  have hv : v.isValid = true := by
    have h := h1 (N + 30) (by omega)
    have he : isBRepOfValid modelLibrary modelRuntime (N + 30) (exampleModel cornerInTetrahedron (10 * ·) .positive) = .ok {} := by rfl
    rw [he] at h
    injection h with h
    rw [← h]
    rfl
  exact h2 hv ((exampleModel cornerInTetrahedron (10 * ·) .positive).corners[4]'(by decide)) (List.getElem_mem _) rfl
    ((exampleModel cornerInTetrahedron (10 * ·) .positive).blocks[0]'(by decide)) (List.getElem_mem _) rfl (by decide +kernel)

end Inspector
