import Verif.Props.Watertight
/-
C138: the polygons of the Surfaces of a valid BRep are on the facets of the Blocks the Surfaces are related to, and of no other.
-/
namespace Inspector
open Spec

namespace BlocksOnSurfaces
variable {P : Type} {lib : ModelLibrary P} {rt : ModelRuntime} {m : ModelData P}

/-- A polygon which is not wrong is on as many facets of the Block as told by the relationships, or on none. -/
theorem counted (hf : PolygonsFound m) {s : FaceData P} (hs : s ∈ m.surfaces) {p : Index} (hp : p < s.nbPolygons)
    (hw : ¬ FacetIsWrong (m.topology rt) s.id p) {b : VolumeData P} (hb : b ∈ m.blocks) (hba : b.active = true) :
    ∃ xs : List PolyhedronFacet, xs.Nodup ∧ (∀ x, x ∈ xs ↔ FacetOn m b x s p) ∧ (xs.length = 0 ∨
      xs.length = if m.isBoundary s.id b.id then 1 else if m.isInternal s.id b.id then 2 else 0) := by
  obtain ⟨xs, hnd, hxs⟩ := Skin.listed (m := m) b s p
  refine ⟨xs, hnd, hxs, ?_⟩
  by_contra hc
  rw [not_or] at hc
  have hA : Active (m.topology rt) .block b.id := ⟨_, List.mem_map.2 ⟨b, hb, rfl⟩, rfl, hba⟩
  refine hw ⟨b.id, xs.length, (hf.blocks s hs p hp b hb _).2 ⟨hc.1, xs, hnd, rfl, hxs⟩, hA, fun h => hc.2 ?_, fun h => hc.2 ?_⟩
  · have hb1 : m.isBoundary s.id b.id = true := h.1
    rw [if_pos hb1]; exact h.2
  · have hb1 : m.isBoundary s.id b.id = false := h.1
    have hi1 : m.isInternal s.id b.id = true := h.2.1
    rw [if_neg (by rw [hb1]; decide), if_pos hi1]; exact h.2.2

/-- The inspection of the Surfaces finds no wrong polygon in a valid BRep, whatever happens to the inspection of its Lines. -/
theorem right (hv : ¬ BRepDefect lib rt m ∨ ¬ BRepDefectBesideLines lib rt m)
    (meshed : ∀ b ∈ m.blocks, b.nbPolyhedra ≠ 0) {s : FaceData P} (hs : s ∈ m.surfaces) (hsa : s.active = true)
    {p : Index} (hp : p < s.nbPolygons) : ¬ FacetIsWrong (m.topology rt) s.id p := by
  have hsin : (⟨s.id, s.active, s.points.length, s.nbPolygons⟩ : TopologyComponent) ∈
      (m.topology rt).components .surface := List.mem_map.2 ⟨s, hs, rfl⟩
  have hall : AllMeshed (m.topology rt) .block := by
    intro c hc
    obtain ⟨b', hb', rfl⟩ := List.mem_map.1 hc
    exact meshed b' hb'
  intro hw
  rcases hv with hd | hd
  · unfold BRepDefect at hd
    simp only [not_or] at hd
    obtain ⟨_, _, _, _, _, _, _, _, _, _, hdt⟩ := hd
    unfold BRepTopologyDefect at hdt
    simp only [not_or] at hdt
    obtain ⟨_, _, hul, _, _, hdf, _⟩ := hdt
    exact hdf ⟨_, hsin, hsa, fun v hv => hul ⟨.surface, by decide, _, hsin, hsa, v, hv⟩, hall, p, hp, hw⟩
  · unfold BRepDefectBesideLines at hd
    simp only [not_or] at hd
    obtain ⟨_, _, _, _, _, _, _, _, _, _, hdt⟩ := hd
    unfold OtherTopologyDefect at hdt
    simp only [not_or] at hdt
    obtain ⟨_, _, hul, _, hdf, _⟩ := hdt
    exact hdf ⟨_, hsin, hsa, fun v hv => hul ⟨.surface, by decide, _, hsin, hsa, v, hv⟩, hall, p, hp, hw⟩

end BlocksOnSurfaces

/-- **C138**, if all Blocks are meshed: when the BRep is declared valid, each polygon of an active Surface is on one facet of the
active Blocks it bounds (or on none), on two of those it is inside (or on none), and on none of the others.
Missing: the BReps with Blocks which are not meshed (see `C138_false`), the Surfaces bounding a Block without being on its facets
(see `C126_polygons_false`). -/
theorem C138_partial {P : Type} (lib : ModelLibrary P) (rt : ModelRuntime) (hrt : ModelRuntimeOk rt)
    (m : ModelData P) (c : Candidates P) (h : BRepOk lib rt m c) (found : PolygonsFound m)
    (meshed : ∀ b ∈ m.blocks, b.nbPolyhedra ≠ 0) :
    ∃ v N, (∀ fuel ≥ N, isBRepOfValid lib rt fuel m = .ok v) ∧ (v.isValid = true →
      ∀ s ∈ m.surfaces, s.active = true → ∀ p < s.nbPolygons, ∀ b ∈ m.blocks, b.active = true →
        ∃ xs : List PolyhedronFacet, xs.Nodup ∧ (∀ x, x ∈ xs ↔ FacetOn m b x s p) ∧ (xs.length = 0 ∨
          xs.length = if m.isBoundary s.id b.id then 1 else if m.isInternal s.id b.id then 2 else 0)) := by
  obtain ⟨v, N, h1, h2, h3, _⟩ := C82_brep_partial lib rt hrt m c h
  refine ⟨v, N, h1, fun hv s hs hsa p hp b hb hba => ?_⟩
  refine BlocksOnSurfaces.counted (rt := rt) found hs hp (BlocksOnSurfaces.right (lib := lib) ?_ meshed hs hsa hp) hb hba
  by_cases hu : LinesUnreadable (m.topology rt)
  · exact .inr ((h3 hu).2.1 hv)
  · exact .inl ((h2 hu).1 hv)

/-- The tetrahedron, whose faces are told to bound another Block. -/
def otherBlock : TopologyData := { tetrahedronBRep with
  boundary := tetrahedronBRep.boundary.map fun e => if e.2.type = .block then (e.1, ⟨.block, 32⟩) else e
  blocks := tetrahedronBRep.blocks ++ [⟨32, false, 4, 1⟩] }

/-- The BRep with this topology, where the other Block has no polyhedron. -/
def otherBlockModel : ModelData Nat := { exampleModel otherBlock (10 * ·) .positive with
  blocks := (exampleModel otherBlock (10 * ·) .positive).blocks.map fun b =>
    { b with nbPolyhedra := if b.id = 32 then 0 else b.nbPolyhedra } }

theorem otherBlock_components (kind : ComponentType) (rt : ModelRuntime) :
    ((otherBlockModel.topology rt).components kind).map TopologyComponent.id =
      (((exampleModel otherBlock (10 * ·) .positive).topology rt).components kind).map TopologyComponent.id := by
  cases kind <;> rfl

theorem otherBlock_has (rt : ModelRuntime) (kind : ComponentType) (id : Uuid)
    (h : Has ((exampleModel otherBlock (10 * ·) .positive).topology rt) kind id) : Has (otherBlockModel.topology rt) kind id := by
  obtain ⟨c, hc, rfl⟩ := h
  have := List.mem_map_of_mem (f := TopologyComponent.id) hc
  rw [← otherBlock_components] at this
  obtain ⟨c', hc', h⟩ := List.mem_map.1 this
  exact ⟨c', hc', h⟩

theorem otherBlock_wf (rt : ModelRuntime) : WellFormed (otherBlockModel.topology rt) := by
  have h := exampleModel_wf otherBlock (10 * ·) .positive rt (by decide) (by decide) (by decide)
  exact ⟨fun kind => by rw [otherBlock_components]; exact h.ids kind,
    fun v hv x hx => otherBlock_has rt _ _ (h.vertices v hv x hx),
    fun id x hx => otherBlock_has rt _ _ (h.embeddings id x hx),
    fun id x hx => otherBlock_has rt _ _ (h.incidences id x hx),
    fun id x hx => otherBlock_has rt _ _ (h.boundaries id x hx)⟩

theorem otherBlock_meshes : MeshesOk modelLibrary otherBlockModel := by
  have h := exampleModel_meshes otherBlock (10 * ·) .positive (by decide)
  refine { h with ids := by decide, nbComponents := by decide, blocks := ?_, blockWalks := ?_, smallPolygons := h.smallPolygons }
  · intro b hb
    obtain ⟨b', hb', rfl⟩ := List.mem_map.1 hb
    have hk := h.blocks b' hb'
    have hlt : ∀ p, p < (if b'.id = 32 then 0 else b'.nbPolyhedra) → p < b'.nbPolyhedra := by
      intro p hp
      split at hp
      · exact absurd hp (Nat.not_lt_zero _)
      · exact hp
    have hsum : ∀ (f : Index → Nat), ((List.range b'.nbPolyhedra).map f).sum < 2 ^ 32 →
        ((List.range (if b'.id = 32 then 0 else b'.nbPolyhedra)).map f).sum < 2 ^ 32 := by
      intro f hf
      split
      · exact (by decide : (0 : Nat) < 2 ^ 32)
      · exact hf
    exact ⟨hk.search, fun p k hp => hk.vertices p k (hlt p hp), fun p e f hp => hk.turns p e f (hlt p hp),
      fun p e fan hp => hk.turnsOnce p e fan (hlt p hp), hk.nbEdges, by
        show (if b'.id = 32 then 0 else b'.nbPolyhedra) < 2 ^ 32
        split
        · decide
        · exact hk.nbPolyhedra, hsum _ hk.nbPolyhedronEdges, hsum _ hk.nbFacets⟩
  · intro b hb hba v hv
    obtain ⟨b', hb', rfl⟩ := List.mem_map.1 hb
    exact h.blockWalks b' hb' hba v hv

theorem otherBlock_polygonsFound : PolygonsFound otherBlockModel := by
  have h := exampleModel_polygonsFound otherBlock (10 * ·) .positive (by decide +kernel)
  refine ⟨h.polygons, fun s hs p hp b hb n => ?_⟩
  obtain ⟨b', hb', rfl⟩ := List.mem_map.1 hb
  refine (h.blocks s hs p hp b' hb' n).trans (and_congr_right fun hn => exists_congr fun xs => and_congr_right fun _ =>
    and_congr_right fun hl => ?_)
  refine forall_congr' fun x => iff_congr Iff.rfl ?_
  by_cases hid : b'.id = 32
  · obtain ⟨c, hc, rfl⟩ := List.mem_map.1 hb'
    obtain ⟨c', hc', rfl⟩ := List.mem_map.1 hs
    have hid : c.id = 32 := hid
    constructor
    · intro hx
      obtain ⟨⟨_, hi⟩, _, _, hx⟩ := (example_facetOn otherBlock (10 * ·) .positive c c' x p).1 hx
      refine absurd ?_ hx
      rw [hid]
      exact (by decide : ∀ i < 4, none ∈ facetUvs otherBlock 32 (0, i)) x.2 hi
    · rintro ⟨⟨hx, _⟩, _⟩
      have hx : x.1 < if c.id = 32 then 0 else 1 := hx
      rw [if_pos hid] at hx
      exact absurd hx (Nat.not_lt_zero _)
  · constructor
    · rintro ⟨⟨h1, h2⟩, h3⟩
      exact ⟨⟨by show x.1 < if b'.id = 32 then 0 else b'.nbPolyhedra; rw [if_neg hid]; exact h1, h2⟩, h3⟩
    · rintro ⟨⟨h1, h2⟩, h3⟩
      have h1 : x.1 < if b'.id = 32 then 0 else b'.nbPolyhedra := h1
      rw [if_neg hid] at h1
      exact ⟨⟨h1, h2⟩, h3⟩

set_option maxRecDepth 20000 in
/-- **C138 is false** if a Block, inactive, has no polyhedron: a BRep is declared valid although a polygon of an active Surface is
on a facet of an active Block to which the Surface is not related.  (The inspection of the Surfaces then looks at no facet:
brep_surfaces_topology.cpp:443-446.) -/
theorem C138_false : ∃ (lib : ModelLibrary Nat) (rt : ModelRuntime) (m : ModelData Nat), ModelRuntimeOk rt ∧
    MeshesOk lib m ∧ WellFormed (m.topology rt) ∧ PolygonsFound m ∧
    (∃ s ∈ m.surfaces, s.active = true ∧ ∃ p, p < s.nbPolygons ∧ ∃ b ∈ m.blocks, b.active = true ∧
      m.isBoundary s.id b.id = false ∧ m.isInternal s.id b.id = false ∧ ∃ x, FacetOn m b x s p) ∧
    ∀ fuel ≥ 20, ∃ v, isBRepOfValid lib rt fuel m = .ok v ∧ v.isValid = true := by
  refine ⟨modelLibrary, modelRuntime, otherBlockModel, modelRuntime_ok, otherBlock_meshes, otherBlock_wf _,
    otherBlock_polygonsFound, ?_, fun fuel hf => ?_⟩
  · refine ⟨_, List.mem_map.2 ⟨⟨21, true, 3, 1⟩, by decide, rfl⟩, rfl, 0, by decide, _,
      List.mem_map.2 ⟨_, List.mem_map.2 ⟨⟨31, true, 4, 1⟩, by decide, rfl⟩, rfl⟩, rfl, by decide, by decide, ?_⟩
    have key : ∃ i < 4, (facetUvs otherBlock 31 (0, i)).Perm (polygonUvs otherBlock 21) ∧
        none ∉ facetUvs otherBlock 31 (0, i) := by decide +kernel
    obtain ⟨i, hi, h1, h2⟩ := key
    exact ⟨(0, i), (example_facetOn otherBlock (10 * ·) .positive ⟨31, true, 4, 1⟩ ⟨21, true, 3, 1⟩ (0, i) 0).2
      ⟨⟨Nat.one_pos, hi⟩, by decide, h1, h2⟩⟩
  · obtain ⟨N, rfl⟩ := Nat.exists_eq_add_of_le' hf
    have he : isBRepOfValid modelLibrary modelRuntime (N + 20) otherBlockModel = .ok {} := by rfl
    exact ⟨_, he, rfl⟩

set_option maxRecDepth 20000 in
/-- The face 21 of the tetrahedron, which bounds the Block, is on one of its facets: it is not on none. -/
example : ∃ xs : List PolyhedronFacet, xs.length = 1 ∧ ∀ x, x ∈ xs ↔
    FacetOn (exampleModel tetrahedronBRep (10 * ·) .positive) (exampleVolume tetrahedronBRep (10 * ·) .positive ⟨31, true, 4, 1⟩) x
      (exampleFace tetrahedronBRep (10 * ·) .positive ⟨21, true, 3, 1⟩) 0 := by
  obtain ⟨v, N, h1, h2⟩ := C138_partial modelLibrary modelRuntime modelRuntime_ok _ _ (tetrahedronBRep_ok .positive)
    (exampleModel_polygonsFound _ _ _ (by decide +kernel)) (fun b hb => by
      obtain ⟨c, hc, rfl⟩ := List.mem_map.1 hb
      exact Nat.one_ne_zero)
  have he : isBRepOfValid modelLibrary modelRuntime (N + 20) (exampleModel tetrahedronBRep (10 * ·) .positive) = .ok {} := by
    rfl
  have h := h1 (N + 20) (by omega)
  rw [he] at h
  injection h with h
  subst h
  obtain ⟨xs, _, a, b⟩ := h2 rfl _ (List.mem_map.2 ⟨⟨21, true, 3, 1⟩, by decide, rfl⟩) rfl 0 (by decide)
    _ (List.mem_singleton.2 rfl) rfl
  have hx : ∃ i < 4, (facetUvs tetrahedronBRep 31 (0, i)).Perm (polygonUvs tetrahedronBRep 21) ∧
      none ∉ facetUvs tetrahedronBRep 31 (0, i) := by decide +kernel
  obtain ⟨i, hi, hp, hn⟩ := hx
  have hx := (a (0, i)).2 ((example_facetOn tetrahedronBRep (10 * ·) .positive ⟨31, true, 4, 1⟩ ⟨21, true, 3, 1⟩ (0, i) 0).2
    ⟨⟨Nat.one_pos, hi⟩, by decide, hp, hn⟩)
  refine ⟨xs, b.resolve_left fun h0 => ?_, a⟩
  rw [List.length_eq_zero_iff] at h0
  subst h0
  exact List.not_mem_nil hx

end Inspector
