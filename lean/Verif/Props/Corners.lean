import Verif.Props.LineEnds
/-
C141: the Corners of a valid model are at different places, and each of them has a vertex and is part of something.
-/
namespace Inspector
open Spec SamePlace

/-- The active Corners have a mesh, are part of a component, and their vertices are at places all different. -/
structure Spec.CornersApart {P : Type} (near : P → P → Prop) (m : ModelData P) : Prop where
  meshed : ∀ c ∈ m.corners, c.active = true → c.points ≠ []
  related : ∀ c ∈ m.corners, c.active = true → m.embeddings c.id ≠ [] ∨ m.incidences c.id ≠ []
  apart : ∀ c ∈ m.corners, ∀ c' ∈ m.corners, c.active = true → c'.active = true → ∀ (i i' : Nat) (p p' : P),
    c.points[i]? = some p → c'.points[i']? = some p' → near p p' → c.id = c'.id ∧ i = i'

namespace Corners
variable {P : Type} {lib : ModelLibrary P} {rt : ModelRuntime} {m : ModelData P}

theorem apart (near : P → P → Prop) (hl : PlacesOk lib m near) (hk : LinksKept m)
    (hids : (m.corners.map CornerData.id ++ m.lines.map LineData.id ++ m.surfaces.map FaceData.id ++
      m.blocks.map VolumeData.id).Nodup) (kinds kinds' : List ComponentType)
    (hc : .corner ∈ kinds')
    (h1 : ¬ ∃ uv, uv < m.nbUniqueVertices ∧ DifferentPoints lib.inexactEqual (m.uniqueVertices lib) uv)
    (h2 : ¬ HasColocatedUniqueVertices lib m) (h3 : BijectivelyLinked (m.topology rt) kinds)
    (h4 : ¬ HasUnmeshedComponent (m.topology rt) kinds') (h5 : ¬ HasUnlinkedVertex (m.topology rt) kinds')
    (h6 : ∀ u < m.nbUniqueVertices, ¬ TwiceActive (m.topology rt) u .corner ∧ ¬ CornerAlone (m.topology rt) u) :
    CornersApart near m := by
  have hm : ∀ c ∈ m.corners, c.active = true → c.points ≠ [] := by
    intro c mc ha he
    refine h4 ⟨.corner, hc, _, List.mem_map_of_mem mc, ha, fun hM => hM.1 ?_⟩
    show c.points.length = 0
    rw [he]
    rfl
  refine ⟨hm, fun c mc ha => ?_, fun c mc c' mc' ha ha' i i' p p' hp hp' hn => ?_⟩
  · obtain ⟨p, hp⟩ := List.exists_mem_of_ne_nil _ (hm c mc ha)
    obtain ⟨i, hi, rfl⟩ := List.getElem_of_mem hp
    have hx := VertexAt.corner c i _ mc ha (List.getElem?_eq_getElem hi)
    obtain ⟨u, hu⟩ := linked_of_no_defect m rt _ h5 _ _ hx hc
    by_contra hne
    simp only [not_or, ne_eq, not_not] at hne
    exact (h6 u (hk _ _ hu).1).2 ⟨c.id, LineEnds.activeAt rt hk hx hu, hne.1, hne.2⟩
  · have hx := VertexAt.corner c i p mc ha hp
    have hy := VertexAt.corner c' i' p' mc' ha' hp'
    obtain ⟨u, hu⟩ := linked_of_no_defect m rt _ h5 _ _ hx hc
    obtain ⟨u', hu'⟩ := linked_of_no_defect m rt _ h5 _ _ hy hc
    obtain rfl := (correspond lib near m rt hl hids hk _ h3 h1 h2 _ _ _ _ hx hy u u' hu hu').2 hn
    by_contra hne
    obtain ⟨hlt, mx⟩ := hk _ u hu
    obtain ⟨_, my⟩ := hk _ u hu'
    refine (h6 u hlt).1 ?_
    have ax := LineEnds.active_of_vertex rt hx
    have ay := LineEnds.active_of_vertex rt hy
    rcases LineEnds.both mx my (fun he => hne (by injection he with a b; injection a with _ a; exact ⟨a, b⟩)) with h | h
    · exact ⟨_, _, h, rfl, ax, rfl, ay⟩
    · exact ⟨_, _, h, rfl, ay, rfl, ax⟩

end Corners

/-- **C141** (Sections): the Corners of a Section declared valid have a mesh, are part of a component and are at different places. -/
theorem C141_section {P : Type} (lib : ModelLibrary P) (rt : ModelRuntime) (hrt : ModelRuntimeOk rt) (m : ModelData P)
    (c : Candidates P) (h : SectionOk lib rt m c) (near : P → P → Prop) (hl : PlacesOk lib m near) (hk : LinksKept m) :
    ∃ v, isSectionOfValid lib rt m = .ok v ∧ (v.isValid = true → CornersApart near m) := by
  obtain ⟨v, h1, h2⟩ := C82_section lib rt hrt m c h
  refine ⟨v, h1, fun hv => ?_⟩
  have hd := h2.1 hv
  unfold SectionDefect SectionTopologyDefect at hd
  simp only [not_or, not_not] at hd
  refine Corners.apart near hl hk h.meshes.ids _ sectionKinds List.mem_cons_self hd.1 hd.2.1 hd.2.2.2.2.2.1
    hd.2.2.2.2.2.2.1 hd.2.2.2.2.2.2.2.1 fun u hu => ?_
  have hw := fun hw => hd.2.2.2.2.2.2.2.2 ⟨u, hu, hw⟩
  unfold SectionVertexDefect at hw
  exact ⟨fun h => hw (.inl h), fun h => hw (.inr (.inr (.inl h)))⟩

/-- **C141** (BReps): the Corners of a BRep declared valid have a mesh, are part of a component and are at different places. -/
theorem C141_brep {P : Type} (lib : ModelLibrary P) (rt : ModelRuntime) (hrt : ModelRuntimeOk rt) (m : ModelData P)
    (c : Candidates P) (h : BRepOk lib rt m c) (near : P → P → Prop) (hl : PlacesOk lib m near) (hk : LinksKept m) :
    ∃ v N, (∀ fuel ≥ N, isBRepOfValid lib rt fuel m = .ok v) ∧ (v.isValid = true → CornersApart near m) := by
  obtain ⟨v, N, h1, h2, h3, _⟩ := C82_brep_partial lib rt hrt m c h
  refine ⟨v, N, h1, fun hv => ?_⟩
  by_cases hu : LinesUnreadable (m.topology rt)
  · have hd := (h3 hu).2.1 hv
    unfold BRepDefectBesideLines OtherTopologyDefect at hd
    simp only [not_or, not_not] at hd
    refine Corners.apart near hl hk h.meshesKnown.ids _ [.corner, .surface] List.mem_cons_self hd.1 hd.2.1
      hd.2.2.2.2.2.2.2.2.2.2.1 hd.2.2.2.2.2.2.2.2.2.2.2.1 hd.2.2.2.2.2.2.2.2.2.2.2.2.1 fun u hu => ?_
    have hw := fun hw => hd.2.2.2.2.2.2.2.2.2.2.2.2.2.1 ⟨u, hu, hw⟩
    exact ⟨fun h => hw (.inl h), fun h => hw (.inr (.inr (.inl h)))⟩
  · have hd := (h2 hu).1 hv
    unfold BRepDefect BRepTopologyDefect at hd
    simp only [not_or, not_not] at hd
    refine Corners.apart near hl hk h.meshesKnown.ids _ sectionKinds List.mem_cons_self hd.1 hd.2.1
      hd.2.2.2.2.2.2.2.2.2.2.1 hd.2.2.2.2.2.2.2.2.2.2.2.1 hd.2.2.2.2.2.2.2.2.2.2.2.2.1 fun u hu => ?_
    have hw := fun hw => hd.2.2.2.2.2.2.2.2.2.2.2.2.2.1 ⟨u, hu, hw⟩
    unfold BRepVertexDefect at hw
    exact ⟨fun h => hw (.inl h), fun h => hw (.inr (.inr (.inl h)))⟩

set_option maxRecDepth 20000 in
/-- The three Corners of a triangle, -/
example : CornersApart (· = ·) (exampleModel triangleSection (10 * ·) .positive) ∧
    ((exampleModel triangleSection (10 * ·) .positive).corners.map CornerData.active) = [true, true, true] := by
  obtain ⟨v, h1, h2⟩ := C141_section modelLibrary modelRuntime modelRuntime_ok _ _ (triangleSection_ok .positive)
    (· = ·) (exampleModel_places _ _ _ (by decide +kernel)) (exampleModel_links _ _ _)
  refine ⟨h2 ?_, rfl⟩
  have he : isSectionOfValid modelLibrary modelRuntime (exampleModel triangleSection (10 * ·) .positive) = .ok {} := by rfl
  rw [he] at h1
  injection h1 with h1
  rw [← h1]
  rfl

/-- and those of a tetrahedron. -/
example : CornersApart (· = ·) (exampleModel tetrahedronBRep (10 * ·) .positive) ∧
    (exampleModel tetrahedronBRep (10 * ·) .positive).corners.map CornerData.active = [true, true, true, true] := by
  obtain ⟨v, N, h1, h2⟩ := C141_brep modelLibrary modelRuntime modelRuntime_ok _ _ (tetrahedronBRep_ok .positive)
    (· = ·) (exampleModel_places _ _ _ (by decide +kernel)) (exampleModel_links _ _ _)
  exact ⟨h2 (LineEnds.tetrahedron_isValid h1), rfl⟩

end Inspector
