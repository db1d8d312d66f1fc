import Verif.Props.LinesOnSurfaces
import Verif.Props.BlocksOnSurfaces
/-
C152: in a valid BRep the mesh of a Surface does not go through the Lines which bound it, nor that of a Block through the Surfaces
which bound it.
-/
namespace Inspector
open Spec

/-- What OpenGeode guarantees on the facets of Blocks: opposite facets have the same vertices, and the polyhedron adjacent to another
exists and is not itself. -/
structure Spec.FacetsOpposite {P : Type} (lib : ModelLibrary P) (m : ModelData P) : Prop where
  opposite : ∀ l l', lib.isOpposite l l' = true → l.Perm l'
  adjacent : ∀ b ∈ m.blocks, ∀ x q, IsPolyhedronFacet b.toSolidMesh x → b.polyhedronAdjacent x = some q → q < b.nbPolyhedra ∧ q ≠ x.1

namespace Separated
variable {P : Type} {lib : ModelLibrary P} {rt : ModelRuntime} {m : ModelData P}

/-- Of two different elements of a list without repetition, it has at least two. -/
theorem two_of {α : Type} {xs : List α} {x y : α} (hx : x ∈ xs) (hy : y ∈ xs) (hne : y ≠ x) : 1 < xs.length := by
  match xs, hx, hy with
  | [a], hx, hy => exact absurd ((List.mem_singleton.1 hy).trans (List.mem_singleton.1 hx).symm) hne
  | _ :: _ :: _, _, _ => exact Nat.succ_lt_succ (Nat.succ_pos _)

/-- The adjacent polygon has an edge at the same place. -/
theorem other_edge (sound : FacesSound m) {s : FaceData P} (ms : s ∈ m.surfaces) (hw : ¬ ∃ x, WrongEdge s.toSurfaceMesh x)
    {x : PolygonEdge} {u v : Index} (hx : FaceEdge m s x u v) {q : Nat} (hq : s.polygonAdjacent x = some q) :
    ∃ y, y ≠ x ∧ FaceEdge m s y v u := by
  obtain ⟨hxe, a, b, hab, hu, hv⟩ := hx
  by_contra hn
  refine hw ⟨x, hxe, q, hq, ?_⟩
  rintro ⟨e', a', b', he', hab', hba, _⟩
  obtain rfl : a = a' := hab.1.symm.trans hab'.1
  obtain rfl : b = b' := hab.2.symm.trans hab'.2
  refine hn ⟨(q, e'), fun h => ?_, ⟨sound.adjacent s ms x q hxe hq, he'⟩, b, a, hba, hv, hu⟩
  have hq1 : q = x.1 := congrArg Prod.fst h
  have he1 : e' = x.2 := congrArg Prod.snd h
  rw [hq1, he1] at hba
  exact sound.noLoop s ms x a b hxe hab (hab.1.symm.trans hba.1)

/-- The adjacent polyhedron has a facet at the same place. -/
theorem other_facet (sound : FacetsOpposite lib m) {b : VolumeData P} (mb : b ∈ m.blocks)
    (hw : ¬ ∃ x, WrongFacet lib.isOpposite b.toSolidMesh x) {s : FaceData P} {p : Index} {x : PolyhedronFacet} (hx : FacetOn m b x s p)
    {q : Nat} (hq : b.polyhedronAdjacent x = some q) : ∃ y, y ≠ x ∧ FacetOn m b y s p := by
  obtain ⟨hxf, uvs, huv, hp, ws, hws, hpoly⟩ := hx
  obtain ⟨hlt, hne⟩ := sound.adjacent b mb x q hxf hq
  by_contra hn
  refine hw ⟨x, hxf, q, hq, ?_⟩
  rintro ⟨f', hf', hop, _⟩
  have hperm := (sound.opposite _ _ hop).map fun k => m.uniqueVertex ⟨⟨.block, b.id⟩, k⟩
  have hperm' : (uvs.map some).Perm ((b.polyhedronFacetVertices (q, f')).map fun k => m.uniqueVertex ⟨⟨.block, b.id⟩, k⟩) := by
    rw [← huv]
    exact hperm
  obtain ⟨ws', hws'⟩ := somes (l := (b.polyhedronFacetVertices (q, f')).map fun k => m.uniqueVertex ⟨⟨.block, b.id⟩, k⟩) fun h => by
    obtain ⟨a, _, ha⟩ := List.mem_map.1 (hperm'.mem_iff.2 h)
    cases ha
  refine hn ⟨(q, f'), fun h => hne (congrArg Prod.fst h), ⟨hlt, hf'⟩, ws', hws', hp, ws, ?_, hpoly⟩
  rw [hws'] at hperm'
  exact hws.trans (map_some_perm.1 hperm')

end Separated

/-- **C152** (Surfaces): if a BRep the wrong embeddings of the Lines of which can be described (see C54) is declared valid, the edges of
the polygons of an active Surface which are on an edge of an active Line bounding it have no adjacent polygon.  Missing: the other BReps. -/
theorem C152_surfaces_partial {P : Type} (lib : ModelLibrary P) (rt : ModelRuntime) (hrt : ModelRuntimeOk rt)
    (m : ModelData P) (c : Candidates P) (h : BRepOk lib rt m c) (hu : ¬ LinesUnreadable (m.topology rt))
    (found : EdgesFound m) (agree : RelationsAgree m) (sound : FacesSound m) :
    ∃ v N, (∀ fuel ≥ N, isBRepOfValid lib rt fuel m = .ok v) ∧ (v.isValid = true →
      ∀ l ∈ m.lines, l.active = true → ∀ e u w, LineEdge m l e u w → ∀ s ∈ m.surfaces, s.active = true →
        m.isBoundary l.id s.id = true → ∀ x, FaceEdgeOn m s x u w → s.polygonAdjacent x = none) := by
  obtain ⟨v, N, e1, h1⟩ := C137_brep_partial lib rt hrt m c h hu found agree
  obtain ⟨v3, N3, e3, h3, _⟩ := C82_brep_partial lib rt hrt m c h
  obtain rfl : v = v3 := by
    have a := e1 (N + N3) (by omega)
    have b := e3 (N + N3) (by omega)
    rw [a] at b
    injection b
  refine ⟨v, N, e1, fun hv l ml hla e u w he s ms hsa hb x hx => ?_⟩
  obtain ⟨u', w', he', hs⟩ := h1 hv l ml hla e he.1
  obtain rfl : u = u' := Option.some.inj (he.2.1.symm.trans he'.2.1)
  obtain rfl : w = w' := Option.some.inj (he.2.2.symm.trans he'.2.2)
  obtain ⟨xs, _, hxs, hlen⟩ := hs s ms hsa
  rw [if_pos hb] at hlen
  have hw : ¬ ∃ x, WrongEdge s.toSurfaceMesh x := fun hw => by
    have hd := (h3 hu).1 hv
    unfold BRepDefect at hd
    simp only [not_or] at hd
    exact hd.2.2.2.1 ⟨s, ms, hsa, .inr (.inl hw)⟩
  cases hq : s.polygonAdjacent x with
  | none => rfl
  | some q =>
    have key : ∃ y, y ≠ x ∧ FaceEdgeOn m s y u w := by
      rcases hx with hx | hx
      · obtain ⟨y, hne, hy⟩ := Separated.other_edge sound ms hw hx hq
        exact ⟨y, hne, .inr hy⟩
      · obtain ⟨y, hne, hy⟩ := Separated.other_edge sound ms hw hx hq
        exact ⟨y, hne, .inl hy⟩
    obtain ⟨y, hne, hy⟩ := key
    have := Separated.two_of ((hxs x).2 hx) ((hxs y).2 hy) hne
    omega

/-- **C152** (Blocks): if a BRep all the Blocks of which are meshed is declared valid, the facets of an active Block which are on a
polygon of an active Surface bounding it have no adjacent polyhedron. -/
theorem C152_blocks {P : Type} (lib : ModelLibrary P) (rt : ModelRuntime) (hrt : ModelRuntimeOk rt)
    (m : ModelData P) (c : Candidates P) (h : BRepOk lib rt m c) (found : PolygonsFound m)
    (meshed : ∀ b ∈ m.blocks, b.nbPolyhedra ≠ 0) (sound : FacetsOpposite lib m) :
    ∃ v N, (∀ fuel ≥ N, isBRepOfValid lib rt fuel m = .ok v) ∧ (v.isValid = true →
      ∀ s ∈ m.surfaces, s.active = true → ∀ p < s.nbPolygons, ∀ b ∈ m.blocks, b.active = true → m.isBoundary s.id b.id = true →
        ∀ x, FacetOn m b x s p → b.polyhedronAdjacent x = none) := by
  obtain ⟨v, N, e1, h1⟩ := C138_partial lib rt hrt m c h found meshed
  obtain ⟨v3, N3, e3, h3, h4, _⟩ := C82_brep_partial lib rt hrt m c h
  obtain rfl : v = v3 := by
    have a := e1 (N + N3) (by omega)
    have b := e3 (N + N3) (by omega)
    rw [a] at b
    injection b
  refine ⟨v, N, e1, fun hv s ms hsa p hp b mb hba hb x hx => ?_⟩
  obtain ⟨xs, _, hxs, hlen⟩ := h1 hv s ms hsa p hp b mb hba
  rw [if_pos hb] at hlen
  have hw : ¬ ∃ x, WrongFacet lib.isOpposite b.toSolidMesh x := fun hw => by
    by_cases hu : LinesUnreadable (m.topology rt)
    · have hd := (h4 hu).2.1 hv
      unfold BRepDefectBesideLines at hd
      simp only [not_or] at hd
      exact hd.2.2.2.2.1 ⟨b, mb, hba, .inr (.inl hw)⟩
    · have hd := (h3 hu).1 hv
      unfold BRepDefect at hd
      simp only [not_or] at hd
      exact hd.2.2.2.2.1 ⟨b, mb, hba, .inr (.inl hw)⟩
  cases hq : b.polyhedronAdjacent x with
  | none => rfl
  | some q =>
    obtain ⟨y, hne, hy⟩ := Separated.other_facet sound mb hw hx hq
    have := Separated.two_of ((hxs x).2 hx) ((hxs y).2 hy) hne
    omega

theorem exampleModel_opposite (d : TopologyData) (sign : Sign) : FacetsOpposite modelLibrary (exampleModel d (10 * ·) sign) where
  opposite l l' h := by
    have h : l = l'.reverse := eq_of_beq h
    rw [h]
    exact List.reverse_perm l'
  adjacent b hb x q _ hq := by
    obtain ⟨c, _, rfl⟩ := List.mem_map.1 hb
    cases hq

set_option maxRecDepth 20000 in
/-- The first edge of a face of the tetrahedron is on a Line: it has no adjacent polygon. -/
example : ((exampleModel tetrahedronBRep (10 * ·) .positive).surfaces[0]'(by decide)).polygonAdjacent (0, 0) = none := by
  obtain ⟨v, N, h1, h2⟩ := C152_surfaces_partial modelLibrary modelRuntime modelRuntime_ok _ _ (tetrahedronBRep_ok .positive)
    (tetrahedronBRep_readable .positive) (exampleModel_edgesFound _ _ _ (by decide +kernel))
    (LinesOnSurfaces.agree_of_check _ (by decide) (by decide)) (exampleModel_sound_faces _ _ _)
  have he : isBRepOfValid modelLibrary modelRuntime (N + 20) (exampleModel tetrahedronBRep (10 * ·) .positive) = .ok {} := by
    rfl
  have h := h1 (N + 20) (by omega)
  rw [he] at h
  injection h with h
  subst h
  exact h2 rfl ((exampleModel tetrahedronBRep (10 * ·) .positive).lines[0]'(by decide)) (List.getElem_mem _) rfl 0 0 1
    ⟨by decide, by decide, by decide⟩ _ (List.getElem_mem _) rfl (by decide)
    (0, 0) (.inl ((example_faceEdge tetrahedronBRep (10 * ·) .positive ⟨21, true, 3, 1⟩ 0 0 0 1).2
      ⟨⟨by decide, by decide⟩, by decide, by decide⟩))

set_option maxRecDepth 20000 in
/-- The facets of the tetrahedron which are on its face 21 (there is one) have no adjacent polyhedron. -/
example : ∃ i < 4, FacetOn (exampleModel tetrahedronBRep (10 * ·) .positive) (exampleVolume tetrahedronBRep (10 * ·) .positive ⟨31, true, 4, 1⟩)
      (0, i) (exampleFace tetrahedronBRep (10 * ·) .positive ⟨21, true, 3, 1⟩) 0 ∧
    (exampleVolume tetrahedronBRep (10 * ·) .positive ⟨31, true, 4, 1⟩).polyhedronAdjacent (0, i) = none := by
  obtain ⟨v, N, h1, h2⟩ := C152_blocks modelLibrary modelRuntime modelRuntime_ok _ _ (tetrahedronBRep_ok .positive)
    (exampleModel_polygonsFound _ _ _ (by decide +kernel)) (by decide +kernel) (exampleModel_opposite _ _)
  have he : isBRepOfValid modelLibrary modelRuntime (N + 20) (exampleModel tetrahedronBRep (10 * ·) .positive) = .ok {} := by
    rfl
  have h := h1 (N + 20) (by omega)
  rw [he] at h
  injection h with h
  subst h
  have key : ∃ i < 4, (facetUvs tetrahedronBRep 31 (0, i)).Perm (polygonUvs tetrahedronBRep 21) ∧
      none ∉ facetUvs tetrahedronBRep 31 (0, i) := by decide +kernel
  obtain ⟨i, hi, k1, k2⟩ := key
  have hf := (example_facetOn tetrahedronBRep (10 * ·) .positive ⟨31, true, 4, 1⟩ ⟨21, true, 3, 1⟩ (0, i) 0).2
      ⟨⟨Nat.one_pos, hi⟩, by decide, k1, k2⟩
  exact ⟨i, hi, hf, h2 rfl _ (List.mem_map.2 ⟨⟨21, true, 3, 1⟩, by decide, rfl⟩) rfl 0 (by decide) _ (List.mem_singleton.2 rfl) rfl
    (by decide) _ hf⟩

end Inspector
