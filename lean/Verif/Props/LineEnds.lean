import Verif.Props.SamePlace
import Verif.Props.PolygonsFalse
/-
C136: the Corners and the Lines of a Section or of a BRep declared valid which are at the same place.
-/
namespace Inspector
open Spec SamePlace

namespace LineEnds
variable {P : Type} {lib : ModelLibrary P} {rt : ModelRuntime} {m : ModelData P}

/-- Two elements of a list are at two positions of it. -/
theorem both {α : Type} : ∀ {l : List α} {a b : α}, a ∈ l → b ∈ l → a ≠ b → [a, b].Sublist l ∨ [b, a].Sublist l
  | [], _, _, ha, _, _ => absurd ha List.not_mem_nil
  | c :: l, a, b, ha, hb, h => by
    rcases List.mem_cons.1 ha with rfl | ha
    · rcases List.mem_cons.1 hb with rfl | hb
      · exact absurd rfl h
      · exact .inl ((List.singleton_sublist.2 hb).cons_cons _)
    · rcases List.mem_cons.1 hb with hb | hb
      · exact .inr (hb ▸ (List.singleton_sublist.2 ha).cons_cons b)
      · exact (both ha hb h).imp (·.cons _) (·.cons _)

theorem active_of_vertex (rt : ModelRuntime) {x : ComponentMeshVertex} {p : P} (hx : VertexAt m x p) :
    Active (m.topology rt) x.component_id.type x.component_id.id := by
  cases hx with
  | corner c v _ hc ha _ => exact ⟨⟨c.id, c.active, c.points.length, 0⟩, List.mem_map_of_mem hc, rfl, ha⟩
  | line l v _ hl ha _ => exact ⟨⟨l.id, l.active, l.points.length, l.nbEdges⟩, List.mem_map_of_mem hl, rfl, ha⟩
  | surface s v _ hs ha _ => exact ⟨⟨s.id, s.active, s.points.length, s.nbPolygons⟩, List.mem_map_of_mem hs, rfl, ha⟩
  | block b v _ hb ha _ => exact ⟨⟨b.id, b.active, b.points.length, b.nbPolyhedra⟩, List.mem_map_of_mem hb, rfl, ha⟩

theorem activeAt (rt : ModelRuntime) (hk : LinksKept m) {x : ComponentMeshVertex} {p : P} (hx : VertexAt m x p) {u : Index}
    (hu : m.uniqueVertex x = some u) : ActiveAt (m.topology rt) u x.component_id.type x.component_id.id :=
  ⟨⟨x, (hk x u hu).2, rfl⟩, active_of_vertex rt hx⟩

/-- Where two vertices of active Lines have the same unique vertex, there is a Corner. -/
theorem corner_of (hk : LinksKept m) (kinds : List ComponentType)
    (hb : BijectivelyLinked (m.topology rt) kinds) {u : Index} (hw : ¬ LinesWithoutCorner (m.topology rt) u)
    {x y : ComponentMeshVertex} {p q : P} (hx : VertexAt m x p) (hy : VertexAt m y q) (tx : x.component_id.type = .line)
    (ty : y.component_id.type = .line) (hxy : x ≠ y) (hu : m.uniqueVertex x = some u) (hu' : m.uniqueVertex y = some u) :
    ∃ c ∈ m.corners, c.active = true → ∃ i, ∃ r ∈ c.points, VertexAt m ⟨⟨.corner, c.id⟩, i⟩ r ∧
      m.uniqueVertex ⟨⟨.corner, c.id⟩, i⟩ = some u := by
  obtain ⟨hlt, mx⟩ := hk x u hu
  obtain ⟨_, my⟩ := hk y u hu'
  have ax := tx ▸ active_of_vertex rt hx
  have ay := ty ▸ active_of_vertex rt hy
  have ht : TwiceActive (m.topology rt) u .line := by
    rcases both mx my hxy with h | h
    · exact ⟨x, y, h, tx, ax, ty, ay⟩
    · exact ⟨y, x, h, ty, ay, tx, ax⟩
  have hc : ∃ corner, At (m.topology rt) u .corner corner := by
    by_contra hn
    exact hw ⟨ht, hn⟩
  obtain ⟨corner, cmv, hcmv, hid⟩ := hc
  obtain ⟨he, hact⟩ := (hb u hlt).2 cmv hcmv
  obtain ⟨_, t, ht, htid, hv⟩ := he
  rw [hid] at ht htid
  obtain ⟨c, hc, rfl⟩ := List.mem_map.1 (show t ∈ m.corners.map fun c => (⟨c.id, c.active, c.points.length, 0⟩ :
    TopologyComponent) from ht)
  have htid : c.id = corner := htid
  subst htid
  refine ⟨c, hc, fun ha => ?_⟩
  have hA : Active (m.topology rt) .corner c.id := ⟨_, List.mem_map_of_mem hc, rfl, ha⟩
  obtain ⟨id, i⟩ := cmv
  have hid : id = ⟨.corner, c.id⟩ := hid
  subst hid
  exact ⟨i, _, List.getElem_mem hv, VertexAt.corner c i _ hc ha (List.getElem?_eq_getElem hv), hact hA⟩

/-- What is known of the Corners and Lines of a Section declared valid. -/
theorem of_section (hrt : ModelRuntimeOk rt) (c : Candidates P) (h : SectionOk lib rt m c) :
    ∃ v, isSectionOfValid lib rt m = .ok v ∧ (v.isValid = true →
      (¬ ∃ uv, uv < m.nbUniqueVertices ∧ DifferentPoints lib.inexactEqual (m.uniqueVertices lib) uv) ∧
      ¬ HasColocatedUniqueVertices lib m ∧ BijectivelyLinked (m.topology rt) sectionKinds ∧
      ¬ HasUnlinkedVertex (m.topology rt) sectionKinds ∧
      ∀ u < m.nbUniqueVertices, ¬ CornerNotBoundaryOfLine (m.topology rt) u ∧ ¬ LinesWithoutCorner (m.topology rt) u) := by
  obtain ⟨v, h1, h2⟩ := C82_section lib rt hrt m c h
  refine ⟨v, h1, fun hv => ?_⟩
  have hd := h2.1 hv
  unfold SectionDefect SectionTopologyDefect at hd
  simp only [not_or, not_not] at hd
  refine ⟨hd.1, hd.2.1, hd.2.2.2.2.2.1, hd.2.2.2.2.2.2.2.1, fun u hu => ?_⟩
  have hw := fun hw => hd.2.2.2.2.2.2.2.2 ⟨u, hu, hw⟩
  unfold SectionVertexDefect at hw
  exact ⟨fun h => hw (.inr (.inr (.inr (.inl h)))), fun h => hw (.inr (.inr (.inr (.inr (.inr (.inr (.inr (.inl h))))))))⟩

/-- What is known of the Corners and Lines of a BRep declared valid, if no active Line is in a Block. -/
theorem of_brep (hrt : ModelRuntimeOk rt) (c : Candidates P) (h : BRepOk lib rt m c)
    (hs : ∀ l ∈ m.lines, l.active = true → ∀ e ∈ m.embeddings l.id, e.type = .surface) :
    ∃ v N, (∀ fuel ≥ N, isBRepOfValid lib rt fuel m = .ok v) ∧ (v.isValid = true →
      (¬ ∃ uv, uv < m.nbUniqueVertices ∧ DifferentPoints lib.inexactEqual (m.uniqueVertices lib) uv) ∧
      ¬ HasColocatedUniqueVertices lib m ∧ BijectivelyLinked (m.topology rt) brepKinds ∧
      ¬ HasUnlinkedVertex (m.topology rt) sectionKinds ∧
      ∀ u < m.nbUniqueVertices, ¬ CornerNotOnLine (m.topology rt) u ∧ ¬ LinesWithoutCorner (m.topology rt) u) := by
  obtain ⟨v, N, h1, h2, _⟩ := C82_brep_partial lib rt hrt m c h
  refine ⟨v, N, h1, fun hv => ?_⟩
  have hu : ¬ LinesUnreadable (m.topology rt) := by
    refine C68_surfaces_readable _ h.topology fun line hl e he => ?_
    obtain ⟨t, ht, rfl, ha⟩ := hl
    obtain ⟨l, hl, rfl⟩ := List.mem_map.1 (show t ∈ m.lines.map fun l => (⟨l.id, l.active, l.points.length, l.nbEdges⟩ :
      TopologyComponent) from ht)
    exact hs l hl ha e he
  have hd := (h2 hu).1 hv
  unfold BRepDefect BRepTopologyDefect at hd
  simp only [not_or, not_not] at hd
  refine ⟨hd.1, hd.2.1, hd.2.2.2.2.2.2.2.2.2.2.1, hd.2.2.2.2.2.2.2.2.2.2.2.2.1, fun u hu => ?_⟩
  have hw := fun hw => hd.2.2.2.2.2.2.2.2.2.2.2.2.2.1 ⟨u, hu, hw⟩
  unfold BRepVertexDefect at hw
  exact ⟨fun h => hw (.inr (.inr (.inr (.inl h)))), fun h => hw (.inr (.inr (.inr (.inr (.inr (.inr (.inr (.inl h))))))))⟩

end LineEnds
open LineEnds

/-- **C136** (Sections): if a Section is declared valid, where two vertices of active Lines are at the same place there is a Corner,
and, if it is active, it is at this place and bounds the Lines.  Missing: the ends of Lines at which there is no other vertex of a
Line (false, see `C136_false`). -/
theorem C136_section_partial {P : Type} (lib : ModelLibrary P) (rt : ModelRuntime) (hrt : ModelRuntimeOk rt) (m : ModelData P)
    (c : Candidates P) (h : SectionOk lib rt m c) (near : P → P → Prop) (hl : PlacesOk lib m near) (hk : LinksKept m) :
    ∃ v, isSectionOfValid lib rt m = .ok v ∧ (v.isValid = true →
      ∀ l ∈ m.lines, ∀ l' ∈ m.lines, l.active = true → l'.active = true → ∀ (i i' : Nat) (p p' : P),
        l.points[i]? = some p → l'.points[i']? = some p' → (l.id, i) ≠ (l'.id, i') → near p p' →
        ∃ corner ∈ m.corners, corner.active = true → (∃ r ∈ corner.points, near r p) ∧
          m.isBoundary corner.id l.id = true ∧ m.isBoundary corner.id l'.id = true) := by
  obtain ⟨v, h1, h2⟩ := of_section hrt c h
  refine ⟨v, h1, fun hv l ml l' ml' ha ha' i i' p p' hp hp' hne hn => ?_⟩
  obtain ⟨d1, d2, d3, d4, d5⟩ := h2 hv
  have hx := VertexAt.line l i p ml ha hp
  have hy := VertexAt.line l' i' p' ml' ha' hp'
  obtain ⟨u, hu⟩ := linked_of_no_defect m rt _ d4 _ _ hx (List.mem_cons_of_mem _ List.mem_cons_self)
  obtain ⟨u', hu'⟩ := linked_of_no_defect m rt _ d4 _ _ hy (List.mem_cons_of_mem _ List.mem_cons_self)
  obtain rfl := (correspond lib near m rt hl h.meshes.ids hk _ d3 d1 d2 _ _ _ _ hx hy u u' hu hu').2 hn
  obtain ⟨d6, d7⟩ := d5 u (hk _ _ hu).1
  obtain ⟨corner, mc, hc⟩ := corner_of hk _ d3 d7 hx hy rfl rfl
    (fun he => hne (by injection he with a b; injection a with _ a; rw [a, b])) hu hu'
  refine ⟨corner, mc, fun hca => ?_⟩
  obtain ⟨k, r, mr, hz, hw⟩ := hc hca
  refine ⟨⟨r, mr, (correspond lib near m rt hl h.meshes.ids hk _ d3 d1 d2 _ _ _ _ hz hx u u hw hu).1 rfl⟩, ?_, ?_⟩
  · by_contra hb
    exact d6 ⟨corner.id, l.id, activeAt rt hk hz hw, (activeAt rt hk hx hu).1, Bool.eq_false_iff.2 hb⟩
  · by_contra hb
    exact d6 ⟨corner.id, l'.id, activeAt rt hk hz hw, (activeAt rt hk hy hu').1, Bool.eq_false_iff.2 hb⟩

/-- **C136** (Corners and Lines of a Section): if a Section is declared valid, an active Corner at the place of a vertex of an active
Line bounds it. -/
theorem C136_section_corners {P : Type} (lib : ModelLibrary P) (rt : ModelRuntime) (hrt : ModelRuntimeOk rt) (m : ModelData P)
    (c : Candidates P) (h : SectionOk lib rt m c) (near : P → P → Prop) (hl : PlacesOk lib m near) (hk : LinksKept m) :
    ∃ v, isSectionOfValid lib rt m = .ok v ∧ (v.isValid = true →
      ∀ corner ∈ m.corners, ∀ l ∈ m.lines, corner.active = true → l.active = true →
        ∀ r ∈ corner.points, ∀ p ∈ l.points, near r p → m.isBoundary corner.id l.id = true) := by
  obtain ⟨v, h1, h2⟩ := of_section hrt c h
  refine ⟨v, h1, fun hv corner mc l ml hca ha r hr p hp hn => ?_⟩
  obtain ⟨d1, d2, d3, d4, d5⟩ := h2 hv
  obtain ⟨k, hk', rfl⟩ := List.getElem_of_mem hr
  obtain ⟨i, hi, rfl⟩ := List.getElem_of_mem hp
  have hz := VertexAt.corner corner k _ mc hca (List.getElem?_eq_getElem hk')
  have hx := VertexAt.line l i _ ml ha (List.getElem?_eq_getElem hi)
  obtain ⟨u, hw⟩ := linked_of_no_defect m rt _ d4 _ _ hz List.mem_cons_self
  obtain ⟨u', hu⟩ := linked_of_no_defect m rt _ d4 _ _ hx (List.mem_cons_of_mem _ List.mem_cons_self)
  obtain rfl := (correspond lib near m rt hl h.meshes.ids hk _ d3 d1 d2 _ _ _ _ hz hx u u' hw hu).2 hn
  obtain ⟨d6, _⟩ := d5 u (hk _ _ hu).1
  by_contra hb
  exact d6 ⟨corner.id, l.id, activeAt rt hk hz hw, (activeAt rt hk hx hu).1, Bool.eq_false_iff.2 hb⟩

/-- **C136** (BReps): if a BRep is declared valid, where two vertices of active Lines are at the same place there is a Corner,
and, if it is active, it is at this place and bounds, or is internal to, the Lines.  Missing: the ends of Lines at which there is no other vertex of a
Line (false, see `C136_false`), and the BReps whose active Lines are in Blocks (see C54). -/
theorem C136_brep_partial {P : Type} (lib : ModelLibrary P) (rt : ModelRuntime) (hrt : ModelRuntimeOk rt) (m : ModelData P)
    (c : Candidates P) (h : BRepOk lib rt m c) (near : P → P → Prop) (hl : PlacesOk lib m near) (hk : LinksKept m)
    (hs : ∀ l ∈ m.lines, l.active = true → ∀ e ∈ m.embeddings l.id, e.type = .surface) :
    ∃ v N, (∀ fuel ≥ N, isBRepOfValid lib rt fuel m = .ok v) ∧ (v.isValid = true →
      ∀ l ∈ m.lines, ∀ l' ∈ m.lines, l.active = true → l'.active = true → ∀ (i i' : Nat) (p p' : P),
        l.points[i]? = some p → l'.points[i']? = some p' → (l.id, i) ≠ (l'.id, i') → near p p' →
        ∃ corner ∈ m.corners, corner.active = true → (∃ r ∈ corner.points, near r p) ∧
          (m.isBoundary corner.id l.id = true ∨ m.isInternal corner.id l.id = true) ∧ (m.isBoundary corner.id l'.id = true ∨ m.isInternal corner.id l'.id = true)) := by
  obtain ⟨v, N, h1, h2⟩ := of_brep hrt c h hs
  refine ⟨v, N, h1, fun hv l ml l' ml' ha ha' i i' p p' hp hp' hne hn => ?_⟩
  obtain ⟨d1, d2, d3, d4, d5⟩ := h2 hv
  have hx := VertexAt.line l i p ml ha hp
  have hy := VertexAt.line l' i' p' ml' ha' hp'
  obtain ⟨u, hu⟩ := linked_of_no_defect m rt _ d4 _ _ hx (List.mem_cons_of_mem _ List.mem_cons_self)
  obtain ⟨u', hu'⟩ := linked_of_no_defect m rt _ d4 _ _ hy (List.mem_cons_of_mem _ List.mem_cons_self)
  obtain rfl := (correspond lib near m rt hl h.meshesKnown.ids hk _ d3 d1 d2 _ _ _ _ hx hy u u' hu hu').2 hn
  obtain ⟨d6, d7⟩ := d5 u (hk _ _ hu).1
  obtain ⟨corner, mc, hc⟩ := corner_of hk _ d3 d7 hx hy rfl rfl
    (fun he => hne (by injection he with a b; injection a with _ a; rw [a, b])) hu hu'
  refine ⟨corner, mc, fun hca => ?_⟩
  obtain ⟨k, r, mr, hz, hw⟩ := hc hca
  refine ⟨⟨r, mr, (correspond lib near m rt hl h.meshesKnown.ids hk _ d3 d1 d2 _ _ _ _ hz hx u u hw hu).1 rfl⟩, ?_, ?_⟩
  · by_contra hb
    rw [not_or] at hb
    exact d6 ⟨corner.id, l.id, activeAt rt hk hz hw, activeAt rt hk hx hu, Bool.eq_false_iff.2 hb.1, fun hi => hb.2 hi.1⟩
  · by_contra hb
    rw [not_or] at hb
    exact d6 ⟨corner.id, l'.id, activeAt rt hk hz hw, activeAt rt hk hy hu', Bool.eq_false_iff.2 hb.1, fun hi => hb.2 hi.1⟩

/-- **C136** (Corners and Lines of a BRep): if a BRep is declared valid, an active Corner at the place of a vertex of an active
Line bounds it or is internal to it. -/
theorem C136_brep_corners_partial {P : Type} (lib : ModelLibrary P) (rt : ModelRuntime) (hrt : ModelRuntimeOk rt) (m : ModelData P)
    (c : Candidates P) (h : BRepOk lib rt m c) (near : P → P → Prop) (hl : PlacesOk lib m near) (hk : LinksKept m)
    (hs : ∀ l ∈ m.lines, l.active = true → ∀ e ∈ m.embeddings l.id, e.type = .surface) :
    ∃ v N, (∀ fuel ≥ N, isBRepOfValid lib rt fuel m = .ok v) ∧ (v.isValid = true →
      ∀ corner ∈ m.corners, ∀ l ∈ m.lines, corner.active = true → l.active = true →
        ∀ r ∈ corner.points, ∀ p ∈ l.points, near r p → m.isBoundary corner.id l.id = true ∨ m.isInternal corner.id l.id = true) := by
  obtain ⟨v, N, h1, h2⟩ := of_brep hrt c h hs
  refine ⟨v, N, h1, fun hv corner mc l ml hca ha r hr p hp hn => ?_⟩
  obtain ⟨d1, d2, d3, d4, d5⟩ := h2 hv
  obtain ⟨k, hk', rfl⟩ := List.getElem_of_mem hr
  obtain ⟨i, hi, rfl⟩ := List.getElem_of_mem hp
  have hz := VertexAt.corner corner k _ mc hca (List.getElem?_eq_getElem hk')
  have hx := VertexAt.line l i _ ml ha (List.getElem?_eq_getElem hi)
  obtain ⟨u, hw⟩ := linked_of_no_defect m rt _ d4 _ _ hz List.mem_cons_self
  obtain ⟨u', hu⟩ := linked_of_no_defect m rt _ d4 _ _ hx (List.mem_cons_of_mem _ List.mem_cons_self)
  obtain rfl := (correspond lib near m rt hl h.meshesKnown.ids hk _ d3 d1 d2 _ _ _ _ hz hx u u' hw hu).2 hn
  obtain ⟨d6, _⟩ := d5 u (hk _ _ hu).1
  by_contra hb
  rw [not_or] at hb
  exact d6 ⟨corner.id, l.id, activeAt rt hk hz hw, activeAt rt hk hx hu, Bool.eq_false_iff.2 hb.1, fun hi => hb.2 hi.1⟩

/-! ### a Line which ends in a Surface -/

/-- A triangle, with a Line in its Surface from one of its Corners to its centre, at which there is no Corner. -/
def openLine : TopologyData where
  corners := triangleSection.corners
  lines := triangleSection.lines ++ [⟨14, true, 2, 1⟩]
  surfaces := [⟨21, true, 5, 3⟩]
  vertices := [
    [⟨⟨.corner, 1⟩, 0⟩, ⟨⟨.line, 11⟩, 0⟩, ⟨⟨.line, 13⟩, 1⟩, ⟨⟨.line, 14⟩, 0⟩, ⟨⟨.surface, 21⟩, 0⟩,
      ⟨⟨.surface, 21⟩, 4⟩],
    [⟨⟨.corner, 2⟩, 0⟩, ⟨⟨.line, 12⟩, 0⟩, ⟨⟨.line, 11⟩, 1⟩, ⟨⟨.surface, 21⟩, 1⟩],
    [⟨⟨.corner, 3⟩, 0⟩, ⟨⟨.line, 13⟩, 0⟩, ⟨⟨.line, 12⟩, 1⟩, ⟨⟨.surface, 21⟩, 2⟩],
    [⟨⟨.line, 14⟩, 1⟩, ⟨⟨.surface, 21⟩, 3⟩]]
  boundary := triangleSection.boundary ++ [(⟨.corner, 1⟩, ⟨.line, 14⟩)]
  internal := [(⟨.line, 14⟩, ⟨.surface, 21⟩)]
  border := [(21, 0), (21, 1), (21, 2), (21, 3), (21, 4)]

/-- Its Surface: three triangles around the centre, which is the vertex 3; the mesh is cut along the Line, so that its vertices 0 and 4
are both at the first Corner. -/
def fanFace : FaceData Nat where
  id := 21
  active := true
  nbPolygons := 3
  nbPolygonVertices _ := 3
  polygonVertex x := ([[0, 1, 3], [1, 2, 3], [2, 4, 3]].getD x.1 []).getD x.2 0
  polygonAdjacent x := if x = (0, 1) ∨ x = (2, 2) then some 1 else if x = (1, 1) then some 2 else if x = (1, 2) then some 0
    else none
  label := ""
  points := [0, 10, 20, 30, 0]
  polygonsAroundVertex v := .ok ([[(0, 0)], [(1, 0), (0, 1)], [(2, 0), (1, 1)], [(0, 2), (1, 2), (2, 2)], [(2, 1)]].getD v [])
  nbEdges := 7
  edgeVertices e := [(0, 1), (1, 2), (2, 4), (0, 3), (1, 3), (2, 3), (4, 3)].getD e (0, 0)
  minimumHeight _ := .num 5
  isPolygonDegenerated _ := false
  polygonAreaSign _ := .positive
  polygonsIntersect _ _ := .ok false
  traverse _ := []

abbrev openLineModel : ModelData Nat :=
  { exampleModel openLine (10 * ·) .positive with surfaces := [fanFace] }

theorem openLine_meshes : MeshesOk modelLibrary openLineModel where
  ids := by decide +kernel
  nbComponents := by decide +kernel
  corners := by decide +kernel
  lines := by
    have h : ∀ l ∈ openLineModel.lines, l.points.length < 2 ^ 32 ∧ l.nbEdges < 2 ^ 32 := by decide +kernel
    exact fun l hl => ⟨identity_search _ (h l hl).1, (h l hl).2⟩
  surfaces := by
    intro s hs
    rw [List.mem_singleton.1 hs]
    exact ⟨identity_search _ (by decide), by decide, by decide, by decide +kernel⟩
  walks := by
    intro s hs
    rw [List.mem_singleton.1 hs]
    refine ⟨fun p k hp hk => ?_, fun v _ f hf => (by cases hf), by decide +kernel, by decide +kernel, fun e => ?_⟩
    · have hp : p < 3 := hp
      have hk : k < 3 := hk
      exact (by decide : ∀ p < 3, ∀ k < 3, ([[0, 1, 3], [1, 2, 3], [2, 4, 3]].getD p []).getD k 0 < 5) p hp k hk
    · refine Nat.lt_of_le_of_lt (List.length_filter_le _ _) ?_
      decide +kernel
  blocks := fun b hb => absurd hb List.not_mem_nil
  uniqueVertices := by
    rw [← activePositions_length]
    exact identity_search _ (by decide +kernel)
  nbUniqueVertices := by decide +kernel
  nbLinks := by decide +kernel
  smallPolygons := by
    intro s hs p
    rw [List.mem_singleton.1 hs]
    show 3 ≤ 256
    decide
  positions := (exampleModel_meshes foldedBorder (10 * ·) .positive (by decide)).positions
  blockWalks := fun b hb => absurd hb List.not_mem_nil

theorem openLine_wf : WellFormed (openLineModel.topology modelRuntime) := by
  have wf := openLine.wf_of_check (by decide)
  have hc : (openLineModel.topology modelRuntime).components = openLine.toModel.components := by
    funext kind
    cases kind <;> rfl
  refine ⟨by rw [hc]; exact wf.ids, ?_, ?_, ?_, ?_⟩ <;> unfold Has <;> rw [hc]
  · exact wf.vertices
  · exact wf.embeddings
  · exact wf.incidences
  · exact wf.boundaries

theorem openLine_ok : SectionOk modelLibrary modelRuntime openLineModel noCandidate where
  meshes := openLine_meshes
  noBlock := rfl
  types := exampleModel_types openLine (10 * ·) .positive _ (by decide)
  trees := quad_trees _ _ (fun _ _ => rfl) (fun _ _ _ => rfl) (fun _ _ _ => rfl) rfl (by decide +kernel)
  tests := fun _ => quad_tests rfl
  topology := openLine_wf
  embeddings := by
    intro id _ e he
    have := TopologyData.mem_select.1 he
    simp [openLine] at this
    rw [this.2]

theorem openLine_valid : isSectionOfValid modelLibrary modelRuntime openLineModel = .ok {} := by rfl

theorem openLine_links : LinksKept openLineModel :=
  exampleModel_links openLine (10 * ·) .positive

theorem openLine_places : PlacesOk modelLibrary openLineModel (· = ·) where
  equivalence := ⟨fun _ => rfl, fun h => h.symm, fun h h' => h.trans h'⟩
  equal := fun _ _ _ _ _ _ => beq_iff_eq
  search := (exampleModel_places openLine (10 * ·) .positive (by decide +kernel)).search

/-- **C136** is not true of all the ends of the Lines: a Section is declared valid although there is no Corner at the end of one of
its Lines.  (section_lines_topology.cpp:314-345 looks for a Corner only where several Lines meet.) -/
theorem C136_false : ∃ (m : ModelData Nat) (c : Candidates Nat), SectionOk modelLibrary modelRuntime m c ∧
    PlacesOk modelLibrary m (· = ·) ∧ LinksKept m ∧ (∀ corner ∈ m.corners, corner.active = true) ∧
    (∃ l ∈ m.lines, l.active = true ∧ ∃ p, l.points.getLast? = some p ∧ ∀ corner ∈ m.corners, p ∉ corner.points) ∧
    ∃ v, isSectionOfValid modelLibrary modelRuntime m = .ok v ∧ v.isValid = true := by
  refine ⟨openLineModel, noCandidate, openLine_ok, openLine_places, openLine_links, by decide +kernel, ?_, _, openLine_valid, rfl⟩
  exact ⟨openLineModel.lines[3]'(by decide), List.getElem_mem _, rfl, 30, by decide +kernel, by decide +kernel⟩

/-! ### examples -/

set_option maxRecDepth 20000 in
theorem LineEnds.tetrahedron_isValid {v : ObjectValidity} {N : Nat} (h : ∀ fuel ≥ N, isBRepOfValid modelLibrary modelRuntime fuel
    (exampleModel tetrahedronBRep (10 * ·) .positive) = .ok v) : v.isValid = true := by
  have he : ∀ N, isBRepOfValid modelLibrary modelRuntime (N + 20)
      (exampleModel tetrahedronBRep (10 * ·) .positive) = .ok {} := fun N => by rfl
  have h := h (N + 20) (by omega)
  rw [he] at h
  injection h with h
  rw [← h]; rfl

/-- In this Section, the first Corner bounds the three Lines which are at its place. -/
example : ∀ l ∈ openLineModel.lines, 0 ∈ l.points → openLineModel.isBoundary 1 l.id = true := by
  obtain ⟨v, h1, h2⟩ := C136_section_corners modelLibrary modelRuntime modelRuntime_ok _ _ openLine_ok _ openLine_places
    openLine_links
  rw [openLine_valid] at h1
  injection h1 with h1
  have ha : ∀ l ∈ openLineModel.lines, l.active = true := by decide +kernel
  exact fun l hl hp => h2 (by rw [← h1]; rfl) (openLineModel.corners[0]'(by decide)) (List.getElem_mem _) l hl rfl (ha l hl) 0
    (by decide +kernel) 0 hp rfl

/-- Where the Lines 11 and 14 meet there is a Corner which bounds them. -/
example : ∃ corner ∈ openLineModel.corners, (∃ r ∈ corner.points, r = 0) ∧ openLineModel.isBoundary corner.id 11 = true ∧
    openLineModel.isBoundary corner.id 14 = true := by
  obtain ⟨v, h1, h2⟩ := C136_section_partial modelLibrary modelRuntime modelRuntime_ok _ _ openLine_ok _ openLine_places
    openLine_links
  rw [openLine_valid] at h1
  injection h1 with h1
  obtain ⟨corner, hc, h⟩ := h2 (by rw [← h1]; rfl) (openLineModel.lines[0]'(by decide)) (List.getElem_mem _)
    (openLineModel.lines[3]'(by decide)) (List.getElem_mem _) rfl rfl 0 0 0 0 rfl rfl (by decide +kernel) rfl
  have ha : ∀ corner ∈ openLineModel.corners, corner.active = true := by decide +kernel
  exact ⟨corner, hc, h (ha corner hc)⟩

/-- The same for the Lines 11 and 12 of a tetrahedron, -/
example : ∃ corner ∈ (exampleModel tetrahedronBRep (10 * ·) .positive).corners, (∃ r ∈ corner.points, r = 0) ∧
    ((exampleModel tetrahedronBRep (10 * ·) .positive).isBoundary corner.id 11 = true ∨
      (exampleModel tetrahedronBRep (10 * ·) .positive).isInternal corner.id 11 = true) ∧
    ((exampleModel tetrahedronBRep (10 * ·) .positive).isBoundary corner.id 12 = true ∨
      (exampleModel tetrahedronBRep (10 * ·) .positive).isInternal corner.id 12 = true) := by
  obtain ⟨v, N, h1, h2⟩ := C136_brep_partial modelLibrary modelRuntime modelRuntime_ok _ _ (tetrahedronBRep_ok .positive) _
    (exampleModel_places tetrahedronBRep (10 * ·) .positive (by decide +kernel)) (exampleModel_links _ _ _) (by decide +kernel)
  have hv := tetrahedron_isValid h1
  obtain ⟨corner, hc, h⟩ := h2 hv ((exampleModel tetrahedronBRep (10 * ·) .positive).lines[0]'(by decide))
    (List.getElem_mem _) ((exampleModel tetrahedronBRep (10 * ·) .positive).lines[1]'(by decide)) (List.getElem_mem _) rfl rfl
    0 0 0 0 rfl rfl (by decide +kernel) rfl
  have ha : ∀ corner ∈ (exampleModel tetrahedronBRep (10 * ·) .positive).corners, corner.active = true := by decide +kernel
  exact ⟨corner, hc, h (ha corner hc)⟩

/-- and for the first Corner and the Line 11. -/
example : (exampleModel tetrahedronBRep (10 * ·) .positive).isBoundary 1 11 = true ∨
    (exampleModel tetrahedronBRep (10 * ·) .positive).isInternal 1 11 = true := by
  obtain ⟨v, N, h1, h2⟩ := C136_brep_corners_partial modelLibrary modelRuntime modelRuntime_ok _ _ (tetrahedronBRep_ok .positive) _
    (exampleModel_places tetrahedronBRep (10 * ·) .positive (by decide +kernel)) (exampleModel_links _ _ _) (by decide +kernel)
  exact h2 (tetrahedron_isValid h1) ((exampleModel tetrahedronBRep (10 * ·) .positive).corners[0]'(by decide))
    (List.getElem_mem _) ((exampleModel tetrahedronBRep (10 * ·) .positive).lines[0]'(by decide)) (List.getElem_mem _) rfl rfl
    0 (by decide +kernel) 0 (by decide +kernel) rfl

end Inspector
