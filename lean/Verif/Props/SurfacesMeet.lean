import Verif.Props.Corners
import Verif.Props.Vertices
/-
C142: where two Surfaces of a valid model meet there is a Line or a Corner.
-/
namespace Inspector
open Spec SamePlace

/-- Two different active Surfaces have vertices at the place `p`. -/
def Spec.SurfacesMeetAt {P : Type} (near : P → P → Prop) (m : ModelData P) (s s' : FaceData P) (p : P) : Prop :=
  s ∈ m.surfaces ∧ s' ∈ m.surfaces ∧ s.active = true ∧ s'.active = true ∧ s.id ≠ s'.id ∧ p ∈ s.points ∧
    ∃ p' ∈ s'.points, near p p'

namespace SurfacesMeet
variable {P : Type} {lib : ModelLibrary P} {rt : ModelRuntime} {m : ModelData P}

/-- What the link of a unique vertex with a component means. -/
theorem component_of {kinds : List ComponentType} (hb : BijectivelyLinked (m.topology rt) kinds) {u : Index}
    (hlt : u < m.nbUniqueVertices) {kind : ComponentType} {id : Uuid} (hx : At (m.topology rt) u kind id) :
    ∃ t ∈ (m.topology rt).components kind, t.id = id ∧ ∃ v, v < t.nbVertices ∧
      (t.active = true → m.uniqueVertex ⟨⟨kind, id⟩, v⟩ = some u) := by
  obtain ⟨⟨cid, v⟩, hcmv, hid⟩ := hx
  have hid : cid = ⟨kind, id⟩ := hid
  subst hid
  obtain ⟨⟨_, t, ht, htid, hv⟩, hact⟩ := (hb u hlt).2 _ hcmv
  exact ⟨t, ht, htid, v, hv, fun ha => hact ⟨t, ht, htid, ha⟩⟩

/-- A Line linked to the unique vertex of a place is, if active, at this place. -/
theorem line_of (near : P → P → Prop) (hl : PlacesOk lib m near) (hk : LinksKept m)
    (hids : (m.corners.map CornerData.id ++ m.lines.map LineData.id ++ m.surfaces.map FaceData.id ++
      m.blocks.map VolumeData.id).Nodup) {kinds : List ComponentType}
    (h1 : ¬ ∃ uv, uv < m.nbUniqueVertices ∧ DifferentPoints lib.inexactEqual (m.uniqueVertices lib) uv)
    (h2 : ¬ HasColocatedUniqueVertices lib m) (hb : BijectivelyLinked (m.topology rt) kinds) {u : Index} {x : ComponentMeshVertex}
    {p : P} (hx : VertexAt m x p) (hu : m.uniqueVertex x = some u) {line : Uuid} (ht : At (m.topology rt) u .line line) :
    ∃ l ∈ m.lines, l.id = line ∧ (l.active = true → ∃ q ∈ l.points, near q p) := by
  obtain ⟨t, ht, htid, v, hv, ha⟩ := component_of hb (hk x u hu).1 ht
  obtain ⟨l, hl', rfl⟩ := List.mem_map.1 (show t ∈ m.lines.map fun l => (⟨l.id, l.active, l.points.length, l.nbEdges⟩ :
    TopologyComponent) from ht)
  have htid : l.id = line := htid
  subst htid
  refine ⟨l, hl', rfl, fun hact => ⟨_, List.getElem_mem hv, ?_⟩⟩
  have hy := VertexAt.line l v _ hl' hact (List.getElem?_eq_getElem hv)
  exact (correspond lib near m rt hl hids hk _ hb h1 h2 _ _ _ _ hy hx u u (ha hact) hu).1 rfl

/-- The same for a Corner. -/
theorem corner_of (near : P → P → Prop) (hl : PlacesOk lib m near) (hk : LinksKept m)
    (hids : (m.corners.map CornerData.id ++ m.lines.map LineData.id ++ m.surfaces.map FaceData.id ++
      m.blocks.map VolumeData.id).Nodup) {kinds : List ComponentType}
    (h1 : ¬ ∃ uv, uv < m.nbUniqueVertices ∧ DifferentPoints lib.inexactEqual (m.uniqueVertices lib) uv)
    (h2 : ¬ HasColocatedUniqueVertices lib m) (hb : BijectivelyLinked (m.topology rt) kinds) {u : Index} {x : ComponentMeshVertex}
    {p : P} (hx : VertexAt m x p) (hu : m.uniqueVertex x = some u) {corner : Uuid} (ht : At (m.topology rt) u .corner corner) :
    ∃ c ∈ m.corners, c.id = corner ∧ (c.active = true → ∃ q ∈ c.points, near q p) := by
  obtain ⟨t, ht, htid, v, hv, ha⟩ := component_of hb (hk x u hu).1 ht
  obtain ⟨c, hc, rfl⟩ := List.mem_map.1 (show t ∈ m.corners.map fun c => (⟨c.id, c.active, c.points.length, 0⟩ :
    TopologyComponent) from ht)
  have htid : c.id = corner := htid
  subst htid
  refine ⟨c, hc, rfl, fun hact => ⟨_, List.getElem_mem hv, ?_⟩⟩
  have hy := VertexAt.corner c v _ hc hact (List.getElem?_eq_getElem hv)
  exact (correspond lib near m rt hl hids hk _ hb h1 h2 _ _ _ _ hy hx u u (ha hact) hu).1 rfl

/-- The unique vertex where two Surfaces meet. -/
theorem vertex_of (near : P → P → Prop) (hl : PlacesOk lib m near) (hk : LinksKept m)
    (hids : (m.corners.map CornerData.id ++ m.lines.map LineData.id ++ m.surfaces.map FaceData.id ++
      m.blocks.map VolumeData.id).Nodup) {kinds kinds' : List ComponentType} (hc : .surface ∈ kinds')
    (h1 : ¬ ∃ uv, uv < m.nbUniqueVertices ∧ DifferentPoints lib.inexactEqual (m.uniqueVertices lib) uv)
    (h2 : ¬ HasColocatedUniqueVertices lib m) (hb : BijectivelyLinked (m.topology rt) kinds)
    (h5 : ¬ HasUnlinkedVertex (m.topology rt) kinds') {s s' : FaceData P} {p : P} (h : SurfacesMeetAt near m s s' p) :
    ∃ x u, u < m.nbUniqueVertices ∧ VertexAt m x p ∧ m.uniqueVertex x = some u ∧ ActiveAt (m.topology rt) u .surface s.id ∧
      ActiveAt (m.topology rt) u .surface s'.id := by
  obtain ⟨ms, ms', ha, ha', _, hp, p', hp', hn⟩ := h
  obtain ⟨i, hi, rfl⟩ := List.getElem_of_mem hp
  obtain ⟨i', hi', rfl⟩ := List.getElem_of_mem hp'
  have hx := VertexAt.surface s i _ ms ha (List.getElem?_eq_getElem hi)
  have hy := VertexAt.surface s' i' _ ms' ha' (List.getElem?_eq_getElem hi')
  obtain ⟨u, hu⟩ := linked_of_no_defect m rt _ h5 _ _ hx hc
  obtain ⟨u', hu'⟩ := linked_of_no_defect m rt _ h5 _ _ hy hc
  obtain rfl := (correspond lib near m rt hl hids hk _ hb h1 h2 _ _ _ _ hx hy u u' hu hu').2 hn
  exact ⟨_, u, (hk _ _ hu).1, hx, hu, LineEnds.activeAt rt hk hx hu, LineEnds.activeAt rt hk hy hu'⟩

end SurfacesMeet
open SurfacesMeet

/-- **C142** (Sections): if a Section is declared valid, where vertices of two active Surfaces are at the same place, and no vertex of a
third Surface is, there is a Line which bounds both, and, if it is active, has a vertex there. -/
theorem C142_section {P : Type} (lib : ModelLibrary P) (rt : ModelRuntime) (hrt : ModelRuntimeOk rt) (m : ModelData P)
    (c : Candidates P) (h : SectionOk lib rt m c) (near : P → P → Prop) (hl : PlacesOk lib m near) (hk : LinksKept m) :
    ∃ v, isSectionOfValid lib rt m = .ok v ∧ (v.isValid = true → ∀ s s' p, SurfacesMeetAt near m s s' p →
      (∀ t ∈ m.surfaces, t.id ≠ s.id → t.id ≠ s'.id → t.active = true ∧ ∀ q ∈ t.points, ¬ near q p) →
      ∃ l ∈ m.lines, m.isBoundary l.id s.id = true ∧ m.isBoundary l.id s'.id = true ∧
        (l.active = true → ∃ q ∈ l.points, near q p)) := by
  obtain ⟨v, h1, h2⟩ := C82_section lib rt hrt m c h
  refine ⟨v, h1, fun hv s s' p hm ho => ?_⟩
  have hd := h2.1 hv
  unfold SectionDefect SectionTopologyDefect at hd
  simp only [not_or, not_not] at hd
  have hb := hd.2.2.2.2.2.1
  obtain ⟨x, u, hlt, hx, hu, as, as'⟩ := vertex_of near hl hk h.meshes.ids
    (List.mem_cons_of_mem _ (List.mem_cons_of_mem _ List.mem_cons_self)) hd.1 hd.2.1 hb hd.2.2.2.2.2.2.2.1 hm
  have hw := fun hw => hd.2.2.2.2.2.2.2.2 ⟨u, hlt, hw⟩
  unfold SectionVertexDefect at hw
  have hw : ¬ TwoSurfacesWithoutLine (m.topology rt) u :=
    fun h => hw (.inr (.inr (.inr (.inr (.inr (.inr (.inr (.inr (.inl h)))))))))
  have hline : ∃ line, At (m.topology rt) u .line line ∧ m.isBoundary line s.id = true ∧ m.isBoundary line s'.id = true := by
    by_contra hn
    refine hw ⟨s.id, s'.id, hm.2.2.2.2.1, as.1, as'.1, fun id hid => ?_, hn⟩
    by_contra hne
    rw [not_or] at hne
    obtain ⟨t, ht, htid, w, hw, ha⟩ := component_of hb hlt hid
    obtain ⟨f, hf, rfl⟩ := List.mem_map.1 (show t ∈ m.surfaces.map fun f =>
      (⟨f.id, f.active, f.points.length, f.nbPolygons⟩ : TopologyComponent) from ht)
    have htid : f.id = id := htid
    subst htid
    obtain ⟨hact, hfar⟩ := ho f hf hne.1 hne.2
    have hy := VertexAt.surface f w _ hf hact (List.getElem?_eq_getElem hw)
    exact hfar _ (List.getElem_mem hw)
      ((correspond lib near m rt hl h.meshes.ids hk _ hb hd.1 hd.2.1 _ _ _ _ hy hx u u (ha hact) hu).1 rfl)
  obtain ⟨line, hat, b1, b2⟩ := hline
  obtain ⟨l, hl', rfl, hn⟩ := line_of near hl hk h.meshes.ids hd.1 hd.2.1 hb hx hu hat
  exact ⟨l, hl', b1, b2, hn⟩

/-- **C142** (BReps): if a BRep is declared valid, where vertices of two active Surfaces are at the same place, there is a Line which, if
it is active, has a vertex there, or a Corner internal to both which, if it is active, is there. -/
theorem C142_brep {P : Type} (lib : ModelLibrary P) (rt : ModelRuntime) (hrt : ModelRuntimeOk rt) (m : ModelData P)
    (c : Candidates P) (h : BRepOk lib rt m c) (near : P → P → Prop) (hl : PlacesOk lib m near) (hk : LinksKept m) :
    ∃ v N, (∀ fuel ≥ N, isBRepOfValid lib rt fuel m = .ok v) ∧ (v.isValid = true → ∀ s s' p, SurfacesMeetAt near m s s' p →
      (∃ l ∈ m.lines, l.active = true → ∃ q ∈ l.points, near q p) ∨
      ∃ corner ∈ m.corners, m.isInternal corner.id s.id = true ∧ m.isInternal corner.id s'.id = true ∧
        (corner.active = true → ∃ q ∈ corner.points, near q p)) := by
  obtain ⟨v, N, h1, h2, h3, _⟩ := C82_brep_partial lib rt hrt m c h
  refine ⟨v, N, h1, fun hv s s' p hm => ?_⟩
  have key : (¬ ∃ uv, uv < m.nbUniqueVertices ∧ DifferentPoints lib.inexactEqual (m.uniqueVertices lib) uv) ∧
      ¬ HasColocatedUniqueVertices lib m ∧ BijectivelyLinked (m.topology rt) brepKinds ∧
      ¬ HasUnlinkedVertex (m.topology rt) [.corner, .surface] ∧
      ∀ u < m.nbUniqueVertices, ¬ InvalidMultipleSurfaces (m.topology rt) u := by
    by_cases hu : LinesUnreadable (m.topology rt)
    · have hd := (h3 hu).2.1 hv
      unfold BRepDefectBesideLines OtherTopologyDefect at hd
      simp only [not_or, not_not] at hd
      refine ⟨hd.1, hd.2.1, hd.2.2.2.2.2.2.2.2.2.2.1, hd.2.2.2.2.2.2.2.2.2.2.2.2.1, fun u hu hw => ?_⟩
      exact hd.2.2.2.2.2.2.2.2.2.2.2.2.2.1 ⟨u, hu, .inr (.inr (.inr (.inr (.inr (.inl hw)))))⟩
    · have hd := (h2 hu).1 hv
      unfold BRepDefect BRepTopologyDefect at hd
      simp only [not_or, not_not] at hd
      refine ⟨hd.1, hd.2.1, hd.2.2.2.2.2.2.2.2.2.2.1, fun hx => hd.2.2.2.2.2.2.2.2.2.2.2.2.1 ?_, fun u hu hw => ?_⟩
      · obtain ⟨kind, hkd, hx⟩ := hx
        refine ⟨kind, ?_, hx⟩
        revert hkd
        cases kind <;> decide
      · refine hd.2.2.2.2.2.2.2.2.2.2.2.2.2.1 ⟨u, hu, ?_⟩
        unfold BRepVertexDefect
        exact .inr (.inr (.inr (.inr (.inr (.inr (.inr (.inr (.inr (.inl hw)))))))))
  obtain ⟨d1, d2, hb, d5, d6⟩ := key
  obtain ⟨x, u, hlt, hx, hu, as, as'⟩ := vertex_of near hl hk h.meshesKnown.ids
    (List.mem_cons_of_mem _ List.mem_cons_self) d1 d2 hb d5 hm
  by_cases hline : ∃ line, At (m.topology rt) u .line line
  · obtain ⟨line, hat⟩ := hline
    obtain ⟨l, hl', rfl, hn⟩ := line_of near hl hk h.meshesKnown.ids d1 d2 hb hx hu hat
    exact .inl ⟨l, hl', hn⟩
  · right
    have hno := fun h => d6 u hlt ⟨⟨s.id, s'.id, hm.2.2.2.2.1, as, as'⟩, .inl ⟨fun line hat => hline ⟨line, hat⟩, h⟩⟩
    have hc : ∃ corner, At (m.topology rt) u .corner corner := by
      by_contra hn
      exact hno (.inl fun corner hc => hn ⟨corner, hc⟩)
    obtain ⟨corner, hat⟩ := hc
    obtain ⟨k, mk, rfl, hn⟩ := corner_of near hl hk h.meshesKnown.ids d1 d2 hb hx hu hat
    refine ⟨k, mk, ?_, ?_, hn⟩
    · by_contra hi
      exact hno (.inr ⟨_, _, hat, as, Bool.eq_false_iff.2 hi⟩)
    · by_contra hi
      exact hno (.inr ⟨_, _, hat, as', Bool.eq_false_iff.2 hi⟩)

set_option maxRecDepth 20000 in
/-- Two faces of a tetrahedron meet at 0, where there is a Line or a Corner. -/
example : (∃ l ∈ (exampleModel tetrahedronBRep (10 * ·) .positive).lines, l.active = true → ∃ q ∈ l.points, q = 0) ∨
    ∃ corner ∈ (exampleModel tetrahedronBRep (10 * ·) .positive).corners,
      (exampleModel tetrahedronBRep (10 * ·) .positive).isInternal corner.id 21 = true ∧
      (exampleModel tetrahedronBRep (10 * ·) .positive).isInternal corner.id 22 = true ∧
      (corner.active = true → ∃ q ∈ corner.points, q = 0) := by
  obtain ⟨v, N, h1, h2⟩ := C142_brep modelLibrary modelRuntime modelRuntime_ok _ _ (tetrahedronBRep_ok .positive)
    (· = ·) (exampleModel_places _ _ _ (by decide +kernel)) (exampleModel_links _ _ _)
  exact h2 (LineEnds.tetrahedron_isValid h1) ((exampleModel tetrahedronBRep (10 * ·) .positive).surfaces[0]'(by decide))
    ((exampleModel tetrahedronBRep (10 * ·) .positive).surfaces[1]'(by decide)) 0
    ⟨List.getElem_mem _, List.getElem_mem _, rfl, rfl, by decide, by decide +kernel, 0, by decide +kernel, rfl⟩

theorem adjacentModel_places : PlacesOk intLibrary adjacentModel (· = ·) :=
  exact_places _ _ _ (by decide +kernel)

/-- Two triangles of a Section meet at (0, 0), where there is a Line which bounds both. -/
example : ∃ l ∈ adjacentModel.lines, adjacentModel.isBoundary l.id 21 = true ∧ adjacentModel.isBoundary l.id 22 = true ∧
    ∃ q ∈ l.points, q = (0, 0) := by
  obtain ⟨v, h1, h2⟩ := C142_section intLibrary modelRuntime modelRuntime_ok _ _ adjacent_ok (· = ·) adjacentModel_places
    (mapPoints_links adjacentPoint (exampleModel adjacentTriangles id .positive) (exampleModel_links _ _ _))
  have d1 : declared (isSectionOfValid intLibrary modelRuntime adjacentModel) = some true := by decide +kernel
  rw [h1] at d1
  have hs : ∀ t ∈ adjacentModel.surfaces, t.id = 21 ∨ t.id = 22 := by decide +kernel
  obtain ⟨l, hl, b1, b2, h⟩ := h2 (Option.some.inj d1) (adjacentModel.surfaces[0]'(by decide)) (adjacentModel.surfaces[1]'(by decide))
    (0, 0) ⟨List.getElem_mem _, List.getElem_mem _, rfl, rfl, by decide, by decide +kernel, (0, 0), by decide +kernel, rfl⟩
    fun t ht h h' => ((hs t ht).elim (fun e => absurd e h) fun e => absurd e h')
  have ha : ∀ l ∈ adjacentModel.lines, l.active = true := by decide +kernel
  exact ⟨l, hl, b1, b2, h (ha l hl)⟩

end Inspector
