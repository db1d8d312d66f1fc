import Verif.Props.SurfacesMeet
/-
C143: where two Blocks of a valid BRep meet there is a Surface; C144: a Surface internal to a Block has its vertices in it.
-/
namespace Inspector
open Spec SamePlace

/-- Two different active Blocks, of which the first one has polyhedra, have vertices at the place `p`. -/
def Spec.BlocksMeetAt {P : Type} (near : P → P → Prop) (m : ModelData P) (b b' : VolumeData P) (p : P) : Prop :=
  b ∈ m.blocks ∧ b' ∈ m.blocks ∧ b.active = true ∧ b'.active = true ∧ b.id ≠ b'.id ∧ b.nbPolyhedra ≠ 0 ∧ p ∈ b.points ∧
    ∃ p' ∈ b'.points, near p p'

namespace BlocksMeet
variable {P : Type} {lib : ModelLibrary P} {rt : ModelRuntime} {m : ModelData P}

/-- A Surface linked to the unique vertex of a place is, if active, at this place. -/
theorem surface_of (near : P → P → Prop) (hl : PlacesOk lib m near) (hk : LinksKept m)
    (hids : (m.corners.map CornerData.id ++ m.lines.map LineData.id ++ m.surfaces.map FaceData.id ++
      m.blocks.map VolumeData.id).Nodup) {kinds : List ComponentType}
    (h1 : ¬ ∃ uv, uv < m.nbUniqueVertices ∧ DifferentPoints lib.inexactEqual (m.uniqueVertices lib) uv)
    (h2 : ¬ HasColocatedUniqueVertices lib m) (hb : BijectivelyLinked (m.topology rt) kinds) {u : Index} {x : ComponentMeshVertex}
    {p : P} (hx : VertexAt m x p) (hu : m.uniqueVertex x = some u) {id : Uuid} (ht : At (m.topology rt) u .surface id) :
    ∃ s ∈ m.surfaces, s.id = id ∧ (s.active = true → ∃ q ∈ s.points, near q p) := by
  obtain ⟨t, ht, htid, v, hv, ha⟩ := SurfacesMeet.component_of hb (hk x u hu).1 ht
  obtain ⟨s, hs, rfl⟩ := List.mem_map.1 (show t ∈ m.surfaces.map fun s =>
    (⟨s.id, s.active, s.points.length, s.nbPolygons⟩ : TopologyComponent) from ht)
  have htid : s.id = id := htid
  subst htid
  refine ⟨s, hs, rfl, fun hact => ⟨_, List.getElem_mem hv, ?_⟩⟩
  have hy := VertexAt.surface s v _ hs hact (List.getElem?_eq_getElem hv)
  exact (correspond lib near m rt hl hids hk _ hb h1 h2 _ _ _ _ hy hx u u (ha hact) hu).1 rfl

/-- The same for a Block. -/
theorem block_of (near : P → P → Prop) (hl : PlacesOk lib m near) (hk : LinksKept m)
    (hids : (m.corners.map CornerData.id ++ m.lines.map LineData.id ++ m.surfaces.map FaceData.id ++
      m.blocks.map VolumeData.id).Nodup) {kinds : List ComponentType}
    (h1 : ¬ ∃ uv, uv < m.nbUniqueVertices ∧ DifferentPoints lib.inexactEqual (m.uniqueVertices lib) uv)
    (h2 : ¬ HasColocatedUniqueVertices lib m) (hb : BijectivelyLinked (m.topology rt) kinds) {u : Index} {x : ComponentMeshVertex}
    {p : P} (hx : VertexAt m x p) (hu : m.uniqueVertex x = some u) {id : Uuid} (ht : At (m.topology rt) u .block id) :
    ∃ b ∈ m.blocks, b.id = id ∧ (b.active = true → ∃ q ∈ b.points, near q p) := by
  obtain ⟨t, ht, htid, v, hv, ha⟩ := SurfacesMeet.component_of hb (hk x u hu).1 ht
  obtain ⟨b, mb, rfl⟩ := List.mem_map.1 (show t ∈ m.blocks.map fun b =>
    (⟨b.id, b.active, b.points.length, b.nbPolyhedra⟩ : TopologyComponent) from ht)
  have htid : b.id = id := htid
  subst htid
  refine ⟨b, mb, rfl, fun hact => ⟨_, List.getElem_mem hv, ?_⟩⟩
  have hy := VertexAt.block b v _ mb hact (List.getElem?_eq_getElem hv)
  exact (correspond lib near m rt hl hids hk _ hb h1 h2 _ _ _ _ hy hx u u (ha hact) hu).1 rfl

/-- What is known of the Surfaces and Blocks of a BRep declared valid. -/
theorem of_brep (hrt : ModelRuntimeOk rt) (c : Candidates P) (h : BRepOk lib rt m c) :
    ∃ v N, (∀ fuel ≥ N, isBRepOfValid lib rt fuel m = .ok v) ∧ (v.isValid = true →
      (¬ ∃ uv, uv < m.nbUniqueVertices ∧ DifferentPoints lib.inexactEqual (m.uniqueVertices lib) uv) ∧
      ¬ HasColocatedUniqueVertices lib m ∧ BijectivelyLinked (m.topology rt) brepKinds ∧
      ¬ HasUnlinkedVertex (m.topology rt) [.corner, .surface] ∧
      (∀ u < m.nbUniqueVertices, ¬ InvalidEmbeddedSurface (m.topology rt) u) ∧
      ¬ BlocksDefect (m.topology rt) m.blocksOracle) := by
  obtain ⟨v, N, h1, h2, h3, _⟩ := C82_brep_partial lib rt hrt m c h
  refine ⟨v, N, h1, fun hv => ?_⟩
  by_cases hu : LinesUnreadable (m.topology rt)
  · have hd := (h3 hu).2.1 hv
    unfold BRepDefectBesideLines OtherTopologyDefect at hd
    simp only [not_or, not_not] at hd
    refine ⟨hd.1, hd.2.1, hd.2.2.2.2.2.2.2.2.2.2.1, hd.2.2.2.2.2.2.2.2.2.2.2.2.1, fun u hu hw => ?_,
      hd.2.2.2.2.2.2.2.2.2.2.2.2.2.2.2⟩
    exact hd.2.2.2.2.2.2.2.2.2.2.2.2.2.1 ⟨u, hu, .inr (.inr (.inr (.inr (.inl hw))))⟩
  · have hd := (h2 hu).1 hv
    unfold BRepDefect BRepTopologyDefect at hd
    simp only [not_or, not_not] at hd
    refine ⟨hd.1, hd.2.1, hd.2.2.2.2.2.2.2.2.2.2.1, fun hx => hd.2.2.2.2.2.2.2.2.2.2.2.2.1 ?_, fun u hu hw => ?_,
      hd.2.2.2.2.2.2.2.2.2.2.2.2.2.2.2.2⟩
    · obtain ⟨kind, hkd, hx⟩ := hx
      refine ⟨kind, ?_, hx⟩
      revert hkd
      cases kind <;> decide
    · refine hd.2.2.2.2.2.2.2.2.2.2.2.2.2.1 ⟨u, hu, ?_⟩
      unfold BRepVertexDefect
      exact .inr (.inr (.inr (.inr (.inr (.inr (.inr (.inr (.inl hw))))))))

end BlocksMeet
open BlocksMeet

/-- **C143**: if a BRep is declared valid, where vertices of two active Blocks are at the same place, and no vertex of a third Block is,
there is a Surface which bounds both, or which bounds one of them and is bounded by a Line which is there too.  (An inactive Surface
or Line may be elsewhere.) -/
theorem C143_brep {P : Type} (lib : ModelLibrary P) (rt : ModelRuntime) (hrt : ModelRuntimeOk rt) (m : ModelData P)
    (c : Candidates P) (h : BRepOk lib rt m c) (near : P → P → Prop) (hl : PlacesOk lib m near) (hk : LinksKept m) :
    ∃ v N, (∀ fuel ≥ N, isBRepOfValid lib rt fuel m = .ok v) ∧ (v.isValid = true → ∀ b b' p, BlocksMeetAt near m b b' p →
      (∀ t ∈ m.blocks, t.id ≠ b.id → t.id ≠ b'.id → t.active = true ∧ ∀ q ∈ t.points, ¬ near q p) →
      ∃ s ∈ m.surfaces, (s.active = true → ∃ q ∈ s.points, near q p) ∧
        ((m.isBoundary s.id b.id = true ∧ m.isBoundary s.id b'.id = true) ∨
         ((m.isBoundary s.id b.id = true ∨ m.isBoundary s.id b'.id = true) ∧
          ∃ l ∈ m.lines, m.isBoundary l.id s.id = true ∧ (l.active = true → ∃ q ∈ l.points, near q p)))) := by
  obtain ⟨v, N, h1, h2⟩ := BlocksMeet.of_brep hrt c h
  refine ⟨v, N, h1, fun hv b b' p hm ho => ?_⟩
  obtain ⟨d1, d2, hb, _, _, d6⟩ := h2 hv
  obtain ⟨mb, mb', ha, ha', hne, hpoly, hp, p', hp', hn⟩ := hm
  have ids := h.meshesKnown.ids
  unfold BlocksDefect at d6
  simp only [not_or] at d6
  obtain ⟨i, hi, rfl⟩ := List.getElem_of_mem hp
  obtain ⟨i', hi', rfl⟩ := List.getElem_of_mem hp'
  have hx := VertexAt.block b i _ mb ha (List.getElem?_eq_getElem hi)
  have hy := VertexAt.block b' i' _ mb' ha' (List.getElem?_eq_getElem hi')
  have hbm : BlockMeshed ⟨b.id, b.active, b.points.length, b.nbPolyhedra⟩ :=
    ⟨fun h0 => absurd hi (by rw [show b.points.length = 0 from h0]; exact Nat.not_lt_zero _), hpoly⟩
  have memb : ∀ b ∈ m.blocks, (⟨b.id, b.active, b.points.length, b.nbPolyhedra⟩ : TopologyComponent) ∈
    (m.topology rt).components .block := fun b hb => List.mem_map_of_mem hb
  have hbm' : BlockMeshed ⟨b'.id, b'.active, b'.points.length, b'.nbPolyhedra⟩ := by
    by_contra hc
    exact d6.1 ⟨_, memb b' mb', ha', hc, _, memb b mb, ha, hbm⟩
  have linked : ∀ (b : VolumeData P) (i : Nat), b ∈ m.blocks → b.active = true → i < b.points.length →
      BlockMeshed ⟨b.id, b.active, b.points.length, b.nbPolyhedra⟩ → ∃ u, m.uniqueVertex ⟨⟨.block, b.id⟩, i⟩ = some u := by
    intro b i mb ha hi hbm
    cases hu : m.uniqueVertex ⟨⟨.block, b.id⟩, i⟩ with
    | some u => exact ⟨u, rfl⟩
    | none => exact absurd ⟨_, memb b mb, ha, hbm, i, hi, hu⟩ d6.2.1
  obtain ⟨u, hu⟩ := linked b i mb ha hi hbm
  obtain ⟨u', hu'⟩ := linked b' i' mb' ha' hi' hbm'
  obtain rfl := (correspond lib near m rt hl ids hk _ hb d1 d2 _ _ _ _ hx hy u u' hu hu').2 hn
  have hlt := (hk _ _ hu).1
  have hw : ¬ TwoBlocksWithoutSurface (m.topology rt) u := fun hw =>
    d6.2.2.2.2 ⟨⟨_, memb b mb, ha⟩, .inr ⟨u, hlt, .inl hw⟩⟩
  have honly : ∀ id, At (m.topology rt) u .block id → id = b.id ∨ id = b'.id := by
    intro id hid
    by_contra hc
    rw [not_or] at hc
    obtain ⟨t, mt, rfl, hnear⟩ := block_of near hl hk ids d1 d2 hb hx hu hid
    obtain ⟨hact, hfar⟩ := ho t mt hc.1 hc.2
    obtain ⟨q, hq, hqn⟩ := hnear hact
    exact hfar q hq hqn
  by_cases hboth : ∃ s, At (m.topology rt) u .surface s ∧ m.isBoundary s b.id = true ∧ m.isBoundary s b'.id = true
  · obtain ⟨id, hat, c1, c2⟩ := hboth
    obtain ⟨s, ms, rfl, hnear⟩ := surface_of near hl hk ids d1 d2 hb hx hu hat
    exact ⟨s, ms, hnear, .inl ⟨c1, c2⟩⟩
  · have hone : ∃ s line, At (m.topology rt) u .surface s ∧ At (m.topology rt) u .line line ∧ m.isBoundary line s = true ∧
        (m.isBoundary s b.id = true ∨ m.isBoundary s b'.id = true) := by
      by_contra hc
      exact hw ⟨b.id, b'.id, hne, LineEnds.activeAt rt hk hx hu, LineEnds.activeAt rt hk hy hu', honly, hboth, hc⟩
    obtain ⟨id, line, hat, hat', c1, c2⟩ := hone
    obtain ⟨s, ms, rfl, hnear⟩ := surface_of near hl hk ids d1 d2 hb hx hu hat
    obtain ⟨l, ml, rfl, hnear'⟩ := SurfacesMeet.line_of near hl hk ids d1 d2 hb hx hu hat'
    exact ⟨s, ms, hnear, .inr ⟨c2, l, ml, c1, hnear'⟩⟩

/-- **C144**: if a BRep all the Blocks of which have polyhedra is declared valid, a Surface embedded in an active Block does not bound
this Block, and each of its vertices is at the place of a vertex of this Block. -/
theorem C144_brep {P : Type} (lib : ModelLibrary P) (rt : ModelRuntime) (hrt : ModelRuntimeOk rt) (m : ModelData P)
    (c : Candidates P) (h : BRepOk lib rt m c) (near : P → P → Prop) (hl : PlacesOk lib m near) (hk : LinksKept m)
    (hm : ∀ b ∈ m.blocks, b.nbPolyhedra ≠ 0) :
    ∃ v N, (∀ fuel ≥ N, isBRepOfValid lib rt fuel m = .ok v) ∧ (v.isValid = true →
      ∀ s ∈ m.surfaces, s.active = true → ∀ b ∈ m.blocks, b.active = true → ⟨.block, b.id⟩ ∈ m.embeddings s.id →
        ∀ p ∈ s.points, m.isBoundary s.id b.id = false ∧ ∃ q ∈ b.points, near q p) := by
  obtain ⟨v, N, h1, h2⟩ := BlocksMeet.of_brep hrt c h
  refine ⟨v, N, h1, fun hv s ms ha b mb hba he p hp => ?_⟩
  obtain ⟨d1, d2, hb, d4, d5, _⟩ := h2 hv
  have ids := h.meshesKnown.ids
  obtain ⟨i, hi, rfl⟩ := List.getElem_of_mem hp
  have hx := VertexAt.surface s i _ ms ha (List.getElem?_eq_getElem hi)
  obtain ⟨u, hu⟩ := linked_of_no_defect m rt _ d4 _ _ hx (List.mem_cons_of_mem _ List.mem_cons_self)
  have hlt := (hk _ _ hu).1
  have hall : AllMeshed (m.topology rt) .block := by
    intro t ht
    obtain ⟨b, mb, rfl⟩ := List.mem_map.1 (show t ∈ m.blocks.map fun b =>
      (⟨b.id, b.active, b.points.length, b.nbPolyhedra⟩ : TopologyComponent) from ht)
    exact hm b mb
  have hact : Active (m.topology rt) .block b.id := ⟨_, List.mem_map_of_mem mb, rfl, hba⟩
  have hno := fun hw => d5 u hlt ⟨s.id, LineEnds.activeAt rt hk hx hu, ⟨.block, b.id⟩, he, hact, hw⟩
  refine ⟨Bool.eq_false_iff.2 fun hbd => hno (.inl hbd), ?_⟩
  have hex : ∃ cmv ∈ m.componentMeshVertices u, cmv.component_id.id = b.id := by
    by_contra hc
    exact hno (.inr ⟨hall, fun cmv hcmv heq => hc ⟨cmv, hcmv, heq⟩⟩)
  obtain ⟨⟨⟨kind, id⟩, w⟩, hcmv, hid⟩ := hex
  have hid : id = b.id := hid
  subst hid
  have hat : At (m.topology rt) u kind b.id := ⟨_, hcmv, rfl⟩
  have hkind : kind = .block := by
    obtain ⟨t, ht, htid, _⟩ := SurfacesMeet.component_of hb hlt hat
    have hin : b.id ∈ m.blocks.map VolumeData.id := List.mem_map_of_mem mb
    rw [List.nodup_append] at ids
    have hdis := ids.2.2
    have hother : ∀ x, x ∈ m.corners.map CornerData.id ++ m.lines.map LineData.id ++ m.surfaces.map FaceData.id →
      x ≠ b.id := fun x hx => hdis x hx _ hin
    cases kind with
    | block => rfl
    | corner =>
      obtain ⟨y, hy, rfl⟩ := List.mem_map.1 (show t ∈ m.corners.map fun c => (⟨c.id, c.active, c.points.length, 0⟩ :
        TopologyComponent) from ht)
      exact absurd htid (hother y.id (List.mem_append_left _ (List.mem_append_left _ (List.mem_map_of_mem hy))))
    | line =>
      obtain ⟨y, hy, rfl⟩ := List.mem_map.1 (show t ∈ m.lines.map fun l => (⟨l.id, l.active, l.points.length, l.nbEdges⟩ :
        TopologyComponent) from ht)
      exact absurd htid (hother y.id (List.mem_append_left _ (List.mem_append_right _ (List.mem_map_of_mem hy))))
    | surface =>
      obtain ⟨y, hy, rfl⟩ := List.mem_map.1 (show t ∈ m.surfaces.map fun s =>
        (⟨s.id, s.active, s.points.length, s.nbPolygons⟩ : TopologyComponent) from ht)
      exact absurd htid (hother y.id (List.mem_append_right _ (List.mem_map_of_mem hy)))
    | other => exact absurd ht List.not_mem_nil
  subst hkind
  obtain ⟨b', mb', hid', hnear⟩ := block_of near hl hk ids d1 d2 hb hx hu hat
  have hsame : b' = b := by
    rw [List.nodup_append] at ids
    exact List.inj_on_of_nodup_map ids.2.1 mb' mb hid'
  subst hsame
  exact hnear hba

/-- A BRep of two tetrahedra, the Blocks 31 and 32, with a common face, the Surface 21. -/
def gluedTetrahedra : TopologyData where
  corners := [⟨1, true, 1, 0⟩, ⟨2, true, 1, 0⟩, ⟨3, true, 1, 0⟩, ⟨4, true, 1, 0⟩, ⟨5, true, 1, 0⟩]
  lines := [⟨11, true, 2, 1⟩, ⟨12, true, 2, 1⟩, ⟨13, true, 2, 1⟩, ⟨14, true, 2, 1⟩, ⟨15, true, 2, 1⟩, ⟨16, true, 2, 1⟩, ⟨17, true, 2, 1⟩, ⟨18, true, 2, 1⟩, ⟨19, true, 2, 1⟩]
  surfaces := [⟨21, true, 3, 1⟩, ⟨22, true, 3, 1⟩, ⟨23, true, 3, 1⟩, ⟨24, true, 3, 1⟩, ⟨25, true, 3, 1⟩, ⟨26, true, 3, 1⟩, ⟨27, true, 3, 1⟩]
  blocks := [⟨31, true, 4, 1⟩, ⟨32, true, 4, 1⟩]
  vertices := [
    [⟨⟨.corner, 1⟩, 0⟩, ⟨⟨.line, 11⟩, 0⟩, ⟨⟨.line, 12⟩, 0⟩, ⟨⟨.line, 13⟩, 0⟩, ⟨⟨.line, 14⟩, 0⟩, ⟨⟨.surface, 21⟩, 0⟩, ⟨⟨.surface, 22⟩, 0⟩, ⟨⟨.surface, 23⟩, 0⟩, ⟨⟨.surface, 24⟩, 0⟩, ⟨⟨.surface, 25⟩, 0⟩, ⟨⟨.block, 31⟩, 0⟩, ⟨⟨.block, 32⟩, 0⟩],
    [⟨⟨.corner, 2⟩, 0⟩, ⟨⟨.line, 11⟩, 1⟩, ⟨⟨.line, 15⟩, 0⟩, ⟨⟨.line, 16⟩, 0⟩, ⟨⟨.line, 17⟩, 0⟩, ⟨⟨.surface, 21⟩, 1⟩, ⟨⟨.surface, 22⟩, 1⟩, ⟨⟨.surface, 23⟩, 1⟩, ⟨⟨.surface, 26⟩, 0⟩, ⟨⟨.surface, 27⟩, 0⟩, ⟨⟨.block, 31⟩, 1⟩, ⟨⟨.block, 32⟩, 1⟩],
    [⟨⟨.corner, 3⟩, 0⟩, ⟨⟨.line, 12⟩, 1⟩, ⟨⟨.line, 15⟩, 1⟩, ⟨⟨.line, 18⟩, 0⟩, ⟨⟨.line, 19⟩, 0⟩, ⟨⟨.surface, 21⟩, 2⟩, ⟨⟨.surface, 24⟩, 1⟩, ⟨⟨.surface, 25⟩, 1⟩, ⟨⟨.surface, 26⟩, 1⟩, ⟨⟨.surface, 27⟩, 1⟩, ⟨⟨.block, 31⟩, 2⟩, ⟨⟨.block, 32⟩, 2⟩],
    [⟨⟨.corner, 4⟩, 0⟩, ⟨⟨.line, 13⟩, 1⟩, ⟨⟨.line, 16⟩, 1⟩, ⟨⟨.line, 18⟩, 1⟩, ⟨⟨.surface, 22⟩, 2⟩, ⟨⟨.surface, 24⟩, 2⟩, ⟨⟨.surface, 26⟩, 2⟩, ⟨⟨.block, 31⟩, 3⟩],
    [⟨⟨.corner, 5⟩, 0⟩, ⟨⟨.line, 14⟩, 1⟩, ⟨⟨.line, 17⟩, 1⟩, ⟨⟨.line, 19⟩, 1⟩, ⟨⟨.surface, 23⟩, 2⟩, ⟨⟨.surface, 25⟩, 2⟩, ⟨⟨.surface, 27⟩, 2⟩, ⟨⟨.block, 32⟩, 3⟩]]
  boundary := [
    (⟨.corner, 1⟩, ⟨.line, 11⟩), (⟨.corner, 2⟩, ⟨.line, 11⟩), (⟨.corner, 1⟩, ⟨.line, 12⟩), (⟨.corner, 3⟩, ⟨.line, 12⟩),
    (⟨.corner, 1⟩, ⟨.line, 13⟩), (⟨.corner, 4⟩, ⟨.line, 13⟩), (⟨.corner, 1⟩, ⟨.line, 14⟩), (⟨.corner, 5⟩, ⟨.line, 14⟩),
    (⟨.corner, 2⟩, ⟨.line, 15⟩), (⟨.corner, 3⟩, ⟨.line, 15⟩), (⟨.corner, 2⟩, ⟨.line, 16⟩), (⟨.corner, 4⟩, ⟨.line, 16⟩),
    (⟨.corner, 2⟩, ⟨.line, 17⟩), (⟨.corner, 5⟩, ⟨.line, 17⟩), (⟨.corner, 3⟩, ⟨.line, 18⟩), (⟨.corner, 4⟩, ⟨.line, 18⟩),
    (⟨.corner, 3⟩, ⟨.line, 19⟩), (⟨.corner, 5⟩, ⟨.line, 19⟩), (⟨.line, 11⟩, ⟨.surface, 21⟩), (⟨.line, 12⟩, ⟨.surface, 21⟩),
    (⟨.line, 15⟩, ⟨.surface, 21⟩), (⟨.line, 11⟩, ⟨.surface, 22⟩), (⟨.line, 13⟩, ⟨.surface, 22⟩), (⟨.line, 16⟩, ⟨.surface, 22⟩),
    (⟨.line, 11⟩, ⟨.surface, 23⟩), (⟨.line, 14⟩, ⟨.surface, 23⟩), (⟨.line, 17⟩, ⟨.surface, 23⟩), (⟨.line, 12⟩, ⟨.surface, 24⟩),
    (⟨.line, 13⟩, ⟨.surface, 24⟩), (⟨.line, 18⟩, ⟨.surface, 24⟩), (⟨.line, 12⟩, ⟨.surface, 25⟩), (⟨.line, 14⟩, ⟨.surface, 25⟩),
    (⟨.line, 19⟩, ⟨.surface, 25⟩), (⟨.line, 15⟩, ⟨.surface, 26⟩), (⟨.line, 16⟩, ⟨.surface, 26⟩), (⟨.line, 18⟩, ⟨.surface, 26⟩),
    (⟨.line, 15⟩, ⟨.surface, 27⟩), (⟨.line, 17⟩, ⟨.surface, 27⟩), (⟨.line, 19⟩, ⟨.surface, 27⟩), (⟨.surface, 21⟩, ⟨.block, 31⟩),
    (⟨.surface, 21⟩, ⟨.block, 32⟩), (⟨.surface, 22⟩, ⟨.block, 31⟩), (⟨.surface, 23⟩, ⟨.block, 32⟩), (⟨.surface, 24⟩, ⟨.block, 31⟩),
    (⟨.surface, 25⟩, ⟨.block, 32⟩), (⟨.surface, 26⟩, ⟨.block, 31⟩), (⟨.surface, 27⟩, ⟨.block, 32⟩)]
  surfaceEdges := [
    ((11, 0), (21, 1)), ((11, 0), (22, 1)), ((11, 0), (23, 1)), ((12, 0), (21, 1)), ((12, 0), (24, 1)), ((12, 0), (25, 1)),
    ((13, 0), (22, 1)), ((13, 0), (24, 1)), ((14, 0), (23, 1)), ((14, 0), (25, 1)), ((15, 0), (21, 1)), ((15, 0), (26, 1)),
    ((15, 0), (27, 1)), ((16, 0), (22, 1)), ((16, 0), (26, 1)), ((17, 0), (23, 1)), ((17, 0), (27, 1)), ((18, 0), (24, 1)),
    ((18, 0), (26, 1)), ((19, 0), (25, 1)), ((19, 0), (27, 1))]
  blockEdges := [
    ((11, 0), (31, 1)), ((11, 0), (32, 1)), ((12, 0), (31, 1)), ((12, 0), (32, 1)), ((13, 0), (31, 1)), ((14, 0), (32, 1)),
    ((15, 0), (31, 1)), ((15, 0), (32, 1)), ((16, 0), (31, 1)), ((17, 0), (32, 1)), ((18, 0), (31, 1)), ((19, 0), (32, 1))]
  blockPolygons := [
    ((21, 0), (31, 1)), ((21, 0), (32, 1)), ((22, 0), (31, 1)), ((23, 0), (32, 1)), ((24, 0), (31, 1)), ((25, 0), (32, 1)),
    ((26, 0), (31, 1)), ((27, 0), (32, 1))]
  polygons := [
    ((21, 0), [0, 1, 2]), ((22, 0), [0, 1, 2]), ((23, 0), [0, 1, 2]), ((24, 0), [0, 1, 2]), ((25, 0), [0, 1, 2]),
    ((26, 0), [0, 1, 2]), ((27, 0), [0, 1, 2])]
  border := [
    (21, 0), (21, 1), (21, 2), (22, 0), (22, 1), (22, 2), (23, 0), (23, 1), (23, 2), (24, 0), (24, 1), (24, 2),
    (25, 0), (25, 1), (25, 2), (26, 0), (26, 1), (26, 2), (27, 0), (27, 1), (27, 2)]


theorem gluedTetrahedra_ok : BRepOk modelLibrary modelRuntime (exampleModel gluedTetrahedra (10 * ·) .positive) noCandidate where
  meshesKnown := MeshesOk.toMeshesKnown (exampleModel_meshes _ _ _ (by decide))
  blockWalks := MeshesOk.blockWalks (exampleModel_meshes _ _ _ (by decide))
  types := exampleModel_types _ _ _ _ (by decide)
  trees := exampleModel_trees _ _ _ _ (by decide +kernel)
  nbModelEdges := by decide +kernel
  topology := exampleModel_wf _ _ _ _ (by decide) (by decide) (by decide)
  around := by
    have aw := gluedTetrahedra.aw_of_check (by decide)
    rw [exampleModel_topology gluedTetrahedra _ .positive modelRuntime (by decide) (by decide)]
    exact ⟨fun m => List.reverse_perm m, aw.surfaces, aw.surfaceKeys, aw.blocks, aw.blockKeys, aw.polygons,
      by decide +kernel, by decide +kernel⟩
  coherent := gluedTetrahedra.coherent_of_check (by decide)
  surfaceEmbeddings := fun id _ e he => absurd he List.not_mem_nil
  firstEdges := by decide +kernel
  counts := by
    rw [exampleModel_topology gluedTetrahedra _ .positive modelRuntime (by decide) (by decide)]
    exact counts_of_check gluedTetrahedra (by decide)
  graph := firstEdge_finder
  geometry := noGeometry_raises
  rays := example_rays _
  modelBoundaries := Or.inl rfl

/-- A BRep of one Block, 31, with a Surface, 21, in it; a Line, 20, is on two of its edges.  (The mesh of the Block is on one side of this
Surface only.) -/
def triangleInBlock : TopologyData where
  corners := [⟨1, true, 1, 0⟩, ⟨2, true, 1, 0⟩, ⟨3, true, 1, 0⟩, ⟨4, true, 1, 0⟩, ⟨5, true, 1, 0⟩]
  lines := [⟨11, true, 2, 1⟩, ⟨12, true, 2, 1⟩, ⟨13, true, 2, 1⟩, ⟨14, true, 2, 1⟩, ⟨15, true, 2, 1⟩, ⟨16, true, 2, 1⟩, ⟨17, true, 2, 1⟩, ⟨18, true, 2, 1⟩, ⟨19, true, 2, 1⟩, ⟨20, true, 3, 2⟩]
  surfaces := [⟨21, true, 3, 1⟩, ⟨22, true, 3, 1⟩, ⟨23, true, 3, 1⟩, ⟨24, true, 3, 1⟩, ⟨25, true, 3, 1⟩, ⟨26, true, 3, 1⟩, ⟨27, true, 3, 1⟩]
  blocks := [⟨31, true, 4, 1⟩]
  vertices := [
    [⟨⟨.corner, 1⟩, 0⟩, ⟨⟨.line, 11⟩, 0⟩, ⟨⟨.line, 12⟩, 0⟩, ⟨⟨.line, 13⟩, 0⟩, ⟨⟨.line, 14⟩, 0⟩, ⟨⟨.line, 20⟩, 0⟩, ⟨⟨.surface, 21⟩, 0⟩, ⟨⟨.surface, 22⟩, 0⟩, ⟨⟨.surface, 23⟩, 0⟩, ⟨⟨.surface, 24⟩, 0⟩, ⟨⟨.surface, 25⟩, 0⟩, ⟨⟨.block, 31⟩, 0⟩],
    [⟨⟨.corner, 2⟩, 0⟩, ⟨⟨.line, 11⟩, 1⟩, ⟨⟨.line, 15⟩, 0⟩, ⟨⟨.line, 16⟩, 0⟩, ⟨⟨.line, 17⟩, 0⟩, ⟨⟨.line, 20⟩, 1⟩, ⟨⟨.surface, 21⟩, 1⟩, ⟨⟨.surface, 22⟩, 1⟩, ⟨⟨.surface, 23⟩, 1⟩, ⟨⟨.surface, 26⟩, 0⟩, ⟨⟨.surface, 27⟩, 0⟩, ⟨⟨.block, 31⟩, 1⟩],
    [⟨⟨.corner, 3⟩, 0⟩, ⟨⟨.line, 12⟩, 1⟩, ⟨⟨.line, 15⟩, 1⟩, ⟨⟨.line, 18⟩, 0⟩, ⟨⟨.line, 19⟩, 0⟩, ⟨⟨.line, 20⟩, 2⟩, ⟨⟨.surface, 21⟩, 2⟩, ⟨⟨.surface, 24⟩, 1⟩, ⟨⟨.surface, 25⟩, 1⟩, ⟨⟨.surface, 26⟩, 1⟩, ⟨⟨.surface, 27⟩, 1⟩, ⟨⟨.block, 31⟩, 2⟩],
    [⟨⟨.corner, 4⟩, 0⟩, ⟨⟨.line, 13⟩, 1⟩, ⟨⟨.line, 16⟩, 1⟩, ⟨⟨.line, 18⟩, 1⟩, ⟨⟨.surface, 22⟩, 2⟩, ⟨⟨.surface, 24⟩, 2⟩, ⟨⟨.surface, 26⟩, 2⟩, ⟨⟨.block, 31⟩, 3⟩],
    [⟨⟨.corner, 5⟩, 0⟩, ⟨⟨.line, 14⟩, 1⟩, ⟨⟨.line, 17⟩, 1⟩, ⟨⟨.line, 19⟩, 1⟩, ⟨⟨.surface, 23⟩, 2⟩, ⟨⟨.surface, 25⟩, 2⟩, ⟨⟨.surface, 27⟩, 2⟩]]
  boundary := [
    (⟨.corner, 1⟩, ⟨.line, 11⟩), (⟨.corner, 2⟩, ⟨.line, 11⟩), (⟨.corner, 1⟩, ⟨.line, 12⟩), (⟨.corner, 3⟩, ⟨.line, 12⟩),
    (⟨.corner, 1⟩, ⟨.line, 13⟩), (⟨.corner, 4⟩, ⟨.line, 13⟩), (⟨.corner, 1⟩, ⟨.line, 14⟩), (⟨.corner, 5⟩, ⟨.line, 14⟩),
    (⟨.corner, 2⟩, ⟨.line, 15⟩), (⟨.corner, 3⟩, ⟨.line, 15⟩), (⟨.corner, 2⟩, ⟨.line, 16⟩), (⟨.corner, 4⟩, ⟨.line, 16⟩),
    (⟨.corner, 2⟩, ⟨.line, 17⟩), (⟨.corner, 5⟩, ⟨.line, 17⟩), (⟨.corner, 3⟩, ⟨.line, 18⟩), (⟨.corner, 4⟩, ⟨.line, 18⟩),
    (⟨.corner, 3⟩, ⟨.line, 19⟩), (⟨.corner, 5⟩, ⟨.line, 19⟩), (⟨.corner, 1⟩, ⟨.line, 20⟩), (⟨.corner, 2⟩, ⟨.line, 20⟩),
    (⟨.corner, 3⟩, ⟨.line, 20⟩), (⟨.line, 12⟩, ⟨.surface, 21⟩), (⟨.line, 11⟩, ⟨.surface, 22⟩), (⟨.line, 13⟩, ⟨.surface, 22⟩),
    (⟨.line, 16⟩, ⟨.surface, 22⟩), (⟨.line, 11⟩, ⟨.surface, 23⟩), (⟨.line, 14⟩, ⟨.surface, 23⟩), (⟨.line, 17⟩, ⟨.surface, 23⟩),
    (⟨.line, 12⟩, ⟨.surface, 24⟩), (⟨.line, 13⟩, ⟨.surface, 24⟩), (⟨.line, 18⟩, ⟨.surface, 24⟩), (⟨.line, 12⟩, ⟨.surface, 25⟩),
    (⟨.line, 14⟩, ⟨.surface, 25⟩), (⟨.line, 19⟩, ⟨.surface, 25⟩), (⟨.line, 15⟩, ⟨.surface, 26⟩), (⟨.line, 16⟩, ⟨.surface, 26⟩),
    (⟨.line, 18⟩, ⟨.surface, 26⟩), (⟨.line, 15⟩, ⟨.surface, 27⟩), (⟨.line, 17⟩, ⟨.surface, 27⟩), (⟨.line, 19⟩, ⟨.surface, 27⟩),
    (⟨.line, 20⟩, ⟨.surface, 21⟩), (⟨.surface, 22⟩, ⟨.block, 31⟩), (⟨.surface, 23⟩, ⟨.block, 31⟩), (⟨.surface, 24⟩, ⟨.block, 31⟩),
    (⟨.surface, 25⟩, ⟨.block, 31⟩), (⟨.surface, 26⟩, ⟨.block, 31⟩), (⟨.surface, 27⟩, ⟨.block, 31⟩)]
  internal := [(⟨.surface, 21⟩, ⟨.block, 31⟩)]
  surfaceEdges := [
    ((11, 0), (22, 1)), ((11, 0), (23, 1)), ((12, 0), (21, 1)), ((12, 0), (24, 1)), ((12, 0), (25, 1)), ((13, 0), (22, 1)),
    ((13, 0), (24, 1)), ((14, 0), (23, 1)), ((14, 0), (25, 1)), ((15, 0), (26, 1)), ((15, 0), (27, 1)), ((16, 0), (22, 1)),
    ((16, 0), (26, 1)), ((17, 0), (23, 1)), ((17, 0), (27, 1)), ((18, 0), (24, 1)), ((18, 0), (26, 1)), ((19, 0), (25, 1)),
    ((19, 0), (27, 1)), ((20, 0), (21, 1)), ((20, 1), (21, 1))]
  blockEdges := [
    ((11, 0), (31, 1)), ((12, 0), (31, 1)), ((13, 0), (31, 1)), ((14, 0), (31, 1)), ((15, 0), (31, 1)), ((16, 0), (31, 1)),
    ((17, 0), (31, 1)), ((18, 0), (31, 1)), ((19, 0), (31, 1)), ((20, 0), (31, 1)), ((20, 1), (31, 1))]
  blockPolygons := [
    ((21, 0), (31, 2)), ((22, 0), (31, 1)), ((23, 0), (31, 1)), ((24, 0), (31, 1)), ((25, 0), (31, 1)), ((26, 0), (31, 1)),
    ((27, 0), (31, 1))]
  polygons := [
    ((21, 0), [0, 1, 2]), ((22, 0), [0, 1, 2]), ((23, 0), [0, 1, 2]), ((24, 0), [0, 1, 2]), ((25, 0), [0, 1, 2]),
    ((26, 0), [0, 1, 2]), ((27, 0), [0, 1, 2])]
  border := [
    (21, 0), (21, 1), (21, 2), (22, 0), (22, 1), (22, 2), (23, 0), (23, 1), (23, 2), (24, 0), (24, 1), (24, 2),
    (25, 0), (25, 1), (25, 2), (26, 0), (26, 1), (26, 2), (27, 0), (27, 1), (27, 2)]

theorem triangleInBlock_ok : BRepOk modelLibrary modelRuntime (exampleModel triangleInBlock (10 * ·) .positive) noCandidate where
  meshesKnown := MeshesOk.toMeshesKnown (exampleModel_meshes _ _ _ (by decide))
  blockWalks := MeshesOk.blockWalks (exampleModel_meshes _ _ _ (by decide))
  types := exampleModel_types _ _ _ _ (by decide)
  trees := exampleModel_trees _ _ _ _ (by decide +kernel)
  nbModelEdges := by decide +kernel
  topology := exampleModel_wf _ _ _ _ (by decide) (by decide) (by decide)
  around := by
    have aw := triangleInBlock.aw_of_check (by decide)
    rw [exampleModel_topology triangleInBlock _ .positive modelRuntime (by decide) (by decide)]
    exact ⟨fun m => List.reverse_perm m, aw.surfaces, aw.surfaceKeys, aw.blocks, aw.blockKeys, aw.polygons,
      by decide +kernel, by decide +kernel⟩
  coherent := triangleInBlock.coherent_of_check (by decide)
  surfaceEmbeddings := by
    intro id _ e he
    have := TopologyData.mem_select.1 he
    simp [triangleInBlock] at this
    simp [this.2]
  firstEdges := by decide +kernel
  counts := by
    rw [exampleModel_topology triangleInBlock _ .positive modelRuntime (by decide) (by decide)]
    exact counts_of_check triangleInBlock (by decide)
  graph := firstEdge_finder
  geometry := noGeometry_raises
  rays := example_rays _
  modelBoundaries := Or.inl rfl

set_option maxRecDepth 20000 in
/-- Where the Blocks 31 and 32 meet, at 0, there is a Surface which bounds one of them. -/
example : ∃ s ∈ (exampleModel gluedTetrahedra (10 * ·) .positive).surfaces, 0 ∈ s.points ∧
    ((exampleModel gluedTetrahedra (10 * ·) .positive).isBoundary s.id 31 = true ∨
      (exampleModel gluedTetrahedra (10 * ·) .positive).isBoundary s.id 32 = true) := by
  obtain ⟨v, N, h1, h2⟩ := C143_brep modelLibrary modelRuntime modelRuntime_ok _ _ gluedTetrahedra_ok
    (· = ·) (exampleModel_places _ _ _ (by decide +kernel)) (exampleModel_links _ _ _)
  have hv : v.isValid = true := by
    have h := h1 (N + 30) (by omega)
    have he : isBRepOfValid modelLibrary modelRuntime (N + 30) (exampleModel gluedTetrahedra (10 * ·) .positive) = .ok {} := by rfl
    rw [he] at h
    injection h with h
    rw [← h]
    rfl
  have hs : ∀ t ∈ (exampleModel gluedTetrahedra (10 * ·) .positive).blocks, t.id = 31 ∨ t.id = 32 := by decide +kernel
  obtain ⟨s, ms, hn, h⟩ := h2 hv ((exampleModel gluedTetrahedra (10 * ·) .positive).blocks[0]'(by decide))
    ((exampleModel gluedTetrahedra (10 * ·) .positive).blocks[1]'(by decide)) 0
    ⟨List.getElem_mem _, List.getElem_mem _, rfl, rfl, by decide, by decide, by decide +kernel, 0, by decide +kernel, rfl⟩
    fun t ht h h' => ((hs t ht).elim (fun e => absurd e h) fun e => absurd e h')
  have ha : ∀ s ∈ (exampleModel gluedTetrahedra (10 * ·) .positive).surfaces, s.active = true := by decide +kernel
  obtain ⟨q, hq, rfl⟩ := hn (ha s ms)
  exact ⟨s, ms, hq, h.elim (fun h => .inl h.1) fun h => h.1⟩

set_option maxRecDepth 20000 in
/-- The vertex of the Surface 21 at 20 is one of the Block 31. -/
example : ∃ b ∈ (exampleModel triangleInBlock (10 * ·) .positive).blocks, ∃ q ∈ b.points, q = 20 := by
  obtain ⟨v, N, h1, h2⟩ := C144_brep modelLibrary modelRuntime modelRuntime_ok _ _ triangleInBlock_ok
    (· = ·) (exampleModel_places _ _ _ (by decide +kernel)) (exampleModel_links _ _ _) (by decide +kernel)
  have hv : v.isValid = true := by
    have h := h1 (N + 30) (by omega)
    have he : isBRepOfValid modelLibrary modelRuntime (N + 30) (exampleModel triangleInBlock (10 * ·) .positive) = .ok {} := by rfl
    rw [he] at h
    injection h with h
    rw [← h]
    rfl
  exact ⟨_, List.getElem_mem _, (h2 hv ((exampleModel triangleInBlock (10 * ·) .positive).surfaces[0]'(by decide)) (List.getElem_mem _) rfl
    ((exampleModel triangleInBlock (10 * ·) .positive).blocks[0]'(by decide)) (List.getElem_mem _) rfl (by decide +kernel) 20
    (by decide +kernel)).2⟩

end Inspector
