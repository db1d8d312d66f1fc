import Verif.Props.CornersOnLines
import Verif.Props.LinesOnSurfaces
/-
C148: the Lines of a valid model have their vertices in the components they are internal to.
-/
namespace Inspector
open Spec SamePlace

namespace LinesInside
variable {P : Type} {lib : ModelLibrary P} {rt : ModelRuntime} {m : ModelData P}

theorem surface_same (hids : (m.corners.map CornerData.id ++ m.lines.map LineData.id ++ m.surfaces.map FaceData.id ++
      m.blocks.map VolumeData.id).Nodup) {s s' : FaceData P} (ms : s ∈ m.surfaces) (ms' : s' ∈ m.surfaces) (h : s'.id = s.id) :
    s' = s := by
  rw [List.nodup_append, List.nodup_append] at hids
  exact List.inj_on_of_nodup_map hids.1.2.1 ms' ms h

theorem block_same (hids : (m.corners.map CornerData.id ++ m.lines.map LineData.id ++ m.surfaces.map FaceData.id ++
      m.blocks.map VolumeData.id).Nodup) {b b' : VolumeData P} (mb : b ∈ m.blocks) (mb' : b' ∈ m.blocks) (h : b'.id = b.id) :
    b' = b := by
  rw [List.nodup_append] at hids
  exact List.inj_on_of_nodup_map hids.2.1 mb' mb h

/-- What has the uuid of a Surface and is linked to a unique vertex is this Surface. -/
theorem kind_of {kinds : List ComponentType} (hb : BijectivelyLinked (m.topology rt) kinds)
    (hids : (m.corners.map CornerData.id ++ m.lines.map LineData.id ++ m.surfaces.map FaceData.id ++
      m.blocks.map VolumeData.id).Nodup) {u : Index} (hlt : u < m.nbUniqueVertices) {cmv : ComponentMeshVertex}
    (hm : cmv ∈ m.componentMeshVertices u) {s : FaceData P} (ms : s ∈ m.surfaces) (hid : cmv.component_id.id = s.id) :
    At (m.topology rt) u .surface s.id := by
  obtain ⟨⟨kind, id⟩, w⟩ := cmv
  have hid : id = s.id := hid
  subst hid
  have hat : At (m.topology rt) u kind s.id := ⟨_, hm, rfl⟩
  obtain ⟨t, ht, htid, _⟩ := SurfacesMeet.component_of hb hlt hat
  have hin : s.id ∈ m.surfaces.map FaceData.id := List.mem_map_of_mem ms
  rw [List.nodup_append, List.nodup_append] at hids
  have hbefore : ∀ x, x ∈ m.corners.map CornerData.id ++ m.lines.map LineData.id → x ≠ s.id := fun x hx => hids.1.2.2 x hx _ hin
  have hafter : ∀ x, x ∈ m.blocks.map VolumeData.id → x ≠ s.id :=
    fun x hx he => hids.2.2 _ (List.mem_append_right _ hin) x hx he.symm
  cases kind with
  | surface => exact hat
  | corner =>
    obtain ⟨y, hy, rfl⟩ := List.mem_map.1 (show t ∈ m.corners.map fun c => (⟨c.id, c.active, c.points.length, 0⟩ :
      TopologyComponent) from ht)
    exact absurd htid (hbefore y.id (List.mem_append_left _ (List.mem_map_of_mem hy)))
  | line =>
    obtain ⟨y, hy, rfl⟩ := List.mem_map.1 (show t ∈ m.lines.map fun l => (⟨l.id, l.active, l.points.length, l.nbEdges⟩ :
      TopologyComponent) from ht)
    exact absurd htid (hbefore y.id (List.mem_append_right _ (List.mem_map_of_mem hy)))
  | block =>
    obtain ⟨y, hy, rfl⟩ := List.mem_map.1 (show t ∈ m.blocks.map fun b =>
      (⟨b.id, b.active, b.points.length, b.nbPolyhedra⟩ : TopologyComponent) from ht)
    exact absurd htid (hafter y.id (List.mem_map_of_mem hy))
  | other => exact absurd ht List.not_mem_nil

end LinesInside
open LinesInside

/-- **C148** (Sections): if a Section all the Surfaces of which have polygons is declared valid, an active Line internal to an active
Surface is internal to nothing else, bounds nothing, and its vertices are vertices of this Surface, except those at which a Line
internal to nothing is too.  Missing: these ones (false, see `C148_section_false`). -/
theorem C148_section_partial {P : Type} (lib : ModelLibrary P) (rt : ModelRuntime) (hrt : ModelRuntimeOk rt) (m : ModelData P)
    (c : Candidates P) (h : SectionOk lib rt m c) (near : P → P → Prop) (hl : PlacesOk lib m near) (hk : LinksKept m)
    (hm : ∀ s ∈ m.surfaces, s.nbPolygons ≠ 0) :
    ∃ v, isSectionOfValid lib rt m = .ok v ∧ (v.isValid = true →
      ∀ l ∈ m.lines, l.active = true → ∀ s ∈ m.surfaces, s.active = true → ⟨.surface, s.id⟩ ∈ m.embeddings l.id →
        ∀ p ∈ l.points, (∀ l' ∈ m.lines, l'.active = true → (∃ q ∈ l'.points, near q p) → m.embeddings l'.id ≠ []) →
          m.embeddings l.id = [⟨.surface, s.id⟩] ∧ m.incidences l.id = [] ∧ ∃ q ∈ s.points, near q p) := by
  obtain ⟨v, h1, h2⟩ := C82_section lib rt hrt m c h
  refine ⟨v, h1, fun hv l ml hla s ms hsa he p hp ho => ?_⟩
  have hd := h2.1 hv
  unfold SectionDefect SectionTopologyDefect at hd
  simp only [not_or, not_not] at hd
  have hb := hd.2.2.2.2.2.1
  have ids := h.meshes.ids
  obtain ⟨i, hi, rfl⟩ := List.getElem_of_mem hp
  have hx := VertexAt.line l i _ ml hla (List.getElem?_eq_getElem hi)
  obtain ⟨u, hu⟩ := linked_of_no_defect m rt _ hd.2.2.2.2.2.2.2.1 _ _ hx (List.mem_cons_of_mem _ List.mem_cons_self)
  obtain ⟨hlt, hmem⟩ := hk _ _ hu
  have hw := fun hw => hd.2.2.2.2.2.2.2.2 ⟨u, hlt, hw⟩
  unfold SectionVertexDefect at hw
  have hw : ¬ EmbeddedLineIsWrong (m.topology rt) u l.id := by
    intro hwrong
    obtain ⟨pre, post, hsplit⟩ := List.append_of_mem hmem
    refine hw (.inr (.inr (.inr (.inr (.inr (.inl ⟨pre, _, post, hsplit,
      ⟨rfl, LineEnds.active_of_vertex rt hx⟩, List.ne_nil_of_mem he, hwrong, fun x hxp hxa => ?_⟩))))))
    have hxm : x ∈ m.componentMeshVertices u := by
      have hsplit : m.componentMeshVertices u = pre ++ _ :: post := hsplit
      rw [hsplit]
      exact List.mem_append_left _ hxp
    obtain ⟨⟨kind, id⟩, w⟩ := x
    obtain ⟨hkd, hact⟩ := hxa
    have hkd : kind = .line := hkd
    subst hkd
    obtain ⟨l', ml', hid, hnear⟩ := SurfacesMeet.line_of near hl hk ids hd.1 hd.2.1 hb hx hu (line := id) ⟨_, hxm, rfl⟩
    subst hid
    obtain ⟨t, ht, htid, hta⟩ := hact
    obtain ⟨l'', ml'', rfl⟩ := List.mem_map.1 (show t ∈ m.lines.map fun l =>
      (⟨l.id, l.active, l.points.length, l.nbEdges⟩ : TopologyComponent) from ht)
    have hsame : l'' = l' := by
      rw [List.nodup_append, List.nodup_append, List.nodup_append] at ids
      exact List.inj_on_of_nodup_map ids.1.1.2.1 ml'' ml' htid
    subst hsame
    exact ho l'' ml'' hta (hnear hta)
  unfold EmbeddedLineIsWrong at hw
  simp only [not_or, not_lt, ne_eq, not_not] at hw
  obtain ⟨w1, w2, w3⟩ := hw
  refine ⟨?_, w2, ?_⟩
  · have w1 : (m.embeddings l.id).length ≤ 1 := w1
    match hq : m.embeddings l.id, w1, he with
    | [e], _, he => rw [List.mem_singleton.1 he]
    | [], _, he => exact absurd he List.not_mem_nil
    | _ :: _ :: _, w1, _ => exact absurd w1 (by simp)
  · have hall : AllMeshed (m.topology rt) .surface := by
      intro t ht
      obtain ⟨s, ms, rfl⟩ := List.mem_map.1 (show t ∈ m.surfaces.map fun s =>
        (⟨s.id, s.active, s.points.length, s.nbPolygons⟩ : TopologyComponent) from ht)
      exact hm s ms
    have hat : ∃ cmv ∈ m.componentMeshVertices u, cmv.component_id.id = s.id := by
      by_contra hc
      push Not at hc
      exact w3 ⟨hall, _, he, ⟨_, List.mem_map_of_mem ms, rfl, hsa⟩, hc⟩
    obtain ⟨cmv, hcmv, hid⟩ := hat
    obtain ⟨s', ms', hid', hnear⟩ := BlocksMeet.surface_of near hl hk ids hd.1 hd.2.1 hb hx hu (kind_of hb ids hlt hcmv ms hid)
    rw [surface_same ids ms ms' hid'] at hnear
    exact hnear hsa

/-- **C148** (BReps): if a BRep the wrong embeddings of the Lines of which can be described (see C54) is declared valid, an active Line
internal to an active Surface, or Block if all Blocks have polyhedra, does not bound it, and its vertices are vertices of it.
Missing: the other BReps (false, see `C148_brep_false`). -/
theorem C148_brep_partial {P : Type} (lib : ModelLibrary P) (rt : ModelRuntime) (hrt : ModelRuntimeOk rt) (m : ModelData P)
    (c : Candidates P) (h : BRepOk lib rt m c) (near : P → P → Prop) (hl : PlacesOk lib m near) (hk : LinksKept m)
    (hu : ¬ LinesUnreadable (m.topology rt)) :
    ∃ v N, (∀ fuel ≥ N, isBRepOfValid lib rt fuel m = .ok v) ∧ (v.isValid = true →
      ∀ l ∈ m.lines, l.active = true → ∀ p ∈ l.points,
        (∀ s ∈ m.surfaces, s.active = true → ⟨.surface, s.id⟩ ∈ m.embeddings l.id →
          m.isBoundary l.id s.id = false ∧ ∃ q ∈ s.points, near q p) ∧
        ((∀ b ∈ m.blocks, b.nbPolyhedra ≠ 0) → ∀ b ∈ m.blocks, b.active = true → ⟨.block, b.id⟩ ∈ m.embeddings l.id →
          m.isBoundary l.id b.id = false ∧ ∃ q ∈ b.points, near q p)) := by
  obtain ⟨v, N, h1, h2, _⟩ := C82_brep_partial lib rt hrt m c h
  refine ⟨v, N, h1, fun hv l ml hla p hp => ?_⟩
  have hd := (h2 hu).1 hv
  unfold BRepDefect BRepTopologyDefect at hd
  simp only [not_or, not_not] at hd
  have hb := hd.2.2.2.2.2.2.2.2.2.2.1
  have ids := h.meshesKnown.ids
  obtain ⟨i, hi, rfl⟩ := List.getElem_of_mem hp
  have hx := VertexAt.line l i _ ml hla (List.getElem?_eq_getElem hi)
  obtain ⟨u, huv⟩ := linked_of_no_defect m rt _ hd.2.2.2.2.2.2.2.2.2.2.2.2.1 _ _ hx (List.mem_cons_of_mem _ List.mem_cons_self)
  obtain ⟨hlt, hmem⟩ := hk _ _ huv
  have hw : ¬ BRepInvalidEmbeddedLine (m.topology rt) u :=
    fun hw => hd.2.2.2.2.2.2.2.2.2.2.2.2.2.1 ⟨u, hlt, .inr (.inr (.inr (.inr (.inl hw))))⟩
  have key : ∀ e ∈ m.embeddings l.id, m.isBoundary l.id e.id = false ∧
      ((e.type = .block → AllMeshed (m.topology rt) .block) → At (m.topology rt) u e.type e.id) := by
    refine fun e he => ⟨Bool.eq_false_iff.2 fun hbd => hw ⟨l.id, LineEnds.activeAt rt hk hx huv, e, he, .inl hbd⟩, fun ha => ?_⟩
    by_contra hn
    exact hw ⟨l.id, LineEnds.activeAt rt hk hx huv, e, he, .inr ⟨ha, hn⟩⟩
  refine ⟨fun s ms hsa he => ⟨(key _ he).1, ?_⟩, fun hm b mb hba he => ⟨(key _ he).1, ?_⟩⟩
  · obtain ⟨s', ms', hid', hnear⟩ := BlocksMeet.surface_of near hl hk ids hd.1 hd.2.1 hb hx huv ((key _ he).2 fun hc => by cases hc)
    rw [surface_same ids ms ms' hid'] at hnear
    exact hnear hsa
  · have hall : AllMeshed (m.topology rt) .block := by
      intro t ht
      obtain ⟨b, mb, rfl⟩ := List.mem_map.1 (show t ∈ m.blocks.map fun b =>
        (⟨b.id, b.active, b.points.length, b.nbPolyhedra⟩ : TopologyComponent) from ht)
      exact hm b mb
    obtain ⟨b', mb', hid', hnear⟩ := BlocksMeet.block_of near hl hk ids hd.1 hd.2.1 hb hx huv ((key _ he).2 fun _ => hall)
    rw [block_same ids mb mb' hid'] at hnear
    exact hnear hba

/-- Two triangles apart, 21 and 22, and a Line, 17, from the Corner 1 of the first one to the Corner 4 of the second one, to which it is
told to be internal. -/
def lineBetween : TopologyData where
  corners := [⟨1, true, 1, 0⟩, ⟨2, true, 1, 0⟩, ⟨3, true, 1, 0⟩, ⟨4, true, 1, 0⟩, ⟨5, true, 1, 0⟩, ⟨6, true, 1, 0⟩]
  lines := [⟨11, true, 2, 1⟩, ⟨12, true, 2, 1⟩, ⟨13, true, 2, 1⟩, ⟨14, true, 2, 1⟩, ⟨15, true, 2, 1⟩, ⟨16, true, 2, 1⟩, ⟨17, true, 2, 1⟩]
  surfaces := [⟨21, true, 3, 1⟩, ⟨22, true, 3, 1⟩]
  vertices := [
    [⟨⟨.corner, 1⟩, 0⟩, ⟨⟨.line, 11⟩, 0⟩, ⟨⟨.line, 13⟩, 1⟩, ⟨⟨.line, 17⟩, 0⟩, ⟨⟨.surface, 21⟩, 0⟩],
    [⟨⟨.corner, 2⟩, 0⟩, ⟨⟨.line, 12⟩, 0⟩, ⟨⟨.line, 11⟩, 1⟩, ⟨⟨.surface, 21⟩, 1⟩],
    [⟨⟨.corner, 3⟩, 0⟩, ⟨⟨.line, 13⟩, 0⟩, ⟨⟨.line, 12⟩, 1⟩, ⟨⟨.surface, 21⟩, 2⟩],
    [⟨⟨.corner, 4⟩, 0⟩, ⟨⟨.line, 14⟩, 0⟩, ⟨⟨.line, 16⟩, 1⟩, ⟨⟨.line, 17⟩, 1⟩, ⟨⟨.surface, 22⟩, 0⟩],
    [⟨⟨.corner, 5⟩, 0⟩, ⟨⟨.line, 15⟩, 0⟩, ⟨⟨.line, 14⟩, 1⟩, ⟨⟨.surface, 22⟩, 1⟩],
    [⟨⟨.corner, 6⟩, 0⟩, ⟨⟨.line, 16⟩, 0⟩, ⟨⟨.line, 15⟩, 1⟩, ⟨⟨.surface, 22⟩, 2⟩]]
  boundary := [(⟨.corner, 1⟩, ⟨.line, 11⟩), (⟨.corner, 2⟩, ⟨.line, 11⟩), (⟨.corner, 2⟩, ⟨.line, 12⟩),
    (⟨.corner, 3⟩, ⟨.line, 12⟩), (⟨.corner, 3⟩, ⟨.line, 13⟩), (⟨.corner, 1⟩, ⟨.line, 13⟩),
    (⟨.corner, 4⟩, ⟨.line, 14⟩), (⟨.corner, 5⟩, ⟨.line, 14⟩), (⟨.corner, 5⟩, ⟨.line, 15⟩),
    (⟨.corner, 6⟩, ⟨.line, 15⟩), (⟨.corner, 6⟩, ⟨.line, 16⟩), (⟨.corner, 4⟩, ⟨.line, 16⟩),
    (⟨.corner, 1⟩, ⟨.line, 17⟩), (⟨.corner, 4⟩, ⟨.line, 17⟩),
    (⟨.line, 11⟩, ⟨.surface, 21⟩), (⟨.line, 12⟩, ⟨.surface, 21⟩), (⟨.line, 13⟩, ⟨.surface, 21⟩),
    (⟨.line, 14⟩, ⟨.surface, 22⟩), (⟨.line, 15⟩, ⟨.surface, 22⟩), (⟨.line, 16⟩, ⟨.surface, 22⟩)]
  internal := [(⟨.line, 17⟩, ⟨.surface, 22⟩)]
  border := [(21, 0), (21, 1), (21, 2), (22, 0), (22, 1), (22, 2)]

theorem section_ok_of_check (d : TopologyData) (h1 : goodExample d = true) (h2 : d.blocks = [])
    (h3 : KnownTypes false ((exampleModel d (10 * ·) .positive).uniqueVertices modelLibrary))
    (h4 : ModelTreesOk ((exampleModel d (10 * ·) .positive).intersections modelLibrary false) noCandidate)
    (h5 : WellFormed ((exampleModel d (10 * ·) .positive).topology modelRuntime))
    (h6 : ∀ e ∈ d.internal, e.2.type = .surface) :
    SectionOk modelLibrary modelRuntime (exampleModel d (10 * ·) .positive) noCandidate where
  meshes := exampleModel_meshes _ _ _ h1
  noBlock := by
    show d.blocks.map _ = []
    rw [h2]
    rfl
  types := h3
  trees := h4
  tests := fun _ => noCandidate_tests _ _ _ _
  topology := h5
  embeddings := by
    intro id _ e he
    obtain ⟨x, hx, hxe⟩ := List.mem_map.1 (TopologyData.mem_select.1 (show e ∈ TopologyData.select _ id from he))
    injection hxe with _ h'
    rw [← h']
    exact h6 x hx

theorem lineBetween_ok : SectionOk modelLibrary modelRuntime (exampleModel lineBetween (10 * ·) .positive) noCandidate :=
  section_ok_of_check _ (by decide) rfl (exampleModel_types _ _ _ _ (by decide)) (exampleModel_trees _ _ _ _ (by decide +kernel))
    (exampleModel_wf _ _ _ _ (by decide) (by decide) (by decide)) (by decide)

set_option maxRecDepth 20000 in
/-- **C148** is false of Sections: this one, a Line of which has an end which is not a vertex of the Surface it is internal to, is
declared valid, -/
theorem C148_section_false : ∃ (m : ModelData Nat) (c : Candidates Nat), SectionOk modelLibrary modelRuntime m c ∧ LinksKept m ∧
    PlacesOk modelLibrary m (· = ·) ∧
    (∃ l ∈ m.lines, l.active = true ∧ ∃ s ∈ m.surfaces, s.active = true ∧ s.nbPolygons ≠ 0 ∧
      ⟨.surface, s.id⟩ ∈ m.embeddings l.id ∧ ∃ p ∈ l.points, p ∉ s.points) ∧
    ∃ v, isSectionOfValid modelLibrary modelRuntime m = .ok v ∧ v.isValid = true :=
  ⟨_, _, lineBetween_ok, exampleModel_links _ _ _, exampleModel_places _ _ _ (by decide +kernel), by decide +kernel, {}, by rfl, rfl⟩

set_option maxRecDepth 20000 in
/-- and of BReps: in this one, no vertex of the Line is a vertex of the Block it is internal to. -/
theorem C148_brep_false : ∃ (m : ModelData Nat) (c : Candidates Nat), BRepOk modelLibrary modelRuntime m c ∧ LinksKept m ∧
    PlacesOk modelLibrary m (· = ·) ∧
    (∃ l ∈ m.lines, l.active = true ∧ l.points ≠ [] ∧ ∃ b ∈ m.blocks, b.active = true ∧ b.nbPolyhedra ≠ 0 ∧
      ⟨.block, b.id⟩ ∈ m.embeddings l.id ∧ ∀ p ∈ l.points, p ∉ b.points) ∧
    ∃ v, v.isValid = true ∧ ∃ N, ∀ fuel ≥ N, isBRepOfValid modelLibrary modelRuntime fuel m = .ok v := by
  refine ⟨_, _, lineInFace_ok, exampleModel_links _ _ _, exampleModel_places _ _ _ (by decide +kernel), by decide +kernel, {}, rfl, 30,
    fun fuel hf => ?_⟩
  obtain ⟨k, rfl⟩ := Nat.exists_eq_add_of_le' hf
  rfl

/-- A triangle which its three Lines do not bound: they are internal to it. -/
def triangleOfInternal : TopologyData := { triangleSection with
  boundary := [(⟨.corner, 1⟩, ⟨.line, 11⟩), (⟨.corner, 2⟩, ⟨.line, 11⟩), (⟨.corner, 2⟩, ⟨.line, 12⟩),
    (⟨.corner, 3⟩, ⟨.line, 12⟩), (⟨.corner, 3⟩, ⟨.line, 13⟩), (⟨.corner, 1⟩, ⟨.line, 13⟩)]
  internal := [(⟨.line, 11⟩, ⟨.surface, 21⟩), (⟨.line, 12⟩, ⟨.surface, 21⟩), (⟨.line, 13⟩, ⟨.surface, 21⟩)] }

theorem triangleOfInternal_ok :
    SectionOk modelLibrary modelRuntime (exampleModel triangleOfInternal (10 * ·) .positive) noCandidate :=
  section_ok_of_check _ (by decide) rfl (exampleModel_types _ _ _ _ (by decide)) (exampleModel_trees _ _ _ _ (by decide +kernel))
    (exampleModel_wf _ _ _ _ (by decide) (by decide) (by decide)) (by decide)

/-- The tetrahedron, and a Line internal to its Block, on two edges. -/
def lineInside : TopologyData := { tetrahedronBRep with
  lines := tetrahedronBRep.lines ++ [⟨17, true, 3, 2⟩]
  vertices := [tetrahedronBRep.vertices.getD 0 [] ++ [⟨⟨.line, 17⟩, 0⟩], tetrahedronBRep.vertices.getD 1 [] ++ [⟨⟨.line, 17⟩, 1⟩],
    tetrahedronBRep.vertices.getD 2 [] ++ [⟨⟨.line, 17⟩, 2⟩], tetrahedronBRep.vertices.getD 3 []]
  boundary := tetrahedronBRep.boundary ++ [(⟨.corner, 1⟩, ⟨.line, 17⟩), (⟨.corner, 2⟩, ⟨.line, 17⟩), (⟨.corner, 3⟩, ⟨.line, 17⟩)]
  internal := [(⟨.line, 17⟩, ⟨.block, 31⟩)]
  blockEdges := tetrahedronBRep.blockEdges ++ [((17, 0), (31, 1)), ((17, 1), (31, 1))] }

theorem lineInside_ok : BRepOk modelLibrary modelRuntime (exampleModel lineInside (10 * ·) .positive) noCandidate where
  meshesKnown := MeshesOk.toMeshesKnown (exampleModel_meshes _ _ _ (by decide))
  blockWalks := MeshesOk.blockWalks (exampleModel_meshes _ _ _ (by decide))
  types := exampleModel_types _ _ _ _ (by decide)
  trees := exampleModel_trees _ _ _ _ (by decide +kernel)
  nbModelEdges := by decide +kernel
  topology := exampleModel_wf _ _ _ _ (by decide) (by decide) (by decide)
  around := by
    have aw := lineInside.aw_of_check (by decide)
    rw [exampleModel_topology lineInside _ .positive modelRuntime (by decide) (by decide)]
    exact ⟨fun m => List.reverse_perm m, aw.surfaces, aw.surfaceKeys, aw.blocks, aw.blockKeys, aw.polygons,
      by decide +kernel, by decide +kernel⟩
  coherent := lineInside.coherent_of_check (by decide)
  surfaceEmbeddings := by
    rintro id ⟨c, hc, rfl, _⟩ e he
    have hc' : c ∈ (exampleModel lineInside (10 * ·) .positive).surfaces.map fun c =>
      (⟨c.id, c.active, c.points.length, c.nbPolygons⟩ : TopologyComponent) := hc
    have hn : ∀ x ∈ lineInside.surfaces, lineInside.toModel.embeddings x.id = [] := by decide
    obtain ⟨f, hf, rfl⟩ := List.mem_map.1 hc'
    obtain ⟨x, hx, rfl⟩ := List.mem_map.1 hf
    have he' : e ∈ lineInside.toModel.embeddings x.id := he
    rw [hn x hx] at he'
    exact absurd he' List.not_mem_nil
  firstEdges := by decide +kernel
  counts := by
    rw [exampleModel_topology lineInside _ .positive modelRuntime (by decide) (by decide)]
    exact counts_of_check lineInside (by decide)
  graph := firstEdge_finder
  geometry := noGeometry_raises
  rays := example_rays _
  modelBoundaries := Or.inl rfl

/-- The embeddings of its Lines are right. -/
theorem lineInside_readable : ¬ LinesUnreadable ((exampleModel lineInside (10 * ·) .positive).topology modelRuntime) := by
  rintro ⟨v, hv, pre, cmv, post, hl, _, _, pre', e, post', he, _, hw, _⟩
  have hv : v < lineInside.vertices.length := hv
  have hl : lineInside.vertices.getD v [] = pre ++ cmv :: post := hl
  have he : lineInside.toModel.embeddings cmv.component_id.id = pre' ++ e :: post' := he
  have hmem : lineInside.vertices[v] ∈ lineInside.vertices := List.getElem_mem hv
  rw [List.getD_eq_getElem?_getD, List.getElem?_eq_getElem hv, Option.getD_some] at hl
  have key : ∀ l ∈ lineInside.vertices, ∀ x ∈ l, ∀ e ∈ lineInside.toModel.embeddings x.component_id.id,
      lineInside.toModel.isBoundary x.component_id.id e.id = false ∧ ∃ y ∈ l, y.component_id = e := by decide
  obtain ⟨k1, y, hy, k2⟩ := key _ hmem cmv (by rw [hl]; exact List.mem_append_right _ List.mem_cons_self) e
    (by rw [he]; exact List.mem_append_right _ List.mem_cons_self)
  rcases hw with hw | hw
  · have hw : lineInside.toModel.isBoundary cmv.component_id.id e.id = true := hw
    rw [k1] at hw
    cases hw
  · refine hw.2 ⟨y, ?_, k2⟩
    show y ∈ lineInside.vertices.getD v []
    rw [List.getD_eq_getElem?_getD, List.getElem?_eq_getElem hv, Option.getD_some]
    exact hy

set_option maxRecDepth 20000 in
/-- The first Line of the triangle bounds nothing, and starts at a vertex of the Surface; -/
example : (exampleModel triangleOfInternal (10 * ·) .positive).incidences 11 = [] ∧
    ∃ q ∈ ((exampleModel triangleOfInternal (10 * ·) .positive).surfaces[0]'(by decide)).points, q = 0 := by
  obtain ⟨v, h1, h2⟩ := C148_section_partial modelLibrary modelRuntime modelRuntime_ok _ _ triangleOfInternal_ok
    (· = ·) (exampleModel_places _ _ _ (by decide +kernel)) (exampleModel_links _ _ _) (by decide +kernel)
  have he : isSectionOfValid modelLibrary modelRuntime (exampleModel triangleOfInternal (10 * ·) .positive) = .ok {} := by rfl
  rw [he] at h1
  injection h1 with h1
  exact (h2 (by rw [← h1]; rfl) ((exampleModel triangleOfInternal (10 * ·) .positive).lines[0]'(by decide)) (List.getElem_mem _) rfl
    ((exampleModel triangleOfInternal (10 * ·) .positive).surfaces[0]'(by decide)) (List.getElem_mem _) rfl (by decide +kernel) 0
    (by decide +kernel) (by decide +kernel)).2

set_option maxRecDepth 20000 in
/-- the Line in the tetrahedron ends at a vertex of the Block. -/
example : ∃ q ∈ ((exampleModel lineInside (10 * ·) .positive).blocks[0]'(by decide)).points, q = 20 := by
  obtain ⟨v, N, h1, h2⟩ := C148_brep_partial modelLibrary modelRuntime modelRuntime_ok _ _ lineInside_ok
    (· = ·) (exampleModel_places _ _ _ (by decide +kernel)) (exampleModel_links _ _ _) lineInside_readable
  have hv : v.isValid = true := by
    have h := h1 (N + 30) (by omega)
    have he : isBRepOfValid modelLibrary modelRuntime (N + 30) (exampleModel lineInside (10 * ·) .positive) = .ok {} := by rfl
    rw [he] at h
    injection h with h
    rw [← h]
    rfl
  exact ((h2 hv ((exampleModel lineInside (10 * ·) .positive).lines[6]'(by decide)) (List.getElem_mem _) rfl 20 (by decide +kernel)).2
    (by decide +kernel) ((exampleModel lineInside (10 * ·) .positive).blocks[0]'(by decide)) (List.getElem_mem _) rfl
    (by decide +kernel)).2

end Inspector
