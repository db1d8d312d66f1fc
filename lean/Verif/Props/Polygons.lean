import Verif.Proofs.Polygons
import Verif.Props.LineEdges
/-
C134: the verdict on a model does not depend on the numbers of the polygons of its Surfaces, of the polyhedra of its Blocks
and of their edges.
-/
namespace Inspector
open Spec

/-- **C134** (BReps): the same BRep, the polygons and the polyhedra of its meshes having other numbers, and their edges too,
inspected in any other execution and with other search trees, gets the same verdict, if no Surface crosses the boundary of a
Block.  Missing: the other BReps, for which it is false (`C134_brep_false`). -/
theorem C134_brep_partial {P : Type} (lib : ModelLibrary P) (rt rt' : ModelRuntime) (hrt : ModelRuntimeOk rt)
    (hrt' : ModelRuntimeOk rt') (m : ModelData P) (turns : TurnsAgree m) (adjacents : AdjacentsExist m)
    (shape : InsideOfShape (m.topology rt) m.blocksOracle.geometry) (π ε : Uuid → Equiv.Perm Nat)
    (hπ : ElementNumbersOf π ε m) (inside : Uuid → Index → Uuid → Except Failure Bool) (hin : PolygonsIn inside m)
    (hside : OnOneSide inside m) (c c' : Candidates P) (h : BRepOk lib rt m c)
    (h' : BRepOk lib rt' (withElementsIn inside π ε m) c') :
    ∃ v v' N, (∀ fuel ≥ N, isBRepOfValid lib rt fuel m = .ok v ∧
      isBRepOfValid lib rt' fuel (withElementsIn inside π ε m) = .ok v') ∧ v.isValid = v'.isValid := by
  obtain ⟨v, N, h1, h2, h3, _⟩ := C82_brep_partial lib rt hrt m c h
  obtain ⟨v', N', h1', h2', h3', _⟩ := C82_brep_partial lib rt' hrt' _ c' h'
  refine ⟨v, v', max N N', fun fuel hf => ⟨h1 fuel (by omega), h1' fuel (by omega)⟩, ?_⟩
  rw [Bool.eq_iff_iff]
  have sh := Polygons.shuffled_ok hπ rt
  have mv := Polygons.turned (π := π) (ε := ε) (m := m) rt rt'
  have mv : Vertices.Turned LineEdges.same (Polygons.shuffled π (m.topology rt))
    ((withElementsIn inside π ε m).topology rt') := mv
  have same := Polygons.same_side hπ hin hside rt
  have hids : (m.surfaces.map FaceData.id).Nodup := by
    have := h.meshes.ids
    rw [List.append_assoc, List.append_assoc, List.nodup_append] at this
    have := this.2.1
    rw [List.nodup_append] at this
    have := this.2.1
    rw [List.nodup_append] at this
    exact this.1
  have hmesh : PlainBRepMeshDefect lib (withElementsIn inside π ε m) ↔ _ :=
    (Polygons.meshDefect_oracle _).trans (Polygons.meshDefect (lib := lib) hπ turns hids adjacents)
  have hmeets : PlainLineMeetsSurface lib (withElementsIn inside π ε m) ↔ _ :=
    (Polygons.lineMeets_oracle _).trans (Polygons.lineMeets (lib := lib) hπ)
  have hu := (Vertices.unreadable mv.toPlaces).trans (Polygons.unreadable sh)
  by_cases hr : LinesUnreadable (m.topology rt)
  · rw [(h3 hr).2, (h3' (hu.2 hr)).2, not_iff_not, Plain.brepDefectBesideLines_iff h.meshes h.types,
      Plain.brepDefectBesideLines_iff h'.meshes h'.types]
    unfold PlainBRepDefectBesideLines
    rw [hmesh, hmeets]
    have ht := Vertices.otherTopology mv.toPlaces (withElementsIn inside π ε m).blocksOracle
    rw [LineEdges.oracle_same] at ht
    have ht := (ht.trans (Polygons.otherTopology sh (withElementsIn inside π ε m).blocksOracle shape)).trans
      (Polygons.otherOracle_iff same)
    rw [← Plain.topology_iff h.meshes rt (fun t => OtherTopologyDefect t m.blocksOracle) (Numbers.otherTexts _),
      ← Plain.topology_iff h'.meshes rt' (fun t => OtherTopologyDefect t (withElementsIn inside π ε m).blocksOracle)
        (Numbers.otherTexts _),
      ht]
    exact Iff.rfl
  · rw [h2 hr, h2' (fun x => hr (hu.1 x)), not_iff_not, Plain.brepDefect_iff h.meshes h.types,
      Plain.brepDefect_iff h'.meshes h'.types]
    unfold PlainBRepDefect
    rw [hmesh, hmeets]
    have ht := Vertices.brepTopology mv (withElementsIn inside π ε m).blocksOracle
    rw [LineEdges.oracle_same] at ht
    have ht := (ht.trans (Polygons.brepTopology sh (withElementsIn inside π ε m).blocksOracle shape)).trans
      (Polygons.brepOracle_iff same)
    rw [← Plain.topology_iff h.meshes rt (fun t => BRepTopologyDefect t m.blocksOracle) (Numbers.brepTexts _),
      ← Plain.topology_iff h'.meshes rt' (fun t => BRepTopologyDefect t (withElementsIn inside π ε m).blocksOracle)
        (Numbers.brepTexts _),
      ht]

/-- **C134** (Sections). -/
theorem C134_section {P : Type} (lib : ModelLibrary P) (rt rt' : ModelRuntime) (hrt : ModelRuntimeOk rt)
    (hrt' : ModelRuntimeOk rt') (m : ModelData P) (π ε : Uuid → Equiv.Perm Nat) (hπ : ElementNumbersOf π ε m)
    (c c' : Candidates P) (h : SectionOk lib rt m c) (h' : SectionOk lib rt' (withElements π ε m) c') :
    ∃ v v', isSectionOfValid lib rt m = .ok v ∧ isSectionOfValid lib rt' (withElements π ε m) = .ok v' ∧
      v.isValid = v'.isValid := by
  obtain ⟨v, h1, h2⟩ := C99_section lib rt hrt m c h
  obtain ⟨v', h1', h2'⟩ := C99_section lib rt' hrt' _ c' h'
  refine ⟨v, v', h1, h1', ?_⟩
  rw [Bool.eq_iff_iff, h2, h2', not_iff_not]
  have ht := Plain.topology_iff h.meshes rt SectionTopologyDefect (fun _ _ _ _ _ _ _ hd => hd)
  have ht' := Plain.topology_iff h'.meshes rt' SectionTopologyDefect (fun _ _ _ _ _ _ _ hd => hd)
  have hs := (Vertices.sectionTopology (Polygons.turned (π := π) (ε := ε) (m := m) rt rt').toPlaces).trans
    (Polygons.sectionTopology (Polygons.shuffled_ok hπ rt))
  unfold PlainSectionDefect
  rw [← ht, ← ht', hs, Polygons.colocatedUvs, Polygons.ex_face,
    Polygons.polygonsMeet hπ fun p q r1 r2 t1 t2 => Polygons.sectionMeet lib.geometry p q r1 r2 t1 t2]
  simp only [Polygons.differentPoints]
  refine or_congr Iff.rfl (or_congr Iff.rfl (or_congr Iff.rfl (or_congr ?_ Iff.rfl)))
  exact exists_congr fun s => and_congr_right fun hs => and_congr Iff.rfl (or_congr (Polygons.surfaceDefect hπ hs).symm
    (Polygons.negativePolygon (hπ.polygons s hs)).symm)

/-! ### The model with other numbers is as well-formed -/

namespace Polygons
variable {P : Type} {lib : ModelLibrary P} {π ε : Uuid → Equiv.Perm Nat} {m : ModelData P}

theorem sum_moved {p : Equiv.Perm Nat} {n : Nat} (h : Renumbers p n) {f g : Nat → Nat} (hf : ∀ i, f (p i) = g i) :
    ((List.range n).map f).sum = ((List.range n).map g).sum := by
  rw [((Renumber.range_moved h).map f).sum_eq, List.map_map]
  exact congrArg List.sum (List.map_congr_left fun i _ => hf i)

theorem isActive_eq (id : Uuid) : (withElements π ε m).isActive id = m.isActive id := by
  simp [ModelData.isActive, withElements, facePolygons, volumePolyhedra, Function.comp_def]

theorem uniqueVertices_eq : (withElements π ε m).uniqueVertices lib = m.uniqueVertices lib := by
  unfold ModelData.uniqueVertices
  have h1 : (withElements π ε m).isActive = m.isActive := funext isActive_eq
  have h2 : ∀ id, ((withElements π ε m).surfaces.find? fun c => c.id == id).map (fun c => c.points) =
      (m.surfaces.find? fun c => c.id == id).map fun c => c.points := by
    intro id
    show ((m.surfaces.map _).find? _).map _ = _
    rw [List.find?_map, Option.map_map]
    rfl
  have h3 : ∀ id, ((withElements π ε m).blocks.find? fun c => c.id == id).map (fun c => c.points) =
      (m.blocks.find? fun c => c.id == id).map fun c => c.points := by
    intro id
    show ((m.blocks.map _).find? _).map _ = _
    rw [List.find?_map, Option.map_map]
    rfl
  simp only [h1, h2, h3]
  rfl

theorem surfaceOk (h : ElementNumbersOf π ε m) {s : FaceData P} (hs : s ∈ m.surfaces)
    (ok : SurfaceOk (m.manifoldSurface lib s)) :
    SurfaceOk ((withElements π ε m).manifoldSurface lib (facePolygons (π s.id) (ε s.id) s)) := by
  have hp := h.polygons s hs
  have hf := sameFace (e := ε s.id) hp
  refine ⟨?_, ?_, ok.nbVertices, ?_, ?_⟩
  · intro i k hi hk
    obtain ⟨i, rfl⟩ := (π s.id).surjective i
    have hk : k < (facePolygons (π s.id) (ε s.id) s).nbPolygonVertices (π s.id i) := hk
    have h1 := hf.nbVertices i
    have h2 := hf.vertex (i, k)
    show (facePolygons (π s.id) (ε s.id) s).polygonVertex (newElement (π s.id) (i, k)) < _
    rw [h2]
    exact ok.vertices i k ((hp i).1 hi) (by rw [h1] at hk; exact hk)
  · intro v hv f he
    have he : (s.polygonsAroundVertex v).map (List.map (newElement (π s.id))) = .error f := he
    cases hw : s.polygonsAroundVertex v with
    | ok l => rw [hw] at he; cases he
    | error f' => rw [hw] at he; cases he; exact ok.walks v hv _ hw
  · exact ((edges_perm hf).length_eq.trans (List.length_map ..)).trans_lt ok.nbEdges
  · intro e
    exact ((uses_perm hf e).length_eq.trans (List.length_map ..)).trans_lt (ok.uses e)

theorem solidKnown (h : ElementNumbersOf π ε m) {b : VolumeData P} (hb : b ∈ m.blocks)
    (ok : SolidDataKnown lib.toLibrary b.toSolidData) :
    SolidDataKnown lib.toLibrary (volumePolyhedra (π b.id) (ε b.id) b).toSolidData := by
  have hp := h.polyhedra b hb
  refine ⟨ok.search, ?_, ?_, ?_, ok.nbEdges, ok.nbPolyhedra, ?_, ?_⟩
  · intro p k hi hk
    exact ok.vertices _ k ((renumbers_symm hp p).2 hi) hk
  · intro p e f hi he hf
    have hf : (b.polyhedraAroundEdge e ((π b.id).symm p)).map (List.map (π b.id)) = .error f := hf
    cases hw : b.polyhedraAroundEdge e ((π b.id).symm p) with
    | ok l => rw [hw] at hf; cases hf
    | error f' => rw [hw] at hf; cases hf; exact ok.turns _ e f ((renumbers_symm hp p).2 hi) he hw
  · intro p e fan hi he hf
    have hf : (b.polyhedraAroundEdge e ((π b.id).symm p)).map (List.map (π b.id)) = .ok fan := hf
    cases hw : b.polyhedraAroundEdge e ((π b.id).symm p) with
    | error f' => rw [hw] at hf; cases hf
    | ok l =>
      rw [hw] at hf
      cases hf
      exact (ok.turnsOnce _ e l ((renumbers_symm hp p).2 hi) he hw).map (π b.id).injective
  · refine (sum_moved hp (g := fun p => (b.polyhedronEdgesVertices p).length) (fun i => ?_)).trans_lt ok.nbPolyhedronEdges
    simp [volumePolyhedra]
  · refine (sum_moved hp (g := b.nbPolyhedronFacets) (fun i => ?_)).trans_lt ok.nbFacets
    simp [volumePolyhedra]

theorem meshesKnown (hn : ElementNumbersOf π ε m) (h : MeshesKnown lib m) : MeshesKnown lib (withElements π ε m) where
  ids := by simpa [withElements, facePolygons, volumePolyhedra, Function.comp_def] using h.ids
  nbComponents := by simpa [withElements] using h.nbComponents
  corners := h.corners
  lines := h.lines
  surfaces := by
    intro s hs
    obtain ⟨s, hs', rfl⟩ := List.mem_map.1 hs
    have h0 := h.surfaces s hs'
    refine ⟨h0.1, h0.2.1, h0.2.2.1, ?_⟩
    refine (sum_moved (hn.polygons s hs') (g := s.nbPolygonVertices) (fun i => ?_)).trans_lt h0.2.2.2
    simp [facePolygons]
  walks := by
    intro s hs
    obtain ⟨s, hs', rfl⟩ := List.mem_map.1 hs
    exact surfaceOk hn hs' (h.walks s hs')
  blocks := by
    intro b hb
    obtain ⟨b, hb', rfl⟩ := List.mem_map.1 hb
    exact solidKnown hn hb' (h.blocks b hb')
  uniqueVertices := by rw [uniqueVertices_eq]; exact h.uniqueVertices
  nbUniqueVertices := h.nbUniqueVertices
  nbLinks := h.nbLinks
  smallPolygons := by
    intro s hs p
    obtain ⟨s, hs', rfl⟩ := List.mem_map.1 hs
    exact h.smallPolygons s hs' _
  positions := h.positions

theorem blockWalks (h : BlockWalksOk m) : BlockWalksOk (withElements π ε m) := by
  intro b hb ha v hv
  obtain ⟨b, hb', rfl⟩ := List.mem_map.1 hb
  obtain ⟨fan, hf⟩ := h b hb' ha v hv
  refine ⟨fan.map (newElement (π b.id)), ?_⟩
  show (b.polyhedraAroundVertex v).map _ = _
  rw [hf]
  rfl

theorem components (rt rt' : ModelRuntime) : ((withElements π ε m).topology rt').components = (m.topology rt).components :=
  (turned (π := π) (ε := ε) (m := m) rt rt').components

/-- A Section with other numbers of polygons has the guarantees of the first one, if its search trees have theirs and the
tests of its triangles raise nothing. -/
theorem sectionOk {rt : ModelRuntime} {c c' : Candidates P} (hn : ElementNumbersOf π ε m) (h : SectionOk lib rt m c)
    (ht : ModelTreesOk ((withElements π ε m).intersections lib false) c')
    (hx : NoEmptySurface ((withElements π ε m).intersections lib false) →
      TestsOk ((withElements π ε m).intersections lib false) c') : SectionOk lib rt (withElements π ε m) c' where
  meshes := ⟨meshesKnown hn h.meshes.toMeshesKnown, blockWalks h.meshes.blockWalks⟩
  noBlock := by
    show m.blocks.map _ = []
    rw [h.noBlock]
    rfl
  types := by rw [uniqueVertices_eq]; exact h.types
  trees := ht
  tests := hx
  topology := by
    have w : WellFormed (shuffled π (m.topology rt)) := ⟨h.topology.ids, h.topology.vertices, h.topology.embeddings,
      h.topology.incidences, h.topology.boundaries⟩
    exact Vertices.wellFormed (turned rt rt).toPlaces w
  embeddings := fun id ha => h.embeddings id ((Vertices.active (turned rt rt).toPlaces .line id).1 ha)

/-- The same for BReps. -/
theorem brepOk {rt : ModelRuntime} {c c' : Candidates P} (hn : ElementNumbersOf π ε m) (h : BRepOk lib rt m c)
    (ht : ModelTreesOk ((withElements π ε m).intersections lib true) c') :
    BRepOk lib rt (withElements π ε m) c' where
  meshesKnown := meshesKnown hn h.meshesKnown
  blockWalks := blockWalks h.blockWalks
  types := by rw [uniqueVertices_eq]; exact h.types
  trees := ht
  nbModelEdges := by
    have h1 := h.nbModelEdges
    have h2 : ((activeSurfaces ((withElements π ε m).manifold lib)).map fun s =>
        (polygonEdges s.mesh.toSurfaceMesh).length) =
        (activeSurfaces (m.manifold lib)).map fun s => (polygonEdges s.mesh.toSurfaceMesh).length := by
      have h3 : ∀ s ∈ m.surfaces, (polygonEdges (facePolygons (π s.id) (ε s.id) s).toSurfaceMesh).length =
          (polygonEdges s.toSurfaceMesh).length := fun s hs =>
        (edges_perm (sameFace (hn.polygons s hs))).length_eq.trans (List.length_map ..)
      simp only [activeSurfaces, ModelData.manifold, withElements, List.map_map, List.filter_map, Function.comp_def]
      refine List.map_congr_left fun s hs => ?_
      exact h3 s (List.mem_filter.1 hs).1
    rw [h2]
    exact h1
  topology := by
    have w : WellFormed (shuffled π (m.topology rt)) := ⟨h.topology.ids, h.topology.vertices, h.topology.embeddings,
      h.topology.incidences, h.topology.boundaries⟩
    exact Vertices.wellFormed (turned rt rt).toPlaces w
  around := by
    have a := h.around
    have mv := components (π := π) (ε := ε) (m := m) rt rt
    refine ⟨a.iterate, ?_, a.surfaceKeys, ?_, a.blockKeys, ?_, ?_, ?_⟩
    · unfold Has; rw [mv]; exact a.surfaces
    · unfold Has; rw [mv]; exact a.blocks
    · unfold Has; rw [mv]; exact fun s f b n hb => a.polygons s _ b n hb
    · rw [mv]; exact a.edgeVertices
    · rw [mv]
      intro x hx f hf v hv
      obtain ⟨s, hs, rfl⟩ := List.mem_map.1 hx
      refine a.facetVertices _ hx ((π s.id).symm f) ((renumbers_symm (hn.polygons s hs) f).2 hf) v ?_
      rw [(turned (π := π) (ε := ε) (m := m) rt rt).polygonVertices] at hv
      simpa [LineEdges.same, shuffled] using hv
  coherent := h.coherent
  surfaceEmbeddings := fun id ha => h.surfaceEmbeddings id ((Vertices.active (turned rt rt).toPlaces .surface id).1 ha)
  firstEdges := h.firstEdges
  counts := by
    intro v hv b hb
    have mv := (turned (π := π) (ε := ε) (m := m) rt rt).toPlaces
    have hc := h.counts v hv b ((Vertices.at_ mv v .block b).1 hb)
    unfold CountsFit nbLinePassages at hc ⊢
    rw [Vertices.linesAt_eq mv]
    simp only [Vertices.sheets mv]
    exact hc
  graph := h.graph
  geometry := h.geometry
  rays := by
    have mv := (turned (π := π) (ε := ε) (m := m) rt rt).toPlaces
    have hr := h.rays
    intro s hs hc block hb
    rw [mv.components] at hc hb
    exact hr s ((Vertices.cannotBound mv s).1 hs) hc block hb
  modelBoundaries := h.modelBoundaries

/-- The same when other polygons are looked for in the Blocks. -/
theorem brepOkIn {rt : ModelRuntime} {c c' : Candidates P} (hn : ElementNumbersOf π ε m)
    {inside : Uuid → Index → Uuid → Except Failure Bool} (h : BRepOk lib rt m c)
    (ht : ModelTreesOk ((withElements π ε m).intersections lib true) c')
    (hr : RaysAnswer ((withElements π ε m).topology rt) fun s b => inside s ((π s).symm 0) b) :
    BRepOk lib rt (withElementsIn inside π ε m) c' :=
  have h := brepOk hn h ht
  have k := h.meshesKnown
  { meshesKnown := ⟨k.ids, k.nbComponents, k.corners, k.lines, k.surfaces, k.walks, k.blocks, k.uniqueVertices,
      k.nbUniqueVertices, k.nbLinks, k.smallPolygons, k.positions⟩
    blockWalks := h.blockWalks
    types := h.types
    trees := h.trees
    nbModelEdges := h.nbModelEdges
    topology := h.topology
    around := h.around
    coherent := h.coherent
    surfaceEmbeddings := h.surfaceEmbeddings
    firstEdges := h.firstEdges
    counts := h.counts
    graph := h.graph
    geometry := h.geometry
    rays := hr
    modelBoundaries := h.modelBoundaries }

end Polygons

/-! ### examples -/

/-- A square, -/
def quadBorder : TopologyData where
  corners := [⟨1, true, 1, 0⟩, ⟨3, true, 1, 0⟩]
  lines := [⟨11, true, 3, 2⟩, ⟨13, true, 3, 2⟩]
  surfaces := [⟨21, true, 4, 2⟩]
  vertices := [
    [⟨⟨.corner, 1⟩, 0⟩, ⟨⟨.line, 11⟩, 0⟩, ⟨⟨.line, 13⟩, 2⟩, ⟨⟨.surface, 21⟩, 0⟩],
    [⟨⟨.line, 11⟩, 1⟩, ⟨⟨.surface, 21⟩, 1⟩],
    [⟨⟨.corner, 3⟩, 0⟩, ⟨⟨.line, 13⟩, 0⟩, ⟨⟨.line, 11⟩, 2⟩, ⟨⟨.surface, 21⟩, 2⟩],
    [⟨⟨.line, 13⟩, 1⟩, ⟨⟨.surface, 21⟩, 3⟩]]
  boundary := [(⟨.corner, 1⟩, ⟨.line, 11⟩), (⟨.corner, 3⟩, ⟨.line, 11⟩), (⟨.corner, 3⟩, ⟨.line, 13⟩),
    (⟨.corner, 1⟩, ⟨.line, 13⟩), (⟨.line, 11⟩, ⟨.surface, 21⟩), (⟨.line, 13⟩, ⟨.surface, 21⟩)]
  border := [(21, 0), (21, 1), (21, 2), (21, 3)]
  surfaceEdges := [((11, 0), (21, 1)), ((11, 1), (21, 1)), ((13, 0), (21, 1)), ((13, 1), (21, 1))]

/-- made of two triangles. -/
def quadFace : FaceData Nat where
  id := 21
  active := true
  nbPolygons := 2
  nbPolygonVertices _ := 3
  polygonVertex x := if x.1 = 0 then [0, 1, 2].getD x.2 0 else [0, 2, 3].getD x.2 0
  polygonAdjacent x := if x = (0, 2) then some 1 else if x = (1, 0) then some 0 else none
  label := ""
  points := [0, 10, 20, 30]
  polygonsAroundVertex v := .ok ([[(0, 0), (1, 0)], [(0, 1)], [(0, 2), (1, 1)], [(1, 2)]].getD v [])
  nbEdges := 5
  edgeVertices e := [(0, 1), (1, 2), (2, 0), (2, 3), (3, 0)].getD e (0, 0)
  minimumHeight _ := .num 5
  isPolygonDegenerated _ := false
  polygonAreaSign _ := .positive
  polygonsIntersect _ _ := .ok false
  traverse _ := []

abbrev quadModel : ModelData Nat :=
  { exampleModel quadBorder (10 * ·) .positive with surfaces := [quadFace] }

/-- Its triangles exchange their numbers, and two of its edges. -/
def exchangeTriangles (_ : Uuid) : Equiv.Perm Nat := Equiv.swap 0 1

theorem exchangeTriangles_numbers : ElementNumbersOf exchangeTriangles exchangeTriangles quadModel := by
  have key : ∀ n, 2 ≤ n → Renumbers (Equiv.swap 0 1) n := by
    intro n hn i
    rw [Equiv.swap_apply_def]
    split <;> [skip; split] <;> omega
  refine ⟨?_, ?_, fun b hb => absurd hb List.not_mem_nil, fun b hb => absurd hb List.not_mem_nil⟩
  · intro s hs
    rw [List.mem_singleton.1 hs]
    exact key 2 (by decide)
  · intro s hs
    rw [List.mem_singleton.1 hs]
    exact key 5 (by decide)

theorem quad_comparisons {brep : Bool} {m : ModelData Nat} (h3 : m.overlappingSurfaces = []) {x}
    (hx : x ∈ comparisons (m.intersections modelLibrary brep) noCandidate) :
    x.2 = [] ∧ x.1.1 = x.1.2 ∧ x.1.1 ∈ (m.intersections modelLibrary brep).surfaces ∧ x.1.1.active = true := by
  have h3 : (m.intersections modelLibrary brep).overlappingSurfaces = [] := by
    show m.overlappingSurfaces.map _ = []
    rw [h3]
    rfl
  rw [comparisons, h3, List.mem_append] at hx
  rcases hx with hx | hx
  · obtain ⟨s, hs, rfl⟩ := List.mem_map.1 hx
    rw [List.mem_filter] at hs
    exact ⟨rfl, rfl, hs.1, hs.2⟩
  · exact absurd hx List.not_mem_nil

theorem quad_tests {brep : Bool} {m : ModelData Nat} (h3 : m.overlappingSurfaces = []) :
    TestsOk (m.intersections modelLibrary brep) noCandidate := by
  intro x hx p hp
  rw [(quad_comparisons h3 hx).1] at hp
  exact absurd hp List.not_mem_nil

/-- No two polygons meet. -/
theorem quad_trees (brep : Bool) (m : ModelData Nat)
    (h1 : ∀ s stop, m.selfTree s stop = []) (h0 : ∀ s s' stop, m.otherTree s s' stop = [])
    (h2 : ∀ s l stop, m.lineTree s l stop = []) (h3 : m.overlappingSurfaces = [])
    (h : ∀ s1 ∈ (m.intersections modelLibrary brep).surfaces, ∀ s2 ∈ (m.intersections modelLibrary brep).surfaces,
      ∀ p < s1.nbPolygons, ∀ q < s2.nbPolygons, ¬ PolygonsMeet (m.intersections modelLibrary brep) s1 s2 (p, q)) :
    ModelTreesOk (m.intersections modelLibrary brep) noCandidate := by
  refine ⟨⟨?_, ?_, ?_⟩, ?_, ?_, fun _ _ _ hp => absurd hp List.not_mem_nil, ?_, ?_⟩
  · intro s stop
    exact ⟨⟨[], List.Perm.of_eq (h1 s.id _).symm, List.Sublist.refl _⟩, fun _ => List.Perm.of_eq (h1 s.id _)⟩
  · intro s s' stop
    exact ⟨⟨[], List.Perm.of_eq (h0 s.id s'.id _).symm, List.Sublist.refl _⟩, fun _ => List.Perm.of_eq (h0 s.id s'.id _)⟩
  · intro s l stop
    exact ⟨⟨[], List.Perm.of_eq (h2 s.id l.id _).symm, List.Sublist.refl _⟩, fun _ => List.Perm.of_eq (h2 s.id l.id _)⟩
  · intro x hx
    obtain ⟨a, b, c, d⟩ := quad_comparisons h3 hx
    exact ⟨c, d, b ▸ c, b ▸ d, fun p hp => absurd (a ▸ hp) List.not_mem_nil⟩
  · intro s1 s2 p q hx
    obtain ⟨g1, _, g2, _, hp, hq, hm⟩ := hx
    exact absurd hm (h s1 g1 s2 g2 p hp q hq)
  · intro s l p e hx
    obtain ⟨_, _, _, _, _, _, _, t, _, x, hx, hm⟩ := hx
    have hm : Position.outside = x ∨ Position.outside = x := hm
    rcases hm with rfl | rfl <;> simp at hx
  · have g1 : meetingEdges (m.intersections modelLibrary brep) noCandidate = [] := by
      unfold meetingEdges
      rw [List.flatMap_eq_nil_iff]
      intro s _
      rw [List.flatMap_eq_nil_iff]
      intro l _
      rfl
    have g2 : meetingPolygons (m.intersections modelLibrary brep) noCandidate = [] := by
      unfold meetingPolygons
      rw [List.flatMap_eq_nil_iff]
      intro x hx
      rw [(quad_comparisons h3 hx).1]
      rfl
    rw [g1, g2]
    decide

theorem quad_meshes : MeshesOk modelLibrary quadModel where
  ids := by decide +kernel
  nbComponents := by decide +kernel
  corners := by decide +kernel
  lines := by
    intro l hl
    have hl : l ∈ (exampleModel quadBorder (10 * ·) .positive).lines := hl
    obtain ⟨c, hc, rfl⟩ := List.mem_map.1 hl
    have hc : c = ⟨11, true, 3, 2⟩ ∨ c = ⟨13, true, 3, 2⟩ := by simpa [quadBorder] using hc
    rcases hc with rfl | rfl <;> exact ⟨identity_search _ (by decide +kernel), by decide⟩
  surfaces := by
    intro s hs
    rw [List.mem_singleton.1 hs]
    exact ⟨identity_search _ (by decide), by decide, by decide, by decide +kernel⟩
  walks := by
    intro s hs
    rw [List.mem_singleton.1 hs]
    refine ⟨fun p k hp hk => ?_, fun v _ f hf => (by cases hf), by decide +kernel, by decide +kernel, fun e => ?_⟩
    · have hk : k < 3 := hk
      show (if p = 0 then [0, 1, 2].getD k 0 else [0, 2, 3].getD k 0) < 4
      rcases k with _ | _ | _ | k
      all_goals first | (split <;> decide) | omega
    · refine Nat.lt_of_le_of_lt (List.length_filter_le _ _) ?_
      decide +kernel
  blocks := fun b hb => absurd hb List.not_mem_nil
  uniqueVertices := by
    rw [← activePositions_length]
    exact identity_search _ (by decide +kernel)
  nbUniqueVertices := by decide +kernel
  nbLinks := by decide +kernel
  smallPolygons := by
    intro s hs p
    rw [List.mem_singleton.1 hs]
    show 3 ≤ 256
    decide
  positions := (exampleModel_meshes foldedBorder (10 * ·) .positive (by decide)).positions
  blockWalks := fun b hb => absurd hb List.not_mem_nil

theorem quad_wf : WellFormed (quadModel.topology modelRuntime) := by
  have wf := quadBorder.wf_of_check (by decide)
  have hc : (quadModel.topology modelRuntime).components = quadBorder.toModel.components := by
    funext kind
    cases kind <;> rfl
  refine ⟨by rw [hc]; exact wf.ids, ?_, ?_, ?_, ?_⟩ <;> unfold Has <;> rw [hc]
  · exact wf.vertices
  · exact wf.embeddings
  · exact wf.incidences
  · exact wf.boundaries

theorem quadSection_ok : SectionOk modelLibrary modelRuntime quadModel noCandidate where
  meshes := quad_meshes
  noBlock := rfl
  types := exampleModel_types quadBorder (10 * ·) .positive _ (by decide)
  trees := quad_trees _ _ (fun _ _ => rfl) (fun _ _ _ => rfl) (fun _ _ _ => rfl) rfl (by decide +kernel)
  tests := fun _ => quad_tests rfl
  topology := quad_wf
  embeddings := by
    intro id _ e he
    exact absurd (TopologyData.mem_select.1 he) (by simp [quadBorder])


theorem quadBRep_ok : BRepOk modelLibrary modelRuntime quadModel noCandidate where
  meshesKnown := quad_meshes.toMeshesKnown
  blockWalks := quad_meshes.blockWalks
  types := exampleModel_types quadBorder (10 * ·) .positive _ (by decide)
  trees := quad_trees _ _ (fun _ _ => rfl) (fun _ _ _ => rfl) (fun _ _ _ => rfl) rfl (by decide +kernel)
  nbModelEdges := by decide +kernel
  topology := quad_wf
  around := by
    have aw := quadBorder.aw_of_check (by decide)
    have hc : (quadModel.topology modelRuntime).components = quadBorder.toModel.components := by
      funext kind
      cases kind <;> rfl
    refine ⟨fun m => List.reverse_perm m, ?_, aw.surfaceKeys, ?_, aw.blockKeys, ?_, by decide +kernel, by decide +kernel⟩ <;>
      unfold Has <;> rw [hc]
    · exact aw.surfaces
    · exact aw.blocks
    · exact aw.polygons
  coherent := quadBorder.coherent_of_check (by decide)
  surfaceEmbeddings := fun id _ e he => absurd he List.not_mem_nil
  firstEdges := by decide +kernel
  counts := by
    have := counts_of_check quadBorder (by decide)
    intro v hv b hb
    exact this v hv b hb
  graph := firstEdge_finder
  geometry := noGeometry_raises
  rays := example_rays _
  modelBoundaries := Or.inl rfl

set_option maxRecDepth 20000 in
/-- the Section gets the same verdict, valid -/
example : ∃ v, isSectionOfValid modelLibrary modelRuntime
    (withElements exchangeTriangles exchangeTriangles quadModel) = .ok v ∧ v.isValid = true := by
  obtain ⟨v, v', h1, h2, h3⟩ := C134_section modelLibrary modelRuntime modelRuntime modelRuntime_ok
    modelRuntime_ok quadModel exchangeTriangles exchangeTriangles exchangeTriangles_numbers noCandidate noCandidate
    quadSection_ok (Polygons.sectionOk exchangeTriangles_numbers quadSection_ok
      (quad_trees _ _ (fun _ _ => rfl) (fun _ _ _ => rfl) (fun _ _ _ => rfl) rfl (by decide +kernel))
      fun _ => quad_tests rfl)
  have he : isSectionOfValid modelLibrary modelRuntime quadModel = .ok {} := by rfl
  rw [he] at h1
  injection h1 with h1
  subst h1
  exact ⟨v', h2, h3.symm⟩

set_option maxRecDepth 20000 in
/-- and so does the BRep, which has no Block -/
example : ∃ v N, ∀ fuel ≥ N, isBRepOfValid modelLibrary modelRuntime fuel
    (withElementsIn (fun _ _ _ => .ok false) exchangeTriangles exchangeTriangles quadModel) = .ok v ∧ v.isValid = true := by
  obtain ⟨v, v', N, h1, h3⟩ := C134_brep_partial modelLibrary modelRuntime modelRuntime modelRuntime_ok
    modelRuntime_ok quadModel (fun b hb => absurd hb List.not_mem_nil)
    (by
      intro s hs _ x q _ hq
      rw [List.mem_singleton.1 hs] at hq ⊢
      have hq : (if x = (0, 2) then some 1 else if x = (1, 0) then some 0 else none) = some q := hq
      show q < 2
      split at hq <;> [skip; split at hq] <;> cases hq <;> decide)
    (fun _ _ _ _ _ _ _ _ _ => rfl) exchangeTriangles exchangeTriangles exchangeTriangles_numbers
    (fun _ _ _ => .ok false) (fun _ _ => rfl) (fun _ _ _ _ _ _ => rfl) noCandidate noCandidate
    quadBRep_ok (Polygons.brepOkIn exchangeTriangles_numbers quadBRep_ok
      (quad_trees _ _ (fun _ _ => rfl) (fun _ _ _ => rfl) (fun _ _ _ => rfl) rfl (by decide +kernel))
      fun _ _ _ _ _ => ⟨false, rfl⟩)
  refine ⟨v', N, fun fuel hf => ⟨(h1 fuel hf).2, ?_⟩⟩
  rw [← h3]
  have he : isBRepOfValid modelLibrary modelRuntime (N + 20) quadModel = .ok {} := by rfl
  have h1 := (h1 (N + 20) (by omega)).1
  rw [he] at h1
  injection h1 with h1
  subst h1
  rfl

end Inspector
