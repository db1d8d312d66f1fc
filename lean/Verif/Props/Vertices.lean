import Verif.Proofs.Vertices
import Verif.Props.Numbers
import Verif.Props.NoOverlap
import Verif.Props.Triangles
/-
C132: the verdict on a model does not depend on the numbers of the vertices of the meshes of its components.
-/
namespace Inspector
open Spec

/-- **C132** (BReps): the same BRep, the vertices of the meshes of its components having other numbers, inspected in any
other execution and with other search trees, gets the same verdict. -/
theorem C132_brep {P : Type} (lib : ModelLibrary P) (rt rt' : ModelRuntime) (hrt : ModelRuntimeOk rt)
    (hrt' : ModelRuntimeOk rt') (m : ModelData P) (σ : ComponentID → Equiv.Perm Nat) (hσ : VertexNumbersOf σ m)
    (c c' : Candidates P) (h : BRepOk lib rt m c) (h' : BRepOk lib rt' (withVertices σ m) c') (near : P → P → Prop)
    (hn : SearchDecides lib near m) (hn' : SearchDecides lib near (withVertices σ m)) (hf : FacetsCompared lib σ m) :
    ∃ v v' N, (∀ fuel ≥ N, isBRepOfValid lib rt fuel m = .ok v ∧
      isBRepOfValid lib rt' fuel (withVertices σ m) = .ok v') ∧ v.isValid = v'.isValid := by
  obtain ⟨v, N, h1, h2, h3, _⟩ := C82_brep_partial lib rt hrt m c h
  obtain ⟨v', N', h1', h2', h3', _⟩ := C82_brep_partial lib rt' hrt' _ c' h'
  refine ⟨v, v', max N N', fun fuel hf => ⟨h1 fuel (by omega), h1' fuel (by omega)⟩, ?_⟩
  rw [Bool.eq_iff_iff]
  have mv := Vertices.turned hσ rt rt'
  have hmesh := Vertices.meshDefect hσ hn hn' hf
  have hu := Vertices.unreadable mv.toPlaces
  by_cases hr : LinesUnreadable (m.topology rt)
  · rw [(h3 hr).2, (h3' (hu.2 hr)).2, not_iff_not, Plain.brepDefectBesideLines_iff h.meshes h.types,
      Plain.brepDefectBesideLines_iff h'.meshes h'.types]
    unfold PlainBRepDefectBesideLines
    rw [hmesh, Vertices.lineMeets hσ, Vertices.nonEmptyLines]
    rw [← Plain.topology_iff h.meshes rt (fun t => OtherTopologyDefect t m.blocksOracle) (Numbers.otherTexts _),
      ← Plain.topology_iff h'.meshes rt' (fun t => OtherTopologyDefect t (withVertices σ m).blocksOracle)
        (Numbers.otherTexts _),
      show (withVertices σ m).blocksOracle = oracleVertices σ m.blocksOracle from rfl, Vertices.otherTopology mv.toPlaces]
  · rw [h2 hr, h2' (fun x => hr (hu.1 x)), not_iff_not, Plain.brepDefect_iff h.meshes h.types,
      Plain.brepDefect_iff h'.meshes h'.types]
    unfold PlainBRepDefect
    rw [hmesh, Vertices.lineMeets hσ]
    rw [← Plain.topology_iff h.meshes rt (fun t => BRepTopologyDefect t m.blocksOracle) (Numbers.brepTexts _),
      ← Plain.topology_iff h'.meshes rt' (fun t => BRepTopologyDefect t (withVertices σ m).blocksOracle)
        (Numbers.brepTexts _),
      show (withVertices σ m).blocksOracle = oracleVertices σ m.blocksOracle from rfl, Vertices.brepTopology mv]

/-- **C132** (Sections): the same for Sections, if the new numbers are the same ones in all the Surfaces: the vertices of a
Line and of a Corner can be given any numbers. (For any numbers in the Surfaces it is false: see `C132_section_false`.) -/
theorem C132_section_partial {P : Type} (lib : ModelLibrary P) (rt rt' : ModelRuntime) (hrt : ModelRuntimeOk rt)
    (hrt' : ModelRuntimeOk rt') (m : ModelData P) (σ : ComponentID → Equiv.Perm Nat) (hσ : VertexNumbersOf σ m)
    (hsame : ∀ s ∈ m.surfaces, ∀ s' ∈ m.surfaces, σ ⟨.surface, s.id⟩ = σ ⟨.surface, s'.id⟩)
    (c c' : Candidates P) (h : SectionOk lib rt m c) (h' : SectionOk lib rt' (withVertices σ m) c') (near : P → P → Prop)
    (hn : SearchDecides lib near m) (hn' : SearchDecides lib near (withVertices σ m)) :
    ∃ v v', isSectionOfValid lib rt m = .ok v ∧ isSectionOfValid lib rt' (withVertices σ m) = .ok v' ∧
      v.isValid = v'.isValid := by
  obtain ⟨v, h1, h2⟩ := C99_section lib rt hrt m c h
  obtain ⟨v', h1', h2'⟩ := C99_section lib rt' hrt' _ c' h'
  refine ⟨v, v', h1, h1', ?_⟩
  rw [Bool.eq_iff_iff, h2, h2', not_iff_not]
  have ht := Plain.topology_iff h.meshes rt SectionTopologyDefect (fun _ _ _ _ _ _ _ hd => hd)
  have ht' := Plain.topology_iff h'.meshes rt' SectionTopologyDefect (fun _ _ _ _ _ _ _ hd => hd)
  unfold PlainSectionDefect
  rw [← ht, ← ht', Vertices.sectionTopology (Vertices.turned hσ rt rt').toPlaces, Vertices.colocatedUvs hσ, Vertices.ex_line,
    Vertices.ex_face, Vertices.polygonsMeet hσ]
  · simp only [Vertices.differentPoints hσ]
    refine or_congr Iff.rfl (or_congr Iff.rfl (or_congr ?_ (or_congr ?_ Iff.rfl)))
    · exact exists_congr fun l => and_congr_right fun hl => and_congr Iff.rfl (Vertices.lineDefect hσ hn hn' hl).symm
    · exact exists_congr fun l => and_congr_right fun hl => and_congr Iff.rfl
        (or_congr (Vertices.surfaceDefect hσ hn hn' hl).symm Iff.rfl)
  · intro s1 hs1 s2 hs2 r1 r2 t1 t2 hr
    rw [hsame s2 hs2 s1 hs1]
    exact Vertices.sectionMeet lib.geometry _ r1 r2 (by rw [hr]; exact hσ.surfaces s1 hs1) t1 t2

/-! ### The model with other numbers is as well-formed -/

namespace Vertices
variable {P : Type} {lib : ModelLibrary P} {σ : ComponentID → Equiv.Perm Nat} {m : ModelData P}

theorem meshesOk (hσ : VertexNumbersOf σ m) (hs : ∀ points : List P, points.length < 2 ^ 32 →
    SearchOk (lib.search points) points.length) (h : MeshesOk lib m) : MeshesOk lib (withVertices σ m) where
  ids := by simpa [withVertices, List.map_map, Function.comp_def, cornerVertices, lineVertices, faceVertices,
    volumeVertices] using h.ids
  nbComponents := by simpa [withVertices] using h.nbComponents
  corners := by
    intro c hc
    obtain ⟨c, hc', rfl⟩ := List.mem_map.1 hc
    show (reordered _ _).length < _
    rw [(reordered_points (hσ.corners c hc')).length]
    exact h.corners c hc'
  lines := by
    intro c hc
    obtain ⟨c, hc', rfl⟩ := List.mem_map.1 hc
    refine ⟨hs _ ?_, (h.lines c hc').nbEdges⟩
    show (reordered _ _).length < _
    rw [(reordered_points (hσ.lines c hc')).length]
    exact (h.lines c hc').search.2.1
  surfaces := by
    intro c hc
    obtain ⟨c, hc', rfl⟩ := List.mem_map.1 hc
    refine ⟨hs _ ?_, (h.surfaces c hc').2⟩
    show (reordered _ _).length < _
    rw [(reordered_points (hσ.surfaces c hc')).length]
    exact (h.surfaces c hc').1.2.1
  walks := by
    intro c hc
    obtain ⟨c, hc', rfl⟩ := List.mem_map.1 hc
    have w := h.walks c hc'
    have hl := (reordered_points (hσ.surfaces c hc')).length
    refine ⟨?_, ?_, ?_, w.nbEdges, ?_⟩
    · intro p k hp hk
      show σ ⟨.surface, c.id⟩ (c.polygonVertex (p, k)) < (reordered _ _).length
      rw [hl]
      exact (hσ.surfaces c hc' _).2 (w.vertices p k hp hk)
    · intro v hv f hf
      obtain ⟨v, rfl⟩ := (σ ⟨.surface, c.id⟩).surjective v
      have hf : c.polygonsAroundVertex ((σ ⟨.surface, c.id⟩).symm (σ ⟨.surface, c.id⟩ v)) = .error f := hf
      rw [Equiv.symm_apply_apply] at hf
      have hv : σ ⟨.surface, c.id⟩ v < (reordered (σ ⟨.surface, c.id⟩) c.points).length := hv
      rw [hl] at hv
      exact w.walks v ((hσ.surfaces c hc' v).1 hv) f hf
    · show (reordered _ _).length < _
      rw [hl]
      exact w.nbVertices
    · intro e
      obtain ⟨e, rfl⟩ := Renumber.movedEdge_from (σ ⟨.surface, c.id⟩) e
      have : usesOfEdge (faceVertices (σ ⟨.surface, c.id⟩) c).toSurfaceMesh (movedEdge (σ ⟨.surface, c.id⟩) e) = _ :=
        uses _ c e
      show (usesOfEdge (faceVertices (σ ⟨.surface, c.id⟩) c).toSurfaceMesh _).length < _
      rw [this]
      exact w.uses e
  blocks := by
    intro c hc
    obtain ⟨c, hc', rfl⟩ := List.mem_map.1 hc
    have w := h.blocks c hc'
    have hl := (reordered_points (hσ.blocks c hc')).length
    refine ⟨hs _ ?_, ?_, ?_, ?_, w.nbEdges, w.nbPolyhedra, ?_, w.nbFacets⟩
    · show (reordered _ _).length < _
      rw [hl]
      exact w.search.2.1
    · intro p k hp hk
      show σ ⟨.block, c.id⟩ (c.polyhedronVertex (p, k)) < (reordered _ _).length
      rw [hl]
      exact (hσ.blocks c hc' _).2 (w.vertices p k hp hk)
    · intro p e f hp he hf
      obtain ⟨e, he', rfl⟩ := List.mem_map.1 he
      have hf : c.polyhedraAroundEdge (movedEdge (σ ⟨.block, c.id⟩).symm (movedEdge (σ ⟨.block, c.id⟩) e)) p = .error f := hf
      rw [movedEdge_back] at hf
      exact w.turns p e f hp he' hf
    · intro p e f hp he hf
      obtain ⟨e, he', rfl⟩ := List.mem_map.1 he
      have hf : c.polyhedraAroundEdge (movedEdge (σ ⟨.block, c.id⟩).symm (movedEdge (σ ⟨.block, c.id⟩) e)) p = .ok f := hf
      rw [movedEdge_back] at hf
      exact w.turnsOnce p e f hp he' hf
    · have : ∀ p, ((volumeVertices (σ ⟨.block, c.id⟩) c).polyhedronEdgesVertices p).length =
          (c.polyhedronEdgesVertices p).length := fun p => List.length_map ..
      simp only [this]
      exact w.nbPolyhedronEdges
  uniqueVertices := by
    rw [← activePositions_length]
    refine hs _ ?_
    rw [activePositions_length]
    refine Nat.lt_of_le_of_lt (List.length_filter_le ..) ?_
    rw [List.length_range]
    exact h.nbUniqueVertices
  nbUniqueVertices := h.nbUniqueVertices
  nbLinks := by
    have : ∀ uv, ((withVertices σ m).componentMeshVertices uv).length = (m.componentMeshVertices uv).length := fun uv =>
      List.length_map ..
    simp only [this]
    exact h.nbLinks
  smallPolygons := by
    intro c hc
    obtain ⟨c, hc', rfl⟩ := List.mem_map.1 hc
    exact h.smallPolygons c hc'
  positions := h.positions
  blockWalks := by
    intro c hc ha v hv
    obtain ⟨c, hc', rfl⟩ := List.mem_map.1 hc
    obtain ⟨v, rfl⟩ := (σ ⟨.block, c.id⟩).surjective v
    have hv : σ ⟨.block, c.id⟩ v < (reordered (σ ⟨.block, c.id⟩) c.points).length := hv
    rw [(reordered_points (hσ.blocks c hc')).length] at hv
    obtain ⟨fan, hfan⟩ := h.blockWalks c hc' ha v ((hσ.blocks c hc' v).1 hv)
    refine ⟨fan, ?_⟩
    show c.polyhedraAroundVertex ((σ ⟨.block, c.id⟩).symm (σ ⟨.block, c.id⟩ v)) = _
    rw [Equiv.symm_apply_apply]
    exact hfan

theorem types {brep : Bool} (h : KnownTypes brep (m.uniqueVertices lib)) :
    KnownTypes brep ((withVertices σ m).uniqueVertices lib) := by
  intro uv cmv hc
  obtain ⟨cmv, hc', rfl⟩ := List.mem_map.1 hc
  exact h uv cmv hc'

theorem wellFormed {t t' : TopologyModel} (s : Places σ t t') (h : WellFormed t) : WellFormed t' := by
  refine ⟨?_, ?_, ?_, ?_, ?_⟩
  · rw [s.components]; exact h.ids
  · intro v hv cmv hc
    rw [s.nbUniqueVertices] at hv
    rw [s.cmvs] at hc
    obtain ⟨cmv, hc', rfl⟩ := List.mem_map.1 hc
    unfold Has
    rw [s.components]
    exact h.vertices v hv cmv hc'
  · unfold Has; rw [s.components, s.embeddings]; exact h.embeddings
  · unfold Has; rw [s.components, s.incidences]; exact h.incidences
  · unfold Has; rw [s.components, s.boundaries]; exact h.boundaries

/-- A Section with other numbers of vertices has the guarantees of the first one, if its search trees have theirs and the
tests of its triangles raise nothing. -/
theorem sectionOk {rt : ModelRuntime} {c c' : Candidates P} (hσ : VertexNumbersOf σ m)
    (hs : ∀ points : List P, points.length < 2 ^ 32 → SearchOk (lib.search points) points.length)
    (h : SectionOk lib rt m c) (ht : ModelTreesOk ((withVertices σ m).intersections lib false) c')
    (hx : NoEmptySurface ((withVertices σ m).intersections lib false) →
      TestsOk ((withVertices σ m).intersections lib false) c') : SectionOk lib rt (withVertices σ m) c' where
  meshes := meshesOk hσ hs h.meshes
  noBlock := by simp [withVertices, h.noBlock]
  types := types h.types
  trees := ht
  tests := hx
  topology := wellFormed (turned hσ rt rt).toPlaces h.topology
  embeddings := fun id ha => h.embeddings id ((active (turned hσ rt rt).toPlaces .line id).1 ha)

/-- The same for BReps. -/
theorem brepOk {rt : ModelRuntime} {c c' : Candidates P} (hσ : VertexNumbersOf σ m)
    (hs : ∀ points : List P, points.length < 2 ^ 32 → SearchOk (lib.search points) points.length)
    (h : BRepOk lib rt m c) (ht : ModelTreesOk ((withVertices σ m).intersections lib true) c') :
    BRepOk lib rt (withVertices σ m) c' where
  meshesKnown := (meshesOk hσ hs h.meshes).toMeshesKnown
  blockWalks := (meshesOk hσ hs h.meshes).blockWalks
  types := types h.types
  trees := ht
  nbModelEdges := by
    have h1 := h.nbModelEdges
    have h2 : (withVertices σ m).lines.length = m.lines.length := List.length_map ..
    rw [h2]
    refine Nat.lt_of_le_of_lt (Nat.le_of_eq ?_) h1
    congr 2
    unfold activeSurfaces ModelData.manifold
    simp only [withVertices, List.map_map, List.filter_map]
    rfl
  topology := wellFormed (turned hσ rt rt).toPlaces h.topology
  around := by
    have a := h.around
    have mv := (turned hσ rt rt).toPlaces
    refine ⟨a.iterate, ?_, a.surfaceKeys, ?_, a.blockKeys, ?_, ?_, ?_⟩
    · unfold Has; rw [mv.components]; exact a.surfaces
    · unfold Has; rw [mv.components]; exact a.blocks
    · unfold Has; rw [mv.components]; exact a.polygons
    · rw [mv.components]
      intro x hx e he v hv
      have hl : ((withVertices σ m).topology rt).lineEdgeVertices x.id e =
          ((m.topology rt).lineEdgeVertices x.id e).map (σ ⟨.line, x.id⟩) := by
        simp only [ModelData.topology, withVertices, List.find?_map]
        have : ((fun l : LineData P => l.id == x.id) ∘ fun l => lineVertices (σ ⟨.line, l.id⟩) l) = fun l => l.id == x.id := rfl
        rw [this]
        cases hs : m.lines.find? fun l => l.id == x.id with
        | none => rfl
        | some l =>
          have hid : l.id = x.id := by simpa using List.find?_some hs
          simp [lineVertices, movedEdge, hid]
      rw [hl] at hv
      obtain ⟨v, hv', rfl⟩ := List.mem_map.1 hv
      exact (mv.range .line x hx v).2 (a.edgeVertices x hx e he v hv')
    · rw [mv.components]
      intro x hx e he v hv
      rw [mv.polygonVertices] at hv
      obtain ⟨v, hv', rfl⟩ := List.mem_map.1 hv
      exact (mv.range .surface x hx v).2 (a.facetVertices x hx e he v hv')
  coherent := h.coherent
  surfaceEmbeddings := fun id ha => h.surfaceEmbeddings id ((active (turned hσ rt rt).toPlaces .surface id).1 ha)
  firstEdges := by
    intro l hl ha hn x hx
    obtain ⟨l, hl', rfl⟩ := List.mem_map.1 hl
    have hx : x ∈ [(l.edgeVertices 0).1, (l.edgeVertices 0).2].map (σ ⟨.line, l.id⟩) := hx
    obtain ⟨x, hx', rfl⟩ := List.mem_map.1 hx
    have := h.firstEdges l hl' ha hn x hx'
    rw [← uniqueVertex_eq (σ := σ)] at this
    exact this
  counts := by
    intro v hv b hb
    have mv := (turned hσ rt rt).toPlaces
    have hc := h.counts v hv b ((at_ mv v .block b).1 hb)
    unfold CountsFit nbLinePassages at hc ⊢
    rw [mv.cmvs, List.length_map, linesAt_eq mv]
    simp only [sheets mv]
    exact hc
  graph := h.graph
  geometry := fun mesh s v f hf => h.geometry _ _ _ f hf
  rays := by
    have mv := (turned hσ rt rt).toPlaces
    have hr := h.rays
    intro s hs hc block hb
    rw [mv.components] at hc hb
    exact hr s ((cannotBound mv s).1 hs) hc block hb
  modelBoundaries := h.modelBoundaries

end Vertices

/-! ### examples -/

/-- The first two vertices of each Line, Surface and Block exchange their numbers. -/
def exchangeVertices (c : ComponentID) : Equiv.Perm Nat :=
  if c.type = .corner then Equiv.refl _ else Equiv.swap 0 1

theorem exchangeVertices_renumbers (c : ComponentID) (n : Nat) (h : c.type = .corner ∨ 1 < n) :
    Renumbers (exchangeVertices c) n := by
  intro v
  unfold exchangeVertices
  split
  · exact Iff.rfl
  · have hn : 1 < n := h.resolve_left ‹_›
    rw [Equiv.swap_apply_def]
    split <;> [skip; split] <;> omega

theorem exchangeVertices_numbers (d : TopologyData) (scale : Nat → Nat) (sign : Sign)
    (h : ∀ c ∈ d.lines ++ d.surfaces ++ d.blocks, 1 < c.nbVertices) :
    VertexNumbersOf exchangeVertices (exampleModel d scale sign) where
  corners c _ := exchangeVertices_renumbers _ _ (.inl rfl)
  lines c hc := by
    obtain ⟨c, hc', rfl⟩ := List.mem_map.1 hc
    refine exchangeVertices_renumbers _ _ (.inr ?_)
    show 1 < (exampleModel.points d scale .line c).length
    rw [exampleModel.points, exampleModel.vertices, List.length_map, List.length_map, List.length_range]
    exact h c (List.mem_append_left _ (List.mem_append_left _ hc'))
  surfaces c hc := by
    obtain ⟨c, hc', rfl⟩ := List.mem_map.1 hc
    refine exchangeVertices_renumbers _ _ (.inr ?_)
    show 1 < (exampleModel.points d scale .surface c).length
    rw [exampleModel.points, exampleModel.vertices, List.length_map, List.length_map, List.length_range]
    exact h c (List.mem_append_left _ (List.mem_append_right _ hc'))
  blocks c hc := by
    obtain ⟨c, hc', rfl⟩ := List.mem_map.1 hc
    refine exchangeVertices_renumbers _ _ (.inr ?_)
    show 1 < (exampleModel.points d scale .block c).length
    rw [exampleModel.points, exampleModel.vertices, List.length_map, List.length_map, List.length_range]
    exact h c (List.mem_append_right _ hc')

theorem turned_trees (d : TopologyData) (sign : Sign) (brep : Bool)
    (h : ∀ s1 ∈ ((withVertices exchangeVertices (exampleModel d (10 * ·) sign)).intersections modelLibrary brep).surfaces,
      ∀ s2 ∈ ((withVertices exchangeVertices (exampleModel d (10 * ·) sign)).intersections modelLibrary brep).surfaces,
      s1.nbPolygons = 1 ∧ s2.nbPolygons = 1 ∧
        ¬ PolygonsMeet ((withVertices exchangeVertices (exampleModel d (10 * ·) sign)).intersections modelLibrary brep) s1 s2
          (0, 0)) :
    ModelTreesOk ((withVertices exchangeVertices (exampleModel d (10 * ·) sign)).intersections modelLibrary brep)
      noCandidate where
  trees := ⟨fun _ _ => ⟨⟨[], List.Perm.refl _, List.Sublist.refl _⟩, fun _ => List.Perm.refl _⟩,
    fun _ _ _ => ⟨⟨[], List.Perm.refl _, List.Sublist.refl _⟩, fun _ => List.Perm.refl _⟩,
    fun _ _ _ => ⟨⟨[], List.Perm.refl _, List.Sublist.refl _⟩, fun _ => List.Perm.refl _⟩⟩
  surfaces x hx := by
    rw [comparisons, List.mem_append] at hx
    rcases hx with hx | hx
    · obtain ⟨s, hs, rfl⟩ := List.mem_map.1 hx
      rw [List.mem_filter] at hs
      exact ⟨hs.1, hs.2, hs.1, hs.2, fun p hp => absurd hp List.not_mem_nil⟩
    · exact absurd hx List.not_mem_nil
  complete s1 s2 p q hx := by
    obtain ⟨h1, _, h2, _, hp, hq, hm⟩ := hx
    obtain ⟨e1, e2, hn⟩ := h s1 h1 s2 h2
    rw [e1] at hp
    rw [e2] at hq
    obtain rfl : p = 0 := by unfold Index at *; clear hm hn; omega
    obtain rfl : q = 0 := by unfold Index at *; clear hm hn; omega
    exact absurd hm hn
  lines _ _ _ hp := absurd hp List.not_mem_nil
  linesComplete s l p e hx := by
    obtain ⟨_, _, _, _, _, _, _, t, _, x, hx, hm⟩ := hx
    have hm : Position.outside = x ∨ Position.outside = x := hm
    rcases hm with rfl | rfl <;> simp at hx
  length := by
    have h1 : meetingEdges ((withVertices exchangeVertices (exampleModel d (10 * ·) sign)).intersections modelLibrary brep)
        noCandidate = [] := by
      unfold meetingEdges
      rw [List.flatMap_eq_nil_iff]
      intro s _
      rw [List.flatMap_eq_nil_iff]
      intro l _
      rfl
    have h2 : meetingPolygons ((withVertices exchangeVertices (exampleModel d (10 * ·) sign)).intersections modelLibrary brep)
        noCandidate = [] := by
      unfold meetingPolygons
      rw [List.flatMap_eq_nil_iff]
      intro x hx
      rw [comparisons, List.mem_append] at hx
      rcases hx with hx | hx
      · obtain ⟨s, hs, rfl⟩ := List.mem_map.1 hx
        rfl
      · exact absurd hx List.not_mem_nil
    rw [h1, h2]
    decide

theorem turned_tests (d : TopologyData) (sign : Sign) (brep : Bool) :
    TestsOk ((withVertices exchangeVertices (exampleModel d (10 * ·) sign)).intersections modelLibrary brep) noCandidate := by
  intro x hx p hp
  rw [comparisons, List.mem_append] at hx
  rcases hx with hx | hx
  · obtain ⟨s, hs, rfl⟩ := List.mem_map.1 hx
    exact absurd hp List.not_mem_nil
  · exact absurd hx List.not_mem_nil

theorem identity_decides (points : List Nat) (h : points.Nodup) (i j : Nat) (a b : Nat) (hi : points[i]? = some a)
    (hj : points[j]? = some b) : Colocated (modelLibrary.search points) i j ↔ a = b := by
  obtain ⟨li, rfl⟩ := List.getElem?_eq_some_iff.1 hi
  obtain ⟨lj, rfl⟩ := List.getElem?_eq_some_iff.1 hj
  have hm : ∀ k, k < points.length → (modelLibrary.search points).colocated_mapping[k]? = some k := fun k hk =>
    List.getElem?_range hk
  constructor
  · rintro ⟨u, h1, h2⟩
    rw [hm i li] at h1
    rw [hm j lj] at h2
    obtain rfl := Option.some.inj h1
    obtain rfl := Option.some.inj h2
    rfl
  · intro he
    obtain rfl := (h.getElem_inj_iff).1 he
    exact ⟨i, hm i li, hm i lj⟩

theorem search_decides (m : ModelData Nat)
    (h : (∀ l ∈ m.lines, l.points.Nodup) ∧ (∀ l ∈ m.surfaces, l.points.Nodup) ∧ ∀ l ∈ m.blocks, l.points.Nodup) :
    SearchDecides modelLibrary (· = ·) m :=
  ⟨fun l hl i j a b => identity_decides _ (h.1 l hl) i j a b, fun l hl i j a b => identity_decides _ (h.2.1 l hl) i j a b,
    fun l hl i j a b => identity_decides _ (h.2.2 l hl) i j a b⟩

/-- a triangle whose vertices have other numbers is as valid -/
example : ∃ v, isSectionOfValid modelLibrary modelRuntime
    (withVertices exchangeVertices (exampleModel triangleSection (10 * ·) .positive)) = .ok v ∧ v.isValid = true := by
  have hσ := exchangeVertices_numbers triangleSection (10 * ·) .positive (by decide)
  obtain ⟨v, v', h1, h2, h3⟩ := C132_section_partial modelLibrary modelRuntime modelRuntime modelRuntime_ok modelRuntime_ok
    (exampleModel triangleSection (10 * ·) .positive) exchangeVertices hσ (fun _ _ _ _ => rfl) noCandidate noCandidate
    (triangleSection_ok _) (Vertices.sectionOk hσ identity_search (triangleSection_ok _)
      (turned_trees _ _ _ (by decide +kernel)) fun _ => turned_tests _ _ _) (· = ·)
    (search_decides _ (by decide +kernel)) (search_decides _ (by decide +kernel))
  have he : isSectionOfValid modelLibrary modelRuntime (exampleModel triangleSection (10 * ·) .positive) = .ok {} := by rfl
  rw [he] at h1
  injection h1 with h1
  subst h1
  exact ⟨v', h2, h3.symm⟩

theorem tetrahedron_facets : FacetsCompared modelLibrary exchangeVertices
    (exampleModel tetrahedronBRep (10 * ·) .positive) where
  opposite b _ f g := by
    show (f.map _ == (g.map _).reverse) = (f == g.reverse)
    rw [← List.map_reverse, Bool.eq_iff_iff, beq_iff_eq, beq_iff_eq]
    exact (List.map_injective_iff.2 (Equiv.injective _)).eq_iff
  cycle := by
    intro b hb x y hx hy
    obtain ⟨c, hc, rfl⟩ := List.mem_map.1 hb
    obtain ⟨x1, x2⟩ := x
    obtain ⟨y1, y2⟩ := y
    obtain ⟨hx1, hx2⟩ := hx
    obtain ⟨hy1, hy2⟩ := hy
    have hx1 : x1 < 1 := hx1
    have hx2 : x2 < 4 := hx2
    have hy1 : y1 < 1 := hy1
    have hy2 : y2 < 4 := hy2
    have key : ∀ x2 < 4, ∀ y2 < 4, (modelLibrary.cycle (((exampleSolidData .positive).polyhedronFacetVertices (0, x2)).map
        (Equiv.swap 0 1)) = modelLibrary.cycle (((exampleSolidData .positive).polyhedronFacetVertices (0, y2)).map
        (Equiv.swap 0 1)) ↔ modelLibrary.cycle ((exampleSolidData .positive).polyhedronFacetVertices (0, x2)) =
          modelLibrary.cycle ((exampleSolidData .positive).polyhedronFacetVertices (0, y2))) := by
      decide +kernel
    obtain rfl : x1 = 0 := by unfold Index at *; omega
    obtain rfl : y1 = 0 := by unfold Index at *; omega
    exact key x2 hx2 y2 hy2

set_option maxRecDepth 20000 in
/-- and a tetrahedron -/
example : ∃ v N, ∀ fuel ≥ N, isBRepOfValid modelLibrary modelRuntime fuel
    (withVertices exchangeVertices (exampleModel tetrahedronBRep (10 * ·) .positive)) = .ok v ∧ v.isValid = true := by
  have hσ := exchangeVertices_numbers tetrahedronBRep (10 * ·) .positive (by decide)
  obtain ⟨v, v', N, h1, h3⟩ := C132_brep modelLibrary modelRuntime modelRuntime modelRuntime_ok modelRuntime_ok
    (exampleModel tetrahedronBRep (10 * ·) .positive) exchangeVertices hσ noCandidate noCandidate
    (tetrahedronBRep_ok _) (Vertices.brepOk hσ identity_search (tetrahedronBRep_ok _)
      (turned_trees _ _ _ (by decide +kernel))) (· = ·)
    (search_decides _ (by decide +kernel)) (search_decides _ (by decide +kernel)) tetrahedron_facets
  refine ⟨v', N, fun fuel hf => ⟨(h1 fuel hf).2, ?_⟩⟩
  rw [← h3]
  have he : isBRepOfValid modelLibrary modelRuntime (N + 20) (exampleModel tetrahedronBRep (10 * ·) .positive) = .ok {} := by
    rfl
  have h1 := (h1 (N + 20) (by omega)).1
  rw [he] at h1
  injection h1 with h1
  subst h1
  rfl

/-! ### other numbers in one Surface of a Section -/

/-- A Section of two triangles on the two sides of an edge. -/
def adjacentTriangles : TopologyData where
  corners := [⟨1, true, 1, 0⟩, ⟨2, true, 1, 0⟩, ⟨3, true, 1, 0⟩, ⟨4, true, 1, 0⟩]
  lines := [⟨11, true, 2, 1⟩, ⟨12, true, 2, 1⟩, ⟨13, true, 2, 1⟩, ⟨14, true, 2, 1⟩, ⟨15, true, 2, 1⟩]
  surfaces := [⟨21, true, 3, 1⟩, ⟨22, true, 3, 1⟩]
  vertices := [
    [⟨⟨.corner, 1⟩, 0⟩, ⟨⟨.line, 11⟩, 0⟩, ⟨⟨.line, 13⟩, 1⟩, ⟨⟨.line, 15⟩, 1⟩, ⟨⟨.surface, 21⟩, 0⟩, ⟨⟨.surface, 22⟩, 0⟩],
    [⟨⟨.corner, 2⟩, 0⟩, ⟨⟨.line, 12⟩, 0⟩, ⟨⟨.line, 11⟩, 1⟩, ⟨⟨.line, 14⟩, 0⟩, ⟨⟨.surface, 21⟩, 1⟩, ⟨⟨.surface, 22⟩, 1⟩],
    [⟨⟨.corner, 3⟩, 0⟩, ⟨⟨.line, 13⟩, 0⟩, ⟨⟨.line, 12⟩, 1⟩, ⟨⟨.surface, 21⟩, 2⟩],
    [⟨⟨.corner, 4⟩, 0⟩, ⟨⟨.line, 15⟩, 0⟩, ⟨⟨.line, 14⟩, 1⟩, ⟨⟨.surface, 22⟩, 2⟩]]
  boundary := [(⟨.corner, 1⟩, ⟨.line, 11⟩), (⟨.corner, 2⟩, ⟨.line, 11⟩), (⟨.corner, 2⟩, ⟨.line, 12⟩),
    (⟨.corner, 3⟩, ⟨.line, 12⟩), (⟨.corner, 3⟩, ⟨.line, 13⟩), (⟨.corner, 1⟩, ⟨.line, 13⟩),
    (⟨.corner, 2⟩, ⟨.line, 14⟩), (⟨.corner, 4⟩, ⟨.line, 14⟩), (⟨.corner, 4⟩, ⟨.line, 15⟩), (⟨.corner, 1⟩, ⟨.line, 15⟩),
    (⟨.line, 11⟩, ⟨.surface, 21⟩), (⟨.line, 12⟩, ⟨.surface, 21⟩), (⟨.line, 13⟩, ⟨.surface, 21⟩),
    (⟨.line, 11⟩, ⟨.surface, 22⟩), (⟨.line, 14⟩, ⟨.surface, 22⟩), (⟨.line, 15⟩, ⟨.surface, 22⟩)]
  border := [(21, 0), (21, 1), (21, 2), (22, 0), (22, 1), (22, 2)]

/-- The points of the four unique vertices. -/
def adjacentPoint (n : Nat) : Int × Int := [(0, 0), (4, 0), (2, 4), (2, -4)].getD n (100, 100)

/-- The two triangles, the boxes of which overlap. -/
def adjacentModel : ModelData (Int × Int) :=
  let m := (exampleModel adjacentTriangles id .positive).mapPoints adjacentPoint
  { m with
    otherTree := fun _ _ _ => [(0, 0)]
    overlappingSurfaces := match m.surfaces with
      | [a, b] => [(a, b)]
      | _ => [] }

def intLibrary : ModelLibrary (Int × Int) := exactLibrary (0, 0) planeGeometry

/-- The first two vertices of the second triangle exchange their numbers. -/
def exchangeOfSecond (c : ComponentID) : Equiv.Perm Nat := if c = ⟨.surface, 22⟩ then Equiv.swap 0 1 else Equiv.refl _

/-- The polygons of two Surfaces, to compare. -/
def onePair (P : Type) : Candidates P := ⟨fun _ => [], fun _ _ => [(0, 0)], fun _ _ => []⟩

theorem pair_trees {P : Type} (im : IntersectionModel P) (A B : ModelSurface P) (hs : im.surfaces = [A, B])
    (ho : im.overlappingSurfaces = [(A, B)]) (hi : A.id ≠ B.id)
    (ha : (A.active = true ∧ A.nbPolygons = 1) ∧ B.active = true ∧ B.nbPolygons = 1)
    (ht : (∀ s a, im.selfTraversal s a = []) ∧ (∀ s1 s2 a, im.otherTraversal s1 s2 a = [(0, 0)]) ∧
      ∀ s l a, im.lineTraversal s l a = [])
    (hl : ∀ l ∈ im.lines, l.nbEmbeddingBlocks = 0)
    (h : PolygonsMeet im B A (0, 0) → PolygonsMeet im A B (0, 0)) : ModelTreesOk im (onePair P) where
  trees := by
    refine ⟨fun s v => ?_, fun s1 s2 v => ?_, fun s l v => ?_⟩
    · rw [ht.1]; exact ⟨⟨[], List.Perm.refl _, List.Sublist.refl _⟩, fun _ => List.Perm.refl _⟩
    · rw [ht.2.1]; exact ⟨⟨[(0, 0)], List.Perm.refl _, List.Sublist.refl _⟩, fun _ => List.Perm.refl _⟩
    · rw [ht.2.2]; exact ⟨⟨[], List.Perm.refl _, List.Sublist.refl _⟩, fun _ => List.Perm.refl _⟩
  surfaces x hx := by
    rw [comparisons, List.mem_append] at hx
    rcases hx with hx | hx
    · obtain ⟨s, hs, rfl⟩ := List.mem_map.1 hx
      rw [List.mem_filter] at hs
      exact ⟨hs.1, hs.2, hs.1, hs.2, fun p hp => absurd hp List.not_mem_nil⟩
    · rw [ho] at hx
      obtain rfl := List.mem_singleton.1 hx
      refine ⟨by rw [hs]; simp, ha.1.1, by rw [hs]; simp, ha.2.1, fun p hp => ?_⟩
      obtain rfl := List.mem_singleton.1 hp
      show 0 < A.nbPolygons ∧ 0 < B.nbPolygons
      rw [ha.1.2, ha.2.2]
      decide
  complete s1 s2 p q hx := by
    obtain ⟨h1, _, h2, _, hp, hq, hm⟩ := hx
    have hone : ∀ s ∈ im.surfaces, s.nbPolygons = 1 := by
      intro s hs'
      rw [hs] at hs'
      simp only [List.mem_cons, List.not_mem_nil, or_false] at hs'
      rcases hs' with rfl | rfl
      exacts [ha.1.2, ha.2.2]
    rw [hone s1 h1] at hp
    rw [hone s2 h2] at hq
    obtain rfl : p = 0 := by unfold Index at *; clear hm h; omega
    obtain rfl : q = 0 := by unfold Index at *; clear hm h; omega
    refine ⟨((A, B), [(0, 0)]), ?_, ?_⟩
    · rw [comparisons, ho]
      exact List.mem_append_right _ (List.mem_singleton_self _)
    · rw [hs] at h1 h2
      simp only [List.mem_cons, List.not_mem_nil, or_false] at h1 h2
      rcases h1 with rfl | rfl <;> rcases h2 with rfl | rfl
      · exact absurd ⟨rfl, rfl⟩ hm.1
      · exact .inl ⟨rfl, List.mem_singleton_self _⟩
      · exact .inr ⟨rfl, List.mem_singleton_self _, h hm⟩
      · exact absurd ⟨rfl, rfl⟩ hm.1
  lines _ _ _ hp := absurd hp List.not_mem_nil
  linesComplete s l p e hx := absurd (hl l hx.2.2.1) hx.2.2.2.2.1
  length := by
    have h1 : meetingEdges im (onePair P) = [] := by
      unfold meetingEdges
      rw [List.flatMap_eq_nil_iff]
      intro s _
      rw [List.flatMap_eq_nil_iff]
      intro l _
      rfl
    have h2 : (meetingPolygons im (onePair P)).length ≤ 1 := by
      unfold meetingPolygons
      rw [comparisons, List.flatMap_append, ho]
      have : ((im.surfaces.filter fun s => s.active).map fun s => ((s, s), (onePair P).self s)).flatMap
          (fun x => (x.2.filter fun p => decide (PolygonsMeet im x.1.1 x.1.2 p)).map (polygonsOf x.1.1 x.1.2)) = [] := by
        rw [List.flatMap_eq_nil_iff]
        intro x hx
        obtain ⟨s, _, rfl⟩ := List.mem_map.1 hx
        rfl
      rw [this]
      simp only [List.nil_append, List.map_cons, List.map_nil, List.flatMap_cons, List.flatMap_nil, List.append_nil,
        List.length_map]
      exact List.length_filter_le _ [(0, 0)]
    rw [h1, List.append_nil]
    omega

theorem pair_tests {P : Type} (im : IntersectionModel P) (A B : ModelSurface P) (ho : im.overlappingSurfaces = [(A, B)])
    (h : ∀ t ∈ trianglePairs A B (0, 0), triangleTest im A B t.1 t.2 = .ok true ∨ triangleTest im A B t.1 t.2 = .ok false) :
    TestsOk im (onePair P) := by
  intro x hx p hp f
  rw [comparisons, List.mem_append] at hx
  rcases hx with hx | hx
  · obtain ⟨s, hs, rfl⟩ := List.mem_map.1 hx
    exact absurd hp List.not_mem_nil
  · rw [ho] at hx
    obtain rfl := List.mem_singleton.1 hx
    obtain rfl := List.mem_singleton.1 hp
    rintro ⟨_, before, t, after, ht, _, he⟩
    have he : triangleTest im A B t.1 t.2 = .error f := he
    rcases h t (by rw [show trianglePairs A B (0, 0) = _ from ht]; simp) with h | h <;> rw [h] at he <;> cases he

theorem adjacent_meshes : MeshesOk intLibrary adjacentModel := by
  have h : MeshesOk intLibrary ((exampleModel adjacentTriangles id .positive).mapPoints adjacentPoint) :=
    mapPoints_meshes _ _ _ planeGeometry_positions _ (exampleModel_meshes _ _ _ (by decide))
  refine ⟨⟨h.ids, h.nbComponents, h.corners, h.lines, h.surfaces, ?_, h.blocks, h.uniqueVertices, h.nbUniqueVertices,
    h.nbLinks, h.smallPolygons, h.positions⟩, h.blockWalks⟩
  intro s hs
  have w := h.walks s hs
  exact ⟨w.vertices, w.walks, w.nbVertices, w.nbEdges, w.uses⟩

/-- the first triangle, as compared -/
def firstOf (m : ModelData (Int × Int)) : ModelSurface (Int × Int) :=
  match (m.intersections intLibrary false).surfaces with
  | a :: _ => a
  | [] => pointsTriangle 0 (0, 0) (0, 0) (0, 0)

/-- the second one -/
def secondOf (m : ModelData (Int × Int)) : ModelSurface (Int × Int) :=
  match (m.intersections intLibrary false).surfaces with
  | _ :: b :: _ => b
  | _ => pointsTriangle 0 (0, 0) (0, 0) (0, 0)

theorem adjacent_ok : SectionOk intLibrary modelRuntime adjacentModel (onePair _) where
  meshes := adjacent_meshes
  noBlock := rfl
  types := mapPoints_types adjacentPoint (exampleModel adjacentTriangles id .positive) modelLibrary _ _
    (exampleModel_types _ _ _ _ (by decide))
  trees := by
    refine pair_trees _ (firstOf adjacentModel) (secondOf adjacentModel) rfl rfl (by decide) ⟨⟨rfl, rfl⟩, rfl, rfl⟩
      ⟨fun _ _ => rfl, fun _ _ _ => rfl, fun _ _ _ => rfl⟩ ?_ (by decide +kernel)
    intro l hl
    obtain ⟨l', _, rfl⟩ := List.mem_map.1 hl
    rfl
  tests := fun _ => pair_tests _ (firstOf adjacentModel) (secondOf adjacentModel) rfl (by decide +kernel)
  topology := by
    have h : WellFormed (((exampleModel adjacentTriangles id .positive).mapPoints adjacentPoint).topology modelRuntime) := by
      rw [mapPoints_topology]
      exact exampleModel_wf _ _ _ _ (by decide) (by decide) (by decide)
    exact h
  embeddings := by
    intro id _ e he
    exact absurd (TopologyData.mem_select.1 he) (by simp [adjacentTriangles])

theorem exchangeOfSecond_numbers : VertexNumbersOf exchangeOfSecond adjacentModel := by
  have h : ∀ c n, 1 < n ∨ c ≠ ⟨.surface, 22⟩ → Renumbers (exchangeOfSecond c) n := by
    intro c n hn v
    unfold exchangeOfSecond
    split
    · have : 1 < n := hn.resolve_right (fun h => h ‹_›)
      rw [Equiv.swap_apply_def]
      split <;> [skip; split] <;> omega
    · exact Iff.rfl
  refine ⟨fun c _ => h _ _ (.inr (by simp)), fun c _ => h _ _ (.inr (by simp)), ?_, fun c _ => h _ _ (.inr (by simp))⟩
  have hp : ∀ c ∈ adjacentModel.surfaces, 1 < c.points.length := by decide +kernel
  exact fun c hc => h _ _ (.inl (hp c hc))

theorem exchanged_adjacent_ok :
    SectionOk intLibrary modelRuntime (withVertices exchangeOfSecond adjacentModel) (onePair _) := by
  refine Vertices.sectionOk exchangeOfSecond_numbers (fun _ h => exact_search _ _ _ h) adjacent_ok ?_ fun _ => ?_
  · refine pair_trees _ (firstOf (withVertices exchangeOfSecond adjacentModel))
      (secondOf (withVertices exchangeOfSecond adjacentModel)) rfl rfl (by decide) ⟨⟨rfl, rfl⟩, rfl, rfl⟩
      ⟨fun _ _ => rfl, fun _ _ _ => rfl, fun _ _ _ => rfl⟩ ?_ (by decide +kernel)
    intro l hl
    obtain ⟨l', _, rfl⟩ := List.mem_map.1 hl
    rfl
  · exact pair_tests _ (firstOf (withVertices exchangeOfSecond adjacentModel))
      (secondOf (withVertices exchangeOfSecond adjacentModel)) rfl (by decide +kernel)

theorem exact_decides (points : List (Int × Int)) (h : points.Nodup) (i j : Nat) (a b : Int × Int)
    (hi : points[i]? = some a) (hj : points[j]? = some b) : Colocated (intLibrary.search points) i j ↔ a = b := by
  obtain ⟨li, rfl⟩ := List.getElem?_eq_some_iff.1 hi
  obtain ⟨lj, rfl⟩ := List.getElem?_eq_some_iff.1 hj
  have hm : ∀ k, k < points.length → (intLibrary.search points).colocated_mapping[k]? = some k := fun k hk =>
    List.getElem?_range hk
  constructor
  · rintro ⟨u, h1, h2⟩
    rw [hm i li] at h1
    rw [hm j lj] at h2
    obtain rfl := Option.some.inj h1
    obtain rfl := Option.some.inj h2
    rfl
  · intro he
    obtain rfl := (h.getElem_inj_iff).1 he
    exact ⟨i, hm i li, hm i lj⟩

theorem int_decides (m : ModelData (Int × Int))
    (h : (∀ l ∈ m.lines, l.points.Nodup) ∧ (∀ l ∈ m.surfaces, l.points.Nodup) ∧ ∀ l ∈ m.blocks, l.points.Nodup) :
    SearchDecides intLibrary (· = ·) m :=
  ⟨fun l hl i j a b => exact_decides _ (h.1 l hl) i j a b, fun l hl i j a b => exact_decides _ (h.2.1 l hl) i j a b,
    fun l hl i j a b => exact_decides _ (h.2.2 l hl) i j a b⟩

/-- the Section declared valid or not -/
def declared (r : Except Failure ObjectValidity) : Option Bool := match r with
  | .ok v => some v.isValid
  | .error _ => none

/-- **C132** is false for Sections: two triangles of two Surfaces, on the two sides of an edge, make a valid Section, which
is declared invalid once the first two vertices of one of the triangles have exchanged their numbers: the second common
vertex is looked for in the first triangle by its number in the second one (C57). -/
theorem C132_section_false : ¬ ∀ (P : Type) (lib : ModelLibrary P) (rt rt' : ModelRuntime), ModelRuntimeOk rt →
    ModelRuntimeOk rt' → ∀ (m : ModelData P) (σ : ComponentID → Equiv.Perm Nat), VertexNumbersOf σ m →
    ∀ c c' : Candidates P, SectionOk lib rt m c → SectionOk lib rt' (withVertices σ m) c' → ∀ near : P → P → Prop,
    SearchDecides lib near m → SearchDecides lib near (withVertices σ m) →
    ∃ v v', isSectionOfValid lib rt m = .ok v ∧ isSectionOfValid lib rt' (withVertices σ m) = .ok v' ∧
      v.isValid = v'.isValid := by
  intro h
  obtain ⟨v, v', h1, h2, h3⟩ := h _ intLibrary modelRuntime modelRuntime modelRuntime_ok modelRuntime_ok adjacentModel
    exchangeOfSecond exchangeOfSecond_numbers _ _ adjacent_ok exchanged_adjacent_ok (· = ·)
    (int_decides _ (by decide +kernel)) (int_decides _ (by decide +kernel))
  have d1 : declared (isSectionOfValid intLibrary modelRuntime adjacentModel) = some true := by decide +kernel
  have d2 : declared (isSectionOfValid intLibrary modelRuntime (withVertices exchangeOfSecond adjacentModel)) = some false := by
    decide +kernel
  rw [h1] at d1
  rw [h2] at d2
  have d1 : v.isValid = true := Option.some.inj d1
  have d2 : v'.isValid = false := Option.some.inj d2
  rw [d1, d2] at h3
  cases h3

end Inspector
