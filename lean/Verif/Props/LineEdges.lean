import Verif.Proofs.LineEdges
import Verif.Props.Vertices
/-
C133: the verdict on a model does not depend on the numbers and the directions of the edges of its Lines.
-/
namespace Inspector
open Spec

/-- **C133** (BReps): the same BRep, the edges of its Lines having other numbers and other directions, inspected in any
other execution and with other search trees, gets the same verdict. -/
theorem C133_brep {P : Type} (lib : ModelLibrary P) (hlib : SegmentsUndirected lib) (rt rt' : ModelRuntime)
    (hrt : ModelRuntimeOk rt) (hrt' : ModelRuntimeOk rt') (m : ModelData P) (hm : RelationsAgree m)
    (τ : Uuid → Equiv.Perm Nat) (hτ : LineEdgeNumbersOf τ m) (turn : Uuid → Index → Bool) (c c' : Candidates P)
    (h : BRepOk lib rt m c) (h' : BRepOk lib rt' (withLineEdges τ turn m) c') :
    ∃ v v' N, (∀ fuel ≥ N, isBRepOfValid lib rt fuel m = .ok v ∧
      isBRepOfValid lib rt' fuel (withLineEdges τ turn m) = .ok v') ∧ v.isValid = v'.isValid := by
  obtain ⟨v, N, h1, h2, h3, _⟩ := C82_brep_partial lib rt hrt m c h
  obtain ⟨v', N', h1', h2', h3', _⟩ := C82_brep_partial lib rt' hrt' _ c' h'
  refine ⟨v, v', max N N', fun fuel hf => ⟨h1 fuel (by omega), h1' fuel (by omega)⟩, ?_⟩
  rw [Bool.eq_iff_iff]
  have mv := LineEdges.places (τ := τ) (turn := turn) (m := m) rt rt'
  have hmesh := LineEdges.meshDefect (turn := turn) hlib hτ
  have hmeets := LineEdges.lineMeets (turn := turn) hlib hτ
  have hu := Vertices.unreadable mv
  have hids : (m.lines.map LineData.id).Nodup := by
    have := h.meshes.ids
    rw [List.append_assoc, List.append_assoc, List.nodup_append] at this
    have := this.2.1
    rw [List.nodup_append] at this
    exact this.1
  by_cases hr : LinesUnreadable (m.topology rt)
  · rw [(h3 hr).2, (h3' (hu.2 hr)).2, not_iff_not, Plain.brepDefectBesideLines_iff h.meshes h.types,
      Plain.brepDefectBesideLines_iff h'.meshes h'.types]
    unfold PlainBRepDefectBesideLines
    rw [hmesh, hmeets, LineEdges.nonEmptyLines]
    have ht := Vertices.otherTopology mv m.blocksOracle
    rw [LineEdges.oracle_same] at ht
    rw [← Plain.topology_iff h.meshes rt (fun t => OtherTopologyDefect t m.blocksOracle) (Numbers.otherTexts _),
      ← Plain.topology_iff h'.meshes rt' (fun t => OtherTopologyDefect t (withLineEdges τ turn m).blocksOracle)
        (Numbers.otherTexts _),
      show (withLineEdges τ turn m).blocksOracle = m.blocksOracle from rfl, ht]
  · rw [h2 hr, h2' (fun x => hr (hu.1 x)), not_iff_not, Plain.brepDefect_iff h.meshes h.types,
      Plain.brepDefect_iff h'.meshes h'.types]
    unfold PlainBRepDefect
    rw [hmesh, hmeets]
    have ht := Vertices.brepTopology_of mv m.blocksOracle (LineEdges.lineEdges hτ rt rt')
      (LineEdges.lineWrong hm rt rt' hτ h.around.surfaceKeys hids)
    rw [LineEdges.oracle_same] at ht
    rw [← Plain.topology_iff h.meshes rt (fun t => BRepTopologyDefect t m.blocksOracle) (Numbers.brepTexts _),
      ← Plain.topology_iff h'.meshes rt' (fun t => BRepTopologyDefect t (withLineEdges τ turn m).blocksOracle)
        (Numbers.brepTexts _),
      show (withLineEdges τ turn m).blocksOracle = m.blocksOracle from rfl, ht]

/-- **C133** (Sections). -/
theorem C133_section {P : Type} (lib : ModelLibrary P) (hlib : SegmentsUndirected lib) (rt rt' : ModelRuntime)
    (hrt : ModelRuntimeOk rt) (hrt' : ModelRuntimeOk rt') (m : ModelData P) (τ : Uuid → Equiv.Perm Nat)
    (hτ : LineEdgeNumbersOf τ m) (turn : Uuid → Index → Bool) (c c' : Candidates P) (h : SectionOk lib rt m c)
    (h' : SectionOk lib rt' (withLineEdges τ turn m) c') :
    ∃ v v', isSectionOfValid lib rt m = .ok v ∧ isSectionOfValid lib rt' (withLineEdges τ turn m) = .ok v' ∧
      v.isValid = v'.isValid := by
  obtain ⟨v, h1, h2⟩ := C99_section lib rt hrt m c h
  obtain ⟨v', h1', h2'⟩ := C99_section lib rt' hrt' _ c' h'
  refine ⟨v, v', h1, h1', ?_⟩
  rw [Bool.eq_iff_iff, h2, h2', not_iff_not]
  have ht := Plain.topology_iff h.meshes rt SectionTopologyDefect (fun _ _ _ _ _ _ _ hd => hd)
  have ht' := Plain.topology_iff h'.meshes rt' SectionTopologyDefect (fun _ _ _ _ _ _ _ hd => hd)
  unfold PlainSectionDefect
  rw [← ht, ← ht', Vertices.sectionTopology (LineEdges.places rt rt'), LineEdges.colocatedUvs, LineEdges.ex_line,
    LineEdges.polygonsMeet]
  simp only [LineEdges.differentPoints, LineEdges.surfaceDefect]
  refine or_congr Iff.rfl (or_congr Iff.rfl (or_congr ?_ Iff.rfl))
  exact exists_congr fun l => and_congr_right fun hl => and_congr Iff.rfl (LineEdges.lineDefect hlib hτ hl).symm

/-! ### The model with other numbers is as well-formed -/

namespace LineEdges
variable {P : Type} {lib : ModelLibrary P} {τ : Uuid → Equiv.Perm Nat} {turn : Uuid → Index → Bool} {m : ModelData P}

theorem isActive_eq (id : Uuid) : (withLineEdges τ turn m).isActive id = m.isActive id := by
  simp [ModelData.isActive, withLineEdges, lineEdgesOf, Function.comp_def]

theorem find_line (id : Uuid) : (withLineEdges τ turn m).lines.find? (fun l => l.id == id) =
    (m.lines.find? fun l => l.id == id).map fun l => lineEdgesOf (τ l.id) (turn l.id) l := by
  show (m.lines.map _).find? _ = _
  rw [List.find?_map]
  rfl

theorem uniqueVertices_eq : (withLineEdges τ turn m).uniqueVertices lib = m.uniqueVertices lib := by
  unfold ModelData.uniqueVertices
  have h1 : (withLineEdges τ turn m).isActive = m.isActive := funext isActive_eq
  have h2 : ∀ id, ((withLineEdges τ turn m).lines.find? fun c => c.id == id).map (fun c => c.points) =
      (m.lines.find? fun c => c.id == id).map fun c => c.points := by
    intro id
    rw [find_line, Option.map_map]
    rfl
  simp only [h1, h2]
  rfl

theorem meshesOk (h : MeshesOk lib m) : MeshesOk lib (withLineEdges τ turn m) where
  ids := by simpa [withLineEdges, lineEdgesOf, Function.comp_def] using h.ids
  nbComponents := by simpa [withLineEdges] using h.nbComponents
  corners := h.corners
  lines := by
    intro l hl
    obtain ⟨l, hl', rfl⟩ := List.mem_map.1 hl
    exact ⟨(h.lines l hl').search, (h.lines l hl').nbEdges⟩
  surfaces := h.surfaces
  walks := h.walks
  blocks := h.blocks
  uniqueVertices := by rw [uniqueVertices_eq]; exact h.uniqueVertices
  nbUniqueVertices := h.nbUniqueVertices
  nbLinks := h.nbLinks
  smallPolygons := h.smallPolygons
  positions := h.positions
  blockWalks := h.blockWalks

/-- A Section with other numbers of edges has the guarantees of the first one, if its search trees have theirs and the
tests of its triangles raise nothing. -/
theorem sectionOk {rt : ModelRuntime} {c c' : Candidates P} (h : SectionOk lib rt m c)
    (ht : ModelTreesOk ((withLineEdges τ turn m).intersections lib false) c')
    (hx : NoEmptySurface ((withLineEdges τ turn m).intersections lib false) →
      TestsOk ((withLineEdges τ turn m).intersections lib false) c') : SectionOk lib rt (withLineEdges τ turn m) c' where
  meshes := meshesOk h.meshes
  noBlock := h.noBlock
  types := by rw [uniqueVertices_eq]; exact h.types
  trees := ht
  tests := hx
  topology := Vertices.wellFormed (places rt rt) h.topology
  embeddings := fun id ha => h.embeddings id ((Vertices.active (places rt rt) .line id).1 ha)

/-- The same for BReps, if the new first edges have unique vertices. -/
theorem brepOk {rt : ModelRuntime} {c c' : Candidates P} (hτ : LineEdgeNumbersOf τ m) (h : BRepOk lib rt m c)
    (hf : ∀ l ∈ m.lines, l.active = true → ∀ e < l.nbEdges,
      ∀ x ∈ [(l.edgeVertices e).1, (l.edgeVertices e).2], m.uniqueVertex ⟨⟨.line, l.id⟩, x⟩ ≠ none)
    (ht : ModelTreesOk ((withLineEdges τ turn m).intersections lib true) c') :
    BRepOk lib rt (withLineEdges τ turn m) c' where
  meshesKnown := (meshesOk h.meshes).toMeshesKnown
  blockWalks := h.blockWalks
  types := by rw [uniqueVertices_eq]; exact h.types
  trees := ht
  nbModelEdges := by
    have h1 := h.nbModelEdges
    have h2 : (withLineEdges τ turn m).lines.length = m.lines.length := List.length_map ..
    rw [h2]
    exact h1
  topology := Vertices.wellFormed (places rt rt) h.topology
  around := by
    have a := h.around
    have mv := places (τ := τ) (turn := turn) (m := m) rt rt
    refine ⟨a.iterate, ?_, fun line e => a.surfaceKeys line _, ?_, fun line e => a.blockKeys line _, ?_, ?_, ?_⟩
    · unfold Has; rw [mv.components]; exact fun line e => a.surfaces line _
    · unfold Has; rw [mv.components]; exact fun line e => a.blocks line _
    · unfold Has; rw [mv.components]; exact a.polygons
    · rw [mv.components]
      intro x hx e he v hv
      obtain ⟨l, hl, rfl⟩ := List.mem_map.1 hx
      obtain ⟨e, rfl⟩ := (τ l.id).surjective e
      refine a.edgeVertices _ hx e ((hτ l hl e).1 he) v ?_
      have hv : v ∈ (((withLineEdges τ turn m).lines.find? fun x => x.id == l.id).map fun l' =>
        [(l'.edgeVertices (τ l.id e)).1, (l'.edgeVertices (τ l.id e)).2]).getD [] := hv
      rw [find_line] at hv
      show v ∈ ((m.lines.find? fun x => x.id == l.id).map fun l' => [(l'.edgeVertices e).1, (l'.edgeVertices e).2]).getD []
      cases hs : m.lines.find? fun x => x.id == l.id with
      | none => rw [hs] at hv; exact absurd hv List.not_mem_nil
      | some l' =>
        have hid : l'.id = l.id := by simpa using List.find?_some hs
        rw [hs] at hv
        simp only [Option.map_some, Option.getD_some, lineEdgesOf, hid, Equiv.symm_apply_apply, turnedEdge] at hv ⊢
        split at hv <;> simp only [List.mem_cons, List.not_mem_nil, or_false] at hv ⊢
        · exact hv.symm
        · exact hv
    · exact a.facetVertices
  coherent := h.coherent
  surfaceEmbeddings := fun id ha => h.surfaceEmbeddings id ((Vertices.active (places rt rt) .surface id).1 ha)
  firstEdges := by
    intro l hl ha hn x hx
    obtain ⟨l, hl', rfl⟩ := List.mem_map.1 hl
    have hn : l.nbEdges ≠ 0 := hn
    have h0 : (τ l.id).symm 0 < l.nbEdges := (hτ l hl' _).1 (by rw [Equiv.apply_symm_apply]; omega)
    refine hf l hl' ha _ h0 x ?_
    have hx : x ∈ [(turnedEdge (turn l.id ((τ l.id).symm 0)) (l.edgeVertices ((τ l.id).symm 0))).1,
      (turnedEdge (turn l.id ((τ l.id).symm 0)) (l.edgeVertices ((τ l.id).symm 0))).2] := hx
    unfold turnedEdge at hx
    split at hx <;> simp only [List.mem_cons, List.not_mem_nil, or_false] at hx ⊢
    · exact hx.symm
    · exact hx
  counts := by
    intro v hv b hb
    have mv := places (τ := τ) (turn := turn) (m := m) rt rt
    have hc := h.counts v hv b ((Vertices.at_ mv v .block b).1 hb)
    unfold CountsFit nbLinePassages at hc ⊢
    rw [Vertices.linesAt_eq mv]
    simp only [Vertices.sheets mv]
    exact hc
  graph := h.graph
  geometry := h.geometry
  rays := by
    have mv := places (τ := τ) (turn := turn) (m := m) rt rt
    have hr := h.rays
    intro s hs hc block hb
    rw [mv.components] at hc hb
    exact hr s ((Vertices.cannotBound mv s).1 hs) hc block hb
  modelBoundaries := h.modelBoundaries

end LineEdges

/-! ### examples -/

/-- A triangle, two sides of which are in the same Line. -/
def foldedBorder : TopologyData where
  corners := [⟨1, true, 1, 0⟩, ⟨3, true, 1, 0⟩]
  lines := [⟨11, true, 3, 2⟩, ⟨13, true, 2, 1⟩]
  surfaces := [⟨21, true, 3, 1⟩]
  vertices := [
    [⟨⟨.corner, 1⟩, 0⟩, ⟨⟨.line, 11⟩, 0⟩, ⟨⟨.line, 13⟩, 1⟩, ⟨⟨.surface, 21⟩, 0⟩],
    [⟨⟨.line, 11⟩, 1⟩, ⟨⟨.surface, 21⟩, 1⟩],
    [⟨⟨.corner, 3⟩, 0⟩, ⟨⟨.line, 13⟩, 0⟩, ⟨⟨.line, 11⟩, 2⟩, ⟨⟨.surface, 21⟩, 2⟩]]
  boundary := [(⟨.corner, 1⟩, ⟨.line, 11⟩), (⟨.corner, 3⟩, ⟨.line, 11⟩), (⟨.corner, 3⟩, ⟨.line, 13⟩),
    (⟨.corner, 1⟩, ⟨.line, 13⟩), (⟨.line, 11⟩, ⟨.surface, 21⟩), (⟨.line, 13⟩, ⟨.surface, 21⟩)]
  border := [(21, 0), (21, 1), (21, 2)]
  surfaceEdges := [((11, 0), (21, 1)), ((11, 1), (21, 1)), ((13, 0), (21, 1))]

/-- The two edges of the first Line exchange their numbers, -/
def exchangeEdges (l : Uuid) : Equiv.Perm Nat := if l = 11 then Equiv.swap 0 1 else Equiv.refl _

/-- and the one which was the first is turned over. -/
def turnFirst (l : Uuid) (e : Index) : Bool := l == 11 && e == 0

abbrev foldedModel : ModelData Nat := exampleModel foldedBorder (10 * ·) .positive

theorem exchangeEdges_numbers : LineEdgeNumbersOf exchangeEdges foldedModel := by
  intro l hl
  obtain ⟨c, hc, rfl⟩ := List.mem_map.1 hl
  have hc : c = ⟨11, true, 3, 2⟩ ∨ c = ⟨13, true, 2, 1⟩ := by simpa [foldedBorder] using hc
  rcases hc with rfl | rfl
  · intro i
    show Equiv.swap 0 1 i < 2 ↔ i < 2
    rw [Equiv.swap_apply_def]
    split <;> [skip; split] <;> omega
  · intro i
    exact Iff.rfl

theorem modelLibrary_undirected : SegmentsUndirected modelLibrary where
  distance p q := by
    show Dbl.num _ = Dbl.num _
    congr 2
    omega
  triangle _ _ _ _ _ := Iff.rfl

theorem edges_trees (brep : Bool) : ModelTreesOk ((withLineEdges exchangeEdges turnFirst foldedModel).intersections modelLibrary brep)
    noCandidate := by
  have h := exampleModel_trees foldedBorder (10 * ·) .positive brep (by cases brep <;> decide +kernel)
  have hl : ∀ im : IntersectionModel Nat, meetingEdges im noCandidate = [] := by
    intro im
    unfold meetingEdges
    rw [List.flatMap_eq_nil_iff]
    intro s _
    rw [List.flatMap_eq_nil_iff]
    intro l _
    rfl
  have hlen := h.length
  rw [hl, List.append_nil] at hlen
  refine ⟨⟨h.trees.1, h.trees.2, fun _ _ _ => ⟨⟨[], List.Perm.refl _, List.Sublist.refl _⟩, fun _ => List.Perm.refl _⟩⟩,
    h.surfaces, h.complete, h.lines, ?_, ?_⟩
  · intro s l p e hx
    obtain ⟨_, _, _, _, _, _, _, t, _, x, hx, hm⟩ := hx
    have hm : Position.outside = x ∨ Position.outside = x := hm
    rcases hm with rfl | rfl <;> simp at hx
  · rw [hl, List.append_nil]; exact hlen

theorem foldedSection_ok : SectionOk modelLibrary modelRuntime foldedModel noCandidate where
  meshes := exampleModel_meshes _ _ _ (by decide)
  noBlock := rfl
  types := exampleModel_types _ _ _ _ (by decide)
  trees := exampleModel_trees _ _ _ _ (by decide +kernel)
  tests := fun _ => noCandidate_tests _ _ _ _
  topology := exampleModel_wf _ _ _ _ (by decide) (by decide) (by decide)
  embeddings := by
    intro id _ e he
    exact absurd (TopologyData.mem_select.1 he) (by simp [foldedBorder])

theorem foldedBRep_ok : BRepOk modelLibrary modelRuntime foldedModel noCandidate where
  meshesKnown := MeshesOk.toMeshesKnown (exampleModel_meshes _ _ _ (by decide))
  blockWalks := MeshesOk.blockWalks (exampleModel_meshes _ _ _ (by decide))
  types := exampleModel_types _ _ _ _ (by decide)
  trees := exampleModel_trees _ _ _ _ (by decide +kernel)
  nbModelEdges := by decide +kernel
  topology := exampleModel_wf _ _ _ _ (by decide) (by decide) (by decide)
  around := by
    have aw := foldedBorder.aw_of_check (by decide)
    rw [exampleModel_topology foldedBorder _ .positive modelRuntime (by decide) (by decide)]
    exact ⟨fun m => List.reverse_perm m, aw.surfaces, aw.surfaceKeys, aw.blocks, aw.blockKeys, aw.polygons,
      by decide +kernel, by decide +kernel⟩
  coherent := foldedBorder.coherent_of_check (by decide)
  surfaceEmbeddings := fun id _ e he => absurd he List.not_mem_nil
  firstEdges := by decide +kernel
  counts := by
    rw [exampleModel_topology foldedBorder _ .positive modelRuntime (by decide) (by decide)]
    exact counts_of_check foldedBorder (by decide)
  graph := firstEdge_finder
  geometry := noGeometry_raises
  rays := example_rays _
  modelBoundaries := Or.inl rfl

theorem folded_relations : RelationsAgree foldedModel := by
  constructor
  · intro l hl s
    obtain ⟨c, hc, rfl⟩ := List.mem_map.1 hl
    have hc : c = ⟨11, true, 3, 2⟩ ∨ c = ⟨13, true, 2, 1⟩ := by simpa [foldedBorder] using hc
    have key : ∀ id, (id = 11 ∨ id = 13) → (foldedBorder.toModel.isBoundary id s = true ↔
        ⟨.surface, s⟩ ∈ foldedBorder.toModel.incidences id) := by
      intro id hid
      have h1 : (foldedBorder.toModel.incidences id) = [⟨.surface, 21⟩] := by rcases hid with rfl | rfl <;> decide
      rw [h1, List.mem_singleton]
      have h2 : foldedBorder.toModel.isBoundary id s = (21 == s) := by
        rcases hid with rfl | rfl <;> simp [TopologyData.toModel, foldedBorder]
      rw [h2, beq_iff_eq, ComponentID.mk.injEq]
      exact ⟨fun h => ⟨rfl, h.symm⟩, fun h => h.2.symm⟩
    exact key c.id (by rcases hc with rfl | rfl <;> simp)
  · intro l hl s
    refine ⟨fun h => ?_, fun h => absurd h List.not_mem_nil⟩
    exact absurd h (by decide : ¬ (false : Bool) = true)

set_option maxRecDepth 20000 in
/-- the Section gets the same verdict, valid -/
example : ∃ v, isSectionOfValid modelLibrary modelRuntime (withLineEdges exchangeEdges turnFirst foldedModel) = .ok v ∧
    v.isValid = true := by
  obtain ⟨v, v', h1, h2, h3⟩ := C133_section modelLibrary modelLibrary_undirected modelRuntime modelRuntime modelRuntime_ok
    modelRuntime_ok foldedModel exchangeEdges exchangeEdges_numbers turnFirst noCandidate noCandidate foldedSection_ok
    (LineEdges.sectionOk foldedSection_ok (edges_trees _) fun _ => noCandidate_tests _ _ _ _)
  have he : isSectionOfValid modelLibrary modelRuntime foldedModel = .ok {} := by rfl
  rw [he] at h1
  injection h1 with h1
  subst h1
  exact ⟨v', h2, h3.symm⟩

set_option maxRecDepth 20000 in
/-- and so does the BRep -/
example : ∃ v N, ∀ fuel ≥ N, isBRepOfValid modelLibrary modelRuntime fuel
    (withLineEdges exchangeEdges turnFirst foldedModel) = .ok v ∧ v.isValid = true := by
  obtain ⟨v, v', N, h1, h3⟩ := C133_brep modelLibrary modelLibrary_undirected modelRuntime modelRuntime modelRuntime_ok
    modelRuntime_ok foldedModel folded_relations exchangeEdges exchangeEdges_numbers turnFirst noCandidate noCandidate
    foldedBRep_ok (LineEdges.brepOk exchangeEdges_numbers foldedBRep_ok (by decide +kernel) (edges_trees _))
  refine ⟨v', N, fun fuel hf => ⟨(h1 fuel hf).2, ?_⟩⟩
  rw [← h3]
  have he : isBRepOfValid modelLibrary modelRuntime (N + 20) foldedModel = .ok {} := by rfl
  have h1 := (h1 (N + 20) (by omega)).1
  rw [he] at h1
  injection h1 with h1
  subst h1
  rfl

end Inspector
