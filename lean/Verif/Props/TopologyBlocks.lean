import Verif.Proofs.TopologyBlocksInspect
import Verif.Proofs.TopologyData
/-! Blocks of a BRep: C48 (surfaces which cannot bound), C46 (validity and reports), C74 (surfaces wrongly embedded),
C75 (all the lists). -/
namespace Inspector
open Spec

/-! ### C48 -/

/-- **C48**: the search of the surfaces which cannot be boundaries terminates; the surfaces not found are a closable
set (every boundary line of one of them bounds another one of them) which contains all the closable sets. -/
theorem C48_peeled_surfaces (m : TopologyModel) (wf : WellFormed m) (coh : CoherentLines m)
    (find : List GraphEdge → Uuid → Uuid → Option Nat) (hf : EdgeFinder find) :
    ∃ result N, (∀ fuel ≥ N, findNotBoundarySurfaces m find fuel = .ok result) ∧ result.Nodup ∧
      Closable m (fun s => s ∉ result) ∧
      ∀ G, Closable m G → ∀ s, G s → s ∉ result := by
  obtain ⟨result, N, h, hn, hs⟩ := findNotBoundarySurfaces_spec wf coh hf
  refine ⟨result, N, h, hn, ?_, fun G hG s hGs hmem => (hs s).1 hmem ⟨G, hG, hGs⟩⟩
  intro s hsn line hl
  rw [hs s] at hsn
  obtain ⟨G, hG, hGs⟩ := Classical.not_not.1 hsn
  obtain ⟨s', h1, h2, h3⟩ := hG s hGs line hl
  exact ⟨s', fun hmem => (hs s').1 hmem ⟨G, hG, h1⟩, h2, h3⟩

/-- The first edge between two vertices. -/
def firstEdge (edges : List GraphEdge) (a b : Uuid) : Option Nat :=
  edges.findIdx? fun e => (e.v0 == a && e.v1 == b) || (e.v0 == b && e.v1 == a)

theorem firstEdge_finder : EdgeFinder firstEdge := by
  intro edges a b i h
  unfold firstEdge at h
  rw [List.findIdx?_eq_some_iff_getElem] at h
  obtain ⟨hi, hp, _⟩ := h
  exact ⟨edges[i], List.getElem?_eq_getElem hi, by simpa using hp⟩

/-- Surfaces 1, 2 bound block 9 and share lines 11 and 12; surface 3 has line 12 and a free line 13; surface 4 shares
line 13 with 3 and has a free line 14: removing 4 frees line 13 of 3. -/
def peelBRep : TopologyData where
  lines := [⟨11, true, 2, 1⟩, ⟨12, true, 2, 1⟩, ⟨13, true, 2, 1⟩, ⟨14, true, 2, 1⟩]
  surfaces := [⟨1, true, 3, 1⟩, ⟨2, true, 3, 1⟩, ⟨3, true, 3, 1⟩, ⟨4, true, 3, 1⟩]
  blocks := [⟨9, true, 4, 1⟩]
  vertices := [[⟨⟨.surface, 4⟩, 0⟩], [⟨⟨.surface, 3⟩, 0⟩, ⟨⟨.surface, 4⟩, 1⟩]]
  boundary := [(⟨.surface, 1⟩, ⟨.block, 9⟩), (⟨.surface, 2⟩, ⟨.block, 9⟩), (⟨.surface, 4⟩, ⟨.block, 9⟩),
    (⟨.line, 11⟩, ⟨.surface, 1⟩), (⟨.line, 11⟩, ⟨.surface, 2⟩), (⟨.line, 12⟩, ⟨.surface, 1⟩),
    (⟨.line, 12⟩, ⟨.surface, 2⟩), (⟨.line, 12⟩, ⟨.surface, 3⟩), (⟨.line, 13⟩, ⟨.surface, 3⟩),
    (⟨.line, 13⟩, ⟨.surface, 4⟩), (⟨.line, 14⟩, ⟨.surface, 4⟩)]
  internal := [(⟨.surface, 3⟩, ⟨.block, 9⟩)]

example : WellFormed peelBRep.toModel ∧ CoherentLines peelBRep.toModel ∧ EdgeFinder firstEdge :=
  ⟨peelBRep.wf_of_check (by decide), peelBRep.coherent_of_check (by decide), firstEdge_finder⟩

example : (findNotBoundarySurfaces peelBRep.toModel firstEdge 10).toOption = some [4, 3] := by decide

/-! ### C75 -/

/-- **C75**: `inspect_blocks` terminates and its ten lists are exactly the specified ones. -/
theorem C75_block_reports (m : TopologyModel) (wf : WellFormed m) (coh : CoherentLines m) (o : BlocksOracle)
    (hf : EdgeFinder o.edgeFromVertices) (hg : RaisesOpenGeode o.geometry)
    (hrays : RaysAnswer m o.isInsideBlock)
    (hmb : o.modelBoundaries = [] ∨ o.modelBoundaries.flatten ≠ [])
    (hsz : ∀ c ∈ m.components .block, c.nbVertices < 2 ^ 32)
    (hcount : ∀ v < m.nbUniqueVertices, ∀ b, At m v .block b → CountsFit m v b)
    (hact : ∃ c ∈ m.components .block, c.active = true) :
    ∃ r N, (∀ fuel ≥ N, brepInspectBlocks m o fuel = .ok r) ∧ BlocksReport m o r :=
  brepInspectBlocks_spec wf coh hf hg hrays hmb hsz hcount hact

/-- Without active block, nothing is reported (even about surfaces and model boundaries). -/
theorem C75_no_active_block (m : TopologyModel) (o : BlocksOracle) (fuel : Nat)
    (h : ∀ c ∈ m.components .block, c.active = false) : brepInspectBlocks m o fuel = .ok {} := by
  unfold brepInspectBlocks
  have : m.activeComponents .block = [] := by
    unfold TopologyModel.activeComponents
    rw [List.filter_eq_nil_iff]
    intro c hc
    rw [h c hc]
    simp
  rw [this]
  rfl

/-- Trivial geometry: one part suffices in the examples. -/
def noGeometry : BlockGeometry where
  Box := Unit
  emptyBox := ()
  addBox _ _ := ()
  contains _ _ := true
  surfaceBox _ := ()
  isVertexInside _ _ _ := .error .openGeodeException

theorem noGeometry_raises : RaisesOpenGeode noGeometry := by
  intro mesh s v f h
  cases h; rfl

/-- No point is in a block, and there are two model boundaries, with surfaces 1 and 2. -/
def exampleOracle : BlocksOracle where
  edgeFromVertices := firstEdge
  isInsideBlock _ _ := .ok false
  geometry := noGeometry
  modelBoundaries := [[1], [2]]

theorem example_rays (m : TopologyModel) : RaysAnswer m exampleOracle.isInsideBlock := fun _ _ _ _ _ => ⟨false, rfl⟩

/-- Counts fit, for data with few component mesh vertices. -/
theorem counts_of_check (d : TopologyData) (h : ∀ v < d.toModel.nbUniqueVertices,
    ∀ b ∈ componentsUuids d.toModel v .block, (d.toModel.componentMeshVertices v).length < 2 ^ 30 ∧
      nbLinePassages d.toModel v b < 2 ^ 30) :
    ∀ v < d.toModel.nbUniqueVertices, ∀ b, At d.toModel v .block b → CountsFit d.toModel v b :=
  fun v hv b hb => h v hv b (mem_componentsUuids.2 hb)

/-- A block vertex at 0 in two blocks without surface, a block without mesh, a vertex of the block without unique
vertex. -/
def blocksBRep : TopologyData :=
  { peelBRep with
    blocks := [⟨9, true, 4, 1⟩, ⟨8, true, 2, 1⟩, ⟨7, true, 0, 0⟩, ⟨6, false, 0, 0⟩]
    vertices := [[⟨⟨.surface, 4⟩, 0⟩], [⟨⟨.surface, 3⟩, 0⟩, ⟨⟨.surface, 4⟩, 1⟩],
      [⟨⟨.block, 9⟩, 0⟩, ⟨⟨.block, 8⟩, 0⟩], [⟨⟨.block, 9⟩, 1⟩, ⟨⟨.block, 9⟩, 2⟩]] }

example : WellFormed blocksBRep.toModel ∧ CoherentLines blocksBRep.toModel ∧
    (exampleOracle.modelBoundaries = [] ∨ exampleOracle.modelBoundaries.flatten ≠ []) ∧
    (∀ c ∈ blocksBRep.toModel.components .block, c.nbVertices < 2 ^ 32) ∧
    (∀ v < blocksBRep.toModel.nbUniqueVertices, ∀ b, At blocksBRep.toModel v .block b →
      CountsFit blocksBRep.toModel v b) ∧
    ∃ c ∈ blocksBRep.toModel.components .block, c.active = true :=
  ⟨blocksBRep.wf_of_check (by decide), blocksBRep.coherent_of_check (by decide), Or.inr (by decide), by decide,
    counts_of_check _ (by decide), ⟨9, true, 4, 1⟩, by decide, rfl⟩

example : (brepInspectBlocks blocksBRep.toModel exampleOracle 20).toOption.map
    (fun r => (r.some_blocks_not_meshed.issues,
      r.blocks_not_linked_to_a_unique_vertex.entries.map (fun e => (e.1, e.2.issues)),
      r.unique_vertices_part_of_two_blocks_and_no_boundary_surface.issues,
      r.unique_vertices_with_incorrect_block_cmvs_count.issues)) =
    some ([7], [(9, [3]), (8, [1])], [2], [3]) := by rfl

example : (brepInspectBlocks blocksBRep.toModel exampleOracle 20).toOption.map
    (fun r => (r.wrong_block_boundary_surface.issues, r.blocks_with_not_closed_boundary_surfaces.issues,
      r.model_boundaries_dont_form_a_closed_surface.issues,
      r.unique_vertices_linked_to_surface_with_wrong_relationship_to_blocks.issues)) =
    some ([9], [9], [], [0, 1]) := by rfl

/-! ### C46 -/

/-- A surface with a line which bounds no other surface cannot bound. -/
theorem cannotBound_of_free_line {m : TopologyModel} (coh : CoherentLines m) {s line : Uuid}
    (hb : ⟨.line, line⟩ ∈ m.boundaries s) (hi : ∀ c ∈ m.incidences line, c = ⟨.surface, s⟩) : CannotBound m s := by
  rintro ⟨G, hG, hs⟩
  obtain ⟨s', _, hne, h⟩ := hG s hs line hb
  have := hi _ ((coh line s').2 h)
  injection this with _ h2
  exact hne h2

/-- **C46** is false of the code: `brep_blocks_topology_is_valid` accepts a unique vertex which `inspect_blocks`
reports (the predicate tests two of the five criteria). -/
theorem C46_false : ∃ (m : TopologyModel) (o : BlocksOracle) (v : Index) (r : BRepBlocksTopologyInspectionResult),
    WellFormed m ∧ CoherentLines m ∧ v < m.nbUniqueVertices ∧
    brepBlocksTopologyIsValid m v = .ok true ∧ (∃ N, ∀ fuel ≥ N, brepInspectBlocks m o fuel = .ok r) ∧
    v ∈ r.unique_vertices_linked_to_surface_with_wrong_relationship_to_blocks.issues := by
  have wf := peelBRep.wf_of_check (by decide)
  have coh : CoherentLines peelBRep.toModel := peelBRep.coherent_of_check (by decide)
  obtain ⟨r, N, hr, hrep⟩ := C75_block_reports peelBRep.toModel wf coh exampleOracle firstEdge_finder noGeometry_raises (example_rays _) (Or.inr (by decide)) (by decide) (counts_of_check _ (by decide)) ⟨⟨9, true, 4, 1⟩, by decide, rfl⟩
  refine ⟨peelBRep.toModel, exampleOracle, 0, r, wf, coh, by decide, by rfl, ⟨N, hr⟩, ?_⟩
  rw [hrep.wrong.2]
  exact ⟨by decide, 4, ⟨⟨⟨⟨.surface, 4⟩, 0⟩, by decide, by rfl⟩, ⟨⟨4, true, 3, 1⟩, by decide, rfl, rfl⟩⟩,
    Or.inl ⟨by decide, cannotBound_of_free_line coh (line := 14) (by decide) (by decide)⟩⟩

/-- **C46**, on the two criteria it tests: `brep_blocks_topology_is_valid` accepts a unique vertex exactly when
`inspect_blocks` reports it neither for two blocks without boundary surface nor for its number of block vertices.
Missing: the three other lists of unique vertices. -/
theorem C46_valid_iff_two_lists_partial (m : TopologyModel) (wf : WellFormed m) (coh : CoherentLines m)
    (o : BlocksOracle) (hf : EdgeFinder o.edgeFromVertices) (hg : RaisesOpenGeode o.geometry)
    (hrays : RaysAnswer m o.isInsideBlock)
    (hmb : o.modelBoundaries = [] ∨ o.modelBoundaries.flatten ≠ [])
    (hsz : ∀ c ∈ m.components .block, c.nbVertices < 2 ^ 32)
    (hcount : ∀ v < m.nbUniqueVertices, ∀ b, At m v .block b → CountsFit m v b)
    (hact : ∃ c ∈ m.components .block, c.active = true) (v : Index) (hv : v < m.nbUniqueVertices) :
    ∃ r b N, (∀ fuel ≥ N, brepInspectBlocks m o fuel = .ok r) ∧ brepBlocksTopologyIsValid m v = .ok b ∧
      (b = true ↔ v ∉ r.unique_vertices_part_of_two_blocks_and_no_boundary_surface.issues ∧
        v ∉ r.unique_vertices_with_incorrect_block_cmvs_count.issues) := by
  obtain ⟨r, N, hr, hrep⟩ := C75_block_reports m wf coh o hf hg hrays hmb hsz hcount hact
  obtain ⟨b, hb, hbi⟩ := brepBlocks_decides wf hv (hcount v hv)
  refine ⟨r, b, N, hr, hb, ?_⟩
  rw [hbi, hrep.twoBlocks.2, hrep.count.2]
  simp [hv]

/-- Vertices 2 and 3 of the example are invalid, 0 and 1 are valid. -/
example : [0, 1, 2, 3].map (fun v => (brepBlocksTopologyIsValid blocksBRep.toModel v).toOption) =
    [some true, some true, some false, some false] := by rfl

/-! ### C74 -/

/-- Surface 4, with a free line, is embedded in block 9, but no block contains it. -/
def embeddedOutsideBRep : TopologyData where
  lines := [⟨14, true, 2, 1⟩]
  surfaces := [⟨4, true, 3, 1⟩]
  blocks := [⟨9, true, 4, 1⟩]
  vertices := [[⟨⟨.surface, 4⟩, 0⟩]]
  boundary := [(⟨.line, 14⟩, ⟨.surface, 4⟩)]
  internal := [(⟨.surface, 4⟩, ⟨.block, 9⟩)]

/-- **C74** is false of the code: an active surface embedded in a block, bounding nothing, which cannot bound and is
outside all blocks, is not reported. -/
theorem C74_false : ∃ (m : TopologyModel) (o : BlocksOracle) (v : Index) (s : Uuid)
    (r : BRepBlocksTopologyInspectionResult), WellFormed m ∧ CoherentLines m ∧ v < m.nbUniqueVertices ∧
    ActiveAt m v .surface s ∧ m.incidences s = [] ∧ m.embeddings s ≠ [] ∧ CannotBound m s ∧
    OutsideBlocks m o.isInsideBlock s ∧ (∃ N, ∀ fuel ≥ N, brepInspectBlocks m o fuel = .ok r) ∧
    v ∉ r.unique_vertices_linked_to_surface_with_wrong_relationship_to_blocks.issues := by
  have wf := embeddedOutsideBRep.wf_of_check (by decide)
  have coh : CoherentLines embeddedOutsideBRep.toModel := embeddedOutsideBRep.coherent_of_check (by decide)
  obtain ⟨r, N, hr, hrep⟩ := C75_block_reports embeddedOutsideBRep.toModel wf coh exampleOracle firstEdge_finder
    noGeometry_raises (example_rays _) (Or.inr (by decide)) (by decide) (counts_of_check _ (by decide)) ⟨⟨9, true, 4, 1⟩, by decide, rfl⟩
  have hcb : CannotBound embeddedOutsideBRep.toModel 4 :=
    cannotBound_of_free_line coh (line := 14) (by decide) (by decide)
  have hactive : ActiveAt embeddedOutsideBRep.toModel 0 .surface 4 :=
    ⟨⟨⟨⟨.surface, 4⟩, 0⟩, by decide, by rfl⟩, ⟨⟨4, true, 3, 1⟩, by decide, rfl, rfl⟩⟩
  refine ⟨embeddedOutsideBRep.toModel, exampleOracle, 0, 4, r, wf, coh, by decide, hactive, by decide, by decide, hcb,
    ⟨⟨⟨4, true, 3, 1⟩, by decide, rfl, by decide⟩, fun _ _ => rfl⟩, ⟨N, hr⟩, ?_⟩
  rw [hrep.wrong.2]
  rintro ⟨_, s, hs, h⟩
  have hs4 : s = 4 := by
    have := mem_componentsUuids.2 hs.1
    have hl : componentsUuids embeddedOutsideBRep.toModel 0 .surface = [4] := by decide
    rw [hl] at this
    simpa using this
  subst hs4
  rcases h with ⟨h, _⟩ | ⟨_, h, _⟩
  · exact h (by decide)
  · exact absurd h (by decide)

/-- **C74**, for the other relations of a surface to blocks: an active surface at `v` which bounds though it cannot,
or which neither bounds nor is embedded though it may bound or is inside a block, is reported; and a vertex of
active surfaces which are either embedded and bound nothing, or bound and may bound, is not reported. -/
theorem C74_surface_status_partial (m : TopologyModel) (wf : WellFormed m) (coh : CoherentLines m)
    (o : BlocksOracle) (hf : EdgeFinder o.edgeFromVertices) (hg : RaisesOpenGeode o.geometry)
    (hrays : RaysAnswer m o.isInsideBlock)
    (hmb : o.modelBoundaries = [] ∨ o.modelBoundaries.flatten ≠ [])
    (hsz : ∀ c ∈ m.components .block, c.nbVertices < 2 ^ 32)
    (hcount : ∀ v < m.nbUniqueVertices, ∀ b, At m v .block b → CountsFit m v b)
    (hact : ∃ c ∈ m.components .block, c.active = true) (v : Index) (hv : v < m.nbUniqueVertices) :
    ∃ r N, (∀ fuel ≥ N, brepInspectBlocks m o fuel = .ok r) ∧
      (∀ s, ActiveAt m v .surface s →
        (m.incidences s ≠ [] ∧ CannotBound m s) ∨ (m.incidences s = [] ∧ m.embeddings s = [] ∧
          (¬ CannotBound m s ∨ ¬ OutsideBlocks m o.isInsideBlock s)) →
        v ∈ r.unique_vertices_linked_to_surface_with_wrong_relationship_to_blocks.issues) ∧
      ((∀ s, ActiveAt m v .surface s → (m.incidences s = [] ∧ m.embeddings s ≠ []) ∨
          (m.incidences s ≠ [] ∧ ¬ CannotBound m s)) →
        v ∉ r.unique_vertices_linked_to_surface_with_wrong_relationship_to_blocks.issues) := by
  obtain ⟨r, N, hr, hrep⟩ := C75_block_reports m wf coh o hf hg hrays hmb hsz hcount hact
  refine ⟨r, N, hr, fun s hs h => ?_, fun h => ?_⟩
  · rw [hrep.wrong.2]
    refine ⟨hv, s, hs, h.imp id ?_⟩
    rintro ⟨h1, h2, h3⟩
    exact ⟨h1, h2, not_and_or.2 h3⟩
  · rw [hrep.wrong.2]
    rintro ⟨_, s, hs, h'⟩
    rcases h s hs with ⟨a, b⟩ | ⟨a, b⟩ <;> rcases h' with ⟨c, d⟩ | ⟨c, d, _⟩
    · exact c a
    · exact b d
    · exact b d
    · exact a c

end Inspector
