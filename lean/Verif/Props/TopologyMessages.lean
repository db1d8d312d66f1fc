import Verif.Props.TopologyInspector
import Verif.Props.TopologyCorners
import Verif.Props.TopologyLines
import Verif.Props.TopologySurfaces
import Verif.Props.LinkedSurfaces
import Verif.Proofs.TopologyMessagesDesignate
/-
Properties of the messages of the topology inspections.
-/
namespace Inspector
open Spec

/-! ### C92 -/

/-- **C92** (Section): whatever the schedule and the failures, there is one message per issue, in the order of the
issues; the message on a unique vertex begins by its number, the message on a component by its name and uuid, and
each list of a map is named after its component and gives the index of the vertices. -/
theorem C92_section_messages_designate (m : TopologyModel) (choose : List Failure → Failure) (schedule : List Nat)
    (r : SectionTopologyInspectionResult) (h : inspectSectionTopology m choose schedule = .ok r) :
    SectionDesignates m r := section_designates choose schedule r h

/-- **C92** (BRep): the same, for any order of iteration of the hash maps of edges and polygons. -/
theorem C92_brep_messages_designate (m : TopologyModel) (hit : ∀ map, (m.iterate map).Perm map) (o : BlocksOracle)
    (fuel : Nat) (choose : List Failure → Failure) (schedule : List Nat) (r : BRepTopologyInspectionResult)
    (h : inspectBRepTopology m o fuel choose schedule = .ok r) : BRepDesignates m r :=
  brep_designates hit o fuel choose schedule r h

example : (∀ map, (wrongLinks.toModel.iterate map).Perm map) ∧
    (inspectBRepTopology wrongLinks.toModel noModelBoundary 20 rethrowFirst []).toOption.map (fun r =>
      (r.unique_vertices_linked_to_inexistant_cmv.messages, r.unique_vertices_not_linked_to_any_component.messages)) =
    some (["unique vertex 1 is linked to inexistant mesh vertex [5].",
      "unique vertex 1 is linked to inexistant mesh vertex [0]."],
      ["unique vertex 0 is not linked to any mesh vertex."]) :=
  ⟨fun _ => .refl _, by rfl⟩

example : (inspectSectionTopology wrongCornersSection.toModel rethrowFirst []).toOption.map (fun r =>
    (r.corners.corners_not_meshed.messages, r.corners.corners_not_linked_to_a_unique_vertex.entries.map fun e =>
      (e.1, e.2.description, e.2.messages))) =
    some (["Corner 7 (7) is not meshed"], []) := by rfl

/-! ### C93 -/

/-- A closed line 3 around surface 4, both ends of which are at unique vertex 0, without corner; the link of unique
vertex 3 is to a vertex of unique vertex 1. -/
def closedLineSection : TopologyData where
  lines := [⟨3, true, 4, 3⟩]
  surfaces := [⟨4, true, 3, 1⟩]
  vertices := [[⟨⟨.line, 3⟩, 0⟩, ⟨⟨.line, 3⟩, 3⟩, ⟨⟨.surface, 4⟩, 0⟩], [⟨⟨.line, 3⟩, 1⟩, ⟨⟨.surface, 4⟩, 1⟩],
    [⟨⟨.line, 3⟩, 2⟩, ⟨⟨.surface, 4⟩, 2⟩], [⟨⟨.line, 3⟩, 1⟩]]
  boundary := [(⟨.line, 3⟩, ⟨.surface, 4⟩)]
  border := [(4, 0), (4, 1), (4, 2)]

/-- **C93 is false** (Lines): a message says that a unique vertex is part of multiple Lines, while it is part of one
Line only (a closed Line). -/
theorem C93_several_lines_false : ∃ (m : TopologyModel), WellFormed m ∧ UniqueIds m ∧
    (∀ schedule, ∃ r, inspectSectionTopology m rethrowFirst schedule = .ok r ∧
    r.lines.unique_vertices_linked_to_several_lines_but_not_linked_to_a_corner.messages =
      ["unique vertex 0 is part of multiple Lines but is not a Corner."]) ∧
    ∀ line line', At m 0 .line line → At m 0 .line line' → line = line' := by
  have hw := closedLineSection.wf_of_check (by decide)
  refine ⟨closedLineSection.toModel, hw, uniqueIds_of_check _ (by decide), fun schedule => ?_, ?_⟩
  · unfold inspectSectionTopology
    rw [sectionInvoke]
    exact ⟨_, rfl, rfl⟩
  · have : ∀ line, At closedLineSection.toModel 0 .line line → line = 3 := by
      intro line hl
      have hm : line ∈ componentsUuids closedLineSection.toModel 0 .line := mem_componentsUuids.2 hl
      have he : componentsUuids closedLineSection.toModel 0 .line = [3] := by decide
      rw [he] at hm
      simpa using hm
    intro l l' h h'
    rw [this l h, this l' h']

/-- **C93 is false** (links): a unique vertex linked to an existing mesh vertex, which is linked to another unique
vertex, is said to be linked to an inexistent mesh vertex. -/
theorem C93_inexistent_false : ∃ (m : TopologyModel), WellFormed m ∧ UniqueIds m ∧
    (∀ schedule, ∃ r, inspectSectionTopology m rethrowFirst schedule = .ok r ∧
    r.unique_vertices_nonbijectively_linked_to_cmv.messages =
      ["unique vertex 3 is linked to inexistant mesh vertex [1]."]) ∧
    m.componentMeshVertices 3 = [⟨⟨.line, 3⟩, 1⟩] ∧ CmvExists m sectionKinds ⟨⟨.line, 3⟩, 1⟩ := by
  refine ⟨closedLineSection.toModel, closedLineSection.wf_of_check (by decide), uniqueIds_of_check _ (by decide),
    fun schedule => ?_, ?_, ?_⟩
  · unfold inspectSectionTopology
    rw [sectionInvoke]
    exact ⟨_, rfl, rfl⟩
  · rfl
  · exact ⟨by decide, ⟨3, true, 4, 3⟩, by decide, rfl, by decide⟩

/-- Line 3 has one surface, 4, of which it is not a boundary. -/
def oneSurfaceSection : TopologyData where
  lines := [⟨3, true, 2, 1⟩]
  surfaces := [⟨4, true, 3, 1⟩, ⟨5, true, 3, 1⟩]
  vertices := [[⟨⟨.line, 3⟩, 0⟩, ⟨⟨.surface, 4⟩, 0⟩]]
  boundary := [(⟨.line, 3⟩, ⟨.surface, 5⟩)]
  border := [(4, 0)]

set_option maxRecDepth 20000 in
/-- **C93 is false** (number of Surfaces): a message says that a unique vertex is part of multiple Surfaces, while it is
part of one. -/
theorem C93_several_surfaces_false : ∃ (m : TopologyModel), WellFormed m ∧
    UniqueIds m ∧ (∀ schedule, ∃ r, inspectSectionTopology m rethrowFirst schedule = .ok r ∧
    r.lines.unique_vertices_linked_to_a_single_and_invalid_line.messages =
      ["unique vertex 0 is part of only one Line 3 (3), and mutiple Surfaces, but the Line is not boundary of " ++
        "associated Surface 4 (4)"]) ∧
    m.componentMeshVertices 0 = [⟨⟨.line, 3⟩, 0⟩, ⟨⟨.surface, 4⟩, 0⟩] := by
  refine ⟨oneSurfaceSection.toModel, oneSurfaceSection.wf_of_check (by decide), uniqueIds_of_check _ (by decide),
    fun schedule => ?_, rfl⟩
  · unfold inspectSectionTopology
    rw [sectionInvoke]
    exact ⟨_, rfl, rfl⟩

/-- **C93**, what holds, whatever the schedule and the failures: each message of the topology inspection of a Section
is one of the texts of `SectionExplained`, which name components and give numbers for which the stated conditions are
true.  Missing: "several Corners" and "multiple Lines" mean two vertices (see
`C93_one_vertex_each_partial`), "mutiple Surfaces" means at least one, and a mesh vertex linked elsewhere is said to
be inexistent. -/
theorem C93_section_messages_partial (m : TopologyModel) (ui : UniqueIds m) (choose : List Failure → Failure)
    (schedule : List Nat) (r : SectionTopologyInspectionResult)
    (h : inspectSectionTopology m choose schedule = .ok r) : SectionExplained m r :=
  section_explained ui choose schedule r h

theorem forall₂_left {α β : Type} {P : α → β → Prop} {l : List α} {l' : List β} (h : List.Forall₂ P l l') :
    ∀ x ∈ l, ∃ y, P x y := by
  induction h with
  | nil => intro x hx; cases hx
  | cons hp _ ih =>
    intro x hx
    rcases List.mem_cons.1 hx with rfl | hx
    · exact ⟨_, hp⟩
    · exact ih x hx

/-- **C93**, when each component has at most one vertex per unique vertex: "several Corners" and "multiple Lines" are
true of two different components. -/
theorem C93_one_vertex_each_partial (m : TopologyModel) (ui : UniqueIds m) (choose : List Failure → Failure)
    (schedule : List Nat) (r : SectionTopologyInspectionResult)
    (h : inspectSectionTopology m choose schedule = .ok r)
    (one : ∀ v, ((m.componentMeshVertices v).map ComponentMeshVertex.component_id).Nodup) :
    (∀ v ∈ r.corners.unique_vertices_linked_to_multiple_corners.issues,
      ∃ a b, a ≠ b ∧ ActiveAt m v .corner a ∧ ActiveAt m v .corner b) ∧
    (∀ v ∈ r.lines.unique_vertices_linked_to_several_lines_but_not_linked_to_a_corner.issues,
      ∃ a b, a ≠ b ∧ ActiveAt m v .line a ∧ ActiveAt m v .line b) := by
  have he := section_explained ui choose schedule r h
  have two : ∀ v kind, TwiceActive m v kind → ∃ a b, a ≠ b ∧ ActiveAt m v kind a ∧ ActiveAt m v kind b := by
    rintro v kind ⟨a, b, hs, ta, aa, tb, ab⟩
    have hn := (hs.map ComponentMeshVertex.component_id).nodup (one v)
    refine ⟨a.component_id.id, b.component_id.id, ?_, ⟨⟨a, hs.subset (by simp), ?_⟩, aa⟩,
      ⟨b, hs.subset (by simp), ?_⟩, ab⟩
    · intro hid
      simp only [List.map_cons, List.map_nil, List.nodup_cons, List.mem_singleton] at hn
      apply hn.1
      cases ha : a.component_id
      cases hb : b.component_id
      simp_all
    · cases ha : a.component_id
      simp_all
    · cases hb : b.component_id
      simp_all
  have mem : ∀ {s : Issues Index} {P : Index → String → Prop}, Explained s P → ∀ v ∈ s.issues, ∃ t, P v t := by
    intro s P hs v hv
    exact forall₂_left hs v hv
  constructor
  · intro v hv
    obtain ⟨t, ht⟩ := mem he.corners.several v hv
    cases ht with
    | twice h => exact two v .corner h
  · intro v hv
    obtain ⟨t, ht⟩ := mem he.lines.several v hv
    cases ht with
    | twice h _ => exact two v .line h

example : UniqueIds wrongCornersSection.toModel ∧
    (inspectSectionTopology wrongCornersSection.toModel rethrowFirst []).toOption.map (fun r =>
      (r.corners.unique_vertices_linked_to_multiple_corners.messages,
        r.corners.unique_vertices_linked_to_multiple_internals_corner.messages,
        r.corners.unique_vertices_linked_to_not_internal_nor_boundary_corner.messages)) =
      some (["unique vertex 0 is part of several Corners."],
        ["unique vertex 1 is associated to Corner5 (5), which has several embeddings."],
        ["unique vertex 0 is associated to Corner 2 (2), which is neither internal nor boundary."]) :=
  ⟨uniqueIds_of_check _ (by decide), by rfl⟩

/-- Two corners at unique vertex 0, with one vertex each. -/
example : ∀ v, ((wrongCornersSection.toModel.componentMeshVertices v).map ComponentMeshVertex.component_id).Nodup := by
  intro v
  match v with
  | 0 => decide
  | 1 => decide
  | 2 => decide
  | 3 => decide
  | v + 4 => exact List.nodup_nil

/-! ### C94 -/

set_option maxRecDepth 20000 in
/-- **C94 is false** (Corners): the message on a Corner internal to a Line says that the Line has one vertex at the
unique vertex, while it is closed and has two; the number is the number of vertices of the Corner. -/
theorem C94_line_vertices_false : ∃ (m : TopologyModel), WellFormed m ∧ UniqueIds m ∧
    (∀ fuel ≥ 10, ∀ schedule, ∃ r, inspectBRepTopology m noModelBoundary fuel rethrowFirst schedule = .ok r ∧
      r.corners.unique_vertices_linked_to_not_boundary_line_corner.messages =
        ["unique vertex with index 0 is associated with Corner 1 (1), which is internal to Line 3 (3), so Line should " ++
          "be closed and have two different vertices on unique vertex, but has 1 vertices on it instead."]) ∧
    nbVerticesAt m 0 3 = 2 := by
  refine ⟨closedLineBRep.toModel, closedLineBRep.wf_of_check (by decide), uniqueIds_of_check _ (by decide),
    fun fuel hf schedule => ?_, by decide⟩
  obtain ⟨k, rfl⟩ := Nat.exists_eq_add_of_le' hf
  unfold inspectBRepTopology
  rw [brepInvoke]
  exact ⟨_, rfl, rfl⟩

/-- Line 3, boundary of surface 4, has two edges of this surface around its two edges. -/
def doubledEdgesBRep : TopologyData where
  lines := [⟨3, true, 3, 2⟩]
  surfaces := [⟨4, true, 3, 1⟩]
  vertices := [[⟨⟨.line, 3⟩, 0⟩, ⟨⟨.surface, 4⟩, 0⟩], [⟨⟨.line, 3⟩, 1⟩, ⟨⟨.surface, 4⟩, 1⟩],
    [⟨⟨.line, 3⟩, 2⟩, ⟨⟨.surface, 4⟩, 2⟩]]
  boundary := [(⟨.line, 3⟩, ⟨.surface, 4⟩)]
  surfaceEdges := [((3, 0), (4, 2)), ((3, 1), (4, 2))]
  border := [(4, 0), (4, 1), (4, 2)]

/-- **C94 is false** (edges): the messages on two edges of a Line are the same, though an edge is the issue. -/
theorem C94_edge_not_told_false : ∃ (m : TopologyModel), WellFormed m ∧ UniqueIds m ∧
    (∀ fuel ≥ 10, ∀ schedule, ∃ r, inspectBRepTopology m noModelBoundary fuel rethrowFirst schedule = .ok r ∧
      r.lines.line_edges_with_wrong_component_edges_around.entries.map (fun e => (e.2.issues, e.2.messages)) =
        [([0, 1], ["Line 3 (3) is boundary of Surface 4 (4), but has 2 edges of this Surface around it, it should be 1.",
          "Line 3 (3) is boundary of Surface 4 (4), but has 2 edges of this Surface around it, it should be 1."])]) := by
  refine ⟨doubledEdgesBRep.toModel, doubledEdgesBRep.wf_of_check (by decide), uniqueIds_of_check _ (by decide),
    fun fuel hf schedule => ?_⟩
  obtain ⟨k, rfl⟩ := Nat.exists_eq_add_of_le' hf
  unfold inspectBRepTopology
  rw [brepInvoke]
  exact ⟨_, rfl, rfl⟩

/-- **C94**, what holds, whatever the schedule, the failures and the order of the hash maps: each message on the corners
and lines of a BRep is one of the texts of `BRepCornersExplained` and `BRepLinesExplained`, which name components and
give numbers for which the stated conditions are true.  Missing: the number of vertices of the Line beside an internal
Corner is that of the Corner; "multiple Lines" means two vertices of lines; some messages on an edge do not tell which
edge. -/
theorem C94_corner_and_line_messages_partial (m : TopologyModel) (hit : ∀ map, (m.iterate map).Perm map)
    (o : BlocksOracle) (fuel : Nat) (choose : List Failure → Failure) (schedule : List Nat)
    (r : BRepTopologyInspectionResult) (h : inspectBRepTopology m o fuel choose schedule = .ok r) :
    BRepCornersExplained m r.corners ∧ BRepLinesExplained m r.lines := by
  unfold inspectBRepTopology at h
  rw [brepInvoke] at h
  split at h
  · obtain ⟨_, e1, e2, e3, e4⟩ := brepLinks_designate (r := { corners := valueOr {} (brepInspectCorners m), lines := valueOr {} (brepInspectLines m), surfaces := valueOr {} (brepInspectSurfaces m), blocks := valueOr {} (brepInspectBlocks m o fuel) })
      ⟨explained_new _ _, explained_new _ _, explained_new _ _⟩ h
    constructor
    · rw [e1]
      exact valueOr_keeps ⟨explained_new _ _, explainedMap_new _ _ _, explained_new _ _, explained_new _ _,
        explained_new _ _, explained_new _ _⟩ fun x hx => brepCorners_explained hx
    · rw [e2]
      exact valueOr_keeps ⟨explained_new _ _, explainedMap_new _ _ _, explainedMap_new _ _ _, explained_new _ _,
        explained_new _ _, explained_new _ _, explained_new _ _⟩ fun x hx => brepLines_explained hit hx
  · cases h

set_option maxRecDepth 20000 in
example : (inspectBRepTopology wrongLinesBRep.toModel noModelBoundary 50 rethrowFirst []).toOption.map (fun r =>
    (r.lines.line_edges_with_wrong_component_edges_around.entries.map (fun e => (e.1, e.2.messages)),
      r.lines.unique_vertices_linked_to_a_single_and_invalid_line.messages)) =
    some ([(3, ["Line 3 (3) is boundary of Surface 5 (5), but has 2 edges of this Surface around it, it should be 1."])],
      ["unique vertex 3 is part of only one Line 7 (7), no Surfaces, but is part of 0 Blocks, instead of one."]) := by rfl

/-! ### C95 -/

/-- Line 3 is the only one at unique vertex 0, with surface 4, of which it is a boundary, and 5, to which it has no
relationship; the corner is embedded in blocks 8 and 9 only. -/
def cornerInBlocksBRep : TopologyData where
  corners := [⟨1, true, 1, 0⟩]
  lines := [⟨3, true, 2, 1⟩]
  surfaces := [⟨4, true, 3, 1⟩, ⟨5, true, 3, 1⟩]
  blocks := [⟨8, true, 4, 1⟩, ⟨9, true, 4, 1⟩]
  vertices := [[⟨⟨.corner, 1⟩, 0⟩, ⟨⟨.line, 3⟩, 0⟩, ⟨⟨.surface, 4⟩, 0⟩, ⟨⟨.surface, 5⟩, 0⟩, ⟨⟨.block, 9⟩, 0⟩],
    [⟨⟨.line, 3⟩, 1⟩, ⟨⟨.surface, 4⟩, 1⟩]]
  boundary := [(⟨.line, 3⟩, ⟨.surface, 4⟩), (⟨.corner, 1⟩, ⟨.line, 3⟩), (⟨.surface, 4⟩, ⟨.block, 9⟩),
    (⟨.surface, 5⟩, ⟨.block, 9⟩)]
  internal := [(⟨.corner, 1⟩, ⟨.block, 8⟩), (⟨.corner, 1⟩, ⟨.block, 9⟩)]
  border := [(4, 0), (4, 1)]
  surfaceEdges := [((3, 0), (4, 1))]

set_option maxRecDepth 20000 in
/-- **C95 is false** (Surfaces): the message says that the Corner is internal to Surfaces, while it is internal to no
Surface. -/
theorem C95_corner_in_surfaces_false : ∃ (m : TopologyModel), WellFormed m ∧ UniqueIds m ∧
    (∀ fuel ≥ 10, ∀ schedule, ∃ r, inspectBRepTopology m noModelBoundary fuel rethrowFirst schedule = .ok r ∧
      r.surfaces.unique_vertices_linked_to_several_and_invalid_surfaces.messages =
        ["unique vertex 0 is part of multiple active Surfaces and only one Line, is a Corner, but is internal to " ++
          "Surfaces with relationships to the Line."]) ∧
    (∀ corner, At m 0 .corner corner → ∀ s, m.isInternal corner s = true → ¬ Has m .surface s) := by
  refine ⟨cornerInBlocksBRep.toModel, cornerInBlocksBRep.wf_of_check (by decide), uniqueIds_of_check _ (by decide),
    fun fuel hf schedule => ?_, ?_⟩
  · obtain ⟨k, rfl⟩ := Nat.exists_eq_add_of_le' hf
    unfold inspectBRepTopology
    rw [brepInvoke]
    exact ⟨_, rfl, rfl⟩
  · rintro corner _ s hs ⟨c, hc, rfl⟩
    have : c.id = 4 ∨ c.id = 5 := by
      have : c ∈ cornerInBlocksBRep.surfaces := hc
      simp only [cornerInBlocksBRep, List.mem_cons, List.not_mem_nil, or_false] at this
      rcases this with rfl | rfl
      · exact .inl rfl
      · exact .inr rfl
    rcases this with h | h <;> rw [h] at hs <;>
      simp [cornerInBlocksBRep, TopologyData.toModel] at hs

set_option maxRecDepth 20000 in
/-- **C95 is false** (count): the message announces 4294967294 expected vertices. -/
theorem C95_expected_number_false : ∃ (m : TopologyModel), WellFormed m ∧ UniqueIds m ∧
    (∀ fuel ≥ 10, ∀ schedule, ∃ r, inspectBRepTopology m noModelBoundary fuel rethrowFirst schedule = .ok r ∧
      r.blocks.unique_vertices_with_incorrect_block_cmvs_count.messages =
        ["unique vertex 0 at position [] is part of Block 9 (9), and has 0 cmvs of corners, 0 cmvs of surfaces internal " ++
          "to that block, 0 cmvs of lines internal to one surface internal to that block, 0 cmvs of free lines, 0 " ++
          "cmvs of lines boundary to several internal surfaces, 1 cmvs of surfaces boundary to the block, and 3 cmvs " ++
          "counted for lines on the boundary, with 1 Block CMVs (expected 4294967294 with valid topology)."]) ∧
    expectedCount m 0 9 = -2 := by
  refine ⟨wrappedCountBRep.toModel, wrappedCountBRep.wf_of_check (by decide), uniqueIds_of_check _ (by decide),
    fun fuel hf schedule => ?_, by decide⟩
  obtain ⟨k, rfl⟩ := Nat.exists_eq_add_of_le' hf
  unfold inspectBRepTopology
  rw [brepInvoke]
  exact ⟨_, rfl, rfl⟩

/-- **C95**, what holds, whatever the schedule, the failures and the order of the hash maps: each message of the
topology inspection of a BRep is one of the texts of `BRepExplained`, which name components and give numbers for which
the stated conditions are true.  Missing: a Corner "internal to Surfaces with relationships to the Line" may be internal
to Blocks; the expected number of vertices is printed modulo 2^32; lines counted as "boundary to several internal
surfaces" may be the boundary of none. -/
theorem C95_brep_messages_partial (m : TopologyModel) (wf : WellFormed m) (ui : UniqueIds m) (coh : CoherentLines m)
    (hit : ∀ map, (m.iterate map).Perm map) (o : BlocksOracle)
    (hf : EdgeFinder o.edgeFromVertices) (hg : RaisesOpenGeode o.geometry)
    (hrays : RaysAnswer m o.isInsideBlock)
    (hmb : o.modelBoundaries = [] ∨ o.modelBoundaries.flatten ≠ []) :
    ∃ N, ∀ fuel ≥ N, ∀ choose schedule r, inspectBRepTopology m o fuel choose schedule = .ok r → BRepExplained m o r := by
  obtain ⟨N, hN⟩ := brepBlocks_explained wf coh hf hg hrays hmb
  exact ⟨N, fun fuel hfuel choose schedule r h => brep_explained ui hit o fuel choose schedule r h (hN fuel hfuel)⟩

/-- **C95**, the number announced is the number of vertices expected, when this is a number of 32 bits. -/
theorem C95_expected_number_partial (m : TopologyModel) (wf : WellFormed m) (ui : UniqueIds m) (coh : CoherentLines m)
    (hit : ∀ map, (m.iterate map).Perm map) (o : BlocksOracle)
    (hf : EdgeFinder o.edgeFromVertices) (hg : RaisesOpenGeode o.geometry)
    (hrays : RaysAnswer m o.isInsideBlock)
    (hmb : o.modelBoundaries = [] ∨ o.modelBoundaries.flatten ≠ []) :
    ∃ N, ∀ fuel ≥ N, ∀ choose schedule r, inspectBRepTopology m o fuel choose schedule = .ok r →
      Explained r.blocks.unique_vertices_with_incorrect_block_cmvs_count fun v text =>
        ∃ block, ActiveAt m v .block block ∧ ¬ CountIsRight m v block ∧
          ((0 ≤ expectedCount m v block ∧ expectedCount m v block < 2 ^ 32) →
            ∃ intro, text = intro ++ toString (nbBlockCmvs m v block) ++ " Block CMVs (expected " ++
              toString (expectedCount m v block) ++ " with valid topology).") := by
  obtain ⟨N, hN⟩ := C95_brep_messages_partial m wf ui coh hit o hf hg hrays hmb
  refine ⟨N, fun fuel hfuel choose schedule r h =>
    explained_mono (hN fuel hfuel choose schedule r h).blocks.count fun v t ht => ?_⟩
  cases ht with
  | wrongCount block cmv ha hc _ =>
    refine ⟨block, ha, hc, fun hr => ?_⟩
    have hx : toString (UInt32.ofInt (expectedCount m v block)) = toString (expectedCount m v block) := by
      obtain ⟨k, hk⟩ := Int.eq_ofNat_of_zero_le hr.1
      rw [hk] at hr ⊢
      rw [ofInt_natCast]
      show toString ((UInt32.ofNat k).toNat) = _
      rw [UInt32.toNat_ofNat_of_lt']
      · rfl
      · simp [UInt32.size]; omega
    rw [hx]
    exact ⟨_, rfl⟩

/-- The hypotheses are met by a model with invalid blocks, for which the number announced is right. -/
example : WellFormed blocksBRep.toModel ∧ UniqueIds blocksBRep.toModel ∧ CoherentLines blocksBRep.toModel ∧
    (∀ map, (blocksBRep.toModel.iterate map).Perm map) ∧ EdgeFinder noModelBoundary.edgeFromVertices ∧
    RaisesOpenGeode noModelBoundary.geometry ∧
    RaysAnswer blocksBRep.toModel noModelBoundary.isInsideBlock ∧ noModelBoundary.modelBoundaries = [] ∧
    expectedCount blocksBRep.toModel 3 9 = 1 ∧ nbBlockCmvs blocksBRep.toModel 3 9 = 2 :=
  ⟨blocksBRep.wf_of_check (by decide), uniqueIds_of_check _ (by decide), blocksBRep.coherent_of_check (by decide),
    fun _ => .refl _, firstEdge_finder, noGeometry_raises, example_rays _, rfl, by decide, by decide⟩

set_option maxRecDepth 20000 in
example : (inspectBRepTopology blocksBRep.toModel noModelBoundary 50 rethrowFirst []).toOption.map (fun r =>
    (r.blocks.unique_vertices_part_of_two_blocks_and_no_boundary_surface.messages, r.blocks.some_blocks_not_meshed.messages,
      r.blocks.wrong_block_boundary_surface.messages)) =
    some (["unique vertex 2 is part of two Blocks, but not of a Surface boundary to the two Blocks, nor of a Line " ++
      "boundary to one of the Blocks incident Surfaces."], ["Block 7 (7) is not meshed."],
      ["Block 9 (9) boundary Surface 4 (4) has a boundary Line not incident to any other Block boundary Surface. Either " ++
        "the surface shouldn't be boundary, or there is a hole in the block boundaries"]) := by rfl

end Inspector
