import Verif.Proofs.TopologyCorners
import Verif.Proofs.TopologyData
/-! Topology of corners: C39, C40, C41, C63, C65, C66. -/
namespace Inspector
open Spec

/-! ### Concrete models -/

/-- A Section: a line 3 from corner 1 to corner 2, boundary of a surface 4, and a corner 9 which is not
active.  Vertex 1 of the surface has no unique vertex. -/
def exampleSection : TopologyData where
  corners := [⟨1, true, 1, 0⟩, ⟨2, true, 1, 0⟩, ⟨9, false, 0, 0⟩]
  lines := [⟨3, true, 3, 2⟩]
  surfaces := [⟨4, true, 4, 2⟩]
  vertices := [[⟨⟨.corner, 1⟩, 0⟩, ⟨⟨.line, 3⟩, 0⟩, ⟨⟨.surface, 4⟩, 0⟩],
    [⟨⟨.line, 3⟩, 1⟩, ⟨⟨.surface, 4⟩, 2⟩],
    [⟨⟨.line, 3⟩, 2⟩, ⟨⟨.corner, 2⟩, 0⟩, ⟨⟨.surface, 4⟩, 3⟩]]
  boundary := [(⟨.corner, 1⟩, ⟨.line, 3⟩), (⟨.corner, 2⟩, ⟨.line, 3⟩), (⟨.line, 3⟩, ⟨.surface, 4⟩)]
  border := [(4, 0), (4, 2), (4, 3)]

/-- A Section with a wrong corner at each vertex: two corners at 0 (corner 2 without relation), a corner with
two embeddings at 1, a corner on a line without being its boundary at 2. -/
def wrongCornersSection : TopologyData where
  corners := [⟨1, true, 1, 0⟩, ⟨2, true, 1, 0⟩, ⟨5, true, 1, 0⟩, ⟨6, true, 1, 0⟩, ⟨7, true, 0, 0⟩]
  lines := [⟨3, true, 3, 2⟩]
  surfaces := [⟨4, true, 4, 2⟩, ⟨8, true, 4, 2⟩]
  vertices := [[⟨⟨.corner, 1⟩, 0⟩, ⟨⟨.corner, 2⟩, 0⟩], [⟨⟨.corner, 5⟩, 0⟩],
    [⟨⟨.line, 3⟩, 0⟩, ⟨⟨.corner, 6⟩, 0⟩], []]
  boundary := [(⟨.corner, 1⟩, ⟨.line, 3⟩)]
  internal := [(⟨.corner, 5⟩, ⟨.surface, 4⟩), (⟨.corner, 5⟩, ⟨.surface, 8⟩), (⟨.corner, 6⟩, ⟨.surface, 4⟩)]

/-! ### C39 -/

/-- **C39**: the vertices of a component mesh reported as not linked to a unique vertex are exactly those
without unique vertex, in increasing order; the boolean function is true exactly when there is none. -/
theorem C39_not_associated (m : TopologyModel) (kind : ComponentType) (c : TopologyComponent) :
    Exactly (· < ·) (fun v => v < c.nbVertices ∧ m.uniqueVertex ⟨⟨kind, c.id⟩, v⟩ = none)
      (verticesNotAssociated m kind c).issues ∧
    (verticesAreAssociated m kind c = true ↔
      ∀ v < c.nbVertices, m.uniqueVertex ⟨⟨kind, c.id⟩, v⟩ ≠ none) := by
  refine ⟨verticesNotAssociated_exactly m kind c, ?_⟩
  unfold verticesAreAssociated
  rw [Bool.not_eq_true', ← Bool.not_eq_true, loopAny_iff]
  simp only [List.mem_range, beq_iff_eq, not_exists, not_and]

example : (verticesNotAssociated exampleSection.toModel .surface ⟨4, true, 4, 2⟩).issues = [1] ∧
    verticesAreAssociated exampleSection.toModel .surface ⟨4, true, 4, 2⟩ = false ∧
    verticesAreAssociated exampleSection.toModel .line ⟨3, true, 3, 2⟩ = true := by decide

/-! ### C65, C66: the lists are exact -/

/-- **C65** (Section): the inspection of corners succeeds; the corners reported as not meshed are the active
corners without vertex, the maps report exactly the vertices without unique vertex of the active corners, and
each list of unique vertices is exactly its criterion, in increasing order. -/
theorem C65_section_corner_lists (m : TopologyModel) (wf : WellFormed m)
    (hsz : ∀ c ∈ m.components .corner, c.nbVertices < 2 ^ 32) :
    ∃ r, sectionInspectCorners m = .ok r ∧
      r.corners_not_meshed.issues =
        ((m.components .corner).filter fun c => c.active && c.nbVertices == 0).map TopologyComponent.id ∧
      MapReports r.corners_not_linked_to_a_unique_vertex ((m.components .corner).filter fun c => c.active)
        TopologyComponent.id (fun c l => Exactly (· < ·) (NotAssociated m .corner c) l) ∧
      Exactly (· < ·) (fun v => v < m.nbUniqueVertices ∧ TwiceActive m v .corner)
        r.unique_vertices_linked_to_multiple_corners.issues ∧
      Exactly (· < ·) (fun v => v < m.nbUniqueVertices ∧ CornerWithSeveralEmbeddings m v)
        r.unique_vertices_linked_to_multiple_internals_corner.issues ∧
      Exactly (· < ·) (fun v => v < m.nbUniqueVertices ∧ CornerAlone m v)
        r.unique_vertices_linked_to_not_internal_nor_boundary_corner.issues ∧
      Exactly (· < ·) (fun v => v < m.nbUniqueVertices ∧ CornerNotBoundaryOfLine m v)
        r.unique_vertices_linked_to_not_boundary_line_corner.issues := by
  obtain ⟨r, hr, h1, h⟩ := sectionInspectCorners_spec wf hsz
  refine ⟨r, hr, ?_, h⟩
  rw [h1]
  unfold TopologyModel.activeComponents
  rw [List.filter_filter]
  congr 2
  funext c
  exact Bool.and_comm _ _

/-- **C66** (BRep): the same for the corners of a BRep. -/
theorem C66_brep_corner_lists (m : TopologyModel) (wf : WellFormed m)
    (hsz : ∀ c ∈ m.components .corner, c.nbVertices < 2 ^ 32) :
    ∃ r, brepInspectCorners m = .ok r ∧
      r.corners_not_meshed.issues =
        ((m.components .corner).filter fun c => c.active && c.nbVertices == 0).map TopologyComponent.id ∧
      MapReports r.corners_not_linked_to_a_unique_vertex ((m.components .corner).filter fun c => c.active)
        TopologyComponent.id (fun c l => Exactly (· < ·) (NotAssociated m .corner c) l) ∧
      Exactly (· < ·) (fun v => v < m.nbUniqueVertices ∧ TwiceActive m v .corner)
        r.unique_vertices_linked_to_multiple_corners.issues ∧
      Exactly (· < ·) (fun v => v < m.nbUniqueVertices ∧ CornerMultiplyEmbedded m v)
        r.unique_vertices_linked_to_multiply_embedded_corner.issues ∧
      Exactly (· < ·) (fun v => v < m.nbUniqueVertices ∧ CornerAlone m v)
        r.unique_vertices_linked_to_not_internal_nor_boundary_corner.issues ∧
      Exactly (· < ·) (fun v => v < m.nbUniqueVertices ∧ CornerNotOnLine m v)
        r.unique_vertices_linked_to_not_boundary_line_corner.issues := by
  obtain ⟨r, hr, h1, h⟩ := brepInspectCorners_spec wf hsz
  refine ⟨r, hr, ?_, h⟩
  rw [h1]
  unfold TopologyModel.activeComponents
  rw [List.filter_filter]
  congr 2
  funext c
  exact Bool.and_comm _ _

example : WellFormed wrongCornersSection.toModel ∧
    (∀ c ∈ wrongCornersSection.toModel.components .corner, c.nbVertices < 2 ^ 32) :=
  ⟨wrongCornersSection.wf_of_check (by decide), by decide⟩

example : (sectionInspectCorners wrongCornersSection.toModel).toOption.map (fun r =>
    (r.corners_not_meshed.issues, r.unique_vertices_linked_to_multiple_corners.issues,
      r.unique_vertices_linked_to_multiple_internals_corner.issues,
      r.unique_vertices_linked_to_not_internal_nor_boundary_corner.issues,
      r.unique_vertices_linked_to_not_boundary_line_corner.issues)) =
    some ([7], [0], [1], [0], [2]) := by decide

/-- A BRep with a wrong corner at each vertex: corner 1 embedded in a block and a surface at 0, corner 2 alone
at 1, where there is another corner, corner 6 on a line without relation at 2. -/
def wrongCornersBRep : TopologyData where
  corners := [⟨1, true, 1, 0⟩, ⟨2, true, 1, 0⟩, ⟨5, true, 1, 0⟩, ⟨6, true, 1, 0⟩, ⟨7, true, 0, 0⟩]
  lines := [⟨3, true, 3, 2⟩]
  surfaces := [⟨4, true, 4, 2⟩]
  blocks := [⟨8, true, 4, 1⟩]
  vertices := [[⟨⟨.corner, 1⟩, 0⟩], [⟨⟨.corner, 5⟩, 0⟩, ⟨⟨.corner, 2⟩, 0⟩],
    [⟨⟨.line, 3⟩, 0⟩, ⟨⟨.corner, 6⟩, 0⟩], []]
  boundary := [(⟨.corner, 5⟩, ⟨.line, 3⟩)]
  internal := [(⟨.corner, 1⟩, ⟨.surface, 4⟩), (⟨.corner, 1⟩, ⟨.block, 8⟩), (⟨.corner, 6⟩, ⟨.surface, 4⟩)]

example : WellFormed wrongCornersBRep.toModel ∧
    (∀ c ∈ wrongCornersBRep.toModel.components .corner, c.nbVertices < 2 ^ 32) ∧
    (brepInspectCorners wrongCornersBRep.toModel).toOption.map (fun r =>
    (r.corners_not_meshed.issues, r.unique_vertices_linked_to_multiple_corners.issues,
      r.unique_vertices_linked_to_multiply_embedded_corner.issues,
      r.unique_vertices_linked_to_not_internal_nor_boundary_corner.issues,
      r.unique_vertices_linked_to_not_boundary_line_corner.issues)) =
    some ([7], [1], [0], [1], [2]) :=
  ⟨wrongCornersBRep.wf_of_check (by decide), by decide, by decide⟩

/-! ### C40 -/

/-- `v` is in no list of unique vertices of the inspection of the corners of a Section. -/
def NoSectionCornerIssue (r : SectionCornersTopologyInspectionResult) (v : Index) : Prop :=
  v ∉ r.unique_vertices_linked_to_multiple_corners.issues ∧
  v ∉ r.unique_vertices_linked_to_multiple_internals_corner.issues ∧
  v ∉ r.unique_vertices_linked_to_not_internal_nor_boundary_corner.issues ∧
  v ∉ r.unique_vertices_linked_to_not_boundary_line_corner.issues

/-- Corner 1 is internal to surface 4 and boundary of lines 3 and 5. -/
def internalAndBoundarySection : TopologyData where
  corners := [⟨1, true, 1, 0⟩]
  lines := [⟨3, true, 3, 2⟩, ⟨5, true, 3, 2⟩]
  surfaces := [⟨4, true, 4, 2⟩]
  vertices := [[⟨⟨.corner, 1⟩, 0⟩, ⟨⟨.line, 3⟩, 0⟩, ⟨⟨.line, 5⟩, 0⟩, ⟨⟨.surface, 4⟩, 0⟩]]
  boundary := [(⟨.corner, 1⟩, ⟨.line, 3⟩), (⟨.corner, 1⟩, ⟨.line, 5⟩)]
  internal := [(⟨.corner, 1⟩, ⟨.surface, 4⟩)]

/-- **C40** is false: a corner with one embedding and several incidences is not valid but not reported. -/
theorem C40_false : ∃ m : TopologyModel, WellFormed m ∧ ∃ v < m.nbUniqueVertices, ∃ r,
    sectionInspectCorners m = .ok r ∧ NoSectionCornerIssue r v ∧
    sectionCornerTopologyIsValid m v = .ok false := by
  have wf : WellFormed internalAndBoundarySection.toModel :=
    internalAndBoundarySection.wf_of_check (by decide)
  refine ⟨internalAndBoundarySection.toModel, wf, 0, by decide, ?_⟩
  cases hr : sectionInspectCorners internalAndBoundarySection.toModel with
  | error f =>
    obtain ⟨r, hr', _⟩ := sectionInspectCorners_spec wf (by decide)
    rw [hr'] at hr; exact absurd hr (by simp)
  | ok r =>
    have key : (sectionInspectCorners internalAndBoundarySection.toModel).toOption.map (fun r =>
        (r.unique_vertices_linked_to_multiple_corners.issues,
          r.unique_vertices_linked_to_multiple_internals_corner.issues,
          r.unique_vertices_linked_to_not_internal_nor_boundary_corner.issues,
          r.unique_vertices_linked_to_not_boundary_line_corner.issues)) = some ([], [], [], []) := by decide
    rw [hr] at key
    simp only [Except.toOption, Option.map_some, Option.some.injEq, Prod.mk.injEq] at key
    refine ⟨r, rfl, ⟨?_, ?_, ?_, ?_⟩, ?_⟩
    · rw [key.1]; simp
    · rw [key.2.1]; simp
    · rw [key.2.2.1]; simp
    · rw [key.2.2.2]; simp
    · rfl

/-- **C40**, what holds: the validity of the corner at `v` is that `v` is in no list, and no active corner at
`v` has exactly one embedding and several incidences.  Missing: the last criterion has no list. -/
theorem C40_section_corner_agreement_partial (m : TopologyModel) (wf : WellFormed m)
    (hsz : ∀ c ∈ m.components .corner, c.nbVertices < 2 ^ 32) (v : Index) (hv : v < m.nbUniqueVertices) :
    ∃ r b, sectionInspectCorners m = .ok r ∧ sectionCornerTopologyIsValid m v = .ok b ∧
      (b = true ↔ NoSectionCornerIssue r v ∧
        ¬ ∃ corner, ActiveAt m v .corner corner ∧ (m.embeddings corner).length = 1 ∧
          1 < (m.incidences corner).length) := by
  obtain ⟨r, hr, _, _, h1, h2, h3, h4⟩ := sectionInspectCorners_spec wf hsz
  obtain ⟨b, hb, hp⟩ := sectionCorner_decides wf hv
  refine ⟨r, b, hr, hb, ?_⟩
  rw [hp]
  unfold NoSectionCornerIssue
  rw [h1.2, h2.2, h3.2, h4.2]
  simp only [hv, true_and]
  tauto

example : WellFormed exampleSection.toModel ∧ sectionCornerTopologyIsValid exampleSection.toModel 0 = .ok true ∧
    sectionCornerTopologyIsValid wrongCornersSection.toModel 2 = .ok false :=
  ⟨exampleSection.wf_of_check (by decide), rfl, rfl⟩

/-! ### C41 -/

/-- `v` is in no list of unique vertices of the inspection of the corners of a BRep. -/
def NoBRepCornerIssue (r : BRepCornersTopologyInspectionResult) (v : Index) : Prop :=
  v ∉ r.unique_vertices_linked_to_multiple_corners.issues ∧
  v ∉ r.unique_vertices_linked_to_multiply_embedded_corner.issues ∧
  v ∉ r.unique_vertices_linked_to_not_internal_nor_boundary_corner.issues ∧
  v ∉ r.unique_vertices_linked_to_not_boundary_line_corner.issues

/-- **C41** is false: an embedded corner with several incidences is not valid but not reported. -/
theorem C41_false : ∃ m : TopologyModel, WellFormed m ∧ ∃ v < m.nbUniqueVertices, ∃ r,
    brepInspectCorners m = .ok r ∧ NoBRepCornerIssue r v ∧ brepCornerTopologyIsValid m v = .ok false := by
  have wf : WellFormed internalAndBoundarySection.toModel :=
    internalAndBoundarySection.wf_of_check (by decide)
  refine ⟨internalAndBoundarySection.toModel, wf, 0, by decide, ?_⟩
  cases hr : brepInspectCorners internalAndBoundarySection.toModel with
  | error f =>
    obtain ⟨r, hr', _⟩ := brepInspectCorners_spec wf (by decide)
    rw [hr'] at hr; exact absurd hr (by simp)
  | ok r =>
    have key : (brepInspectCorners internalAndBoundarySection.toModel).toOption.map (fun r =>
        (r.unique_vertices_linked_to_multiple_corners.issues,
          r.unique_vertices_linked_to_multiply_embedded_corner.issues,
          r.unique_vertices_linked_to_not_internal_nor_boundary_corner.issues,
          r.unique_vertices_linked_to_not_boundary_line_corner.issues)) = some ([], [], [], []) := by decide
    rw [hr] at key
    simp only [Except.toOption, Option.map_some, Option.some.injEq, Prod.mk.injEq] at key
    refine ⟨r, rfl, ⟨?_, ?_, ?_, ?_⟩, ?_⟩
    · rw [key.1]; simp
    · rw [key.2.1]; simp
    · rw [key.2.2.1]; simp
    · rw [key.2.2.2]; simp
    · rfl

/-- **C41**, what holds: the validity of the corner at `v` is that `v` is in no list, and no active corner at
`v` is embedded and has several incidences.  Missing: the last criterion has no list. -/
theorem C41_brep_corner_agreement_partial (m : TopologyModel) (wf : WellFormed m)
    (hsz : ∀ c ∈ m.components .corner, c.nbVertices < 2 ^ 32) (v : Index) (hv : v < m.nbUniqueVertices) :
    ∃ r b, brepInspectCorners m = .ok r ∧ brepCornerTopologyIsValid m v = .ok b ∧
      (b = true ↔ NoBRepCornerIssue r v ∧
        ¬ ∃ corner, ActiveAt m v .corner corner ∧ m.embeddings corner ≠ [] ∧
          1 < (m.incidences corner).length) := by
  obtain ⟨r, hr, _, _, h1, h2, h3, h4⟩ := brepInspectCorners_spec wf hsz
  obtain ⟨b, hb, hp⟩ := brepCorner_decides wf hv
  refine ⟨r, b, hr, hb, ?_⟩
  rw [hp]
  unfold NoBRepCornerIssue
  rw [h1.2, h2.2, h3.2, h4.2]
  simp only [hv, true_and]
  tauto

/-! ### C63 -/

/-- A closed line 3, with four vertices, whose vertices 0 and 3 are at corner 1, internal to it. -/
def closedLineBRep : TopologyData where
  corners := [⟨1, true, 1, 0⟩]
  lines := [⟨3, true, 4, 3⟩]
  surfaces := [⟨4, true, 3, 1⟩]
  vertices := [[⟨⟨.corner, 1⟩, 0⟩, ⟨⟨.line, 3⟩, 0⟩, ⟨⟨.line, 3⟩, 3⟩, ⟨⟨.surface, 4⟩, 0⟩],
    [⟨⟨.line, 3⟩, 1⟩, ⟨⟨.surface, 4⟩, 1⟩], [⟨⟨.line, 3⟩, 2⟩, ⟨⟨.surface, 4⟩, 2⟩]]
  boundary := [(⟨.line, 3⟩, ⟨.surface, 4⟩)]
  internal := [(⟨.corner, 1⟩, ⟨.line, 3⟩)]

/-- **C63** is false: whatever the line, a corner internal to it (not boundary) is reported as soon as the
corner itself is linked once to `v`, even if the line has its two vertices at `v`. -/
theorem C63_closed_line_false (m : TopologyModel) (wf : WellFormed m)
    (hsz : ∀ c ∈ m.components .corner, c.nbVertices < 2 ^ 32) (v : Index) (hv : v < m.nbUniqueVertices)
    (corner line : Uuid) (hc : ActiveAt m v .corner corner) (hl : ActiveAt m v .line line)
    (hb : m.isBoundary corner line = false)
    (hone : ((m.componentMeshVertices v).filter fun cmv => cmv.component_id.id == corner).length = 1) :
    ∃ r, brepInspectCorners m = .ok r ∧ v ∈ r.unique_vertices_linked_to_not_boundary_line_corner.issues := by
  obtain ⟨r, hr, _, _, _, _, _, h4⟩ := brepInspectCorners_spec wf hsz
  refine ⟨r, hr, (h4.2 v).2 ⟨hv, corner, line, hc, hl, hb, ?_⟩⟩
  rintro ⟨_, h⟩
  rw [hone] at h
  exact absurd h (by decide)

/-- The hypotheses are met by a closed line with its two vertices at the corner. -/
example : WellFormed closedLineBRep.toModel ∧ (0 : Index) < closedLineBRep.toModel.nbUniqueVertices ∧
    ActiveAt closedLineBRep.toModel 0 .corner 1 ∧ ActiveAt closedLineBRep.toModel 0 .line 3 ∧
    closedLineBRep.toModel.isBoundary 1 3 = false ∧ closedLineBRep.toModel.isInternal 1 3 = true ∧
    ((closedLineBRep.toModel.componentMeshVertices 0).filter fun cmv => cmv.component_id.id == 1).length = 1 ∧
    ((closedLineBRep.toModel.componentMeshVertices 0).filter fun cmv => cmv.component_id.id == 3).length = 2 := by
  refine ⟨closedLineBRep.wf_of_check (by decide), by decide, ⟨⟨⟨⟨.corner, 1⟩, 0⟩, by decide, rfl⟩,
    ⟨1, true, 1, 0⟩, by decide, rfl, rfl⟩, ⟨⟨⟨⟨.line, 3⟩, 0⟩, by decide, rfl⟩,
    ⟨3, true, 4, 3⟩, by decide, rfl, rfl⟩, by decide, by decide, by decide, by decide⟩

/-- **C63**, what holds: corners which are boundaries of all the active lines at `v` are not reported, and
corners neither boundary of nor internal to an active line at `v` are.  Missing: closed lines, where the
vertices of the corner are counted instead of those of the line. -/
theorem C63_corner_on_line_partial (m : TopologyModel) (wf : WellFormed m)
    (hsz : ∀ c ∈ m.components .corner, c.nbVertices < 2 ^ 32) (v : Index) (hv : v < m.nbUniqueVertices) :
    ∃ r, brepInspectCorners m = .ok r ∧
      ((∀ corner line, ActiveAt m v .corner corner → ActiveAt m v .line line →
          m.isBoundary corner line = true) →
        v ∉ r.unique_vertices_linked_to_not_boundary_line_corner.issues) ∧
      (∀ corner line, ActiveAt m v .corner corner → ActiveAt m v .line line →
          m.isBoundary corner line = false → m.isInternal corner line = false →
        v ∈ r.unique_vertices_linked_to_not_boundary_line_corner.issues) := by
  obtain ⟨r, hr, _, _, _, _, _, h4⟩ := brepInspectCorners_spec wf hsz
  refine ⟨r, hr, ?_, ?_⟩
  · intro h hm
    obtain ⟨_, corner, line, hc, hl, hb, _⟩ := (h4.2 v).1 hm
    rw [h corner line hc hl] at hb
    exact absurd hb (by simp)
  · intro corner line hc hl hb hi
    refine (h4.2 v).2 ⟨hv, corner, line, hc, hl, hb, ?_⟩
    rintro ⟨h, _⟩
    rw [hi] at h
    exact absurd h (by simp)

end Inspector
