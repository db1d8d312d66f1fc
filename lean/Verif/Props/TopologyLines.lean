import Verif.Proofs.TopologyUnreadable
import Verif.Props.TopologyCorners
/-! Topology of lines: C42, C43, C47, C64, C67, C68. -/
namespace Inspector
open Spec

/-! ### C42, C67: lines of a Section -/

/-- `v` is in no list of unique vertices of the inspection of the lines of a Section. -/
def NoSectionLineIssue (r : SectionLinesTopologyInspectionResult) (v : Index) : Prop :=
  v ∉ r.unique_vertices_linked_to_line_with_wrong_relationship_to_surface.issues ∧
  v ∉ r.unique_vertices_linked_to_a_line_with_invalid_embeddings.issues ∧
  v ∉ r.unique_vertices_linked_to_a_single_and_invalid_line.issues ∧
  v ∉ r.unique_vertices_linked_to_several_lines_but_not_linked_to_a_corner.issues

/-- **C42**: the inspection of lines and the boolean function succeed, and the lines at `v` are valid exactly
when `v` is in no list. (`hs`: in a Section, lines are embedded in surfaces.) -/
theorem C42_section_lines_agreement (m : TopologyModel) (wf : WellFormed m)
    (hs : ∀ id, Active m .line id → ∀ e ∈ m.embeddings id, e.type = .surface)
    (hsz : ∀ c ∈ m.components .line, c.nbVertices < 2 ^ 32) (v : Index) (hv : v < m.nbUniqueVertices) :
    ∃ r b, sectionInspectLines m = .ok r ∧ sectionLinesTopologyIsValid m v = .ok b ∧
      (b = true ↔ NoSectionLineIssue r v) := by
  obtain ⟨r, hr, _, _, h1, h2, h3, h4⟩ := sectionInspectLines_spec wf hs hsz
  obtain ⟨b, hb, hp⟩ := sectionLines_decides wf hs hv
  refine ⟨r, b, hr, hb, ?_⟩
  rw [hp]
  unfold NoSectionLineIssue
  rw [h1.2, h2.2, h3.2, h4.2]
  simp only [hv, true_and, and_true]
  refine ⟨fun h => ?_, fun h _ => h⟩
  by_cases ha : ∃ id, ActiveAt m v .line id
  · exact h ha
  · refine ⟨?_, ?_, ?_, ?_⟩
    · rintro ⟨line, hl, _⟩; exact ha ⟨line, hl⟩
    · intro he
      obtain ⟨line, hl, _⟩ := embeddedBefore_imp he
      exact ha ⟨line, hl⟩
    · rintro ⟨line, hl, _⟩; exact ha ⟨line, hl⟩
    · rintro ⟨ht, _⟩; exact ha (twiceActive_active ht)

/-- **C67** (Section): the lines reported as not meshed are the active lines without vertex or without edge;
the map reports exactly the vertices without unique vertex of the active lines; the lists of unique vertices
are exact, except the list of invalid embedded lines, which has no false report and is exact where all the
active lines are embedded (see C47). -/
theorem C67_section_line_lists (m : TopologyModel) (wf : WellFormed m)
    (hs : ∀ id, Active m .line id → ∀ e ∈ m.embeddings id, e.type = .surface)
    (hsz : ∀ c ∈ m.components .line, c.nbVertices < 2 ^ 32) :
    ∃ r, sectionInspectLines m = .ok r ∧
      r.lines_not_meshed.issues =
        (((m.components .line).filter fun c => c.active).filter
          fun c => c.nbVertices == 0 || c.nbElements == 0).map TopologyComponent.id ∧
      MapReports r.lines_not_linked_to_a_unique_vertex ((m.components .line).filter fun c => c.active)
        TopologyComponent.id (fun c l => Exactly (· < ·) (NotAssociated m .line c) l) ∧
      Exactly (· < ·) (fun v => v < m.nbUniqueVertices ∧ LineAlone m v)
        r.unique_vertices_linked_to_line_with_wrong_relationship_to_surface.issues ∧
      (∀ v ∈ r.unique_vertices_linked_to_a_line_with_invalid_embeddings.issues,
        v < m.nbUniqueVertices ∧ InvalidEmbeddedLine m v) ∧
      (∀ v < m.nbUniqueVertices, (∀ line, ActiveAt m v .line line → m.embeddings line ≠ []) →
        InvalidEmbeddedLine m v → v ∈ r.unique_vertices_linked_to_a_line_with_invalid_embeddings.issues) ∧
      Exactly (· < ·) (fun v => v < m.nbUniqueVertices ∧ InvalidSingleLine m v)
        r.unique_vertices_linked_to_a_single_and_invalid_line.issues ∧
      Exactly (· < ·) (fun v => v < m.nbUniqueVertices ∧ LinesWithoutCorner m v)
        r.unique_vertices_linked_to_several_lines_but_not_linked_to_a_corner.issues := by
  obtain ⟨r, hr, e1, e2, h1, h2, h3, h4⟩ := sectionInspectLines_spec wf hs hsz
  refine ⟨r, hr, e1, e2, h1, ?_, ?_, h3, h4⟩
  · intro v hm
    obtain ⟨hv, he⟩ := (h2.2 v).1 hm
    exact ⟨hv, embeddedBefore_imp he⟩
  · intro v hv hall hi
    exact (h2.2 v).2 ⟨hv, (embeddedBefore_iff hall).2 hi⟩

/-- A Section with wrong lines: at 0, line 3 without relation; at 1, line 5 embedded in two surfaces; at 2,
line 6 alone, boundary of surface 4, on surface 8; at 3, lines 3 and 6 without corner.  Line 7 has no edge. -/
def wrongLinesSection : TopologyData where
  corners := [⟨1, true, 1, 0⟩]
  lines := [⟨3, true, 2, 1⟩, ⟨5, true, 2, 1⟩, ⟨6, true, 2, 1⟩, ⟨7, true, 1, 0⟩]
  surfaces := [⟨4, true, 4, 2⟩, ⟨8, true, 4, 2⟩]
  vertices := [[⟨⟨.line, 3⟩, 0⟩], [⟨⟨.line, 5⟩, 0⟩, ⟨⟨.surface, 4⟩, 0⟩, ⟨⟨.surface, 8⟩, 0⟩],
    [⟨⟨.line, 6⟩, 0⟩, ⟨⟨.surface, 8⟩, 1⟩], [⟨⟨.line, 3⟩, 1⟩, ⟨⟨.line, 6⟩, 1⟩]]
  boundary := [(⟨.line, 6⟩, ⟨.surface, 4⟩)]
  internal := [(⟨.line, 5⟩, ⟨.surface, 4⟩), (⟨.line, 5⟩, ⟨.surface, 8⟩)]

example : WellFormed wrongLinesSection.toModel ∧
    (∀ id, Active wrongLinesSection.toModel .line id →
      ∀ e ∈ wrongLinesSection.toModel.embeddings id, e.type = .surface) ∧
    (∀ c ∈ wrongLinesSection.toModel.components .line, c.nbVertices < 2 ^ 32) := by
  refine ⟨wrongLinesSection.wf_of_check (by decide), ?_, by decide⟩
  rintro id ⟨c, hc, rfl, _⟩
  revert c
  decide

example : (sectionInspectLines wrongLinesSection.toModel).toOption.map (fun r =>
    (r.lines_not_meshed.issues,
      r.unique_vertices_linked_to_line_with_wrong_relationship_to_surface.issues,
      r.unique_vertices_linked_to_a_line_with_invalid_embeddings.issues,
      r.unique_vertices_linked_to_a_single_and_invalid_line.issues,
      r.unique_vertices_linked_to_several_lines_but_not_linked_to_a_corner.issues)) =
    some ([7], [0, 3], [1], [1, 2], [3]) := by decide

/-! ### C47 -/

/-- A line 3 without embedding, boundary of surface 4, and a line 5 embedded in two surfaces, in this order
or in the other one at unique vertex 0. -/
def orderSection (first second : Uuid) : TopologyData where
  corners := [⟨1, true, 1, 0⟩]
  lines := [⟨3, true, 2, 1⟩, ⟨5, true, 2, 1⟩]
  surfaces := [⟨4, true, 4, 2⟩, ⟨8, true, 4, 2⟩]
  vertices := [[⟨⟨.corner, 1⟩, 0⟩, ⟨⟨.line, first⟩, 0⟩, ⟨⟨.line, second⟩, 0⟩, ⟨⟨.surface, 4⟩, 0⟩]]
  boundary := [(⟨.line, 3⟩, ⟨.surface, 4⟩), (⟨.corner, 1⟩, ⟨.line, 3⟩), (⟨.corner, 1⟩, ⟨.line, 5⟩)]
  internal := [(⟨.line, 5⟩, ⟨.surface, 4⟩), (⟨.line, 5⟩, ⟨.surface, 8⟩)]

/-- **C47** is false: two models which differ only by the order of the component mesh vertices of a unique
vertex; the check finds the invalid embedded line in one and not in the other. -/
theorem C47_false : ∃ m m' : TopologyModel, WellFormed m ∧ WellFormed m' ∧
    { m' with componentMeshVertices := m.componentMeshVertices, uniqueVertex := m.uniqueVertex } = m ∧
    (∀ v, (m.componentMeshVertices v).Perm (m'.componentMeshVertices v)) ∧
    m.uniqueVertex = m'.uniqueVertex ∧
    (sectionInvalidEmbeddedLine m 0).toOption.map Option.isSome = some true ∧
    (sectionInvalidEmbeddedLine m' 0).toOption.map Option.isSome = some false := by
  refine ⟨(orderSection 5 3).toModel, (orderSection 3 5).toModel,
    (orderSection 5 3).wf_of_check (by decide), (orderSection 3 5).wf_of_check (by decide), rfl, ?_, ?_,
    by decide, by decide⟩
  · intro v
    cases v with
    | zero => exact List.Perm.cons _ (List.Perm.swap _ _ _)
    | succ v => exact List.Perm.refl _
  · funext cmv
    show List.findIdx? _ _ = List.findIdx? _ _
    simp only [orderSection, List.findIdx?_cons, List.mem_cons, List.not_mem_nil, or_false]
    have : (cmv = ⟨⟨.corner, 1⟩, 0⟩ ∨ cmv = ⟨⟨.line, 5⟩, 0⟩ ∨ cmv = ⟨⟨.line, 3⟩, 0⟩ ∨ cmv = ⟨⟨.surface, 4⟩, 0⟩) ↔
      (cmv = ⟨⟨.corner, 1⟩, 0⟩ ∨ cmv = ⟨⟨.line, 3⟩, 0⟩ ∨ cmv = ⟨⟨.line, 5⟩, 0⟩ ∨ cmv = ⟨⟨.surface, 4⟩, 0⟩) := by
      tauto
    rw [decide_eq_decide.2 this]

/-- **C47**, what holds: where all the active lines are embedded, the check finds something exactly when an
embedded line is not valid, which does not depend on the order; and it never finds anything when there is no
invalid embedded line.  Missing: lines without embedding hide the lines which follow them. -/
theorem C47_embedded_lines_partial (m : TopologyModel) (wf : WellFormed m)
    (hs : ∀ id, Active m .line id → ∀ e ∈ m.embeddings id, e.type = .surface)
    (v : Index) (hv : v < m.nbUniqueVertices) :
    ∃ o, sectionInvalidEmbeddedLine m v = .ok o ∧ (o.isSome = true → InvalidEmbeddedLine m v) ∧
      ((∀ line, ActiveAt m v .line line → m.embeddings line ≠ []) →
        (o.isSome = true ↔ InvalidEmbeddedLine m v)) := by
  obtain ⟨o, ho, hp⟩ := sectionEmbeddedLine_answers wf hs hv
  exact ⟨o, ho, fun h => embeddedBefore_imp (hp.1 h), fun h => hp.trans (embeddedBefore_iff h)⟩

/-- **C47**, the exact answer: something is found exactly when, in the order of the component mesh vertices of the
unique vertex, an invalid embedded line comes before any active line without embedding. -/
theorem C47_exact_partial (m : TopologyModel) (wf : WellFormed m)
    (hs : ∀ id, Active m .line id → ∀ e ∈ m.embeddings id, e.type = .surface)
    (v : Index) (hv : v < m.nbUniqueVertices) :
    ∃ o, sectionInvalidEmbeddedLine m v = .ok o ∧
      (o.isSome = true ↔ EmbeddedBefore m v (m.componentMeshVertices v)) :=
  sectionEmbeddedLine_answers wf hs hv

/-- in the two models of `C47_false`, the embedded line is before the other one in the first only -/
example : (sectionInvalidEmbeddedLine (orderSection 5 3).toModel 0).toOption.map Option.isSome = some true ∧
    (sectionInvalidEmbeddedLine (orderSection 3 5).toModel 0).toOption.map Option.isSome = some false := by decide

/-! ### C43, C68: lines of a BRep -/

/-- `v` is in no list of unique vertices of the inspection of the lines of a BRep. -/
def NoBRepLineIssue (r : BRepLinesTopologyInspectionResult) (v : Index) : Prop :=
  v ∉ r.unique_vertices_linked_to_a_line_with_invalid_embeddings.issues ∧
  v ∉ r.unique_vertices_linked_to_line_with_wrong_relationship_to_surface.issues ∧
  v ∉ r.unique_vertices_linked_to_a_single_and_invalid_line.issues ∧
  v ∉ r.unique_vertices_linked_to_several_lines_but_not_linked_to_a_corner.issues

/-- **C43**: when the inspection of the lines completes, so does the boolean function at each unique vertex,
and it is true exactly when the unique vertex is in no list. -/
theorem C43_brep_lines_agreement (m : TopologyModel) (wf : WellFormed m) (aw : AroundWellFormed m)
    (hsz : ∀ c ∈ m.components .line, c.nbVertices < 2 ^ 32 ∧ c.nbElements < 2 ^ 32)
    (r : BRepLinesTopologyInspectionResult) (hr : brepInspectLines m = .ok r)
    (v : Index) (hv : v < m.nbUniqueVertices) :
    ∃ b, brepLinesTopologyIsValid m v = .ok b ∧ (b = true ↔ NoBRepLineIssue r v) :=
  brepLines_agree wf aw hv hsz hr

/-- **C68** (BRep): when the inspection of the lines completes, every list is exact: active lines without
vertex or without edge, vertices without unique vertex, unique vertices for each criterion, and, for lines
whose vertices are all linked, the edges whose surrounding surface and block edges are wrong. -/
theorem C68_brep_line_lists (m : TopologyModel) (wf : WellFormed m) (aw : AroundWellFormed m)
    (hsz : ∀ c ∈ m.components .line, c.nbVertices < 2 ^ 32 ∧ c.nbElements < 2 ^ 32)
    (r : BRepLinesTopologyInspectionResult) (hr : brepInspectLines m = .ok r) :
    BRepLinesComponents m r ∧
      Exactly (· < ·) (fun v => v < m.nbUniqueVertices ∧ BRepInvalidEmbeddedLine m v)
        r.unique_vertices_linked_to_a_line_with_invalid_embeddings.issues ∧
      Exactly (· < ·) (fun v => v < m.nbUniqueVertices ∧ BRepLineWrong m v)
        r.unique_vertices_linked_to_line_with_wrong_relationship_to_surface.issues ∧
      Exactly (· < ·) (fun v => v < m.nbUniqueVertices ∧ BRepInvalidSingleLine m v)
        r.unique_vertices_linked_to_a_single_and_invalid_line.issues ∧
      Exactly (· < ·) (fun v => v < m.nbUniqueVertices ∧ LinesWithoutCorner m v)
        r.unique_vertices_linked_to_several_lines_but_not_linked_to_a_corner.issues :=
  brepInspectLines_exact wf aw hsz hr

/-- **C68**, completion: if the first edge of the active lines has unique vertices, then the inspection completes
exactly when there is no unique vertex whose first wrong embedding of a line is in a block; otherwise it raises an
OpenGeode exception. -/
theorem C68_completes (m : TopologyModel) (wf : WellFormed m) (aw : AroundWellFormed m)
    (hsz : ∀ c ∈ m.components .line, c.nbVertices < 2 ^ 32 ∧ c.nbElements < 2 ^ 32)
    (hu : ∀ c ∈ m.components .line, c.active = true → c.nbElements ≠ 0 →
      ∀ x ∈ m.lineEdgeVertices c.id 0, m.uniqueVertex ⟨⟨.line, c.id⟩, x⟩ ≠ none) :
    ((∃ r, brepInspectLines m = .ok r) ↔ ¬ LinesUnreadable m) ∧
    (brepInspectLines m = .error .openGeodeException ↔ LinesUnreadable m) := by
  have h := brepInspectLines_error wf aw hsz hu
  refine ⟨?_, (h _).trans (by simp)⟩
  cases hr : brepInspectLines m with
  | ok r => exact iff_of_true ⟨r, rfl⟩ (fun hx => by rw [(h _).2 ⟨rfl, hx⟩] at hr; cases hr)
  | error f => exact iff_of_false (fun ⟨r, hx⟩ => by cases hx) (fun hx => hx ((h f).1 hr).2)

/-- A line embedded in surfaces only can always be read. -/
theorem C68_surfaces_readable (m : TopologyModel) (wf : WellFormed m)
    (hs : ∀ line, Active m .line line → ∀ e ∈ m.embeddings line, e.type = .surface) : ¬ LinesUnreadable m :=
  readable_of_surfaces wf hs

/-- Line 3 is embedded in surface 4, as it must, and in block 8, of which vertex 1 of the line has no vertex. -/
def lineInBlockAndSurface : TopologyData where
  lines := [⟨3, true, 2, 1⟩]
  surfaces := [⟨4, true, 3, 1⟩]
  blocks := [⟨8, true, 4, 1⟩]
  vertices := [[⟨⟨.line, 3⟩, 0⟩, ⟨⟨.surface, 4⟩, 0⟩, ⟨⟨.block, 8⟩, 0⟩], [⟨⟨.line, 3⟩, 1⟩, ⟨⟨.surface, 4⟩, 1⟩]]
  internal := [(⟨.line, 3⟩, ⟨.surface, 4⟩), (⟨.line, 3⟩, ⟨.block, 8⟩)]
  surfaceEdges := [((3, 0), (4, 2))]

/-- Both sides of the completion theorem occur. -/
example : LinesUnreadable lineInBlockAndSurface.toModel ∧
    brepInspectLines lineInBlockAndSurface.toModel = .error .openGeodeException := by
  have h : brepInspectLines lineInBlockAndSurface.toModel = .error .openGeodeException := by rfl
  exact ⟨(C68_completes _ (lineInBlockAndSurface.wf_of_check (by decide)) (lineInBlockAndSurface.aw_of_check (by decide))
    (by decide) (by decide)).2.1 h, h⟩

/-- A BRep: line 3, boundary of surfaces 4 (one edge on it) and 5 (two edges on its first edge), embedded in
surface 6, which has no vertex on it; at vertex 2, lines 3 and 7 without corner. -/
def wrongLinesBRep : TopologyData where
  lines := [⟨3, true, 3, 2⟩, ⟨7, true, 2, 1⟩, ⟨9, false, 0, 0⟩]
  surfaces := [⟨4, true, 3, 1⟩, ⟨5, true, 3, 1⟩, ⟨6, true, 3, 1⟩]
  vertices := [[⟨⟨.line, 3⟩, 0⟩, ⟨⟨.surface, 4⟩, 0⟩, ⟨⟨.surface, 5⟩, 0⟩], [⟨⟨.line, 3⟩, 1⟩, ⟨⟨.surface, 6⟩, 0⟩],
    [⟨⟨.line, 3⟩, 2⟩, ⟨⟨.line, 7⟩, 0⟩], [⟨⟨.line, 7⟩, 1⟩]]
  boundary := [(⟨.line, 3⟩, ⟨.surface, 4⟩), (⟨.line, 3⟩, ⟨.surface, 5⟩), (⟨.line, 7⟩, ⟨.surface, 4⟩)]
  internal := [(⟨.line, 3⟩, ⟨.surface, 6⟩)]
  surfaceEdges := [((3, 0), (4, 1)), ((3, 0), (5, 2)), ((3, 1), (4, 1)), ((3, 1), (5, 1)), ((3, 1), (6, 2)),
    ((7, 0), (4, 1))]

example : WellFormed wrongLinesBRep.toModel ∧ AroundWellFormed wrongLinesBRep.toModel ∧
    (∀ c ∈ wrongLinesBRep.toModel.components .line, c.nbVertices < 2 ^ 32 ∧ c.nbElements < 2 ^ 32) ∧
    (∀ line, Active wrongLinesBRep.toModel .line line →
      ∀ e ∈ wrongLinesBRep.toModel.embeddings line, e.type = .surface) ∧
    (∀ c ∈ wrongLinesBRep.toModel.components .line, c.active = true → c.nbElements ≠ 0 →
      ∀ x ∈ wrongLinesBRep.toModel.lineEdgeVertices c.id 0,
        wrongLinesBRep.toModel.uniqueVertex ⟨⟨.line, c.id⟩, x⟩ ≠ none) := by
  refine ⟨wrongLinesBRep.wf_of_check (by decide), wrongLinesBRep.aw_of_check (by decide), by decide, ?_, by decide⟩
  rintro id ⟨c, hc, rfl, _⟩
  revert c
  decide

example : (brepInspectLines wrongLinesBRep.toModel).toOption.map (fun r =>
    (r.unique_vertices_linked_to_a_line_with_invalid_embeddings.issues,
      r.unique_vertices_linked_to_line_with_wrong_relationship_to_surface.issues,
      r.unique_vertices_linked_to_a_single_and_invalid_line.issues,
      r.unique_vertices_linked_to_several_lines_but_not_linked_to_a_corner.issues,
      r.line_edges_with_wrong_component_edges_around.entries.map fun e => (e.1, e.2.issues))) =
    some ([0, 2], [0, 1, 2], [3], [2], [(3, [0])]) := by rfl

/-! ### C64 -/

/-- Line 3 has an edge whose vertex 0 has no unique vertex. -/
def unlinkedLineBRep : TopologyData where
  lines := [⟨3, true, 2, 1⟩]
  surfaces := [⟨4, true, 3, 1⟩]
  vertices := [[⟨⟨.line, 3⟩, 1⟩, ⟨⟨.surface, 4⟩, 0⟩]]
  boundary := [(⟨.line, 3⟩, ⟨.surface, 4⟩)]
  surfaceEdges := [((3, 0), (4, 1))]

/-- **C64** is false: the inspection of the lines of a well-formed BRep reads the surroundings of an edge of a
line which has a vertex without unique vertex. -/
theorem C64_false : ∃ m : TopologyModel, WellFormed m ∧ AroundWellFormed m ∧
    (∃ c ∈ m.components .line, c.active = true ∧ ∃ v, NotAssociated m .line c v) ∧
    brepInspectLines m = .error .undefinedBehaviour := by
  refine ⟨unlinkedLineBRep.toModel, unlinkedLineBRep.wf_of_check (by decide),
    unlinkedLineBRep.aw_of_check (by decide), ⟨⟨3, true, 2, 1⟩, by decide, rfl, 0, by decide, by decide⟩, ?_⟩
  rfl

/-- **C64**, what holds: there is no undefined behaviour when the vertices of the active lines all have a
unique vertex: the inspection completes, but for the exception of C54 when an embedding in a block is wrong.
Missing: the lines with unlinked vertices, which the inspection should only report. -/
theorem C64_linked_lines_partial (m : TopologyModel) (wf : WellFormed m) (aw : AroundWellFormed m)
    (hsz : ∀ c ∈ m.components .line, c.nbVertices < 2 ^ 32 ∧ c.nbElements < 2 ^ 32)
    (hu : ∀ c ∈ m.components .line, c.active = true → ∀ v, ¬ NotAssociated m .line c v) :
    (∀ f, brepInspectLines m = .error f → f = .openGeodeException ∧ LinesUnreadable m) ∧
    (¬ LinesUnreadable m → ∃ r, brepInspectLines m = .ok r) := by
  have hu' : ∀ c ∈ m.components .line, c.active = true → c.nbElements ≠ 0 →
      ∀ x ∈ m.lineEdgeVertices c.id 0, m.uniqueVertex ⟨⟨.line, c.id⟩, x⟩ ≠ none := fun c hc ha hn x hx hnone =>
    hu c hc ha x ⟨aw.edgeVertices c hc 0 (Nat.pos_of_ne_zero hn) x hx, hnone⟩
  exact ⟨fun f => (brepInspectLines_error wf aw hsz hu' f).1, (C68_completes m wf aw hsz hu').1.2⟩

example : (∀ c ∈ wrongLinesBRep.toModel.components .line, c.active = true →
    ∀ v < c.nbVertices, wrongLinesBRep.toModel.uniqueVertex ⟨⟨.line, c.id⟩, v⟩ ≠ none) := by decide

end Inspector
