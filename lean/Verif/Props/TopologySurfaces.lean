import Verif.Proofs.TopologySurfacesInspect
import Verif.Proofs.TopologyData
/-! Topology of surfaces: C44, C45, C69, C70, C71. -/
namespace Inspector
open Spec

/-! ### C44, C70: surfaces of a Section -/

/-- `v` is in no list of unique vertices of the inspection of the surfaces of a Section. -/
def NoSectionSurfaceIssue (r : SectionSurfacesTopologyInspectionResult) (v : Index) : Prop :=
  v ∉ r.unique_vertices_linked_to_a_surface_with_invalid_embbedings.issues ∧
  v ∉ r.unique_vertices_linked_to_a_line_but_is_not_on_a_surface_border.issues

/-- **C44**: both functions succeed; at a unique vertex of an active surface, the boolean function is true
exactly when the unique vertex is in no list; elsewhere it is true. -/
theorem C44_section_surfaces_agreement (m : TopologyModel) (wf : WellFormed m)
    (hsz : ∀ c ∈ m.components .surface, c.nbVertices < 2 ^ 32) (v : Index) (hv : v < m.nbUniqueVertices) :
    ∃ r b, sectionInspectSurfaces m = .ok r ∧ sectionVertexSurfacesTopologyIsValid m v = .ok b ∧
      ((∃ id, ActiveAt m v .surface id) → (b = true ↔ NoSectionSurfaceIssue r v)) ∧
      ((¬ ∃ id, ActiveAt m v .surface id) → b = true) := by
  obtain ⟨r, hr, _, _, h1, h2⟩ := sectionInspectSurfaces_spec wf hsz
  obtain ⟨b, hb, hp⟩ := sectionSurfaces_decides wf hv
  refine ⟨r, b, hr, hb, fun ha => ?_, fun ha => hp.2 (fun h => absurd h ha)⟩
  rw [hp]
  unfold NoSectionSurfaceIssue
  rw [h1.2, h2.2]
  simp only [hv, true_and]
  exact ⟨fun h => h ha, fun h _ => h⟩

/-- **C70** (Section): the lists of the inspection of the surfaces are exact. -/
theorem C70_section_surface_lists (m : TopologyModel) (wf : WellFormed m)
    (hsz : ∀ c ∈ m.components .surface, c.nbVertices < 2 ^ 32) :
    ∃ r, sectionInspectSurfaces m = .ok r ∧
      r.surfaces_not_meshed.issues =
        (((m.components .surface).filter fun c => c.active).filter
          fun c => c.nbVertices == 0 || c.nbElements == 0).map TopologyComponent.id ∧
      MapReports r.surfaces_not_linked_to_a_unique_vertex ((m.components .surface).filter fun c => c.active)
        TopologyComponent.id (fun c l => Exactly (· < ·) (NotAssociated m .surface c) l) ∧
      Exactly (· < ·) (fun v => v < m.nbUniqueVertices ∧ TwoSurfacesWithoutLine m v)
        r.unique_vertices_linked_to_a_surface_with_invalid_embbedings.issues ∧
      Exactly (· < ·) (fun v => v < m.nbUniqueVertices ∧ LineNotOnBorder m v)
        r.unique_vertices_linked_to_a_line_but_is_not_on_a_surface_border.issues :=
  sectionInspectSurfaces_spec wf hsz

/-- A Section: at 0, surfaces 4 and 8 without line; at 1, surfaces 4 and 8 and line 3, boundary of both; at
2, line 3 and a vertex of surface 8 which is not on its border; surface 9 is not active.  Vertices 2 and 3 of
surface 4 have no unique vertex. -/
def wrongSurfacesSection : TopologyData where
  lines := [⟨3, true, 2, 1⟩]
  surfaces := [⟨4, true, 4, 2⟩, ⟨8, true, 3, 1⟩, ⟨9, false, 4, 2⟩]
  vertices := [[⟨⟨.surface, 4⟩, 0⟩, ⟨⟨.surface, 8⟩, 0⟩],
    [⟨⟨.line, 3⟩, 0⟩, ⟨⟨.surface, 4⟩, 1⟩, ⟨⟨.surface, 8⟩, 1⟩], [⟨⟨.line, 3⟩, 1⟩, ⟨⟨.surface, 8⟩, 2⟩],
    [⟨⟨.surface, 9⟩, 0⟩]]
  boundary := [(⟨.line, 3⟩, ⟨.surface, 4⟩), (⟨.line, 3⟩, ⟨.surface, 8⟩)]
  border := [(4, 0), (4, 1), (8, 0), (8, 1)]

example : WellFormed wrongSurfacesSection.toModel ∧
    (∀ c ∈ wrongSurfacesSection.toModel.components .surface, c.nbVertices < 2 ^ 32) :=
  ⟨wrongSurfacesSection.wf_of_check (by decide), by decide⟩

example : (sectionInspectSurfaces wrongSurfacesSection.toModel).toOption.map (fun r =>
    (r.surfaces_not_meshed.issues,
      r.surfaces_not_linked_to_a_unique_vertex.entries.map fun e => (e.1, e.2.issues),
      r.unique_vertices_linked_to_a_surface_with_invalid_embbedings.issues,
      r.unique_vertices_linked_to_a_line_but_is_not_on_a_surface_border.issues)) =
    some ([], [(4, [2, 3])], [0], [2]) := by rfl

example : [0, 1, 2, 3].map (fun v => (sectionVertexSurfacesTopologyIsValid wrongSurfacesSection.toModel v).toOption) =
    [some false, some true, some false, some true] := by decide

/-! ### C45, C71: surfaces of a BRep -/

/-- `v` is in no list of unique vertices of the inspection of the surfaces of a BRep. -/
def NoBRepSurfaceIssue (r : BRepSurfacesTopologyInspectionResult) (v : Index) : Prop :=
  v ∉ r.unique_vertices_linked_to_a_surface_with_invalid_embbedings.issues ∧
  v ∉ r.unique_vertices_linked_to_several_and_invalid_surfaces.issues ∧
  v ∉ r.unique_vertices_linked_to_a_line_but_is_not_on_a_surface_border.issues

/-- **C45**: both functions succeed; at a unique vertex of an active surface, the boolean function is true
exactly when the unique vertex is in no list; elsewhere it is true.  (`hb`: surfaces are embedded in blocks.) -/
theorem C45_brep_surfaces_agreement (m : TopologyModel) (wf : WellFormed m) (aw : AroundWellFormed m)
    (hb : ∀ s, Active m .surface s → ∀ e ∈ m.embeddings s, e.type = .block)
    (hsz : ∀ c ∈ m.components .surface, c.nbVertices < 2 ^ 32 ∧ c.nbElements < 2 ^ 32)
    (v : Index) (hv : v < m.nbUniqueVertices) :
    ∃ r b, brepInspectSurfaces m = .ok r ∧ brepSurfacesTopologyIsValid m v = .ok b ∧
      ((∃ id, ActiveAt m v .surface id) → (b = true ↔ NoBRepSurfaceIssue r v)) ∧
      ((¬ ∃ id, ActiveAt m v .surface id) → b = true) := by
  obtain ⟨r, hr, _, h1, h2, h3⟩ := brepInspectSurfaces_spec wf aw hb hsz
  obtain ⟨b, hb, hp⟩ := brepSurfaces_decides wf hb hv
  refine ⟨r, b, hr, hb, fun ha => ?_, fun ha => hp.2 (fun h => absurd h ha)⟩
  rw [hp]
  unfold NoBRepSurfaceIssue
  rw [h1.2, h2.2, h3.2]
  simp only [hv, true_and]
  exact ⟨fun h => h ha, fun h _ => h⟩

/-- **C71** (BRep): the lists of the inspection of the surfaces are exact: active surfaces without vertex or
polygon, vertices without unique vertex, polygons of fully linked surfaces with wrong facets of blocks around
(when all the blocks are meshed), and the unique vertices for each criterion. -/
theorem C71_brep_surface_lists (m : TopologyModel) (wf : WellFormed m) (aw : AroundWellFormed m)
    (hb : ∀ s, Active m .surface s → ∀ e ∈ m.embeddings s, e.type = .block)
    (hsz : ∀ c ∈ m.components .surface, c.nbVertices < 2 ^ 32 ∧ c.nbElements < 2 ^ 32) :
    ∃ r, brepInspectSurfaces m = .ok r ∧ BRepSurfacesComponents m r ∧
      Exactly (· < ·) (fun v => v < m.nbUniqueVertices ∧ InvalidEmbeddedSurface m v)
        r.unique_vertices_linked_to_a_surface_with_invalid_embbedings.issues ∧
      Exactly (· < ·) (fun v => v < m.nbUniqueVertices ∧ InvalidMultipleSurfaces m v)
        r.unique_vertices_linked_to_several_and_invalid_surfaces.issues ∧
      Exactly (· < ·) (fun v => v < m.nbUniqueVertices ∧ RelatedLineNotOnBorder m v)
        r.unique_vertices_linked_to_a_line_but_is_not_on_a_surface_border.issues :=
  brepInspectSurfaces_spec wf aw hb hsz

/-- A BRep: surface 4, internal to block 7 and boundary of it; surfaces 4 and 5 without line nor corner at 0;
at 1, line 3, internal to surface 5, which has a vertex inside its mesh; at 2, corner 1 with line 3, on
surfaces 4 and 5, without being internal to 4.  Polygon 0 of surface 4 has two facets of block 7. -/
def wrongSurfacesBRep : TopologyData where
  corners := [⟨1, true, 1, 0⟩]
  lines := [⟨3, true, 2, 1⟩]
  surfaces := [⟨4, true, 3, 1⟩, ⟨5, true, 4, 2⟩, ⟨6, false, 0, 0⟩]
  blocks := [⟨7, true, 4, 1⟩]
  vertices := [[⟨⟨.surface, 4⟩, 0⟩, ⟨⟨.surface, 5⟩, 0⟩, ⟨⟨.block, 7⟩, 0⟩],
    [⟨⟨.line, 3⟩, 0⟩, ⟨⟨.surface, 5⟩, 1⟩, ⟨⟨.block, 7⟩, 1⟩],
    [⟨⟨.corner, 1⟩, 0⟩, ⟨⟨.line, 3⟩, 1⟩, ⟨⟨.surface, 4⟩, 1⟩, ⟨⟨.surface, 5⟩, 2⟩, ⟨⟨.block, 7⟩, 2⟩],
    [⟨⟨.surface, 4⟩, 2⟩, ⟨⟨.block, 7⟩, 3⟩]]
  boundary := [(⟨.surface, 4⟩, ⟨.block, 7⟩), (⟨.corner, 1⟩, ⟨.line, 3⟩)]
  internal := [(⟨.surface, 4⟩, ⟨.block, 7⟩), (⟨.line, 3⟩, ⟨.surface, 5⟩)]
  blockPolygons := [((4, 0), (7, 2))]
  polygons := [((4, 0), [0, 1, 2])]
  border := [(5, 0), (5, 2)]

example : WellFormed wrongSurfacesBRep.toModel ∧ AroundWellFormed wrongSurfacesBRep.toModel ∧
    (∀ s, Active wrongSurfacesBRep.toModel .surface s →
      ∀ e ∈ wrongSurfacesBRep.toModel.embeddings s, e.type = .block) ∧
    (∀ c ∈ wrongSurfacesBRep.toModel.components .surface, c.nbVertices < 2 ^ 32 ∧ c.nbElements < 2 ^ 32) := by
  refine ⟨wrongSurfacesBRep.wf_of_check (by decide), wrongSurfacesBRep.aw_of_check (by decide), ?_, by decide⟩
  rintro id ⟨c, hc, rfl, _⟩
  revert c
  decide

example : (brepInspectSurfaces wrongSurfacesBRep.toModel).toOption.map (fun r =>
    (r.surfaces_not_meshed.issues,
      r.surfaces_not_linked_to_a_unique_vertex.entries.map (fun e => (e.1, e.2.issues)),
      r.surface_polygons_with_wrong_component_facets_around.entries.map (fun e => (e.1, e.2.issues)),
      r.unique_vertices_linked_to_a_surface_with_invalid_embbedings.issues,
      r.unique_vertices_linked_to_several_and_invalid_surfaces.issues,
      r.unique_vertices_linked_to_a_line_but_is_not_on_a_surface_border.issues)) =
    some ([], [(5, [3])], [(4, [0])], [0, 2, 3], [0, 2], [1]) := by rfl

/-! ### C69: unique vertices without active surface -/

/-- Unique vertex 0 is on two surfaces which are not active. -/
def inactiveSurfacesSection : TopologyData where
  surfaces := [⟨4, false, 4, 2⟩, ⟨8, false, 3, 1⟩]
  vertices := [[⟨⟨.surface, 4⟩, 0⟩, ⟨⟨.surface, 8⟩, 0⟩]]

/-- Unique vertex 0 is on line 3, which bounds surface 4, which is not active. -/
def inactiveSurfaceBRep : TopologyData where
  lines := [⟨3, true, 2, 1⟩]
  surfaces := [⟨4, false, 4, 2⟩]
  vertices := [[⟨⟨.line, 3⟩, 0⟩, ⟨⟨.surface, 4⟩, 0⟩]]
  boundary := [(⟨.line, 3⟩, ⟨.surface, 4⟩)]

/-- **C69** is false for Sections: a unique vertex which is on no active surface is reported. -/
theorem C69_section_false : ∃ m : TopologyModel, WellFormed m ∧ 0 < m.nbUniqueVertices ∧
    (∀ s, ¬ Active m .surface s) ∧ sectionVertexSurfacesTopologyIsValid m 0 = .ok true ∧
    ∃ r, sectionInspectSurfaces m = .ok r ∧
      0 ∈ r.unique_vertices_linked_to_a_surface_with_invalid_embbedings.issues := by
  refine ⟨inactiveSurfacesSection.toModel, inactiveSurfacesSection.wf_of_check (by decide), by decide, ?_, rfl,
    _, rfl, by decide⟩
  rintro s ⟨c, hc, -, ha⟩
  revert ha
  revert c
  decide

/-- **C69** is false for BReps: a unique vertex which is on no active surface is reported. -/
theorem C69_brep_false : ∃ m : TopologyModel, WellFormed m ∧ AroundWellFormed m ∧ 0 < m.nbUniqueVertices ∧
    (∀ s, ¬ Active m .surface s) ∧ brepSurfacesTopologyIsValid m 0 = .ok true ∧
    ∃ r, brepInspectSurfaces m = .ok r ∧
      0 ∈ r.unique_vertices_linked_to_a_line_but_is_not_on_a_surface_border.issues := by
  refine ⟨inactiveSurfaceBRep.toModel, inactiveSurfaceBRep.wf_of_check (by decide),
    inactiveSurfaceBRep.aw_of_check (by decide), by decide, ?_, rfl, _, rfl, by decide⟩
  rintro s ⟨c, hc, -, ha⟩
  revert ha
  revert c
  decide

/-- **C69**, what holds: a unique vertex without active surface is not in the other lists: the line/border list
of a Section, the invalid embeddings list and the several surfaces list of a BRep.  Missing: the other lists of
each inspection, which also look at surfaces which are not active. -/
theorem C69_inactive_surfaces_partial (m : TopologyModel) (wf : WellFormed m) (aw : AroundWellFormed m)
    (hb : ∀ s, Active m .surface s → ∀ e ∈ m.embeddings s, e.type = .block)
    (hsz : ∀ c ∈ m.components .surface, c.nbVertices < 2 ^ 32 ∧ c.nbElements < 2 ^ 32)
    (v : Index) (ha : ¬ ∃ s, ActiveAt m v .surface s) :
    (∃ r, sectionInspectSurfaces m = .ok r ∧
      v ∉ r.unique_vertices_linked_to_a_line_but_is_not_on_a_surface_border.issues) ∧
    (∃ r, brepInspectSurfaces m = .ok r ∧
      v ∉ r.unique_vertices_linked_to_a_surface_with_invalid_embbedings.issues ∧
      v ∉ r.unique_vertices_linked_to_several_and_invalid_surfaces.issues) := by
  constructor
  · obtain ⟨r, hr, _, _, _, h2⟩ := sectionInspectSurfaces_spec wf (fun c hc => (hsz c hc).1)
    refine ⟨r, hr, fun h => ?_⟩
    obtain ⟨_, _, _, cmv, hc, hact, _⟩ := (h2.2 v).1 h
    exact ha ⟨cmv.component_id.id, ⟨cmv, hc, by rw [← hact.1]⟩, hact.2⟩
  · obtain ⟨r, hr, _, h1, h2, _⟩ := brepInspectSurfaces_spec wf aw hb hsz
    refine ⟨r, hr, fun h => ?_, fun h => ?_⟩
    · obtain ⟨_, s, hs, _⟩ := (h1.2 v).1 h
      exact ha ⟨s, hs⟩
    · obtain ⟨_, ⟨s, _, _, hs, _⟩, _⟩ := (h2.2 v).1 h
      exact ha ⟨s, hs⟩

example : WellFormed inactiveSurfaceBRep.toModel ∧ AroundWellFormed inactiveSurfaceBRep.toModel ∧
    (∀ c ∈ inactiveSurfaceBRep.toModel.components .surface, c.nbVertices < 2 ^ 32 ∧ c.nbElements < 2 ^ 32) ∧
    (∀ c ∈ inactiveSurfaceBRep.toModel.components .surface, c.active = false) :=
  ⟨inactiveSurfaceBRep.wf_of_check (by decide), inactiveSurfaceBRep.aw_of_check (by decide), by decide, by decide⟩

end Inspector
