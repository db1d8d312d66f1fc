import Verif.Proofs.Active
import Verif.Props.TopologyInspector
import Verif.Props.Adjacency
import Verif.Props.Degeneration
import Verif.Props.Colocation
import Verif.Props.Negative
import Verif.Props.Manifold
import Verif.Props.Intersections
/-
Only active components are reported (C52), for any model: nothing is assumed on uuids, meshes or unique vertices.
-/
namespace Inspector

open Spec

/-! ### C52 -/

/-- **C52**, adjacencies of a Section and a BRep. -/
theorem C52_adjacencies (isOpposite : List Index → List Index → Bool) (m : AdjacencyModel) :
    (∀ e ∈ (inspectSectionMeshesAdjacencies m).surfaces_edges_with_wrong_adjacencies.entries,
      ∃ s ∈ m.surfaces, s.id = e.1 ∧ s.active = true) ∧
    (∀ e ∈ (inspectBRepMeshesAdjacencies isOpposite m).surfaces_edges_with_wrong_adjacencies.entries,
      ∃ s ∈ m.surfaces, s.id = e.1 ∧ s.active = true) ∧
    (∀ e ∈ (inspectBRepMeshesAdjacencies isOpposite m).blocks_facets_with_wrong_adjacencies.entries,
      ∃ b ∈ m.blocks, b.id = e.1 ∧ b.active = true) := by
  have h1 : KeysIn (fun id => ∃ s ∈ m.surfaces, s.id = id ∧ s.active = true)
      (addSurfacesEdgesWithWrongAdjacencies m (IssuesMap.new "polygon edges adjacencies")) :=
    keysIn_foldl _ _ _ _ (keysIn_new _) fun s hs => ⟨s, (List.mem_filter.1 hs).1, rfl, (List.mem_filter.1 hs).2⟩
  refine ⟨h1, h1, ?_⟩
  exact keysIn_foldl (S := fun id => ∃ b ∈ m.blocks, b.id = id ∧ b.active = true) _ _ _ _ (keysIn_new _)
    fun s hs => ⟨s, (List.mem_filter.1 hs).1, rfl, (List.mem_filter.1 hs).2⟩

/-- An active Line, Surface or Block of a model, as read by the degeneration criterion. -/
def ActiveMeasured (m : DegenerationModel) (id : Uuid) : Prop :=
  (∃ l ∈ m.lines, l.id = id ∧ l.active = true) ∨ (∃ s ∈ m.surfaces, s.id = id ∧ s.active = true) ∨
    ∃ b ∈ m.blocks, b.id = id ∧ b.active = true

theorem addSmallEdges_keys (m : DegenerationModel) (t : Dbl) (map : IssuesMap Index) (h : KeysIn (ActiveMeasured m) map) :
    KeysIn (ActiveMeasured m) (addSmallEdges m t map) := by
  unfold addSmallEdges
  refine keysIn_foldl _ _ _ _ (keysIn_foldl _ _ _ _ h fun l hl => ?_) fun s hs => ?_
  · exact .inl ⟨l, (List.mem_filter.1 hl).1, rfl, (List.mem_filter.1 hl).2⟩
  · exact .inr (.inl ⟨s, (List.mem_filter.1 hs).1, rfl, (List.mem_filter.1 hs).2⟩)

theorem addSmallHeightPolygons_keys (m : DegenerationModel) (t : Dbl) (map : IssuesMap Index)
    (h : KeysIn (ActiveMeasured m) map) : KeysIn (ActiveMeasured m) (addSmallHeightPolygons m t map) :=
  keysIn_foldl _ _ _ _ h fun s hs => .inr (.inl ⟨s, (List.mem_filter.1 hs).1, rfl, (List.mem_filter.1 hs).2⟩)

theorem addSolidSmallElements_keys (m : DegenerationModel) (t : Dbl) (maps : IssuesMap Index × IssuesMap Index)
    (h1 : KeysIn (ActiveMeasured m) maps.1) (h2 : KeysIn (ActiveMeasured m) maps.2) :
    KeysIn (ActiveMeasured m) (addSolidSmallElements m t maps).1 ∧
      KeysIn (ActiveMeasured m) (addSolidSmallElements m t maps).2 := by
  unfold addSolidSmallElements
  refine foldl_keep (fun maps : IssuesMap Index × IssuesMap Index =>
    KeysIn (ActiveMeasured m) maps.1 ∧ KeysIn (ActiveMeasured m) maps.2) _ _ ?_ maps ⟨h1, h2⟩
  intro maps b hb h
  have : ActiveMeasured m b.id := .inr (.inr ⟨b, (List.mem_filter.1 hb).1, rfl, (List.mem_filter.1 hb).2⟩)
  exact ⟨keysIn_add h.1 this, keysIn_add h.2 this⟩

/-- **C52**, degenerations of a Section and a BRep. -/
theorem C52_degeneration (eps t : Dbl) (m : DegenerationModel) :
    (∀ e ∈ (inspectSectionDegeneration eps m).degenerated_edges.entries, ActiveMeasured m e.1) ∧
    (∀ e ∈ (inspectSectionDegeneration eps m).degenerated_polygons.entries, ActiveMeasured m e.1) ∧
    ∀ r ∈ [inspectBRepDegeneration eps m, inspectBRepEdgesDegeneration m t, inspectBRepPolygonsDegeneration m t,
        inspectBRepPolyhedraDegeneration m t],
      (∀ e ∈ r.degenerated_edges.entries, ActiveMeasured m e.1) ∧
      (∀ e ∈ r.degenerated_polygons.entries, ActiveMeasured m e.1) ∧
      ∀ e ∈ r.degenerated_polyhedra.entries, ActiveMeasured m e.1 := by
  have s := addSolidSmallElements_keys m eps (addSmallEdges m eps (IssuesMap.new "degenerated edges"),
    IssuesMap.new "degenerated polyhedra") (addSmallEdges_keys m eps _ (keysIn_new _)) (keysIn_new _)
  have s' := addSolidSmallElements_keys m t (IssuesMap.new "degenerated edges", IssuesMap.new "degenerated polyhedra")
    (keysIn_new _) (keysIn_new _)
  refine ⟨addSmallEdges_keys m eps _ (keysIn_new _), addSmallHeightPolygons_keys m eps _ (keysIn_new _), ?_⟩
  intro r hr
  simp only [List.mem_cons, List.not_mem_nil, or_false] at hr
  rcases hr with rfl | rfl | rfl | rfl
  · exact ⟨s.1, addSmallHeightPolygons_keys m eps _ (keysIn_new _), s.2⟩
  · exact ⟨addSmallEdges_keys m t _ (keysIn_new _), keysIn_new _, keysIn_new _⟩
  · exact ⟨keysIn_new _, addSmallHeightPolygons_keys m t _ (keysIn_new _), keysIn_new _⟩
  · exact ⟨s'.1, keysIn_new _, s'.2⟩

theorem addComponentsColocation_keys {P : Type} {S : Uuid → Prop} (search : List P → ColocatedInfo P)
    (pointString : P → String) (kind : String) (cs : List (PointComponent P))
    (hcs : ∀ c ∈ cs, c.active = true → S c.id) (map : Option (IssuesMap (List Index)))
    (h : ∀ r, map = some r → KeysIn S r) :
    ∀ r, addComponentsColocation search pointString kind cs map = some r → KeysIn S r := by
  unfold addComponentsColocation
  refine foldl_keep (fun map : Option (IssuesMap (List Index)) => ∀ r, map = some r → KeysIn S r) _ _ ?_ map h
  intro map c hc hm r hr
  rw [Option.bind_eq_some_iff] at hr
  obtain ⟨map', rfl, hr⟩ := hr
  have hk := hm map' rfl
  have hid := hcs c (List.mem_filter.1 hc).1 (List.mem_filter.1 hc).2
  unfold addComponentColocation at hr
  split at hr
  · cases hr
  · simp only at hr
    split at hr
    · cases hr; exact hk
    · cases hr; exact keysIn_add hk hid

/-- **C52**, colocations of a Section and a BRep. -/
theorem C52_colocation {P : Type} (search : List P → ColocatedInfo P) (pointString : P → String)
    (lines surfaces blocks : List (PointComponent P)) :
    (∀ r, inspectMeshesPointColocationsSection search pointString lines surfaces = some r →
      ∀ e ∈ r.entries, ∃ c ∈ lines ++ surfaces, c.id = e.1 ∧ c.active = true) ∧
    ∀ r, inspectMeshesPointColocationsBRep search pointString lines surfaces blocks = some r →
      ∀ e ∈ r.entries, ∃ c ∈ lines ++ surfaces ++ blocks, c.id = e.1 ∧ c.active = true := by
  constructor
  · refine addComponentsColocation_keys (S := fun id => ∃ c ∈ lines ++ surfaces, c.id = id ∧ c.active = true)
      search pointString _ _ (fun c hc ha => ⟨c, by simp [hc], rfl, ha⟩) _
      (addComponentsColocation_keys search pointString _ _ (fun c hc ha => ⟨c, by simp [hc], rfl, ha⟩) _ ?_)
    rintro r ⟨⟩
    exact keysIn_new _
  · refine addComponentsColocation_keys (S := fun id => ∃ c ∈ lines ++ surfaces ++ blocks, c.id = id ∧ c.active = true)
      search pointString _ _ (fun c hc ha => ⟨c, by simp [hc], rfl, ha⟩) _
      (addComponentsColocation_keys search pointString _ _ (fun c hc ha => ⟨c, by simp [hc], rfl, ha⟩) _
      (addComponentsColocation_keys search pointString _ _ (fun c hc ha => ⟨c, by simp [hc], rfl, ha⟩) _ ?_))
    rintro r ⟨⟩
    exact keysIn_new _

/-- **C52**, negative elements of a Section and a BRep. -/
theorem C52_negative (surfaces : List (MeasuredComponent SignedSurface)) (blocks : List (MeasuredComponent SignedSolid)) :
    (∀ e ∈ (inspectSectionNegativeElements surfaces).negative_polygons.entries,
      ∃ s ∈ surfaces, s.id = e.1 ∧ s.active = true) ∧
    ∀ e ∈ (inspectBRepNegativeElements blocks).negative_polyhedra.entries,
      ∃ b ∈ blocks, b.id = e.1 ∧ b.active = true :=
  ⟨keysIn_foldl (S := fun id => ∃ s ∈ surfaces, s.id = id ∧ s.active = true) _ _ _ _ (keysIn_new _)
    fun s hs => ⟨s, (List.mem_filter.1 hs).1, rfl, (List.mem_filter.1 hs).2⟩,
   keysIn_foldl (S := fun id => ∃ s ∈ blocks, s.id = id ∧ s.active = true) _ _ _ _ (keysIn_new _)
    fun s hs => ⟨s, (List.mem_filter.1 hs).1, rfl, (List.mem_filter.1 hs).2⟩⟩


/-- inactive components with the same meshes are not reported -/
example : (inspectBRepMeshesAdjacencies (fun a b => a == b.reverse)
      { exampleAdjacencyModel with
        blocks := [⟨3, true, "c", exampleSolid, fun v => some v⟩, ⟨4, false, "c", exampleSolid, fun v => some v⟩]
      }).blocks_facets_with_wrong_adjacencies.entries.map Prod.fst = [3] ∧
    (inspectBRepDegeneration (.num 3) exampleDegenerationModel).degenerated_edges.entries.map Prod.fst = [1, 3, 5] ∧
    (inspectMeshesPointColocationsSection (fun _ => exampleInfo) toString [⟨7, true, "l", exampleMesh, fun v => v⟩]
      [⟨9, false, "t", exampleMesh, fun v => v⟩]).map (fun r => r.entries.map Prod.fst) = some [7] ∧
    (inspectSectionNegativeElements [⟨1, true, "a", exampleSignedSurface⟩,
      ⟨2, false, "b", exampleSignedSurface⟩]).negative_polygons.entries.map Prod.fst = [1] :=
  ⟨by decide, by decide, rfl, by decide⟩

/-! ### topology -/

/-- The uuids of an issues list satisfy `S`. -/
def IdsIn (S : Uuid → Prop) (issues : Issues Uuid) : Prop := ∀ id ∈ issues.issues, S id

theorem idsIn_add {S : Uuid → Prop} {issues : Issues Uuid} {id : Uuid} {text : String} (h : IdsIn S issues) (hid : S id) :
    IdsIn S (issues.add id text) := by
  intro x hx
  simp only [Issues.add, List.mem_append, List.mem_singleton] at hx
  rcases hx with hx | rfl
  · exact h x hx
  · exact hid

theorem keysIn_addNotAssociated {S : Uuid → Prop} {m : TopologyModel} {kind : ComponentType} {label : String}
    {map : IssuesMap Index} {c : TopologyComponent} (h : KeysIn S map) (hc : S c.id) :
    KeysIn S (addNotAssociated m kind label map c) := by
  unfold addNotAssociated
  simp only []
  split
  · exact keysIn_add h hc
  · exact h

theorem active_of_mem {m : TopologyModel} {kind : ComponentType} {c : TopologyComponent}
    (hc : c ∈ m.activeComponents kind) : Active m kind c.id :=
  ⟨c, (List.mem_filter.1 hc).1, rfl, (List.mem_filter.1 hc).2⟩

/-- **C52**, topology of the corners of a Section and a BRep. -/
theorem C52_corners (m : TopologyModel) :
    (∀ r, sectionInspectCorners m = .ok r →
      (∀ id ∈ r.corners_not_meshed.issues, Active m .corner id) ∧
      ∀ e ∈ r.corners_not_linked_to_a_unique_vertex.entries, Active m .corner e.1) ∧
    ∀ r, brepInspectCorners m = .ok r →
      (∀ id ∈ r.corners_not_meshed.issues, Active m .corner id) ∧
      ∀ e ∈ r.corners_not_linked_to_a_unique_vertex.entries, Active m .corner e.1 := by
  have step : ∀ (t : String) (n : Issues Uuid) (l : IssuesMap Index) (c : TopologyComponent),
      c ∈ m.activeComponents .corner →
      IdsIn (Active m .corner) n → KeysIn (Active m .corner) l →
      IdsIn (Active m .corner) (addCorner m t n l c).1 ∧ KeysIn (Active m .corner) (addCorner m t n l c).2 := by
    intro t n l c hc hn hl
    unfold addCorner
    split
    · exact ⟨idsIn_add hn (active_of_mem hc), hl⟩
    · exact ⟨hn, keysIn_addNotAssociated hl (active_of_mem hc)⟩
  constructor
  · intro r h
    unfold sectionInspectCorners at h
    refine foldlM_keep (fun r : SectionCornersTopologyInspectionResult =>
      IdsIn (Active m .corner) r.corners_not_meshed ∧
        KeysIn (Active m .corner) r.corners_not_linked_to_a_unique_vertex) _ _ ?_ _ _ ?_ h
    · intro r v _ r' hr hv
      simp only [sectionCornersVertex, bind, Except.bind, pure, Except.pure] at hv
      repeat' split at hv
      all_goals cases hv
      exact hr
    · refine foldl_keep (fun r : SectionCornersTopologyInspectionResult =>
        IdsIn (Active m .corner) r.corners_not_meshed ∧
          KeysIn (Active m .corner) r.corners_not_linked_to_a_unique_vertex) _ _ ?_ _ ?_
      · exact fun r c hc hr => step _ _ _ c hc hr.1 hr.2
      · exact ⟨by intro id hid; exact absurd hid (by simp [Issues.new]), keysIn_new _⟩
  · intro r h
    unfold brepInspectCorners at h
    refine foldlM_keep (fun r : BRepCornersTopologyInspectionResult =>
      IdsIn (Active m .corner) r.corners_not_meshed ∧
        KeysIn (Active m .corner) r.corners_not_linked_to_a_unique_vertex) _ _ ?_ _ _ ?_ h
    · intro r v _ r' hr hv
      simp only [brepCornersVertex, bind, Except.bind, pure, Except.pure] at hv
      repeat' split at hv
      all_goals cases hv
      exact hr
    · refine foldl_keep (fun r : BRepCornersTopologyInspectionResult =>
        IdsIn (Active m .corner) r.corners_not_meshed ∧
          KeysIn (Active m .corner) r.corners_not_linked_to_a_unique_vertex) _ _ ?_ _ ?_
      · exact fun r c hc hr => step _ _ _ c hc hr.1 hr.2
      · exact ⟨by intro id hid; exact absurd hid (by simp [Issues.new]), keysIn_new _⟩

/-- **C52**, topology of the lines of a Section and a BRep. -/
theorem C52_lines (m : TopologyModel) :
    (∀ r, sectionInspectLines m = .ok r →
      (∀ id ∈ r.lines_not_meshed.issues, Active m .line id) ∧
      ∀ e ∈ r.lines_not_linked_to_a_unique_vertex.entries, Active m .line e.1) ∧
    ∀ r, brepInspectLines m = .ok r →
      (∀ id ∈ r.lines_not_meshed.issues, Active m .line id) ∧
      (∀ e ∈ r.lines_not_linked_to_a_unique_vertex.entries, Active m .line e.1) ∧
      ∀ e ∈ r.line_edges_with_wrong_component_edges_around.entries, Active m .line e.1 := by
  constructor
  · intro r h
    unfold sectionInspectLines at h
    refine foldlM_keep (fun r : SectionLinesTopologyInspectionResult =>
      IdsIn (Active m .line) r.lines_not_meshed ∧
        KeysIn (Active m .line) r.lines_not_linked_to_a_unique_vertex) _ _ ?_ _ _ ?_ h
    · intro r v _ r' hr hv
      simp only [sectionLinesVertex, bind, Except.bind, pure, Except.pure] at hv
      repeat' split at hv
      all_goals cases hv
      exact hr
    · refine foldl_keep (fun r : SectionLinesTopologyInspectionResult =>
        IdsIn (Active m .line) r.lines_not_meshed ∧
          KeysIn (Active m .line) r.lines_not_linked_to_a_unique_vertex) _ _ ?_ _ ?_
      · intro r c hc hr
        refine ⟨?_, keysIn_addNotAssociated hr.2 (active_of_mem hc)⟩
        simp only [sectionLinesComponent]
        split
        · exact idsIn_add hr.1 (active_of_mem hc)
        · exact hr.1
      · exact ⟨by intro id hid; exact absurd hid (by simp [Issues.new]), keysIn_new _⟩
  · intro r h
    unfold brepInspectLines at h
    simp only [bind, Except.bind] at h
    split at h
    · cases h
    rename_i r0 h0
    refine foldlM_keep (fun r : BRepLinesTopologyInspectionResult =>
      IdsIn (Active m .line) r.lines_not_meshed ∧
        KeysIn (Active m .line) r.lines_not_linked_to_a_unique_vertex ∧
        KeysIn (Active m .line) r.line_edges_with_wrong_component_edges_around) _ _ ?_ _ _ ?_ h
    · intro r v _ r' hr hv
      simp only [brepLinesVertex, bind, Except.bind, pure, Except.pure] at hv
      repeat' split at hv
      all_goals cases hv
      exact hr
    · refine foldlM_keep (fun r : BRepLinesTopologyInspectionResult =>
        IdsIn (Active m .line) r.lines_not_meshed ∧
          KeysIn (Active m .line) r.lines_not_linked_to_a_unique_vertex ∧
          KeysIn (Active m .line) r.line_edges_with_wrong_component_edges_around) _ _ ?_ _ _ ?_ h0
      · intro r c hc r' hr hr'
        have ha := active_of_mem hc
        have hm : IdsIn (Active m .line) (if (!lineIsMeshed c) = true then
            r.lines_not_meshed.add c.id ("Line " ++ m.label .line c.id ++ " is not meshed") else r.lines_not_meshed) := by
          split
          · exact idsIn_add hr.1 ha
          · exact hr.1
        simp only [brepLinesComponent, bind, Except.bind, pure, Except.pure] at hr'
        split at hr'
        · cases hr'
          exact ⟨hm, keysIn_add hr.2.1 ha, hr.2.2⟩
        · split at hr'
          · cases hr'
          · split at hr'
            · cases hr'
              exact ⟨hm, hr.2.1, keysIn_add hr.2.2 ha⟩
            · cases hr'
              exact ⟨hm, hr.2⟩
      · exact ⟨by intro id hid; exact absurd hid (by simp [Issues.new]), keysIn_new _, keysIn_new _⟩

/-- **C52**, topology of the surfaces of a Section and a BRep. -/
theorem C52_surfaces (m : TopologyModel) :
    (∀ r, sectionInspectSurfaces m = .ok r →
      (∀ id ∈ r.surfaces_not_meshed.issues, Active m .surface id) ∧
      ∀ e ∈ r.surfaces_not_linked_to_a_unique_vertex.entries, Active m .surface e.1) ∧
    ∀ r, brepInspectSurfaces m = .ok r →
      (∀ id ∈ r.surfaces_not_meshed.issues, Active m .surface id) ∧
      (∀ e ∈ r.surfaces_not_linked_to_a_unique_vertex.entries, Active m .surface e.1) ∧
      ∀ e ∈ r.surface_polygons_with_wrong_component_facets_around.entries, Active m .surface e.1 := by
  constructor
  · intro r h
    unfold sectionInspectSurfaces at h
    refine foldlM_keep (fun r : SectionSurfacesTopologyInspectionResult =>
      IdsIn (Active m .surface) r.surfaces_not_meshed ∧
        KeysIn (Active m .surface) r.surfaces_not_linked_to_a_unique_vertex) _ _ ?_ _ _ ?_ h
    · intro r v _ r' hr hv
      simp only [sectionSurfacesVertex, bind, Except.bind, pure, Except.pure] at hv
      repeat' split at hv
      all_goals cases hv
      exact hr
    · refine foldl_keep (fun r : SectionSurfacesTopologyInspectionResult =>
        IdsIn (Active m .surface) r.surfaces_not_meshed ∧
          KeysIn (Active m .surface) r.surfaces_not_linked_to_a_unique_vertex) _ _ ?_ _ ?_
      · intro r c hc hr
        refine ⟨?_, keysIn_addNotAssociated hr.2 (active_of_mem hc)⟩
        simp only [sectionSurfacesComponent]
        split
        · exact idsIn_add hr.1 (active_of_mem hc)
        · exact hr.1
      · exact ⟨by intro id hid; exact absurd hid (by simp [Issues.new]), keysIn_new _⟩
  · intro r h
    unfold brepInspectSurfaces at h
    simp only [bind, Except.bind] at h
    split at h
    · cases h
    rename_i r0 h0
    refine foldlM_keep (fun r : BRepSurfacesTopologyInspectionResult =>
      IdsIn (Active m .surface) r.surfaces_not_meshed ∧
        KeysIn (Active m .surface) r.surfaces_not_linked_to_a_unique_vertex ∧
        KeysIn (Active m .surface) r.surface_polygons_with_wrong_component_facets_around) _ _ ?_ _ _ ?_ h
    · intro r v _ r' hr hv
      simp only [brepSurfacesVertex, bind, Except.bind, pure, Except.pure] at hv
      repeat' split at hv
      all_goals cases hv
      exact hr
    · refine foldlM_keep (fun r : BRepSurfacesTopologyInspectionResult =>
        IdsIn (Active m .surface) r.surfaces_not_meshed ∧
          KeysIn (Active m .surface) r.surfaces_not_linked_to_a_unique_vertex ∧
          KeysIn (Active m .surface) r.surface_polygons_with_wrong_component_facets_around) _ _ ?_ _ _ ?_ h0
      · intro r c hc r' hr hr'
        have ha := active_of_mem hc
        have hm : IdsIn (Active m .surface) (if (!surfaceIsMeshed c) = true then
            r.surfaces_not_meshed.add c.id ("Surface " ++ m.label .surface c.id ++ " is not meshed")
            else r.surfaces_not_meshed) := by
          split
          · exact idsIn_add hr.1 ha
          · exact hr.1
        simp only [brepSurfacesComponent, bind, Except.bind, pure, Except.pure] at hr'
        split at hr'
        · cases hr'
          exact ⟨hm, keysIn_add hr.2.1 ha, hr.2.2⟩
        · split at hr'
          · cases hr'
            exact ⟨hm, hr.2⟩
          · split at hr'
            · cases hr'
            · split at hr'
              · cases hr'
                exact ⟨hm, hr.2.1, keysIn_add hr.2.2 ha⟩
              · cases hr'
                exact ⟨hm, hr.2⟩
      · exact ⟨by intro id hid; exact absurd hid (by simp [Issues.new]), keysIn_new _, keysIn_new _⟩

/-- The uuids of the four lists of Blocks. -/
def BlocksActive (m : TopologyModel) (r : BRepBlocksTopologyInspectionResult) : Prop :=
  (∀ id ∈ r.some_blocks_not_meshed.issues, Active m .block id) ∧
  (∀ e ∈ r.blocks_not_linked_to_a_unique_vertex.entries, Active m .block e.1) ∧
  (∀ id ∈ r.wrong_block_boundary_surface.issues, Active m .block id) ∧
  ∀ id ∈ r.blocks_with_not_closed_boundary_surfaces.issues, Active m .block id

/-- **C52**, topology of the blocks of a BRep. -/
theorem C52_blocks (m : TopologyModel) (o : BlocksOracle) (fuel : Nat) (r : BRepBlocksTopologyInspectionResult)
    (h : brepInspectBlocks m o fuel = .ok r) : BlocksActive m r := by
  have nil : BlocksActive m {} := by
    refine ⟨?_, keysIn_new _, ?_, ?_⟩ <;>
    · intro id hid
      exact absurd hid (by simp [Issues.new])
  unfold brepInspectBlocks at h
  split at h
  · cases h; exact nil
  simp only [bind, Except.bind] at h
  split at h
  · cases h
  split at h
  · cases h
  split at h
  · cases h
  rename_i r1 h1
  split at h
  · cases h
  rename_i r2 h2
  refine foldlM_keep (BlocksActive m) _ _ ?_ _ _ (foldlM_keep (BlocksActive m) _ _ ?_ _ _ ?_ h2) h
  · intro r c hc r' hr hr'
    have ha := active_of_mem hc
    simp only [blocksBoundaries, bind, Except.bind, pure, Except.pure] at hr'
    split at hr'
    · cases hr'
    split at hr'
    · cases hr'
    cases hr'
    refine ⟨hr.1, hr.2.1, ?_, ?_⟩
    · simp only []
      split
      · exact idsIn_add hr.2.2.1 ha
      · exact hr.2.2.1
    · simp only []
      split
      · exact idsIn_add hr.2.2.2 ha
      · exact hr.2.2.2
  · intro r v _ r' hr hv
    simp only [blocksVertex, bind, Except.bind, pure, Except.pure] at hv
    repeat' split at hv
    all_goals cases hv
    exact hr
  · have hm : BlocksActive m (blocksMeshes m {}) := by
      unfold blocksMeshes
      simp only []
      refine foldl_keep (BlocksActive m) _ _ ?_ _ ?_
      · intro r c hc hr
        exact ⟨hr.1, keysIn_addNotAssociated hr.2.1 (active_of_mem (List.mem_filter.1 hc).1), hr.2.2⟩
      · split
        · refine foldl_keep (BlocksActive m) _ _ ?_ _ nil
          intro r c hc hr
          exact ⟨idsIn_add hr.1 (active_of_mem (List.mem_filter.1 hc).1), hr.2⟩
        · exact nil
    simp only [blocksModelBoundaries, bind, Except.bind, pure, Except.pure] at h1
    repeat' split at h1
    all_goals cases h1
    all_goals exact hm

/-- A model whose only problem is in the components with an even uuid, some of which are inactive. -/
def unmeshedData : TopologyData where
  corners := [⟨1, true, 1, 0⟩, ⟨2, true, 0, 0⟩, ⟨4, false, 0, 0⟩]
  lines := [⟨12, true, 2, 0⟩, ⟨14, false, 2, 0⟩]
  surfaces := [⟨22, true, 1, 0⟩, ⟨24, false, 1, 0⟩]
  blocks := [⟨31, true, 4, 1⟩, ⟨32, true, 0, 0⟩, ⟨34, false, 0, 0⟩]

/-- only the active components without mesh, or with vertices without unique vertex, are reported -/
example : (sectionInspectCorners unmeshedData.toModel).toOption.map (fun r =>
      (r.corners_not_meshed.issues, r.corners_not_linked_to_a_unique_vertex.entries.map Prod.fst)) = some ([2], [1]) ∧
    (brepInspectLines unmeshedData.toModel).toOption.map (fun r =>
      (r.lines_not_meshed.issues, r.lines_not_linked_to_a_unique_vertex.entries.map Prod.fst)) = some ([12], [12]) ∧
    (brepInspectSurfaces unmeshedData.toModel).toOption.map (fun r =>
      (r.surfaces_not_meshed.issues, r.surfaces_not_linked_to_a_unique_vertex.entries.map Prod.fst))
      = some ([22], [22]) ∧
    (brepInspectBlocks unmeshedData.toModel noModelBoundary 20).toOption.map (fun r =>
      (r.some_blocks_not_meshed.issues, r.blocks_not_linked_to_a_unique_vertex.entries.map Prod.fst))
      = some ([32], [31]) :=
  ⟨rfl, rfl, rfl, rfl⟩

/-! ### manifold -/

/-- An active Surface or Block, as read by the manifold criterion. -/
def ActiveManifold (m : ManifoldModel) (id : Uuid) : Prop :=
  (∃ s ∈ m.surfaces, s.id = id ∧ s.active = true) ∨ ∃ b ∈ m.blocks, b.id = id ∧ b.active = true

/-- The uuids which the model edges refer to. -/
def EdgesIn (S : Uuid → Prop) (edges : HMap (Index × Index) (List Uuid)) : Prop := ∀ e ∈ edges, ∀ id ∈ e.2, S id

theorem edgesIn_tryEmplace {S : Uuid → Prop} {edges : HMap (Index × Index) (List Uuid)} {k : Index × Index} {v : List Uuid}
    (h : EdgesIn S edges) (hv : ∀ id ∈ v, S id) : EdgesIn S (edges.tryEmplace k v).1 := by
  unfold HMap.tryEmplace
  split
  · exact h
  · intro e he
    simp only [List.mem_append, List.mem_singleton] at he
    rcases he with he | rfl
    · exact h e he
    · exact hv

theorem edgesIn_update {S : Uuid → Prop} {edges : HMap (Index × Index) (List Uuid)} {k : Index × Index} {x : Uuid}
    (h : EdgesIn S edges) (hx : S x) : EdgesIn S (edges.update k (fun v => v ++ [x])) := by
  intro e he id hid
  unfold HMap.update at he
  obtain ⟨e', he', rfl⟩ := List.mem_map.1 he
  split at hid
  · simp only [List.mem_append, List.mem_singleton] at hid
    rcases hid with hid | rfl
    · exact h e' he' id hid
    · exact hx
  · exact h e' he' id hid

theorem surfaceModelEdges_in {S : Uuid → Prop} {s : ManifoldSurface} {edges : HMap (Index × Index) (List Uuid)}
    (h : EdgesIn S edges) (hs : S s.id) : EdgesIn S (surfaceModelEdges s edges) := by
  unfold surfaceModelEdges
  refine foldl_keep (EdgesIn S) _ _ ?_ _ h
  intro edges x _ h
  simp only []
  split
  · exact h
  · split
    · exact h
    · generalize edgeCycle _ = k
      have h1 := edgesIn_tryEmplace (k := k) (v := [s.id]) h (by simpa using hs)
      split
      · exact edgesIn_update h1 hs
      · exact h1

theorem addSurfacesNonManifoldVertices_keys {m : ManifoldModel} {map r : IssuesMap Index}
    (hm : KeysIn (ActiveManifold m) map) (h : addSurfacesNonManifoldVertices m map = .ok r) :
    KeysIn (ActiveManifold m) r := by
  refine foldlM_keep (KeysIn (ActiveManifold m)) _ _ ?_ _ _ hm h
  intro map s hs r hk hr
  split at hr
  · cases hr
  · cases hr
    exact keysIn_add hk (.inl ⟨s, (List.mem_filter.1 hs).1, rfl, (List.mem_filter.1 hs).2⟩)

/-- **C52**, non manifold elements of a Section and a BRep; the uuids of the lists on the model too. -/
theorem C52_manifold (orders : ManifoldOrders) (ho : ∀ edges, (orders.modelEdges edges).Perm edges)
    (cycle : List Index → List Index) (m : ManifoldModel) :
    (∀ r, inspectSectionManifold orders.surfaceEdges m = .ok r →
      (∀ e ∈ r.meshes_non_manifold_vertices.entries, ActiveManifold m e.1) ∧
      ∀ e ∈ r.meshes_non_manifold_edges.entries, ActiveManifold m e.1) ∧
    ∀ r, inspectBRepManifold orders cycle m = .ok r →
      (∀ e ∈ r.meshes_non_manifold_vertices.entries, ActiveManifold m e.1) ∧
      (∀ e ∈ r.meshes_non_manifold_edges.entries, ActiveManifold m e.1) ∧
      (∀ e ∈ r.meshes_non_manifold_facets.entries, ∃ b ∈ m.blocks, b.id = e.1 ∧ b.active = true) ∧
      (∀ x ∈ r.brep_non_manifold_edges.issues, ∀ id ∈ x.2,
        (∃ s ∈ m.surfaces, s.id = id ∧ s.active = true) ∨ ∃ l ∈ m.lines, l.id = id ∧ l.active = true) ∧
      ∀ x ∈ r.brep_non_manifold_facets.issues, ∀ id ∈ x.2, ∃ s ∈ m.surfaces, s.id = id ∧ s.active = true := by
  have hedges : KeysIn (ActiveManifold m) (addSurfacesNonManifoldEdges orders.surfaceEdges m
      (IssuesMap.new "non manifold mesh edges")) :=
    keysIn_foldl _ _ _ _ (keysIn_new _) fun s hs => .inl ⟨s, (List.mem_filter.1 hs).1, rfl, (List.mem_filter.1 hs).2⟩
  constructor
  · intro r h
    unfold inspectSectionManifold at h
    simp only [] at h
    split at h
    · cases h
    rename_i v hv
    cases h
    exact ⟨addSurfacesNonManifoldVertices_keys (keysIn_new _) hv, hedges⟩
  · intro r h
    unfold inspectBRepManifold at h
    simp only [] at h
    split at h
    · cases h
    rename_i v hv
    split at h
    · cases h
    rename_i v' hv'
    split at h
    · cases h
    rename_i e he
    cases h
    refine ⟨?_, ?_, ?_, ?_, ?_⟩
    · refine foldlM_keep (KeysIn (ActiveManifold m)) _ _ ?_ _ _
        (addSurfacesNonManifoldVertices_keys (keysIn_new _) hv) hv'
      intro map s hs r hk hr
      split at hr
      · cases hr
      · cases hr
        exact keysIn_add hk (.inr ⟨s, (List.mem_filter.1 hs).1, rfl, (List.mem_filter.1 hs).2⟩)
    · refine foldlM_keep (KeysIn (ActiveManifold m)) _ _ ?_ _ _ hedges he
      intro map s hs r hk hr
      split at hr
      · cases hr
      · cases hr
        exact keysIn_add hk (.inr ⟨s, (List.mem_filter.1 hs).1, rfl, (List.mem_filter.1 hs).2⟩)
    · exact keysIn_foldl (S := fun id => ∃ b ∈ m.blocks, b.id = id ∧ b.active = true) _ _ _ _ (keysIn_new _)
        fun s hs => ⟨s, (List.mem_filter.1 hs).1, rfl, (List.mem_filter.1 hs).2⟩
    · intro x hx id hid
      simp only [addModelNonManifoldEdges, collectFrom_issues, List.mem_append, List.mem_map] at hx
      rcases hx with (hx | ⟨y, hy, rfl⟩) | ⟨l, hl, rfl⟩
      · exact absurd hx (by simp [Issues.new])
      · left
        have hy' := (ho _).subset (List.mem_filter.1 hy).1
        refine foldl_keep (EdgesIn fun id => ∃ s ∈ m.surfaces, s.id = id ∧ s.active = true) _ _ ?_ [] ?_ y hy' id hid
        · intro edges s hs h
          exact surfaceModelEdges_in h ⟨s, (List.mem_filter.1 hs).1, rfl, (List.mem_filter.1 hs).2⟩
        · intro e he
          cases he
      · right
        have hl' := List.mem_filter.1 (List.mem_filter.1 hl).1
        simp only [List.mem_singleton] at hid
        exact ⟨l, hl'.1, hid.symm, hl'.2⟩
    · intro x hx id hid
      simp only [addModelNonManifoldFacets, collectFrom_issues, List.mem_append, List.mem_map] at hx
      rcases hx with hx | ⟨s, hs, rfl⟩
      · exact absurd hx (by simp [Issues.new])
      · have hs' := List.mem_filter.1 (List.mem_filter.1 hs).1
        simp only [List.mem_singleton] at hid
        exact ⟨s, hs'.1, hid.symm, hs'.2⟩

/-- a BRep with two Surfaces `exampleBook` and two Blocks `exampleTets`, of which one is active -/
example : (inspectBRepManifold ⟨fun _ => id, fun _ => id, id⟩ exampleCycle
      { exampleManifoldBRep with
        surfaces := [⟨3, false, "t", exampleBook, id, 0⟩, ⟨1, true, "s", exampleBook, id, 0⟩]
        blocks := [⟨2, true, "b", exampleTets⟩, ⟨4, false, "c", exampleTets⟩] }).toOption.map (fun r =>
      (r.meshes_non_manifold_vertices.entries.map Prod.fst, r.meshes_non_manifold_edges.entries.map Prod.fst,
        r.meshes_non_manifold_facets.entries.map Prod.fst)) = some ([1, 2], [1, 2], [2]) := by
  decide +kernel

/-! ### intersections -/

/-- The component of an element of an intersection is an active Surface or Line. -/
def ActiveElement {P : Type} (m : IntersectionModel P) (e : ComponentMeshElement) : Prop :=
  (∃ s ∈ m.surfaces, e.component_id = ⟨.surface, s.id⟩ ∧ s.active = true) ∨
    ∃ l ∈ m.lines, e.component_id = ⟨.line, l.id⟩ ∧ l.active = true

theorem intersectingModelPolygons_active {P : Type} (m : IntersectionModel P)
    (ho : ∀ p ∈ m.overlappingSurfaces, (p.1 ∈ m.surfaces ∧ p.1.active = true) ∧ p.2 ∈ m.surfaces ∧ p.2.active = true)
    (action : PolygonsAction) (r : List (ComponentMeshElement × ComponentMeshElement))
    (h : intersectingModelPolygons m action = .ok r) : ∀ p ∈ r, ActiveElement m p.1 ∧ ActiveElement m p.2 := by
  unfold intersectingModelPolygons at h
  split at h
  · cases h
    simp
  refine foldlM_keep (fun r : List (ComponentMeshElement × ComponentMeshElement) =>
    ∀ p ∈ r, ActiveElement m p.1 ∧ ActiveElement m p.2) _ _ ?_ _ _ (by simp) h
  intro r task ht r' hr hr'
  have hact : (task.1.1 ∈ m.surfaces ∧ task.1.1.active = true) ∧ task.1.2 ∈ m.surfaces ∧ task.1.2.active = true := by
    unfold intersectionTasks at ht
    rcases List.mem_append.1 ht with ht | ht
    · obtain ⟨s, hs, rfl⟩ := List.mem_map.1 ht
      have := List.mem_filter.1 hs
      exact ⟨this, this⟩
    · obtain ⟨s, hs, rfl⟩ := List.mem_map.1 ht
      exact ho s hs
  split at hr'
  · cases hr'
  rename_i res hres
  cases hr'
  intro p hp
  rcases List.mem_append.1 hp with hp | hp
  · exact hr p hp
  · unfold runIntersectionTask at hres
    split at hres
    · cases hres
    · cases hres
      obtain ⟨q, _, rfl⟩ := List.mem_map.1 hp
      exact ⟨.inl ⟨_, hact.1.1, rfl, hact.1.2⟩, .inl ⟨_, hact.2.1, rfl, hact.2.2⟩⟩

theorem addAll_mem (l : List (ComponentMeshElement × ComponentMeshElement))
    (text : ComponentMeshElement × ComponentMeshElement → String)
    (issues : Issues (ComponentMeshElement × ComponentMeshElement)) (S : ComponentMeshElement × ComponentMeshElement → Prop)
    (hi : ∀ p ∈ issues.issues, S p) (hl : ∀ p ∈ l, S p) :
    ∀ p ∈ (l.foldl (fun issues p => issues.add p (text p)) issues).issues, S p := by
  refine foldl_keep (fun issues : Issues (ComponentMeshElement × ComponentMeshElement) => ∀ p ∈ issues.issues, S p)
    _ _ ?_ _ hi
  intro issues x hx h p hp
  simp only [Issues.add, List.mem_append, List.mem_singleton] at hp
  rcases hp with hp | rfl
  · exact h p hp
  · exact hl p hx

/-- **C52**, intersections of a Section (`dim` 2) and a BRep (`dim` 3), and self intersections of the surfaces.  The
pairs of overlapping surfaces come from an external tree built on the active surfaces. -/
theorem C52_intersections {P : Type} (dim : Nat) (m : IntersectionModel P)
    (ho : ∀ p ∈ m.overlappingSurfaces, (p.1 ∈ m.surfaces ∧ p.1.active = true) ∧ p.2 ∈ m.surfaces ∧ p.2.active = true)
    (r : ElementsIntersectionsInspectionResult)
    (h : inspectIntersections dim m = .ok r ∨ inspectSurfacesSelfIntersections m = .ok r) :
    ∀ p ∈ r.elements_intersections.issues, ActiveElement m p.1 ∧ ActiveElement m p.2 := by
  rcases h with h | h
  · unfold inspectIntersections at h
    simp only [] at h
    split at h
    · cases h
    rename_i i1 h1
    split at h
    · cases h
    rename_i i2 h2
    cases h
    have hi1 : ∀ p ∈ i1.issues, ActiveElement m p.1 ∧ ActiveElement m p.2 := by
      unfold addIntersectingSurfacesElements at h1
      split at h1
      · cases h1
      rename_i l hl
      cases h1
      exact addAll_mem _ _ _ (fun p => ActiveElement m p.1 ∧ ActiveElement m p.2) (by simp [Issues.new])
        (intersectingModelPolygons_active m ho _ l hl)
    unfold addIntersectingLinesSurfacesElements at h2
    split at h2
    · split at h2
      · cases h2
      rename_i l hl
      cases h2
      refine addAll_mem _ _ _ (fun p => ActiveElement m p.1 ∧ ActiveElement m p.2) hi1 ?_
      unfold intersectingLinesSurfaces at hl
      split at hl
      · cases hl; simp
      split at hl
      · cases hl; simp
      refine foldlM_keep (fun r : List (ComponentMeshElement × ComponentMeshElement) =>
        ∀ p ∈ r, ActiveElement m p.1 ∧ ActiveElement m p.2) _ _ ?_ _ _ (by simp) hl
      intro r s hs r' hr hr'
      refine foldlM_keep (fun r : List (ComponentMeshElement × ComponentMeshElement) =>
        ∀ p ∈ r, ActiveElement m p.1 ∧ ActiveElement m p.2) _ _ ?_ _ _ hr hr'
      intro r c hc r' hr hr'
      split at hr'
      · cases hr'; exact hr
      split at hr'
      · cases hr'
      cases hr'
      intro p hp
      rcases List.mem_append.1 hp with hp | hp
      · exact hr p hp
      · obtain ⟨q, _, rfl⟩ := List.mem_map.1 hp
        exact ⟨.inl ⟨s, (List.mem_filter.1 hs).1, rfl, (List.mem_filter.1 hs).2⟩,
          .inr ⟨c, (List.mem_filter.1 hc).1, rfl, (List.mem_filter.1 hc).2⟩⟩
    · cases h2; exact hi1
  · unfold inspectSurfacesSelfIntersections at h
    simp only [] at h
    split at h
    · cases h
    rename_i i1 h1
    cases h
    unfold addSurfaceAutoIntersectingElements at h1
    split at h1
    · cases h1
    rename_i l hl
    cases h1
    exact addAll_mem _ _ _ (fun p => ActiveElement m p.1 ∧ ActiveElement m p.2) (by simp [Issues.new])
      (intersectingModelPolygons_active m ho _ l hl)

/-- the overlapping surfaces are active, and the two intersecting polygons are reported -/
example : (∀ p ∈ (witnessModel 1).overlappingSurfaces, (p.1 ∈ (witnessModel 1).surfaces ∧ p.1.active = true) ∧
      p.2 ∈ (witnessModel 1).surfaces ∧ p.2.active = true) ∧
    (inspectIntersections 3 (witnessModel 1)).toOption.map (fun r => r.elements_intersections.issues)
      = some [(⟨⟨.surface, 1⟩, 0⟩, ⟨⟨.surface, 2⟩, 0⟩)] := by
  refine ⟨?_, rfl⟩
  intro p hp
  simp only [witnessModel, List.mem_singleton] at hp
  subst hp
  simp [witnessModel, witnessSurface]

end Inspector
