import Verif.Proofs.TopologySurfaces
import Verif.Proofs.TopologyLinesInspect
/-! Inspection of the surfaces of a BRep. -/
namespace Inspector
open Spec

variable {m : TopologyModel} (wf : WellFormed m) (aw : AroundWellFormed m)

theorem componentMeshPolygons_ok {surface : Uuid} {facet : Index}
    (has : ∀ x ∈ m.polygonVertices surface facet, m.uniqueVertex ⟨⟨.surface, surface⟩, x⟩ ≠ none) :
    m.componentMeshPolygons surface facet = .ok (m.blockPolygons surface facet) := by
  unfold TopologyModel.componentMeshPolygons
  rw [if_neg]
  rw [List.any_eq_true]
  rintro ⟨x, hx, h⟩
  exact has x hx (by simpa using h)

include wf aw in
theorem surfaceFacet_answers (surface : TopologyComponent) (facet : Index)
    (has : ∀ x ∈ m.polygonVertices surface.id facet, m.uniqueVertex ⟨⟨.surface, surface.id⟩, x⟩ ≠ none) :
    Answers (surfaceFacetHasWrongComponentFacetsAround m surface facet) (FacetIsWrong m surface.id facet) := by
  unfold surfaceFacetHasWrongComponentFacetsAround
  rw [componentMeshPolygons_ok has]
  refine Answers.congr (P := ∃ e ∈ m.iterate (m.blockPolygons surface.id facet), Active m .block e.1 ∧
      ¬ (m.isBoundary surface.id e.1 = true ∧ e.2 = 1) ∧
      ¬ (m.isBoundary surface.id e.1 = false ∧ m.isInternal surface.id e.1 = true ∧ e.2 = 2)) ?_ ?_
  · refine findSomeM_answers _ _ _ ?_
    intro e he
    refine answers_component wf (aw.polygons _ _ _ e.2 ((aw.iterate _).mem_iff.1 he)) _ _ ?_
    intro c _ _ hact
    refine answers_iteP (fun ha => answers_none (fun hp => ?_)) (fun ha => ?_)
    · simp [hact.2 hp.1] at ha
    have ha' : Active m .block e.1 := hact.1 (by simpa using ha)
    refine answers_iteP (fun hb => ?_) (fun hb => ?_)
    · refine answers_iteP (fun hn => answers_some _ ⟨ha', ?_, ?_⟩) (fun hn => answers_none (fun hp => ?_))
      · rintro ⟨_, h⟩; simp [h] at hn
      · rw [hb]; simp
      · exact hp.2.1 ⟨hb, by simpa using hn⟩
    · refine answers_iteP (fun hi => ?_) (fun hi => answers_some _ ⟨ha', fun h => hb h.1, fun h => hi h.2.1⟩)
      refine answers_iteP (fun hn => answers_some _ ⟨ha', fun h => hb h.1, ?_⟩)
        (fun hn => answers_none (fun hp => ?_))
      · rintro ⟨_, _, h⟩; simp [h] at hn
      · exact hp.2.2 ⟨by simpa using hb, hi, by simpa using hn⟩
  · unfold FacetIsWrong
    constructor
    · rintro ⟨⟨b, n⟩, he, h⟩; exact ⟨b, n, (aw.iterate _).mem_iff.1 he, h⟩
    · rintro ⟨b, n, he, h⟩; exact ⟨⟨b, n⟩, (aw.iterate _).mem_iff.2 he, h⟩

include wf aw in
theorem surfaceFacets_answers {c : TopologyComponent} (hc : c ∈ m.components .surface)
    (ha : ∀ v, ¬ NotAssociated m .surface c v) : ∀ f < c.nbElements,
    Answers (surfaceFacetHasWrongComponentFacetsAround m c f) (FacetIsWrong m c.id f) := by
  intro f hf
  refine surfaceFacet_answers wf aw c f ?_
  intro x hx hn
  exact ha x ⟨aw.facetVertices c hc f hf x hx, hn⟩

/-- The effect of the BRep surfaces criteria on one surface. -/
def brepSurfacesComponentStep (m : TopologyModel) (r : BRepSurfacesTopologyInspectionResult)
    (c : TopologyComponent) : BRepSurfacesTopologyInspectionResult :=
  { r with
    surfaces_not_meshed :=
      if (c.nbVertices == 0 || c.nbElements == 0) = true then
        r.surfaces_not_meshed.add c.id ("Surface " ++ m.label .surface c.id ++ " is not meshed")
      else r.surfaces_not_meshed
    surfaces_not_linked_to_a_unique_vertex :=
      addNotAssociated m .surface "Surface " r.surfaces_not_linked_to_a_unique_vertex c
    surface_polygons_with_wrong_component_facets_around :=
      r.surface_polygons_with_wrong_component_facets_around.addIssues c.id
        (if brepBlocksAreMeshed m then
          elementIssues m .surface "Surface " (surfaceFacetHasWrongComponentFacetsAround m) c
        else Issues.new "") }

include wf aw in
theorem brepSurfacesComponent_step {c : TopologyComponent} (hc : c ∈ m.components .surface)
    (hsz : c.nbVertices < 2 ^ 32) (r : BRepSurfacesTopologyInspectionResult) :
    brepSurfacesComponent m (brepBlocksAreMeshed m) r c = .ok (brepSurfacesComponentStep m r c) := by
  have hmesh : (!surfaceIsMeshed c) = (c.nbVertices == 0 || c.nbElements == 0) := by
    unfold surfaceIsMeshed
    cases h1 : c.nbVertices == 0 <;> cases h2 : c.nbElements == 0 <;> simp [bne, h1, h2]
  unfold brepSurfacesComponent brepSurfacesComponentStep
  rw [addNotAssociated_eq, hmesh]
  unfold elementIssues
  by_cases h : (verticesNotAssociated m .surface c).nbIssues = 0
  · have hb : ((verticesNotAssociated m .surface c).nbIssues != 0) = false := by simp [h]
    cases hm : brepBlocksAreMeshed m
    · simp only [hb, Bool.false_eq_true, if_false, Bool.not_false, if_true]
      rw [addIssues_of_zero (s := Issues.new "") _ _ rfl]
      rfl
    obtain ⟨s, hs, he⟩ := inspectElements_spec (surfaceFacetHasWrongComponentFacetsAround m c)
      ("Surface " ++ m.label .surface c.id) c.nbElements _ (surfaceFacets_answers wf aw hc ((notAssociated_zero hsz).1 h))
    simp only [hb, Bool.false_eq_true, if_false, Bool.not_true, if_true, hs, okIssues]
    by_cases h2 : s.nbIssues = 0
    · have hb2 : (s.nbIssues != 0) = false := by simp [h2]
      simp only [bind, Except.bind, hb2, Bool.false_eq_true, if_false]
      rw [addIssues_of_zero _ _ h2]
      rfl
    · have hb2 : (s.nbIssues != 0) = true := by simp [h2]
      simp only [bind, Except.bind, hb2, if_true]
      rfl
  · have hb : ((verticesNotAssociated m .surface c).nbIssues != 0) = true := by simp [h]
    simp only [hb, if_true, ite_self]
    rw [addIssues_of_zero (s := Issues.new "") _ _ rfl]
    rfl

include wf aw in
theorem brepSurfacesComponents_fold
    (hsz : ∀ c ∈ m.components .surface, c.nbVertices < 2 ^ 32 ∧ c.nbElements < 2 ^ 32) :
    ∃ r, (m.activeComponents .surface).foldlM (brepSurfacesComponent m (brepBlocksAreMeshed m)) {} = .ok r ∧
      BRepSurfacesComponents m r ∧
      r.unique_vertices_linked_to_a_surface_with_invalid_embbedings.issues = [] ∧
      r.unique_vertices_linked_to_several_and_invalid_surfaces.issues = [] ∧
      r.unique_vertices_linked_to_a_line_but_is_not_on_a_surface_border.issues = [] := by
  refine ⟨_, foldlM_step _ (brepSurfacesComponentStep m) _ (fun r c hc =>
    brepSurfacesComponent_step wf aw (mem_active hc) (hsz c (mem_active hc)).1 r) _, ⟨?_, ?_, ?_⟩, ?_⟩
  · rw [foldl_addUuid (brepSurfacesComponentStep m)
      (fun r : BRepSurfacesTopologyInspectionResult => r.surfaces_not_meshed)
      (fun c => c.nbVertices == 0 || c.nbElements == 0)
      (fun c => "Surface " ++ m.label .surface c.id ++ " is not meshed") (fun r c => rfl)]
    rfl
  · rw [foldl_addNotAssociated (brepSurfacesComponentStep m) (fun r : BRepSurfacesTopologyInspectionResult =>
      r.surfaces_not_linked_to_a_unique_vertex) .surface "Surface " (fun r c => rfl)]
    exact notAssociated_mapReports m _ _ _ _ (active_nodup wf _) (fun c hc => (hsz c (mem_active hc)).1)
  · rw [foldl_addVal (brepSurfacesComponentStep m) (fun r : BRepSurfacesTopologyInspectionResult =>
      r.surface_polygons_with_wrong_component_facets_around) _ (fun r c => rfl)]
    have hex : ∀ c ∈ m.activeComponents .surface, Exactly (· < ·) (fun e => e < c.nbElements ∧
        (∀ v, ¬ NotAssociated m .surface c v) ∧ AllMeshed m .block ∧ FacetIsWrong m c.id e)
        (if brepBlocksAreMeshed m then
          elementIssues m .surface "Surface " (surfaceFacetHasWrongComponentFacetsAround m) c
        else Issues.new "").issues := by
      intro c hc
      have hk := elementIssues_exactly (label := "Surface ") (hsz c (mem_active hc)).1
        (fun ha => surfaceFacets_answers wf aw (mem_active hc) ha)
      by_cases hm : brepBlocksAreMeshed m = true
      · rw [if_pos hm]
        have ham := brepBlocksAreMeshed_iff.1 hm
        refine ⟨hk.1, fun x => (hk.2 x).trans ?_⟩
        constructor
        · rintro ⟨h1, h2, h3⟩; exact ⟨h1, h2, ham, h3⟩
        · rintro ⟨h1, h2, _, h3⟩; exact ⟨h1, h2, h3⟩
      · rw [if_neg hm]
        refine ⟨List.Pairwise.nil, fun x => ?_⟩
        constructor
        · intro hx; simp [Issues.new] at hx
        · rintro ⟨_, _, h3, _⟩; exact absurd (brepBlocksAreMeshed_iff.2 h3) hm
    refine mapReports_of_adds _ _ _ _ _ (active_nodup wf _) ?_ hex
    intro c hc
    exact lt_of_le_of_lt (exactly_length_le (hex c hc)) (hsz c (mem_active hc)).2
  · refine ⟨?_, ?_, ?_⟩
    · rw [foldl_keeps (brepSurfacesComponentStep m)
        (fun r => r.unique_vertices_linked_to_a_surface_with_invalid_embbedings) (fun _ _ => rfl)]; rfl
    · rw [foldl_keeps (brepSurfacesComponentStep m)
        (fun r => r.unique_vertices_linked_to_several_and_invalid_surfaces) (fun _ _ => rfl)]; rfl
    · rw [foldl_keeps (brepSurfacesComponentStep m)
        (fun r => r.unique_vertices_linked_to_a_line_but_is_not_on_a_surface_border) (fun _ _ => rfl)]; rfl

/-- The effect of the BRep surfaces criteria at one vertex. -/
def brepSurfacesStep (m : TopologyModel) (r : BRepSurfacesTopologyInspectionResult) (v : Index) :
    BRepSurfacesTopologyInspectionResult :=
  { r with
    unique_vertices_linked_to_a_surface_with_invalid_embbedings :=
      addOptional r.unique_vertices_linked_to_a_surface_with_invalid_embbedings v
        (okOr (brepInvalidEmbeddedSurface m v))
    unique_vertices_linked_to_several_and_invalid_surfaces :=
      addOptional r.unique_vertices_linked_to_several_and_invalid_surfaces v
        (okOr (brepInvalidMultipleSurfaces m v))
    unique_vertices_linked_to_a_line_but_is_not_on_a_surface_border :=
      addOptional r.unique_vertices_linked_to_a_line_but_is_not_on_a_surface_border v
        (okOr (brepLineNotOnSurfaceBorder m v)) }

variable (hb : ∀ s, Active m .surface s → ∀ e ∈ m.embeddings s, e.type = .block)

include wf hb in
theorem brepSurfacesVertex_step {v : Index} (hv : v < m.nbUniqueVertices)
    (r : BRepSurfacesTopologyInspectionResult) :
    brepSurfacesVertex m r v = .ok (brepSurfacesStep m r v) := by
  unfold brepSurfacesVertex brepSurfacesStep
  conv =>
    lhs
    rw [(embeddedSurface_answers wf hv hb).eq, (multipleSurfaces_answers wf hv).eq, (relatedLine_answers wf hv).eq]
  rfl

include wf aw hb in
theorem brepInspectSurfaces_spec
    (hsz : ∀ c ∈ m.components .surface, c.nbVertices < 2 ^ 32 ∧ c.nbElements < 2 ^ 32) :
    ∃ r, brepInspectSurfaces m = .ok r ∧ BRepSurfacesComponents m r ∧
      Exactly (· < ·) (fun v => v < m.nbUniqueVertices ∧ InvalidEmbeddedSurface m v)
        r.unique_vertices_linked_to_a_surface_with_invalid_embbedings.issues ∧
      Exactly (· < ·) (fun v => v < m.nbUniqueVertices ∧ InvalidMultipleSurfaces m v)
        r.unique_vertices_linked_to_several_and_invalid_surfaces.issues ∧
      Exactly (· < ·) (fun v => v < m.nbUniqueVertices ∧ RelatedLineNotOnBorder m v)
        r.unique_vertices_linked_to_a_line_but_is_not_on_a_surface_border.issues := by
  obtain ⟨r0, hr0, hcomp, e1, e2, e3⟩ := brepSurfacesComponents_fold wf aw hsz
  unfold brepInspectSurfaces
  simp only []
  rw [hr0]
  refine ⟨_, foldlM_step _ (brepSurfacesStep m) _ (fun r x hx =>
    brepSurfacesVertex_step wf hb (List.mem_range.1 hx) r) _, ⟨?_, ?_, ?_⟩, ?_, ?_, ?_⟩
  · rw [foldl_keeps (brepSurfacesStep m) (fun r => r.surfaces_not_meshed) (fun _ _ => rfl)]; exact hcomp.1
  · rw [foldl_keeps (brepSurfacesStep m) (fun r => r.surfaces_not_linked_to_a_unique_vertex) (fun _ _ => rfl)]
    exact hcomp.2.1
  · rw [foldl_keeps (brepSurfacesStep m) (fun r => r.surface_polygons_with_wrong_component_facets_around)
      (fun _ _ => rfl)]
    exact hcomp.2.2
  · exact exactly_check _ (fun r : BRepSurfacesTopologyInspectionResult =>
      r.unique_vertices_linked_to_a_surface_with_invalid_embbedings) _ _ _ (fun _ _ => rfl)
      (fun v hv => embeddedSurface_answers wf hv hb) _ e1
  · exact exactly_check _ (fun r : BRepSurfacesTopologyInspectionResult =>
      r.unique_vertices_linked_to_several_and_invalid_surfaces) _ _ _ (fun _ _ => rfl)
      (fun v hv => multipleSurfaces_answers wf hv) _ e2
  · exact exactly_check _ (fun r : BRepSurfacesTopologyInspectionResult =>
      r.unique_vertices_linked_to_a_line_but_is_not_on_a_surface_border) _ _ _ (fun _ _ => rfl)
      (fun v hv => relatedLine_answers wf hv) _ e3

include wf hb in
theorem brepSurfaces_decides {v : Index} (hv : v < m.nbUniqueVertices) :
    Decides (brepSurfacesTopologyIsValid m v)
      ((∃ id, ActiveAt m v .surface id) → ¬ InvalidEmbeddedSurface m v ∧ ¬ InvalidMultipleSurfaces m v ∧
        ¬ RelatedLineNotOnBorder m v) := by
  have key := decides_guard (hasActive_decides wf hv .surface) (decides_chain (embeddedSurface_answers wf hv hb)
    (decides_chain (multipleSurfaces_answers wf hv) (decides_chain (relatedLine_answers wf hv) decides_true)))
  refine Decides.congr (e := brepSurfacesTopologyIsValid m v) key ?_
  simp only [and_true]

end Inspector
