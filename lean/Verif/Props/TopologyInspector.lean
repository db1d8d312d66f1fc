import Verif.Props.TopologyBlocks
import Verif.Props.TopologyLines
import Verif.Proofs.TopologyInspector
/-
Properties of inspect_section_topology, inspect_brep_topology, section_topology_is_valid and brep_topology_is_valid.
-/
namespace Inspector
open Spec

/-! ### C38 -/

/-- **C38** (Section): whatever the schedule and the failures of the other inspections, the three lists on links are
exact, and the boolean is true exactly when they are empty. -/
theorem C38_section_links (m : TopologyModel) (ui : UniqueIds m) (choose : List Failure → Failure)
    (schedule : List Nat) (r : SectionTopologyInspectionResult)
    (h : inspectSectionTopology m choose schedule = .ok r) :
    LinkLists m sectionKinds r.unique_vertices_not_linked_to_any_component.issues
        r.unique_vertices_linked_to_inexistant_cmv.issues r.unique_vertices_nonbijectively_linked_to_cmv.issues ∧
      Decides (sectionBijectivelyLinked m)
        (r.unique_vertices_not_linked_to_any_component.issues = [] ∧
          r.unique_vertices_linked_to_inexistant_cmv.issues = [] ∧
          r.unique_vertices_nonbijectively_linked_to_cmv.issues = []) := by
  have key : LinkLists m sectionKinds r.unique_vertices_not_linked_to_any_component.issues
        r.unique_vertices_linked_to_inexistant_cmv.issues r.unique_vertices_nonbijectively_linked_to_cmv.issues := by
    unfold inspectSectionTopology at h
    rw [sectionInvoke] at h
    split at h
    · obtain ⟨r', hr', _, _, _, hl⟩ := sectionAddLinks_spec ui
        { corners := valueOr {} (sectionInspectCorners m), lines := valueOr {} (sectionInspectLines m),
          surfaces := valueOr {} (sectionInspectSurfaces m) } rfl rfl rfl
      have h' : sectionAddUniqueVerticesWithWrongLink m _ = .ok r := h
      rw [hr'] at h'
      cases h'
      exact hl
    · cases h
  refine ⟨key, ?_⟩
  obtain ⟨b, hb, hp⟩ := sectionBijective_decides ui
  exact ⟨b, hb, hp.trans (linkLists_nil key).symm⟩

/-- **C38** (BRep): whatever the schedule and the failures of the other inspections, the three lists on links are
exact, and the boolean is true exactly when they are empty. -/
theorem C38_brep_links (m : TopologyModel) (ui : UniqueIds m) (o : BlocksOracle) (fuel : Nat)
    (choose : List Failure → Failure) (schedule : List Nat) (r : BRepTopologyInspectionResult)
    (h : inspectBRepTopology m o fuel choose schedule = .ok r) :
    LinkLists m brepKinds r.unique_vertices_not_linked_to_any_component.issues
        r.unique_vertices_linked_to_inexistant_cmv.issues r.unique_vertices_nonbijectively_linked_to_cmv.issues ∧
      Decides (brepBijectivelyLinked m)
        (r.unique_vertices_not_linked_to_any_component.issues = [] ∧
          r.unique_vertices_linked_to_inexistant_cmv.issues = [] ∧
          r.unique_vertices_nonbijectively_linked_to_cmv.issues = []) := by
  have key : LinkLists m brepKinds r.unique_vertices_not_linked_to_any_component.issues
        r.unique_vertices_linked_to_inexistant_cmv.issues r.unique_vertices_nonbijectively_linked_to_cmv.issues := by
    unfold inspectBRepTopology at h
    rw [brepInvoke] at h
    split at h
    · obtain ⟨r', hr', _, _, _, _, hl⟩ := brepAddLinks_spec ui
        { corners := valueOr {} (brepInspectCorners m), lines := valueOr {} (brepInspectLines m),
          surfaces := valueOr {} (brepInspectSurfaces m), blocks := valueOr {} (brepInspectBlocks m o fuel) } rfl rfl rfl
      have h' : brepAddUniqueVerticesWithWrongLink m _ = .ok r := h
      rw [hr'] at h'
      cases h'
      exact hl
    · cases h
  refine ⟨key, ?_⟩
  obtain ⟨b, hb, hp⟩ := brepBijective_decides ui
  exact ⟨b, hb, hp.trans (linkLists_nil key).symm⟩

/-- A parallel_invoke which rethrows the first exception. -/
def rethrowFirst : List Failure → Failure := fun failures => failures.headD .otherException

/-- Unique vertex 0 has no link; unique vertex 1 has three links: two to inexistent vertices (vertex 5 of a line of
two vertices, a component which does not exist), one right; unique vertex 2 has a link to a vertex of unique
vertex 1. -/
def wrongLinks : TopologyData where
  lines := [⟨3, true, 2, 1⟩]
  blocks := [⟨7, false, 4, 1⟩]
  vertices := [[], [⟨⟨.line, 3⟩, 5⟩, ⟨⟨.line, 3⟩, 0⟩, ⟨⟨.corner, 8⟩, 0⟩], [⟨⟨.line, 3⟩, 0⟩],
    [⟨⟨.line, 3⟩, 1⟩, ⟨⟨.block, 7⟩, 0⟩]]

/-- `UniqueIds` on data. -/
theorem uniqueIds_of_check (d : TopologyData)
    (h : ((d.corners ++ d.lines ++ d.surfaces ++ d.blocks).map TopologyComponent.id).Nodup) :
    UniqueIds d.toModel := by
  have aux : ∀ kind ∈ brepKinds, ∀ kind' ∈ brepKinds, ∀ c ∈ d.toModel.components kind,
      ∀ c' ∈ d.toModel.components kind', c.id = c'.id → kind = kind' ∧ c = c' := by
    simp only [List.map_append, List.nodup_append, List.mem_append, List.mem_map] at h
    obtain ⟨⟨⟨h1, h2, h12⟩, h3, h123⟩, h4, h1234⟩ := h
    have inj : ∀ l : List TopologyComponent, (l.map TopologyComponent.id).Nodup → ∀ c ∈ l, ∀ c' ∈ l, c.id = c'.id →
        c = c' := fun l hl c hc c' hc' he => List.inj_on_of_nodup_map hl hc hc' he
    intro kind hk kind' hk' c hc c' hc' he
    simp only [brepKinds, List.mem_cons, List.not_mem_nil, or_false] at hk hk'
    rcases hk with rfl | rfl | rfl | rfl <;> rcases hk' with rfl | rfl | rfl | rfl
    · exact ⟨rfl, inj _ h1 c hc c' hc' he⟩
    · exact absurd he (h12 _ ⟨c, hc, rfl⟩ _ ⟨c', hc', rfl⟩)
    · exact absurd he (h123 _ (.inl ⟨c, hc, rfl⟩) _ ⟨c', hc', rfl⟩)
    · exact absurd he (h1234 _ (.inl (.inl ⟨c, hc, rfl⟩)) _ ⟨c', hc', rfl⟩)
    · exact absurd he.symm (h12 _ ⟨c', hc', rfl⟩ _ ⟨c, hc, rfl⟩)
    · exact ⟨rfl, inj _ h2 c hc c' hc' he⟩
    · exact absurd he (h123 _ (.inr ⟨c, hc, rfl⟩) _ ⟨c', hc', rfl⟩)
    · exact absurd he (h1234 _ (.inl (.inr ⟨c, hc, rfl⟩)) _ ⟨c', hc', rfl⟩)
    · exact absurd he.symm (h123 _ (.inl ⟨c', hc', rfl⟩) _ ⟨c, hc, rfl⟩)
    · exact absurd he.symm (h123 _ (.inr ⟨c', hc', rfl⟩) _ ⟨c, hc, rfl⟩)
    · exact ⟨rfl, inj _ h3 c hc c' hc' he⟩
    · exact absurd he (h1234 _ (.inr ⟨c, hc, rfl⟩) _ ⟨c', hc', rfl⟩)
    · exact absurd he.symm (h1234 _ (.inl (.inl ⟨c', hc', rfl⟩)) _ ⟨c, hc, rfl⟩)
    · exact absurd he.symm (h1234 _ (.inl (.inr ⟨c', hc', rfl⟩)) _ ⟨c, hc, rfl⟩)
    · exact absurd he.symm (h1234 _ (.inr ⟨c', hc', rfl⟩) _ ⟨c, hc, rfl⟩)
    · exact ⟨rfl, inj _ h4 c hc c' hc' he⟩
  exact aux

example : UniqueIds wrongLinks.toModel := uniqueIds_of_check _ (by decide)

/-- In a Section, a link to a block vertex is a link to an inexistent vertex. -/
example : (inspectSectionTopology wrongLinks.toModel rethrowFirst []).toOption.map (fun r =>
    (r.unique_vertices_not_linked_to_any_component.issues, r.unique_vertices_linked_to_inexistant_cmv.issues,
      r.unique_vertices_nonbijectively_linked_to_cmv.issues)) = some ([0], [1, 1, 3], [2]) := by rfl

/-- With no model boundary. -/
def noModelBoundary : BlocksOracle := { exampleOracle with modelBoundaries := [] }

example : (inspectBRepTopology wrongLinks.toModel noModelBoundary 20 rethrowFirst []).toOption.map (fun r =>
    (r.unique_vertices_not_linked_to_any_component.issues, r.unique_vertices_linked_to_inexistant_cmv.issues,
      r.unique_vertices_nonbijectively_linked_to_cmv.issues)) = some ([0], [1, 1], [2]) := by rfl

/-! ### C54 -/

/-- The line 3 is embedded in block 7, the vertices of which are linked to other unique vertices. -/
def lineInBlockBRep : TopologyData where
  lines := [⟨3, true, 2, 1⟩]
  blocks := [⟨7, true, 4, 1⟩]
  vertices := [[⟨⟨.line, 3⟩, 0⟩], [⟨⟨.line, 3⟩, 1⟩], [⟨⟨.block, 7⟩, 0⟩], [⟨⟨.block, 7⟩, 1⟩], [⟨⟨.block, 7⟩, 2⟩],
    [⟨⟨.block, 7⟩, 3⟩]]
  internal := [(⟨.line, 3⟩, ⟨.block, 7⟩)]

/-- **C54 is false**: a unique vertex is on a line embedded in a block which is not at this vertex;
`inspect_lines_topology` raises an exception (to make its message it looks for a Surface with the uuid of the Block),
and `inspect_brep_topology`, which ignores it, reports no issue at all, as for a valid model. -/
theorem C54_false : ∃ (m : TopologyModel) (o : BlocksOracle), WellFormed m ∧ UniqueIds m ∧ CoherentLines m ∧
    BRepInvalidEmbeddedLine m 0 ∧ brepInspectLines m = .error .openGeodeException ∧
    ∀ fuel ≥ 10, ∀ choose, (∀ failures ≠ [], choose failures ∈ failures) → ∀ schedule, ∃ r,
      inspectBRepTopology m o fuel choose schedule = .ok r ∧ r.nbIssues = 0 ∧ r.lines = {} := by
  refine ⟨lineInBlockBRep.toModel, noModelBoundary, lineInBlockBRep.wf_of_check (by decide),
    uniqueIds_of_check _ (by decide), lineInBlockBRep.coherent_of_check (by decide), ?_, by rfl, ?_⟩
  · refine ⟨3, ⟨⟨⟨⟨.line, 3⟩, 0⟩, by decide, by rfl⟩, ⟨⟨3, true, 2, 1⟩, by decide, rfl, rfl⟩⟩, ⟨.block, 7⟩, by decide,
      .inr ⟨?_, ?_⟩⟩
    · intro _ c hc
      have : c = ⟨7, true, 4, 1⟩ := by simpa [lineInBlockBRep, TopologyData.toModel, TopologyData.components] using hc
      subst this
      simp
    · rintro ⟨cmv, hc, hid⟩
      have : cmv = ⟨⟨.line, 3⟩, 0⟩ := by simpa [lineInBlockBRep, TopologyData.toModel] using hc
      subst this
      cases hid
  · intro fuel hf choose hch schedule
    obtain ⟨k, rfl⟩ := Nat.exists_eq_add_of_le' hf
    have hchoose : choose [.openGeodeException] = .openGeodeException := by
      simpa using hch [.openGeodeException] (by simp)
    have e : uncaught choose (failureOf (brepInspectCorners lineInBlockBRep.toModel) ++
        failureOf (brepInspectLines lineInBlockBRep.toModel) ++ failureOf (brepInspectSurfaces lineInBlockBRep.toModel) ++
        failureOf (brepInspectBlocks lineInBlockBRep.toModel noModelBoundary (k + 10))) = none := by
      have : failureOf (brepInspectCorners lineInBlockBRep.toModel) ++
        failureOf (brepInspectLines lineInBlockBRep.toModel) ++ failureOf (brepInspectSurfaces lineInBlockBRep.toModel) ++
        failureOf (brepInspectBlocks lineInBlockBRep.toModel noModelBoundary (k + 10)) = [.openGeodeException] := by rfl
      rw [this]
      simp [uncaught, thrownBy, hchoose]
    unfold inspectBRepTopology
    rw [brepInvoke, e]
    exact ⟨_, rfl, by rfl, rfl⟩

/-- **C54** (Section), what holds: when `inspect_section_topology` returns, each of its parts is the result of its
inspection, or is empty if this inspection raised an exception: an exception has no effect on the other parts; and it
returns if the inspections raise only OpenGeode exceptions.  Missing: nothing tells that there was an exception. -/
theorem C54_section_partial (m : TopologyModel) (ui : UniqueIds m) (choose : List Failure → Failure)
    (hch : ∀ failures ≠ [], choose failures ∈ failures) (schedule : List Nat) :
    (∀ r, inspectSectionTopology m choose schedule = .ok r →
      ResultOrEmpty (sectionInspectCorners m) {} r.corners ∧
      ResultOrEmpty (sectionInspectLines m) {} r.lines ∧
      ResultOrEmpty (sectionInspectSurfaces m) {} r.surfaces) ∧
    ((∀ f, sectionInspectCorners m = .error f ∨ sectionInspectLines m = .error f ∨
        sectionInspectSurfaces m = .error f → f = .openGeodeException) →
      ∃ r, inspectSectionTopology m choose schedule = .ok r) := by
  obtain ⟨r', hr', h1, h2, h3, _⟩ := sectionAddLinks_spec ui
    { corners := valueOr {} (sectionInspectCorners m), lines := valueOr {} (sectionInspectLines m),
      surfaces := valueOr {} (sectionInspectSurfaces m) } rfl rfl rfl
  constructor
  · intro r h
    unfold inspectSectionTopology at h
    rw [sectionInvoke] at h
    split at h
    · have h' : sectionAddUniqueVerticesWithWrongLink m _ = .ok r := h
      rw [hr'] at h'
      cases h'
      exact ⟨resultOrEmpty h1, resultOrEmpty h2, resultOrEmpty h3⟩
    · cases h
  · intro hf
    refine ⟨r', ?_⟩
    unfold inspectSectionTopology
    rw [sectionInvoke, uncaught_none hch]
    · exact hr'
    · intro f hm
      simp only [List.mem_append] at hm
      refine hf f ?_
      rcases hm with (hm | hm) | hm
      · exact .inl (mem_failureOf.1 hm)
      · exact .inr (.inl (mem_failureOf.1 hm))
      · exact .inr (.inr (mem_failureOf.1 hm))

/-- **C54** (BRep), what holds: the same for `inspect_brep_topology`. -/
theorem C54_brep_partial (m : TopologyModel) (ui : UniqueIds m) (o : BlocksOracle) (fuel : Nat)
    (choose : List Failure → Failure) (hch : ∀ failures ≠ [], choose failures ∈ failures) (schedule : List Nat) :
    (∀ r, inspectBRepTopology m o fuel choose schedule = .ok r →
      ResultOrEmpty (brepInspectCorners m) {} r.corners ∧
      ResultOrEmpty (brepInspectLines m) {} r.lines ∧
      ResultOrEmpty (brepInspectSurfaces m) {} r.surfaces ∧
      ResultOrEmpty (brepInspectBlocks m o fuel) {} r.blocks) ∧
    ((∀ f, brepInspectCorners m = .error f ∨ brepInspectLines m = .error f ∨ brepInspectSurfaces m = .error f ∨
        brepInspectBlocks m o fuel = .error f → f = .openGeodeException) →
      ∃ r, inspectBRepTopology m o fuel choose schedule = .ok r) := by
  obtain ⟨r', hr', h1, h2, h3, h4, _⟩ := brepAddLinks_spec ui
    { corners := valueOr {} (brepInspectCorners m), lines := valueOr {} (brepInspectLines m),
      surfaces := valueOr {} (brepInspectSurfaces m), blocks := valueOr {} (brepInspectBlocks m o fuel) } rfl rfl rfl
  constructor
  · intro r h
    unfold inspectBRepTopology at h
    rw [brepInvoke] at h
    split at h
    · have h' : brepAddUniqueVerticesWithWrongLink m _ = .ok r := h
      rw [hr'] at h'
      cases h'
      exact ⟨resultOrEmpty h1, resultOrEmpty h2, resultOrEmpty h3, resultOrEmpty h4⟩
    · cases h
  · intro hf
    refine ⟨r', ?_⟩
    unfold inspectBRepTopology
    rw [brepInvoke, uncaught_none hch]
    · exact hr'
    · intro f hm
      simp only [List.mem_append] at hm
      refine hf f ?_
      rcases hm with ((hm | hm) | hm) | hm
      · exact .inl (mem_failureOf.1 hm)
      · exact .inr (.inl (mem_failureOf.1 hm))
      · exact .inr (.inr (.inl (mem_failureOf.1 hm)))
      · exact .inr (.inr (.inr (mem_failureOf.1 hm)))

example : (∀ failures ≠ [], rethrowFirst failures ∈ failures) ∧ UniqueIds lineInBlockBRep.toModel :=
  ⟨by intro l h; cases l with
    | nil => exact absurd rfl h
    | cons x l => simp [rethrowFirst], uniqueIds_of_check _ (by decide)⟩

/-! ### C76 -/

/-- **C76** (Section): `section_topology_is_valid` succeeds, and is true exactly when the topology is valid. -/
theorem C76_section_valid (m : TopologyModel) (h : RelationsWellFormed m)
    (hs : ∀ id, Active m .line id → ∀ e ∈ m.embeddings id, e.type = .surface) :
    Decides (sectionTopologyIsValid m) (SectionValid m) :=
  section_valid_decides h hs

/-- **C76** (BRep): when `brep_topology_is_valid` answers, the answer is true exactly when the topology is valid; it
answers unless a line has a wrong embedding in a block (see C78), and in that case the topology is not valid. -/
theorem C76_brep_valid (m : TopologyModel) (h : RelationsWellFormed m) (aw : AroundWellFormed m)
    (hb : ∀ s, Active m .surface s → ∀ e ∈ m.embeddings s, e.type = .block)
    (hcount : ∀ v < m.nbUniqueVertices, ∀ b, At m v .block b → CountsFit m v b) :
    (¬ LinesUnreadable m → Decides (brepTopologyIsValid m) (BRepValid m)) ∧
    (∀ b, brepTopologyIsValid m = .ok b → (b = true ↔ BRepValid m)) ∧
    (LinesUnreadable m → ¬ BRepValid m) := by
  refine ⟨fun hs => brep_valid_decides h aw hs hb hcount, brep_valid_if h aw hb hcount, ?_⟩
  rintro ⟨v, hv, hu⟩ hval
  exact (hval.2.2.2 v hv).lines.1 (unreadable_wrong hu)

/-- A Section made of one triangle: corners 1 to 3, lines 11 to 13, surface 21. -/
def triangleSection : TopologyData where
  corners := [⟨1, true, 1, 0⟩, ⟨2, true, 1, 0⟩, ⟨3, true, 1, 0⟩]
  lines := [⟨11, true, 2, 1⟩, ⟨12, true, 2, 1⟩, ⟨13, true, 2, 1⟩]
  surfaces := [⟨21, true, 3, 1⟩]
  vertices := [
    [⟨⟨.corner, 1⟩, 0⟩, ⟨⟨.line, 11⟩, 0⟩, ⟨⟨.line, 13⟩, 1⟩, ⟨⟨.surface, 21⟩, 0⟩],
    [⟨⟨.corner, 2⟩, 0⟩, ⟨⟨.line, 12⟩, 0⟩, ⟨⟨.line, 11⟩, 1⟩, ⟨⟨.surface, 21⟩, 1⟩],
    [⟨⟨.corner, 3⟩, 0⟩, ⟨⟨.line, 13⟩, 0⟩, ⟨⟨.line, 12⟩, 1⟩, ⟨⟨.surface, 21⟩, 2⟩]]
  boundary := [(⟨.corner, 1⟩, ⟨.line, 11⟩), (⟨.corner, 2⟩, ⟨.line, 11⟩), (⟨.corner, 2⟩, ⟨.line, 12⟩),
    (⟨.corner, 3⟩, ⟨.line, 12⟩), (⟨.corner, 3⟩, ⟨.line, 13⟩), (⟨.corner, 1⟩, ⟨.line, 13⟩),
    (⟨.line, 11⟩, ⟨.surface, 21⟩), (⟨.line, 12⟩, ⟨.surface, 21⟩), (⟨.line, 13⟩, ⟨.surface, 21⟩)]
  border := [(21, 0), (21, 1), (21, 2)]

/-- A BRep made of one tetrahedron: corners 1 to 4, lines 11 to 16, surfaces 21 to 24, block 31. -/
def tetrahedronBRep : TopologyData where
  corners := [⟨1, true, 1, 0⟩, ⟨2, true, 1, 0⟩, ⟨3, true, 1, 0⟩, ⟨4, true, 1, 0⟩]
  lines := [⟨11, true, 2, 1⟩, ⟨12, true, 2, 1⟩, ⟨13, true, 2, 1⟩, ⟨14, true, 2, 1⟩, ⟨15, true, 2, 1⟩, ⟨16, true, 2, 1⟩]
  surfaces := [⟨21, true, 3, 1⟩, ⟨22, true, 3, 1⟩, ⟨23, true, 3, 1⟩, ⟨24, true, 3, 1⟩]
  blocks := [⟨31, true, 4, 1⟩]
  vertices := [
    [⟨⟨.corner, 1⟩, 0⟩, ⟨⟨.line, 11⟩, 0⟩, ⟨⟨.line, 12⟩, 0⟩, ⟨⟨.line, 13⟩, 0⟩, ⟨⟨.surface, 21⟩, 0⟩, ⟨⟨.surface, 22⟩, 0⟩, ⟨⟨.surface, 23⟩, 0⟩, ⟨⟨.block, 31⟩, 0⟩],
    [⟨⟨.corner, 2⟩, 0⟩, ⟨⟨.line, 11⟩, 1⟩, ⟨⟨.line, 14⟩, 0⟩, ⟨⟨.line, 15⟩, 0⟩, ⟨⟨.surface, 21⟩, 1⟩, ⟨⟨.surface, 22⟩, 1⟩, ⟨⟨.surface, 24⟩, 0⟩, ⟨⟨.block, 31⟩, 1⟩],
    [⟨⟨.corner, 3⟩, 0⟩, ⟨⟨.line, 12⟩, 1⟩, ⟨⟨.line, 14⟩, 1⟩, ⟨⟨.line, 16⟩, 0⟩, ⟨⟨.surface, 21⟩, 2⟩, ⟨⟨.surface, 23⟩, 1⟩, ⟨⟨.surface, 24⟩, 1⟩, ⟨⟨.block, 31⟩, 2⟩],
    [⟨⟨.corner, 4⟩, 0⟩, ⟨⟨.line, 13⟩, 1⟩, ⟨⟨.line, 15⟩, 1⟩, ⟨⟨.line, 16⟩, 1⟩, ⟨⟨.surface, 22⟩, 2⟩, ⟨⟨.surface, 23⟩, 2⟩, ⟨⟨.surface, 24⟩, 2⟩, ⟨⟨.block, 31⟩, 3⟩]]
  boundary := [
    (⟨.corner, 1⟩, ⟨.line, 11⟩), (⟨.corner, 2⟩, ⟨.line, 11⟩), (⟨.corner, 1⟩, ⟨.line, 12⟩),
    (⟨.corner, 3⟩, ⟨.line, 12⟩), (⟨.corner, 1⟩, ⟨.line, 13⟩), (⟨.corner, 4⟩, ⟨.line, 13⟩),
    (⟨.corner, 2⟩, ⟨.line, 14⟩), (⟨.corner, 3⟩, ⟨.line, 14⟩), (⟨.corner, 2⟩, ⟨.line, 15⟩),
    (⟨.corner, 4⟩, ⟨.line, 15⟩), (⟨.corner, 3⟩, ⟨.line, 16⟩), (⟨.corner, 4⟩, ⟨.line, 16⟩),
    (⟨.line, 11⟩, ⟨.surface, 21⟩), (⟨.line, 12⟩, ⟨.surface, 21⟩), (⟨.line, 14⟩, ⟨.surface, 21⟩),
    (⟨.line, 11⟩, ⟨.surface, 22⟩), (⟨.line, 13⟩, ⟨.surface, 22⟩), (⟨.line, 15⟩, ⟨.surface, 22⟩),
    (⟨.line, 12⟩, ⟨.surface, 23⟩), (⟨.line, 13⟩, ⟨.surface, 23⟩), (⟨.line, 16⟩, ⟨.surface, 23⟩),
    (⟨.line, 14⟩, ⟨.surface, 24⟩), (⟨.line, 15⟩, ⟨.surface, 24⟩), (⟨.line, 16⟩, ⟨.surface, 24⟩),
    (⟨.surface, 21⟩, ⟨.block, 31⟩), (⟨.surface, 22⟩, ⟨.block, 31⟩), (⟨.surface, 23⟩, ⟨.block, 31⟩),
    (⟨.surface, 24⟩, ⟨.block, 31⟩)]
  surfaceEdges := [
    ((11, 0), (21, 1)), ((11, 0), (22, 1)), ((12, 0), (21, 1)), ((12, 0), (23, 1)), ((13, 0), (22, 1)),
    ((13, 0), (23, 1)), ((14, 0), (21, 1)), ((14, 0), (24, 1)), ((15, 0), (22, 1)), ((15, 0), (24, 1)),
    ((16, 0), (23, 1)), ((16, 0), (24, 1))]
  blockEdges := [
    ((11, 0), (31, 1)), ((12, 0), (31, 1)), ((13, 0), (31, 1)), ((14, 0), (31, 1)), ((15, 0), (31, 1)),
    ((16, 0), (31, 1))]
  blockPolygons := [
    ((21, 0), (31, 1)), ((22, 0), (31, 1)), ((23, 0), (31, 1)), ((24, 0), (31, 1))]
  polygons := [
    ((21, 0), [0, 1, 2]), ((22, 0), [0, 1, 2]), ((23, 0), [0, 1, 2]), ((24, 0), [0, 1, 2])]
  border := [
    (21, 0), (21, 1), (21, 2), (22, 0), (22, 1), (22, 2), (23, 0), (23, 1), (23, 2), (24, 0), (24, 1), (24, 2)]

theorem relations_of_check (d : TopologyData) (h : d.wellFormed = true)
    (hn : ((d.corners ++ d.lines ++ d.surfaces ++ d.blocks).map TopologyComponent.id).Nodup) :
    RelationsWellFormed d.toModel :=
  have wf := d.wf_of_check h
  ⟨wf.ids, uniqueIds_of_check d hn, wf.embeddings, wf.incidences, wf.boundaries⟩

example : RelationsWellFormed triangleSection.toModel ∧ sectionTopologyIsValid triangleSection.toModel = .ok true :=
  ⟨relations_of_check _ (by decide) (by decide), rfl⟩

/-- No line is embedded. -/
example : ∀ id, ∀ e ∈ triangleSection.toModel.embeddings id, e.type = .surface := by
  intro id e he
  exact absurd (TopologyData.mem_select.1 he) (by simp [triangleSection])

example : RelationsWellFormed tetrahedronBRep.toModel ∧ AroundWellFormed tetrahedronBRep.toModel ∧
    (∀ v < tetrahedronBRep.toModel.nbUniqueVertices, ∀ b, At tetrahedronBRep.toModel v .block b →
      CountsFit tetrahedronBRep.toModel v b) ∧ (∀ id, tetrahedronBRep.toModel.embeddings id = []) ∧
    brepTopologyIsValid tetrahedronBRep.toModel = .ok true :=
  ⟨relations_of_check _ (by decide) (by decide), tetrahedronBRep.aw_of_check (by decide),
    counts_of_check _ (by decide), fun _ => rfl, by rfl⟩

/-- The corner 4 without boundary: not valid. -/
example : brepTopologyIsValid { tetrahedronBRep with boundary := tetrahedronBRep.boundary.drop 1 }.toModel =
    .ok false := by rfl

/-! ### C77 -/

/-- A triangle, and a corner without mesh. -/
def unmeshedCornerSection : TopologyData :=
  { triangleSection with corners := triangleSection.corners ++ [⟨9, true, 0, 0⟩] }

/-- A tetrahedron, and a corner without mesh. -/
def unmeshedCornerBRep : TopologyData :=
  { tetrahedronBRep with corners := tetrahedronBRep.corners ++ [⟨9, true, 0, 0⟩] }

/-- **C77 is false**, in both directions, for Sections and BReps: a model with an active corner without mesh is valid,
but this corner is reported; an empty model is not valid, but nothing is reported. -/
theorem C77_false :
    (∃ (m : TopologyModel) (r : SectionTopologyInspectionResult), RelationsWellFormed m ∧
      inspectSectionTopology m rethrowFirst [] = .ok r ∧ sectionTopologyIsValid m = .ok true ∧
      r.corners.corners_not_meshed.issues = [9]) ∧
    (∃ (m : TopologyModel) (r : SectionTopologyInspectionResult), RelationsWellFormed m ∧
      inspectSectionTopology m rethrowFirst [] = .ok r ∧ sectionTopologyIsValid m = .ok false ∧
      NoSectionTopologyIssue r) ∧
    (∃ m : TopologyModel, RelationsWellFormed m ∧ brepTopologyIsValid m = .ok true ∧
      ∀ fuel ≥ 20, ∃ r, inspectBRepTopology m noModelBoundary fuel rethrowFirst [] = .ok r ∧
        r.corners.corners_not_meshed.issues = [9]) ∧
    (∃ m : TopologyModel, RelationsWellFormed m ∧ brepTopologyIsValid m = .ok false ∧
      ∀ fuel ≥ 20, ∃ r, inspectBRepTopology m noModelBoundary fuel rethrowFirst [] = .ok r ∧
        NoBRepTopologyIssue r) := by
  refine ⟨⟨unmeshedCornerSection.toModel, _, relations_of_check _ (by decide) (by decide), rfl, by rfl, by rfl⟩,
    ⟨({} : TopologyData).toModel, _, relations_of_check _ (by decide) (by decide), rfl, by rfl, ?_⟩,
    ⟨unmeshedCornerBRep.toModel, relations_of_check _ (by decide) (by decide), by rfl, ?_⟩,
    ⟨({} : TopologyData).toModel, relations_of_check _ (by decide) (by decide), by rfl, ?_⟩⟩
  · exact ⟨by decide, by decide, by decide, by decide⟩
  · intro fuel hf
    obtain ⟨k, rfl⟩ := Nat.exists_eq_add_of_le' hf
    exact ⟨_, rfl, by rfl⟩
  · intro fuel _
    exact ⟨_, rfl, ⟨⟨rfl, rfl, rfl⟩, ⟨rfl, rfl, rfl, rfl, rfl, rfl⟩, ⟨rfl, rfl, rfl, rfl, rfl, rfl, rfl⟩,
      ⟨rfl, rfl, rfl, rfl, rfl, rfl⟩, ⟨rfl, rfl, rfl, rfl, rfl, rfl, rfl, rfl, rfl, rfl⟩⟩⟩

/-- **C77** (Section), no issue implies valid: if there is a unique vertex, and no active corner with one embedding and
several incidences (see C40), and nothing is reported, then the topology is valid.  Missing: these two cases. -/
theorem C77_section_no_issue_partial (m : TopologyModel) (h : RelationsWellFormed m)
    (hs : ∀ id, Active m .line id → ∀ e ∈ m.embeddings id, e.type = .surface)
    (hsz : ∀ kind ∈ sectionKinds, ∀ c ∈ m.components kind, c.nbVertices < 2 ^ 32) (hpos : 0 < m.nbUniqueVertices)
    (hcorner : ∀ v corner, ActiveAt m v .corner corner → (m.embeddings corner).length = 1 →
      (m.incidences corner).length ≤ 1)
    (choose : List Failure → Failure) (hch : ∀ failures ≠ [], choose failures ∈ failures) (schedule : List Nat)
    (r : SectionTopologyInspectionResult) (hr : inspectSectionTopology m choose schedule = .ok r)
    (hno : NoSectionTopologyIssue r) : sectionTopologyIsValid m = .ok true := by
  have hl := (C38_section_links m h.unique choose schedule r hr).1
  have hB := (linkLists_nil hl).1 hno.links
  have wf := wf_of_linked h hB
  obtain ⟨c, hc, c1, c2, c3, c4, c5, c6⟩ := sectionInspectCorners_spec wf (hsz .corner (by decide))
  obtain ⟨l, hlr, l1, l2, l3, l4, l5, l6⟩ := sectionInspectLines_spec wf hs (hsz .line (by decide))
  obtain ⟨s, hsr, s1, s2, s3, s4⟩ := sectionInspectSurfaces_spec wf (hsz .surface (by decide))
  obtain ⟨p1, p2, p3⟩ := (C54_section_partial m h.unique choose hch schedule).1 r hr
  have e1 := p1.1 c hc
  have e2 := p2.1 l hlr
  have e3 := p3.1 s hsr
  obtain ⟨b, hb, hp⟩ := C76_section_valid m h hs
  rw [hb, hp.2]
  obtain ⟨_, n1, n2, n3, n4, n5⟩ := hno.corners
  obtain ⟨_, o1, o2, o3, o4, o5⟩ := hno.lines
  obtain ⟨_, q1, q2, q3⟩ := hno.surfaces
  rw [e1] at n1 n2 n3 n4 n5
  rw [e2] at o1 o2 o3 o4 o5
  rw [e3] at q1 q2 q3
  refine ⟨hpos, ?_, hB, fun v hv => ⟨⟨?_, ?_, ?_, ?_, ?_⟩, ⟨?_, ?_, ?_, ?_⟩, fun _ => ⟨?_, ?_⟩⟩⟩
  · intro kind hk x hx ha _ w hw hn
    simp only [sectionKinds, List.mem_cons, List.not_mem_nil, or_false] at hk
    rcases hk with rfl | rfl | rfl
    · exact mapReports_nil c2 n1 x (mem_activeComponents.2 ⟨hx, ha⟩) w ⟨hw, hn⟩
    · exact mapReports_nil l2 o1 x (mem_activeComponents.2 ⟨hx, ha⟩) w ⟨hw, hn⟩
    · exact mapReports_nil s2 q1 x (mem_activeComponents.2 ⟨hx, ha⟩) w ⟨hw, hn⟩
  · exact fun x => exactly_nil c3 n2 v ⟨hv, x⟩
  · exact fun x => exactly_nil c4 n3 v ⟨hv, x⟩
  · exact fun x => exactly_nil c5 n4 v ⟨hv, x⟩
  · exact fun x => exactly_nil c6 n5 v ⟨hv, x⟩
  · rintro ⟨corner, ha, h1, h2⟩
    exact absurd h2 (Nat.not_lt.2 (hcorner v corner ha h1))
  · exact fun x => exactly_nil l3 o2 v ⟨hv, x⟩
  · exact fun x => exactly_nil l4 o3 v ⟨hv, x⟩
  · exact fun x => exactly_nil l5 o4 v ⟨hv, x⟩
  · exact fun x => exactly_nil l6 o5 v ⟨hv, x⟩
  · exact fun x => exactly_nil s3 q2 v ⟨hv, x⟩
  · exact fun x => exactly_nil s4 q3 v ⟨hv, x⟩

/-- **C77** (Section), valid implies no issue: if the active components are meshed, and all the surfaces are active
(see C69), then a valid topology has no issue.  Missing: components without mesh, surfaces which are not active. -/
theorem C77_section_valid_partial (m : TopologyModel) (h : RelationsWellFormed m)
    (hs : ∀ id, Active m .line id → ∀ e ∈ m.embeddings id, e.type = .surface)
    (hsz : ∀ kind ∈ sectionKinds, ∀ c ∈ m.components kind, c.nbVertices < 2 ^ 32)
    (hmesh : ∀ kind ∈ sectionKinds, ∀ c ∈ m.components kind, c.active = true → Meshed kind c)
    (hact : ∀ c ∈ m.components .surface, c.active = true)
    (hv : sectionTopologyIsValid m = .ok true) (choose : List Failure → Failure)
    (hch : ∀ failures ≠ [], choose failures ∈ failures) (schedule : List Nat) :
    ∃ r, inspectSectionTopology m choose schedule = .ok r ∧ NoSectionTopologyIssue r := by
  obtain ⟨b, hb, hp⟩ := C76_section_valid m h hs
  rw [hv] at hb
  cases hb
  obtain ⟨_, hL, hB, hV⟩ := hp.1 rfl
  have wf := wf_of_linked h hB
  obtain ⟨c, hc, c1, c2, c3, c4, c5, c6⟩ := sectionInspectCorners_spec wf (hsz .corner (by decide))
  obtain ⟨l, hlr, l1, l2, l3, l4, l5, l6⟩ := sectionInspectLines_spec wf hs (hsz .line (by decide))
  obtain ⟨s, hsr, s1, s2, s3, s4⟩ := sectionInspectSurfaces_spec wf (hsz .surface (by decide))
  have key := C54_section_partial m h.unique choose hch schedule
  obtain ⟨r, hr⟩ := key.2 (by
    rw [hc, hlr, hsr]
    rintro f (hf | hf | hf) <;> cases hf)
  obtain ⟨p1, p2, p3⟩ := key.1 r hr
  refine ⟨r, hr, (linkLists_nil (C38_section_links m h.unique choose schedule r hr).1).2 hB, ?_, ?_, ?_⟩
  · rw [p1.1 c hc]
    refine ⟨?_, mapReports_nil_of c2 ?_, exactly_nil_of c3 ?_, exactly_nil_of c4 ?_, exactly_nil_of c5 ?_,
      exactly_nil_of c6 ?_⟩
    · rw [c1]
      exact filterMap_nil_of fun x hx => by
        have := hmesh .corner (by decide) x (mem_activeComponents.1 hx).1 (mem_activeComponents.1 hx).2
        simpa using this.1
    · intro x hx w hw
      have := mem_activeComponents.1 hx
      exact hL .corner (by decide) x this.1 this.2 (hmesh .corner (by decide) x this.1 this.2) w hw.1 hw.2
    · exact fun v hx => (hV v hx.1).corner.1 hx.2
    · exact fun v hx => (hV v hx.1).corner.2.1 hx.2
    · exact fun v hx => (hV v hx.1).corner.2.2.1 hx.2
    · exact fun v hx => (hV v hx.1).corner.2.2.2.1 hx.2
  · rw [p2.1 l hlr]
    refine ⟨?_, mapReports_nil_of l2 ?_, exactly_nil_of l3 ?_, exactly_nil_of l4 ?_, exactly_nil_of l5 ?_,
      exactly_nil_of l6 ?_⟩
    · rw [l1]
      exact filterMap_nil_of fun x hx => by
        have := hmesh .line (by decide) x (mem_activeComponents.1 hx).1 (mem_activeComponents.1 hx).2
        simpa using ⟨this.1, this.2 (by decide)⟩
    · intro x hx w hw
      have := mem_activeComponents.1 hx
      exact hL .line (by decide) x this.1 this.2 (hmesh .line (by decide) x this.1 this.2) w hw.1 hw.2
    · exact fun v hx => (hV v hx.1).lines.1 hx.2
    · exact fun v hx => (hV v hx.1).lines.2.1 hx.2
    · exact fun v hx => (hV v hx.1).lines.2.2.1 hx.2
    · exact fun v hx => (hV v hx.1).lines.2.2.2 hx.2
  · rw [p3.1 s hsr]
    refine ⟨?_, mapReports_nil_of s2 ?_, exactly_nil_of s3 ?_, exactly_nil_of s4 ?_⟩
    · rw [s1]
      exact filterMap_nil_of fun x hx => by
        have := hmesh .surface (by decide) x (mem_activeComponents.1 hx).1 (mem_activeComponents.1 hx).2
        simpa using ⟨this.1, this.2 (by decide)⟩
    · intro x hx w hw
      have := mem_activeComponents.1 hx
      exact hL .surface (by decide) x this.1 this.2 (hmesh .surface (by decide) x this.1 this.2) w hw.1 hw.2
    · intro v hx
      refine ((hV v hx.1).surfaces ?_).1 hx.2
      obtain ⟨s1, _, _, hat, _⟩ := hx.2
      obtain ⟨x, hx', hid⟩ := has_of_at wf hx.1 hat
      exact ⟨s1, hat, x, hx', hid, hact x hx'⟩
    · intro v hx
      refine ((hV v hx.1).surfaces ?_).2 hx.2
      obtain ⟨_, _, cmv, hcm, hac, _⟩ := hx.2
      exact ⟨cmv.component_id.id, ⟨cmv, hcm, by rw [← hac.1]⟩, hac.2⟩

example : (∀ kind ∈ sectionKinds, ∀ c ∈ triangleSection.toModel.components kind, c.nbVertices < 2 ^ 32) ∧
    (∀ c ∈ triangleSection.toModel.components .surface, c.active = true) ∧
    (∀ kind ∈ sectionKinds, ∀ c ∈ triangleSection.toModel.components kind, c.active = true →
      c.nbVertices ≠ 0 ∧ (kind ≠ .corner → c.nbElements ≠ 0)) := ⟨by decide, by decide, by decide⟩

/-- **C77** (BRep), no issue implies valid: if there is a unique vertex and an active block, the inspection of lines does
not fail (see C54), no embedded active corner has several incidences (see C41), and nothing is reported, then the
topology is valid.  Missing: these cases, and valid implies no issue (false: C46, C69). -/
theorem C77_brep_no_issue_partial (m : TopologyModel) (h : RelationsWellFormed m) (aw : AroundWellFormed m)
    (coh : CoherentLines m)
    (hb : ∀ s, Active m .surface s → ∀ e ∈ m.embeddings s, e.type = .block)
    (hsz : ∀ kind ∈ brepKinds, ∀ c ∈ m.components kind, c.nbVertices < 2 ^ 32 ∧ c.nbElements < 2 ^ 32)
    (hcount : ∀ v < m.nbUniqueVertices, ∀ b, At m v .block b → CountsFit m v b)
    (hpos : 0 < m.nbUniqueVertices) (hact : ∃ c ∈ m.components .block, c.active = true)
    (hcorner : ∀ v corner, ActiveAt m v .corner corner → m.embeddings corner ≠ [] →
      (m.incidences corner).length ≤ 1)
    (o : BlocksOracle) (hf : EdgeFinder o.edgeFromVertices) (hg : RaisesOpenGeode o.geometry)
    (hrays : RaysAnswer m o.isInsideBlock)
    (hmb : o.modelBoundaries = [] ∨ o.modelBoundaries.flatten ≠ []) (hlines : ∃ l, brepInspectLines m = .ok l)
    (choose : List Failure → Failure) (hch : ∀ failures ≠ [], choose failures ∈ failures) (schedule : List Nat) :
    ∃ N, ∀ fuel ≥ N, ∀ r, inspectBRepTopology m o fuel choose schedule = .ok r → NoBRepTopologyIssue r →
      brepTopologyIsValid m = .ok true := by
  by_cases hB : BijectivelyLinked m brepKinds
  swap
  · refine ⟨0, fun fuel _ r hr hno => ?_⟩
    exact absurd ((linkLists_nil (C38_brep_links m h.unique o fuel choose schedule r hr).1).1 hno.links) hB
  have wf := wf_of_linked h hB
  obtain ⟨c, hc, c1, c2, c3, c4, c5, c6⟩ := brepInspectCorners_spec wf (fun x hx => (hsz .corner (by decide) x hx).1)
  obtain ⟨l, hlr⟩ := hlines
  obtain ⟨⟨_, l2, _⟩, l3, l4, l5, l6⟩ := brepInspectLines_exact wf aw (hsz .line (by decide)) hlr
  obtain ⟨s, hsr, ⟨_, s2, _⟩, s3, s4, s5⟩ := brepInspectSurfaces_spec wf aw hb (hsz .surface (by decide))
  obtain ⟨k, N, hkr, hrep⟩ := C75_block_reports m wf coh o hf hg hrays hmb (fun x hx => (hsz .block (by decide) x hx).1)
    hcount hact
  refine ⟨N, fun fuel hfuel r hr hno => ?_⟩
  obtain ⟨p1, p2, p3, p4⟩ := (C54_brep_partial m h.unique o fuel choose hch schedule).1 r hr
  have e1 := p1.1 c hc
  have e2 := p2.1 l hlr
  have e3 := p3.1 s hsr
  have e4 := p4.1 k (hkr fuel hfuel)
  have hs : ¬ LinesUnreadable m := by
    rintro ⟨v, hv, hu⟩
    obtain ⟨⟨o, ho⟩, _⟩ := (brepInspectLines_ok_iff wf aw (hsz .line (by decide))).1 ⟨l, hlr⟩ v hv
    rw [(brepInvalidEmbeddedLine_error wf hv _).2 ⟨rfl, hu⟩] at ho
    cases ho
  obtain ⟨b, hb, hp⟩ := (C76_brep_valid m h aw hb hcount).1 hs
  rw [hb, hp.2]
  obtain ⟨_, n1, n2, n3, n4, n5⟩ := hno.corners
  obtain ⟨_, o1, _, o2, o3, o4, o5⟩ := hno.lines
  obtain ⟨_, q1, _, q2, q3, q4⟩ := hno.surfaces
  obtain ⟨_, _, u1, _, _, u2, u3, _⟩ := hno.blocks
  rw [e1] at n1 n2 n3 n4 n5
  rw [e2] at o1 o2 o3 o4 o5
  rw [e3] at q1 q2 q3 q4
  rw [e4] at u1 u2 u3
  refine ⟨hpos, ?_, hB, fun v hv => ⟨⟨?_, ?_, ?_, ?_, ?_⟩, ⟨?_, ?_, ?_, ?_⟩, fun _ => ⟨?_, ?_, ?_⟩, ?_, ?_⟩⟩
  · intro kind hk x hx ha hm w hw hn
    simp only [brepKinds, List.mem_cons, List.not_mem_nil, or_false] at hk
    rcases hk with rfl | rfl | rfl | rfl
    · exact mapReports_nil c2 n1 x (mem_activeComponents.2 ⟨hx, ha⟩) w ⟨hw, hn⟩
    · exact mapReports_nil l2 o1 x (mem_activeComponents.2 ⟨hx, ha⟩) w ⟨hw, hn⟩
    · exact mapReports_nil s2 q1 x (mem_activeComponents.2 ⟨hx, ha⟩) w ⟨hw, hn⟩
    · refine mapReports_nil hrep.notLinked u1 x ?_ w ⟨hw, hn⟩
      rw [List.mem_filter, decide_eq_true_eq]
      exact ⟨mem_activeComponents.2 ⟨hx, ha⟩, hm.1, hm.2 (by decide)⟩
  · exact fun x => exactly_nil c3 n2 v ⟨hv, x⟩
  · exact fun x => exactly_nil c4 n3 v ⟨hv, x⟩
  · exact fun x => exactly_nil c5 n4 v ⟨hv, x⟩
  · exact fun x => exactly_nil c6 n5 v ⟨hv, x⟩
  · rintro ⟨corner, ha, h1, h2⟩
    exact absurd h2 (Nat.not_lt.2 (hcorner v corner ha h1))
  · exact fun x => exactly_nil l3 o2 v ⟨hv, x⟩
  · exact fun x => exactly_nil l5 o4 v ⟨hv, x⟩
  · exact fun x => exactly_nil l4 o3 v ⟨hv, x⟩
  · exact fun x => exactly_nil l6 o5 v ⟨hv, x⟩
  · exact fun x => exactly_nil s3 q2 v ⟨hv, x⟩
  · exact fun x => exactly_nil s4 q3 v ⟨hv, x⟩
  · exact fun x => exactly_nil s5 q4 v ⟨hv, x⟩
  · exact fun x => exactly_nil hrep.twoBlocks u2 v ⟨hv, x⟩
  · exact fun x => exactly_nil hrep.count u3 v ⟨hv, x⟩

/-- The tetrahedron has no issue: the hypotheses of the theorem are met. -/
example : ∃ r, inspectBRepTopology tetrahedronBRep.toModel noModelBoundary 20 rethrowFirst [] = .ok r ∧
    NoBRepTopologyIssue r :=
  ⟨_, rfl, ⟨by rfl, by rfl, by rfl⟩, ⟨by rfl, by rfl, by rfl, by rfl, by rfl, by rfl⟩,
    ⟨by rfl, by rfl, by rfl, by rfl, by rfl, by rfl, by rfl⟩, ⟨by rfl, by rfl, by rfl, by rfl, by rfl, by rfl⟩,
    ⟨by rfl, by rfl, by rfl, by rfl, by rfl, by rfl, by rfl, by rfl, by rfl, by rfl⟩⟩

example : (∃ l, brepInspectLines tetrahedronBRep.toModel = .ok l) ∧
    (∃ c ∈ tetrahedronBRep.toModel.components .block, c.active = true) ∧ CoherentLines tetrahedronBRep.toModel :=
  ⟨⟨_, rfl⟩, ⟨⟨31, true, 4, 1⟩, by decide, rfl⟩, tetrahedronBRep.coherent_of_check (by decide)⟩

/-- The lists of the inspection of the topology of a BRep which are empty when the topology is valid (see
`C77_brep_valid_partial`). -/
structure NoCheckedBRepIssue (r : BRepTopologyInspectionResult) : Prop where
  links : r.unique_vertices_not_linked_to_any_component.issues = [] ∧
    r.unique_vertices_linked_to_inexistant_cmv.issues = [] ∧
    r.unique_vertices_nonbijectively_linked_to_cmv.issues = []
  corners : r.corners.corners_not_meshed.issues = [] ∧
    r.corners.corners_not_linked_to_a_unique_vertex.entries = [] ∧
    r.corners.unique_vertices_linked_to_multiple_corners.issues = [] ∧
    r.corners.unique_vertices_linked_to_multiply_embedded_corner.issues = [] ∧
    r.corners.unique_vertices_linked_to_not_internal_nor_boundary_corner.issues = [] ∧
    r.corners.unique_vertices_linked_to_not_boundary_line_corner.issues = []
  lines : r.lines.lines_not_meshed.issues = [] ∧
    r.lines.lines_not_linked_to_a_unique_vertex.entries = [] ∧
    r.lines.unique_vertices_linked_to_a_line_with_invalid_embeddings.issues = [] ∧
    r.lines.unique_vertices_linked_to_line_with_wrong_relationship_to_surface.issues = [] ∧
    r.lines.unique_vertices_linked_to_a_single_and_invalid_line.issues = [] ∧
    r.lines.unique_vertices_linked_to_several_lines_but_not_linked_to_a_corner.issues = []
  surfaces : r.surfaces.surfaces_not_meshed.issues = [] ∧
    r.surfaces.surfaces_not_linked_to_a_unique_vertex.entries = [] ∧
    r.surfaces.unique_vertices_linked_to_a_surface_with_invalid_embbedings.issues = [] ∧
    r.surfaces.unique_vertices_linked_to_several_and_invalid_surfaces.issues = [] ∧
    r.surfaces.unique_vertices_linked_to_a_line_but_is_not_on_a_surface_border.issues = []
  blocks : r.blocks.some_blocks_not_meshed.issues = [] ∧
    r.blocks.blocks_not_linked_to_a_unique_vertex.entries = [] ∧
    r.blocks.unique_vertices_part_of_two_blocks_and_no_boundary_surface.issues = [] ∧
    r.blocks.unique_vertices_with_incorrect_block_cmvs_count.issues = []

/-- **C77** (BRep), valid implies no issue: if the active components are meshed, all the surfaces are active (see C69)
and there is an active block, a valid topology has no issue in the lists on links, corners, lines, surfaces and blocks
which the validity looks at.  Missing: these cases, and the other lists (edges and polygons of lines and surfaces,
boundaries of blocks, surfaces beside blocks: see C46). -/
theorem C77_brep_valid_partial (m : TopologyModel) (h : RelationsWellFormed m) (aw : AroundWellFormed m)
    (coh : CoherentLines m)
    (hb : ∀ s, Active m .surface s → ∀ e ∈ m.embeddings s, e.type = .block)
    (hsz : ∀ kind ∈ brepKinds, ∀ c ∈ m.components kind, c.nbVertices < 2 ^ 32 ∧ c.nbElements < 2 ^ 32)
    (hedge : ∀ c ∈ m.components .line, c.nbElements ≠ 0 → ∀ x ∈ m.lineEdgeVertices c.id 0, x < c.nbVertices)
    (hcount : ∀ v < m.nbUniqueVertices, ∀ b, At m v .block b → CountsFit m v b)
    (hmesh : ∀ kind ∈ brepKinds, ∀ c ∈ m.components kind, c.active = true → Meshed kind c)
    (hsurf : ∀ c ∈ m.components .surface, c.active = true)
    (hact : ∃ c ∈ m.components .block, c.active = true)
    (o : BlocksOracle) (hf : EdgeFinder o.edgeFromVertices) (hg : RaisesOpenGeode o.geometry)
    (hrays : RaysAnswer m o.isInsideBlock)
    (hmb : o.modelBoundaries = [] ∨ o.modelBoundaries.flatten ≠ [])
    (hv : brepTopologyIsValid m = .ok true)
    (choose : List Failure → Failure) (hch : ∀ failures ≠ [], choose failures ∈ failures) (schedule : List Nat) :
    ∃ N, ∀ fuel ≥ N, ∃ r, inspectBRepTopology m o fuel choose schedule = .ok r ∧ NoCheckedBRepIssue r := by
  have hval := ((C76_brep_valid m h aw hb hcount).2.1 true hv).1 rfl
  have hread : ¬ LinesUnreadable m := fun hu => (C76_brep_valid m h aw hb hcount).2.2 hu hval
  obtain ⟨_, hL, hB, hV⟩ := hval
  have wf := wf_of_linked h hB
  obtain ⟨c, hc, c1, c2, c3, c4, c5, c6⟩ := brepInspectCorners_spec wf (fun x hx => (hsz .corner (by decide) x hx).1)
  obtain ⟨l, hlr⟩ := (C68_completes m wf aw (hsz .line (by decide)) (fun x hx ha hne w hw =>
    hL .line (by decide) x hx ha (hmesh .line (by decide) x hx ha) w (hedge x hx hne w hw))).1.2 hread
  obtain ⟨⟨l1, l2, _⟩, l3, l4, l5, l6⟩ := brepInspectLines_exact wf aw (hsz .line (by decide)) hlr
  obtain ⟨s, hsr, ⟨s1, s2, _⟩, s3, s4, s5⟩ := brepInspectSurfaces_spec wf aw hb (hsz .surface (by decide))
  obtain ⟨k, N, hkr, hrep⟩ := C75_block_reports m wf coh o hf hg hrays hmb (fun x hx => (hsz .block (by decide) x hx).1)
    hcount hact
  refine ⟨N, fun fuel hfuel => ?_⟩
  have key := C54_brep_partial m h.unique o fuel choose hch schedule
  obtain ⟨r, hr⟩ := key.2 (by
    rw [hc, hlr, hsr, hkr fuel hfuel]
    rintro f (hf | hf | hf | hf) <;> cases hf)
  obtain ⟨p1, p2, p3, p4⟩ := key.1 r hr
  have hlinked : ∀ kind ∈ brepKinds, ∀ x ∈ m.components kind, x.active = true → ∀ w, ¬ NotAssociated m kind x w :=
    fun kind hk x hx ha w hw => hL kind hk x hx ha (hmesh kind hk x hx ha) w hw.1 hw.2
  refine ⟨r, hr, (linkLists_nil (C38_brep_links m h.unique o fuel choose schedule r hr).1).2 hB, ?_, ?_, ?_, ?_⟩
  · rw [p1.1 c hc]
    refine ⟨?_, mapReports_nil_of c2 ?_, exactly_nil_of c3 ?_, exactly_nil_of c4 ?_, exactly_nil_of c5 ?_,
      exactly_nil_of c6 ?_⟩
    · rw [c1]
      exact filterMap_nil_of fun x hx => by
        have := hmesh .corner (by decide) x (mem_activeComponents.1 hx).1 (mem_activeComponents.1 hx).2
        simpa using this.1
    · intro x hx w hw
      have := mem_activeComponents.1 hx
      exact hlinked .corner (by decide) x this.1 this.2 w hw
    · exact fun v hx => (hV v hx.1).corner.1 hx.2
    · exact fun v hx => (hV v hx.1).corner.2.1 hx.2
    · exact fun v hx => (hV v hx.1).corner.2.2.1 hx.2
    · exact fun v hx => (hV v hx.1).corner.2.2.2.1 hx.2
  · rw [p2.1 l hlr]
    refine ⟨?_, mapReports_nil_of l2 ?_, exactly_nil_of l3 ?_, exactly_nil_of l4 ?_, exactly_nil_of l5 ?_,
      exactly_nil_of l6 ?_⟩
    · rw [l1]
      exact filterMap_nil_of fun x hx => by
        have := hmesh .line (by decide) x (mem_activeComponents.1 hx).1 (mem_activeComponents.1 hx).2
        simpa using ⟨this.1, this.2 (by decide)⟩
    · intro x hx w hw
      have := mem_activeComponents.1 hx
      exact hlinked .line (by decide) x this.1 this.2 w hw
    · exact fun v hx => (hV v hx.1).lines.1 hx.2
    · exact fun v hx => (hV v hx.1).lines.2.2.1 hx.2
    · exact fun v hx => (hV v hx.1).lines.2.1 hx.2
    · exact fun v hx => (hV v hx.1).lines.2.2.2 hx.2
  · rw [p3.1 s hsr]
    refine ⟨?_, mapReports_nil_of s2 ?_, exactly_nil_of s3 ?_, exactly_nil_of s4 ?_, exactly_nil_of s5 ?_⟩
    · rw [s1]
      exact filterMap_nil_of fun x hx => by
        have hx := List.mem_filter.1 hx
        have := hmesh .surface (by decide) x hx.1 hx.2
        simpa using ⟨this.1, this.2 (by decide)⟩
    · intro x hx w hw
      have hx := List.mem_filter.1 hx
      exact hlinked .surface (by decide) x hx.1 hx.2 w hw
    · intro v hx
      refine ((hV v hx.1).surfaces ?_).1 hx.2
      obtain ⟨s1, hat, _⟩ := hx.2
      exact ⟨s1, hat⟩
    · intro v hx
      refine ((hV v hx.1).surfaces ?_).2.1 hx.2
      obtain ⟨⟨s1, _, _, hat, _⟩, _⟩ := hx.2
      exact ⟨s1, hat⟩
    · intro v hx
      refine ((hV v hx.1).surfaces ?_).2.2 hx.2
      obtain ⟨cmv, hcm, ht, _⟩ := hx.2
      have hat : At m v .surface cmv.component_id.id := ⟨cmv, hcm, by rw [← ht]⟩
      obtain ⟨x, hx', hid⟩ := has_of_at wf hx.1 hat
      exact ⟨cmv.component_id.id, hat, x, hx', hid, hsurf x hx'⟩
  · rw [p4.1 k (hkr fuel hfuel)]
    refine ⟨?_, mapReports_nil_of hrep.notLinked ?_, exactly_nil_of hrep.twoBlocks ?_, exactly_nil_of hrep.count ?_⟩
    · rw [hrep.notMeshed]
      split
      · exact filterMap_nil_of fun x hx => by
          have hx := List.mem_filter.1 hx
          have := hmesh .block (by decide) x hx.1 hx.2
          simpa [BlockMeshed] using ⟨this.1, this.2 (by decide)⟩
      · rfl
    · intro x hx w hw
      have hx := List.mem_filter.1 (List.mem_filter.1 hx).1
      exact hlinked .block (by decide) x hx.1 hx.2 w hw
    · exact fun v hx => (hV v hx.1).blocks.1 hx.2
    · exact fun v hx => (hV v hx.1).blocks.2 hx.2

/-- the tetrahedron meets the hypotheses -/
example : brepTopologyIsValid tetrahedronBRep.toModel = .ok true ∧
    (∀ kind ∈ brepKinds, ∀ c ∈ tetrahedronBRep.toModel.components kind, c.active = true →
      c.nbVertices ≠ 0 ∧ (kind ≠ .corner → c.nbElements ≠ 0)) ∧
    (∀ c ∈ tetrahedronBRep.toModel.components .line, c.nbElements ≠ 0 →
      ∀ x ∈ tetrahedronBRep.toModel.lineEdgeVertices c.id 0, x < c.nbVertices) ∧
    (∀ c ∈ tetrahedronBRep.toModel.components .surface, c.active = true) := ⟨by rfl, by decide, by decide, by decide⟩

/-! ### C78 -/

/-- **C78 is false**: `brep_topology_is_valid` raises an exception on a model with a unique vertex on a line embedded in
a block without vertex there (to make a message it looks for a Surface with the uuid of the Block). -/
theorem C78_false : ∃ m : TopologyModel, RelationsWellFormed m ∧ WellFormed m ∧ AroundWellFormed m ∧
    BijectivelyLinked m brepKinds ∧ brepTopologyIsValid m = .error .openGeodeException := by
  refine ⟨lineInBlockBRep.toModel, relations_of_check _ (by decide) (by decide), lineInBlockBRep.wf_of_check (by decide),
    lineInBlockBRep.aw_of_check (by decide), ?_, by rfl⟩
  obtain ⟨b, hb, hp⟩ := brepBijective_decides (m := lineInBlockBRep.toModel) (uniqueIds_of_check _ (by decide))
  have : brepBijectivelyLinked lineInBlockBRep.toModel = .ok true := by rfl
  rw [this] at hb
  cases hb
  exact hp.1 rfl

/-- **C78**, what holds: `section_topology_is_valid` does not raise when lines are embedded in surfaces, and
`brep_topology_is_valid` (surfaces embedded in blocks, numbers of component mesh vertices which fit) raises exactly
when all components are linked, and, at the first unique vertex which is not valid, corners are right and the first
wrong embedding of a line is in a block.  Missing: that case. -/
theorem C78_no_exception_partial (m : TopologyModel) (h : RelationsWellFormed m) :
    ((∀ id, Active m .line id → ∀ e ∈ m.embeddings id, e.type = .surface) → ∃ b, sectionTopologyIsValid m = .ok b) ∧
    (AroundWellFormed m → (∀ s, Active m .surface s → ∀ e ∈ m.embeddings s, e.type = .block) →
      (∀ v < m.nbUniqueVertices, ∀ b, At m v .block b → CountsFit m v b) →
      ∀ f, brepTopologyIsValid m = .error f ↔ f = .openGeodeException ∧ MeshedComponentsAreLinked m brepKinds ∧
        BijectivelyLinked m brepKinds ∧ ∃ v < m.nbUniqueVertices, (∀ w < v, BRepVertexValid m w) ∧
          BRepCornerValid m v ∧ UnreadableEmbedding m v) := by
  constructor
  · intro hs
    obtain ⟨b, hb, _⟩ := C76_section_valid m h hs
    exact ⟨b, hb⟩
  · intro aw hb hc f
    exact brep_valid_error h aw hb hc f

/-- The exception does occur, and the vertex it comes from is unreadable. -/
example : RelationsWellFormed lineInBlockBRep.toModel ∧ AroundWellFormed lineInBlockBRep.toModel ∧
    (∀ s, Active lineInBlockBRep.toModel .surface s → ∀ e ∈ lineInBlockBRep.toModel.embeddings s, e.type = .block) ∧
    brepTopologyIsValid lineInBlockBRep.toModel = .error .openGeodeException :=
  ⟨relations_of_check _ (by decide) (by decide), lineInBlockBRep.aw_of_check (by decide), by
    rintro s ⟨c, hc, rfl, _⟩
    revert c
    decide, by rfl⟩

example : RelationsWellFormed tetrahedronBRep.toModel ∧ ∀ id, ∀ e ∈ tetrahedronBRep.toModel.embeddings id,
    e.type = .surface := ⟨relations_of_check _ (by decide) (by decide), fun _ e he => absurd he (by
      have : tetrahedronBRep.toModel.embeddings = fun _ => [] := rfl
      rw [this]; simp)⟩

end Inspector
