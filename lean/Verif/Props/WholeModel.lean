import Verif.Proofs.WholeModelVerdict
import Verif.Props.TopologyInspector
import Verif.Props.Whole
/-
Properties C81 and C82: whole inspections of Sections and BReps, from the model to the lists and to the verdict.
-/
namespace Inspector
open Spec

/-! ### examples -/

/-- Points are numbers, different vertices have different points, and nothing intersects. -/
def modelLibrary : ModelLibrary Nat where
  search points := ⟨List.range points.length, points⟩
  pointString := toString
  distance p q := .num ((p : Int) - q).natAbs
  eps := .num 1
  isOpposite a b := a == b.reverse
  cycle l := (List.range 9).filter l.contains
  origin := 0
  inexactEqual := (· == ·)
  geometry :=
    { segmentSegment := fun _ _ => (.outside, .outside)
      pointTriangle := fun _ _ => .outside
      segmentTriangle := fun _ _ => (.outside, .outside)
      positionToIndex := fun _ => none }

def modelRuntime : ModelRuntime where
  choose := rethrowFirst
  schedule := [1, 0]
  meshesSchedule := [3, 1, 1, 0, 7, 2]
  topologySchedule := [2, 0, 1]
  orders := ⟨fun _ => List.reverse, fun _ => id, List.reverse⟩
  aroundOrder := List.reverse

theorem modelRuntime_ok : ModelRuntimeOk modelRuntime where
  choose l hl := by cases l with
    | nil => exact absurd rfl hl
    | cons a l => simp [modelRuntime, rethrowFirst]
  surfaceEdges _ m := List.reverse_perm m
  facets _ m := List.Perm.refl m
  modelEdges m := List.reverse_perm m

/-- The model described by `d`: corners of one vertex, lines of consecutive edges, surfaces of one triangle, blocks of one
tetrahedron.  The points of unique vertex `v` are `scale v`; the triangles and tetrahedra have the given sign. -/
def exampleModel (d : TopologyData) (scale : Nat → Nat) (sign : Sign) : ModelData Nat where
  corners := d.corners.map fun c => ⟨c.id, c.active, points .corner c⟩
  lines := d.lines.map fun c => ⟨⟨points .line c, c.nbElements, fun e => (e, e + 1), fun _ => false, fun _ => ""⟩, c.id,
    c.active, ""⟩
  surfaces := d.surfaces.map fun c =>
    { id := c.id
      active := c.active
      nbPolygons := c.nbElements
      nbPolygonVertices := fun _ => 3
      polygonVertex := fun x => x.2
      polygonAdjacent := fun _ => none
      label := ""
      points := points .surface c
      polygonsAroundVertex := fun v => .ok [(0, v)]
      nbEdges := 3
      edgeVertices := fun e => [(0, 1), (1, 2), (2, 0)].getD e (0, 0)
      minimumHeight := fun _ => .num 5
      isPolygonDegenerated := fun _ => false
      polygonAreaSign := fun _ => sign
      polygonsIntersect := fun _ _ => .ok false
      traverse := fun _ => [] }
  blocks := d.blocks.map fun c => { exampleSolidData sign with
    id := c.id
    active := c.active
    points := points .block c }
  noId := 4294967295
  nbUniqueVertices := d.toModel.nbUniqueVertices
  componentMeshVertices := d.toModel.componentMeshVertices
  uniqueVertex := d.toModel.uniqueVertex
  isBoundary := d.toModel.isBoundary
  isInternal := d.toModel.isInternal
  embeddings := d.toModel.embeddings
  incidences := d.toModel.incidences
  boundaries := d.toModel.boundaries
  isVertexOnBorder := d.toModel.isVertexOnBorder
  surfaceEdges := d.toModel.surfaceEdges
  blockEdges := d.toModel.blockEdges
  blockPolygons := d.toModel.blockPolygons
  lineComponentMeshEdges a b := d.lines.flatMap fun c => (List.range c.nbElements).filterMap fun e =>
    if (d.toModel.uniqueVertex ⟨⟨.line, c.id⟩, e⟩ = some a ∧ d.toModel.uniqueVertex ⟨⟨.line, c.id⟩, e + 1⟩ = some b) ∨
        (d.toModel.uniqueVertex ⟨⟨.line, c.id⟩, e⟩ = some b ∧ d.toModel.uniqueVertex ⟨⟨.line, c.id⟩, e + 1⟩ = some a) then
      some ⟨⟨.line, c.id⟩, e⟩ else none
  surfaceComponentMeshPolygons l := d.surfaces.flatMap fun c => (List.range c.nbElements).filterMap fun p =>
    if ((List.range 3).map fun v => d.toModel.uniqueVertex ⟨⟨.surface, c.id⟩, v⟩).isPerm (l.map some) then
      some ⟨⟨.surface, c.id⟩, p⟩ else none
  selfTree _ _ := []
  otherTree _ _ _ := []
  lineTree _ _ _ := []
  overlappingSurfaces := []
  blocksOracle := noModelBoundary
where
  vertices (kind : ComponentType) (c : TopologyComponent) : List Nat :=
    (List.range c.nbVertices).map fun v => (d.toModel.uniqueVertex ⟨⟨kind, c.id⟩, v⟩).getD 0
  points (kind : ComponentType) (c : TopologyComponent) : List Nat := (vertices kind c).map scale

def noCandidate : Candidates Nat := ⟨fun _ => [], fun _ _ => [], fun _ _ => []⟩

theorem identity_search (points : List Nat) (h : points.length < 2 ^ 32) :
    SearchOk (modelLibrary.search points) points.length :=
  ⟨List.length_range, h, fun _ hu => List.mem_range.1 hu, fun _ hu => List.mem_range.2 hu⟩


/-- the topology of the model is the one described -/
theorem exampleModel_topology (d : TopologyData) (scale : Nat → Nat) (sign : Sign) (rt : ModelRuntime)
    (h0 : ∀ c ∈ d.corners, c.nbElements = 0) (hb : ∀ c ∈ d.blocks, c.nbElements = 1) :
    (exampleModel d scale sign).topology rt = { d.toModel with
      lineEdgeVertices := ((exampleModel d scale sign).topology rt).lineEdgeVertices
      polygonVertices := ((exampleModel d scale sign).topology rt).polygonVertices
      iterate := rt.aroundOrder } := by
  have hc : ((exampleModel d scale sign).topology rt).components = d.toModel.components := by
    funext kind
    cases kind
    · show (d.corners.map _).map _ = d.corners
      rw [List.map_map]
      conv => rhs; rw [← List.map_id d.corners]
      refine List.map_congr_left fun c hc => ?_
      have := h0 c hc
      cases c
      simp_all [exampleModel.points, exampleModel.vertices]
    · show (d.lines.map _).map _ = d.lines
      rw [List.map_map]
      conv => rhs; rw [← List.map_id d.lines]
      refine List.map_congr_left fun c hc => ?_
      cases c
      simp [exampleModel.points, exampleModel.vertices]
    · show (d.surfaces.map _).map _ = d.surfaces
      rw [List.map_map]
      conv => rhs; rw [← List.map_id d.surfaces]
      refine List.map_congr_left fun c hc => ?_
      cases c
      simp [exampleModel.points, exampleModel.vertices]
    · show (d.blocks.map _).map _ = d.blocks
      rw [List.map_map]
      conv => rhs; rw [← List.map_id d.blocks]
      refine List.map_congr_left fun c hc => ?_
      have := hb c hc
      cases c
      simp_all [exampleModel.points, exampleModel.vertices, exampleSolidData]
    · rfl
  simp only []
  rw [← hc]
  rfl

theorem exampleModel_wf (d : TopologyData) (scale : Nat → Nat) (sign : Sign) (rt : ModelRuntime)
    (h0 : ∀ c ∈ d.corners, c.nbElements = 0) (hb : ∀ c ∈ d.blocks, c.nbElements = 1) (h : d.wellFormed = true) :
    WellFormed ((exampleModel d scale sign).topology rt) := by
  have wf := d.wf_of_check h
  rw [exampleModel_topology d scale sign rt h0 hb]
  exact ⟨wf.ids, wf.vertices, wf.embeddings, wf.incidences, wf.boundaries⟩

/-- What is checked by evaluation of the models of the examples. -/
def goodExample (d : TopologyData) : Bool :=
  d.wellFormed &&
  decide ((d.corners ++ d.lines ++ d.surfaces ++ d.blocks).map TopologyComponent.id).Nodup &&
  (d.corners.all fun c => c.nbVertices == 1 && c.nbElements == 0) &&
  (d.lines.all fun c => decide (c.nbVertices < 4) && decide (c.nbElements < 3)) &&
  (d.surfaces.all fun c => c.nbVertices == 3 && decide (c.nbElements ≤ 1)) &&
  (d.blocks.all fun c => c.nbVertices == 4 && c.nbElements == 1) &&
  decide (d.corners.length + d.lines.length + d.surfaces.length + d.blocks.length < 2 ^ 32) &&
  decide (d.vertices.length < 2 ^ 32) && decide (((d.vertices.map List.length)).sum < 2 ^ 32)

theorem exampleModel_meshes (d : TopologyData) (scale : Nat → Nat) (sign : Sign) (h : goodExample d = true) :
    MeshesOk modelLibrary (exampleModel d scale sign) := by
  unfold goodExample at h
  simp only [Bool.and_eq_true, decide_eq_true_eq, List.all_eq_true, beq_iff_eq] at h
  obtain ⟨⟨⟨⟨⟨⟨⟨⟨_, h1⟩, h2⟩, h3⟩, h4⟩, h5⟩, h6⟩, h7⟩, h8⟩ := h
  have hlen : ∀ kind c, (exampleModel.points d scale kind c).length = c.nbVertices := by
    intro kind c
    simp [exampleModel.points, exampleModel.vertices]
  have hw : BlockWalksOk (exampleModel d scale sign) := by
    intro b hb _ v _
    obtain ⟨c', _, rfl⟩ := List.mem_map.1 hb
    exact ⟨_, rfl⟩
  refine ⟨?_, hw⟩
  constructor
  · simpa [exampleModel, List.map_map, Function.comp_def] using h1
  · simpa [exampleModel] using h6
  · intro c hc
    obtain ⟨c', hc', rfl⟩ := List.mem_map.1 hc
    show (exampleModel.points d scale .corner c').length < _
    rw [hlen, (h2 c' hc').1]
    decide
  · intro l hl
    obtain ⟨c', hc', rfl⟩ := List.mem_map.1 hl
    refine ⟨identity_search _ ?_, ?_⟩
    · show (exampleModel.points d scale .line c').length < _
      rw [hlen]
      exact Nat.lt_trans (h3 c' hc').1 (by decide)
    · show c'.nbElements < _
      exact Nat.lt_trans (h3 c' hc').2 (by decide)
  · intro s hs
    obtain ⟨c', hc', rfl⟩ := List.mem_map.1 hs
    refine ⟨identity_search _ ?_, (by decide : 3 < 2 ^ 32), ?_, ?_⟩
    · show (exampleModel.points d scale .surface c').length < _
      rw [hlen, (h4 c' hc').1]
      decide
    · show c'.nbElements < _
      exact Nat.lt_of_le_of_lt (h4 c' hc').2 (by decide)
    · show ((List.range c'.nbElements).map fun _ => 3).sum < _
      rcases Nat.le_one_iff_eq_zero_or_eq_one.1 (h4 c' hc').2 with he | he <;> rw [he] <;> decide
  · intro s hs
    obtain ⟨c', hc', rfl⟩ := List.mem_map.1 hs
    have hl : (exampleModel.points d scale .surface c').length = 3 := by rw [hlen, (h4 c' hc').1]
    have he : c'.nbElements ≤ 1 := (h4 c' hc').2
    constructor
    · intro p k hp hk
      show k < (exampleModel.points d scale .surface c').length
      rw [hl]
      exact hk
    · intro v _ f hf
      cases hf
    · show (exampleModel.points d scale .surface c').length < _
      rw [hl]
      decide
    · rw [polygonEdges, pairs_length]
      show ((List.range c'.nbElements).map fun _ => 3).sum < _
      rcases Nat.le_one_iff_eq_zero_or_eq_one.1 he with he | he <;> rw [he] <;> decide
    · intro e
      refine Nat.lt_of_le_of_lt (List.length_filter_le ..) ?_
      rw [polygonEdges, pairs_length]
      show ((List.range c'.nbElements).map fun _ => 3).sum < _
      rcases Nat.le_one_iff_eq_zero_or_eq_one.1 he with he | he <;> rw [he] <;> decide
  · intro b hb
    obtain ⟨c', hc', rfl⟩ := List.mem_map.1 hb
    have hl : (exampleModel.points d scale .block c').length = 4 := by rw [hlen, (h5 c' hc').1]
    have he : c'.nbElements = 1 := (h5 c' hc').2
    constructor
    · refine identity_search _ ?_
      show (exampleModel.points d scale .block c').length < _
      rw [hl]
      decide
    · intro p k _ hk
      show k < (exampleModel.points d scale .block c').length
      rw [hl]
      exact hk
    · intro p e f _ _ h
      cases h
    · intro p e fan _ _ h
      injection h with h
      subst h
      simp
    · exact (by decide : (6 : Nat) < 2 ^ 32)
    · exact (by decide : (1 : Nat) < 2 ^ 32)
    · exact (by decide : (6 : Nat) < 2 ^ 32)
    · exact (by decide : (4 : Nat) < 2 ^ 32)
  · rw [← activePositions_length]
    refine identity_search _ ?_
    rw [activePositions_length]
    refine Nat.lt_of_le_of_lt (List.length_filter_le ..) ?_
    rw [List.length_range]
    exact h7
  · exact h7
  · refine lt_of_eq_of_lt ?_ h8
    show ((List.range d.vertices.length).map fun uv => (d.vertices.getD uv []).length).sum = _
    congr 1
    refine List.ext_getElem (by simp) ?_
    intro i h1 h2
    simp at h1
    simp [h1]
  · intro s hs p
    obtain ⟨c', hc', rfl⟩ := List.mem_map.1 hs
    exact (by decide : 3 ≤ 256)
  · exact ⟨fun _ _ _ h => (by cases h), fun _ _ _ h => (by cases h), fun _ _ _ h => (by cases h),
      fun _ _ _ h => (by cases h)⟩

theorem exampleModel_trees (d : TopologyData) (scale : Nat → Nat) (sign : Sign) (brep : Bool)
    (h : ∀ s1 ∈ ((exampleModel d scale sign).intersections modelLibrary brep).surfaces,
      ∀ s2 ∈ ((exampleModel d scale sign).intersections modelLibrary brep).surfaces,
      s1.nbPolygons ≤ 1 ∧ s2.nbPolygons ≤ 1 ∧
        ¬ PolygonsMeet ((exampleModel d scale sign).intersections modelLibrary brep) s1 s2 (0, 0)) :
    ModelTreesOk ((exampleModel d scale sign).intersections modelLibrary brep) noCandidate where
  trees := ⟨fun _ _ => ⟨⟨[], List.Perm.refl _, List.Sublist.refl _⟩, fun _ => List.Perm.refl _⟩,
    fun _ _ _ => ⟨⟨[], List.Perm.refl _, List.Sublist.refl _⟩, fun _ => List.Perm.refl _⟩,
    fun _ _ _ => ⟨⟨[], List.Perm.refl _, List.Sublist.refl _⟩, fun _ => List.Perm.refl _⟩⟩
  surfaces x hx := by
    rw [comparisons, List.mem_append] at hx
    rcases hx with hx | hx
    · obtain ⟨s, hs, rfl⟩ := List.mem_map.1 hx
      rw [List.mem_filter] at hs
      exact ⟨hs.1, hs.2, hs.1, hs.2, fun p hp => absurd hp List.not_mem_nil⟩
    · exact absurd hx List.not_mem_nil
  complete s1 s2 p q hx := by
    obtain ⟨h1, _, h2, _, hp, hq, hm⟩ := hx
    obtain ⟨e1, e2, hn⟩ := h s1 h1 s2 h2
    obtain rfl : p = 0 := by unfold Index at *; clear hm hn; omega
    obtain rfl : q = 0 := by unfold Index at *; clear hm hn; omega
    exact absurd hm hn
  lines _ _ _ hp := absurd hp List.not_mem_nil
  linesComplete s l p e hx := by
    obtain ⟨_, _, _, _, _, _, _, t, _, x, hx, hm⟩ := hx
    have hm : Position.outside = x ∨ Position.outside = x := hm
    rcases hm with rfl | rfl <;> simp at hx
  length := by
    have h1 : meetingEdges ((exampleModel d scale sign).intersections modelLibrary brep) noCandidate = [] := by
      unfold meetingEdges
      rw [List.flatMap_eq_nil_iff]
      intro s _
      rw [List.flatMap_eq_nil_iff]
      intro l _
      rfl
    have h2 : meetingPolygons ((exampleModel d scale sign).intersections modelLibrary brep) noCandidate = [] := by
      unfold meetingPolygons
      rw [List.flatMap_eq_nil_iff]
      intro x hx
      rw [comparisons, List.mem_append] at hx
      rcases hx with hx | hx
      · obtain ⟨s, hs, rfl⟩ := List.mem_map.1 hx
        rfl
      · exact absurd hx List.not_mem_nil
    rw [h1, h2]
    decide

theorem noCandidate_tests (d : TopologyData) (scale : Nat → Nat) (sign : Sign) (brep : Bool) :
    TestsOk ((exampleModel d scale sign).intersections modelLibrary brep) noCandidate := by
  intro x hx p hp
  rw [comparisons, List.mem_append] at hx
  rcases hx with hx | hx
  · obtain ⟨s, hs, rfl⟩ := List.mem_map.1 hx
    exact absurd hp List.not_mem_nil
  · exact absurd hx List.not_mem_nil

theorem exampleModel_types (d : TopologyData) (scale : Nat → Nat) (sign : Sign) (brep : Bool)
    (h : ∀ l ∈ d.vertices, ∀ cmv ∈ l,
      cmv.component_id.type ≠ .other ∧ (cmv.component_id.type = .block → brep = true)) :
    KnownTypes brep ((exampleModel d scale sign).uniqueVertices modelLibrary) := by
  intro uv cmv hc
  have hc : cmv ∈ d.vertices.getD uv [] := hc
  by_cases hu : uv < d.vertices.length
  · rw [List.getD_eq_getElem?_getD, List.getElem?_eq_getElem hu, Option.getD_some] at hc
    exact h _ (List.getElem_mem hu) cmv hc
  · rw [List.getD_eq_getElem?_getD, List.getElem?_eq_none (Nat.le_of_not_lt hu), Option.getD_none] at hc
    exact absurd hc List.not_mem_nil

theorem triangleSection_ok (sign : Sign) :
    SectionOk modelLibrary modelRuntime (exampleModel triangleSection (10 * ·) sign) noCandidate where
  meshes := exampleModel_meshes _ _ _ (by decide)
  noBlock := rfl
  types := exampleModel_types _ _ _ _ (by decide)
  trees := exampleModel_trees _ _ _ _ (by cases sign <;> decide +kernel)
  tests := fun _ => noCandidate_tests _ _ _ _
  topology := exampleModel_wf _ _ _ _ (by decide) (by decide) (by decide)
  embeddings := by
    intro id _ e he
    exact absurd (TopologyData.mem_select.1 he) (by simp [triangleSection])

theorem tetrahedronBRep_ok (sign : Sign) :
    BRepOk modelLibrary modelRuntime (exampleModel tetrahedronBRep (10 * ·) sign) noCandidate where
  meshesKnown := MeshesOk.toMeshesKnown (exampleModel_meshes _ _ _ (by decide))
  blockWalks := MeshesOk.blockWalks (exampleModel_meshes _ _ _ (by decide))
  types := exampleModel_types _ _ _ _ (by decide)
  trees := exampleModel_trees _ _ _ _ (by cases sign <;> decide +kernel)
  nbModelEdges := by cases sign <;> decide +kernel
  topology := exampleModel_wf _ _ _ _ (by decide) (by decide) (by decide)
  around := by
    have aw := tetrahedronBRep.aw_of_check (by decide)
    rw [exampleModel_topology tetrahedronBRep _ sign modelRuntime (by decide) (by decide)]
    exact ⟨fun m => List.reverse_perm m, aw.surfaces, aw.surfaceKeys, aw.blocks, aw.blockKeys, aw.polygons,
      by cases sign <;> decide +kernel, by cases sign <;> decide +kernel⟩
  coherent := tetrahedronBRep.coherent_of_check (by decide)
  surfaceEmbeddings := fun id _ e he => absurd he List.not_mem_nil
  firstEdges := by cases sign <;> decide +kernel
  counts := by
    rw [exampleModel_topology tetrahedronBRep _ sign modelRuntime (by decide) (by decide)]
    exact counts_of_check tetrahedronBRep (by decide)
  graph := firstEdge_finder
  geometry := noGeometry_raises
  rays := example_rays _
  modelBoundaries := Or.inl rfl

theorem tetrahedronBRep_readable (sign : Sign) :
    ¬ LinesUnreadable ((exampleModel tetrahedronBRep (10 * ·) sign).topology modelRuntime) :=
  C68_surfaces_readable _ (tetrahedronBRep_ok sign).topology fun id _ e he => absurd he List.not_mem_nil

/-- The tetrahedron, with a line 17 embedded in the block 31, which has no vertex at the ends of the line. -/
def lineInTetrahedron : TopologyData := { tetrahedronBRep with
  lines := tetrahedronBRep.lines ++ [⟨17, true, 2, 1⟩]
  vertices := tetrahedronBRep.vertices ++ [[⟨⟨.line, 17⟩, 0⟩], [⟨⟨.line, 17⟩, 1⟩]]
  internal := [(⟨.line, 17⟩, ⟨.block, 31⟩)] }

/-! ### C81: the lists -/

/-- **C81** (Sections): whatever the schedules and the iteration orders, the inspection of a Section ends, and each of
its lists tells exactly the defects of its kind. -/
theorem C81_section {P : Type} (lib : ModelLibrary P) (rt : ModelRuntime) (hrt : ModelRuntimeOk rt) (m : ModelData P)
    (c : Candidates P) (h : SectionOk lib rt m c) :
    ∃ r, inspectSectionOf lib rt m = .ok r ∧ SectionMeshesReport lib m c r.meshes ∧
      SectionTopologyReport (m.topology rt) r.topology :=
  section_whole lib rt hrt m c h

/-- **C81** (BReps): the same for a BRep, but the lists on the topology of the Lines are empty when the first wrong
embedding of the Lines at a unique vertex is in a Block (`LinesUnreadable`).  Missing: these lists in that case (see C54
and `C81_brep_false`). -/
theorem C81_brep_partial {P : Type} (lib : ModelLibrary P) (rt : ModelRuntime) (hrt : ModelRuntimeOk rt)
    (m : ModelData P) (c : Candidates P) (h : BRepOk lib rt m c) :
    ∃ r N, (∀ fuel ≥ N, inspectBRepOf lib rt fuel m = .ok r) ∧ BRepMeshesReport lib m c r.meshes ∧
      BRepTopologyReport (m.topology rt) m.blocksOracle r.topology :=
  brep_whole lib rt hrt m c h

/-- the triangle of a Section has a negative area: it is reported -/
example : ∃ r, inspectSectionOf modelLibrary modelRuntime (exampleModel triangleSection (10 * ·) .negative) = .ok r ∧
    r.meshes.meshes_negative_elements.negative_polygons.entries.map (fun e => (e.1, e.2.issues)) = [(21, [0])] ∧
    SectionTopologyReport ((exampleModel triangleSection (10 * ·) .negative).topology modelRuntime) r.topology := by
  obtain ⟨r, h1, _, h3⟩ := C81_section modelLibrary modelRuntime modelRuntime_ok _ _ (triangleSection_ok .negative)
  refine ⟨r, h1, ?_, h3⟩
  have he : inspectSectionOf modelLibrary modelRuntime (exampleModel triangleSection (10 * ·) .negative) = .ok _ := rfl
  rw [he] at h1
  injection h1 with h1
  rw [← h1]
  rfl

/-- the hypotheses are met by the tetrahedron -/
example : ∃ r N, (∀ fuel ≥ N, inspectBRepOf modelLibrary modelRuntime fuel
      (exampleModel tetrahedronBRep (10 * ·) .negative) = .ok r) ∧
    BRepTopologyReport ((exampleModel tetrahedronBRep (10 * ·) .negative).topology modelRuntime) noModelBoundary
      r.topology := by
  obtain ⟨r, N, h1, _, h3⟩ := C81_brep_partial modelLibrary modelRuntime modelRuntime_ok _ _
    (tetrahedronBRep_ok .negative)
  exact ⟨r, N, h1, h3⟩

/-! ### C82: the verdicts -/

/-- **C82** (Sections): a Section is declared valid exactly when it has none of the defects looked for. -/
theorem C82_section {P : Type} (lib : ModelLibrary P) (rt : ModelRuntime) (hrt : ModelRuntimeOk rt) (m : ModelData P)
    (c : Candidates P) (h : SectionOk lib rt m c) :
    ∃ v, isSectionOfValid lib rt m = .ok v ∧ (v.isValid = true ↔ ¬ SectionDefect lib rt m) :=
  section_verdict lib rt hrt m c h

set_option maxRecDepth 20000 in
/-- **C82 is false** for BReps: a Line embedded in a Block is at a vertex where the Block is not, and the BRep is
declared valid. -/
theorem C82_brep_false : ∃ (lib : ModelLibrary Nat) (rt : ModelRuntime) (m : ModelData Nat), ModelRuntimeOk rt ∧
    MeshesOk lib m ∧ WellFormed (m.topology rt) ∧ BRepDefect lib rt m ∧
    ∀ fuel ≥ 20, ∃ v, isBRepOfValid lib rt fuel m = .ok v ∧ v.isValid = true := by
  refine ⟨modelLibrary, modelRuntime, exampleModel lineInTetrahedron (10 * ·) .positive, modelRuntime_ok,
    exampleModel_meshes _ _ _ (by decide), exampleModel_wf _ _ _ _ (by decide) (by decide) (by decide), ?_, ?_⟩
  · refine Or.inr (Or.inr (Or.inr (Or.inr (Or.inr (Or.inr (Or.inr (Or.inr (Or.inr (Or.inr (Or.inr (Or.inr (Or.inr
      (Or.inl ⟨4, by decide, ?_⟩)))))))))))))
    refine Or.inr (Or.inr (Or.inr (Or.inr (Or.inl ⟨17, ⟨⟨⟨⟨.line, 17⟩, 0⟩, ?_, ?_⟩, ⟨17, true, 2, 1⟩, ?_, rfl, rfl⟩,
      ⟨.block, 31⟩, ?_, .inr ⟨?_, ?_⟩⟩))))
    · decide
    · rfl
    · decide
    · decide
    · intro _ c hc
      have : c = ⟨31, true, 4, 1⟩ := List.mem_singleton.1 hc
      subst this
      simp
    · rintro ⟨cmv, hc, hid⟩
      have : cmv = ⟨⟨.line, 17⟩, 0⟩ := List.mem_singleton.1 hc
      subst this
      cases hid
  · intro fuel hf
    obtain ⟨k, rfl⟩ := Nat.exists_eq_add_of_le' hf
    exact ⟨{}, by rfl, rfl⟩

/-- **C82** (BReps), what holds: unless the first wrong embedding of the Lines at a unique vertex is in a Block, a BRep
is declared valid exactly when it has none of the defects looked for; in that case it has a defect, and it is declared
valid exactly when it has no other defect than those of the topology of its Lines.  A BRep declared invalid always has a
defect.  Missing: the right answer in that case. -/
theorem C82_brep_partial {P : Type} (lib : ModelLibrary P) (rt : ModelRuntime) (hrt : ModelRuntimeOk rt)
    (m : ModelData P) (c : Candidates P) (h : BRepOk lib rt m c) :
    ∃ v N, (∀ fuel ≥ N, isBRepOfValid lib rt fuel m = .ok v) ∧
      (¬ LinesUnreadable (m.topology rt) → (v.isValid = true ↔ ¬ BRepDefect lib rt m)) ∧
      (LinesUnreadable (m.topology rt) → BRepDefect lib rt m ∧
        (v.isValid = true ↔ ¬ BRepDefectBesideLines lib rt m)) ∧
      (v.isValid = false → BRepDefect lib rt m) := by
  obtain ⟨v, N, h1, h2⟩ := brep_verdict lib rt hrt m c h
  refine ⟨v, N, h1, fun hu => by rwa [if_neg hu] at h2,
    fun hu => ⟨brepDefect_of_unreadable hu, by rwa [if_pos hu] at h2⟩, fun hv => ?_⟩
  by_cases hu : LinesUnreadable (m.topology rt)
  · exact brepDefect_of_unreadable hu
  · rw [if_neg hu] at h2
    by_contra hd
    rw [h2.2 hd] at hv
    cases hv

/-- the triangle is valid, so it has no defect; with a negative area it is not valid -/
example : ¬ SectionDefect modelLibrary modelRuntime (exampleModel triangleSection (10 * ·) .positive) ∧
    ∃ v, isSectionOfValid modelLibrary modelRuntime (exampleModel triangleSection (10 * ·) .negative) = .ok v ∧
      v.isValid = false := by
  constructor
  · obtain ⟨v, h1, h2⟩ := C82_section modelLibrary modelRuntime modelRuntime_ok _ _ (triangleSection_ok .positive)
    have he : isSectionOfValid modelLibrary modelRuntime (exampleModel triangleSection (10 * ·) .positive) = .ok {} :=
      by rfl
    rw [he] at h1
    injection h1 with h1
    exact h2.1 (by rw [← h1]; rfl)
  · obtain ⟨v, h1, h2⟩ := C82_section modelLibrary modelRuntime modelRuntime_ok _ _ (triangleSection_ok .negative)
    refine ⟨v, h1, ?_⟩
    rw [← Bool.not_eq_true, h2, not_not]
    exact Or.inr (Or.inr (Or.inr (Or.inl ⟨_, List.mem_cons_self, rfl, Or.inr ⟨0, by decide, rfl⟩⟩)))

set_option maxRecDepth 20000 in
/-- the tetrahedron is valid, so it has no defect; with a negative volume it is not valid -/
example : ¬ BRepDefect modelLibrary modelRuntime (exampleModel tetrahedronBRep (10 * ·) .positive) ∧
    ∃ v N, (∀ fuel ≥ N, isBRepOfValid modelLibrary modelRuntime fuel
      (exampleModel tetrahedronBRep (10 * ·) .negative) = .ok v) ∧ v.isValid = false := by
  constructor
  · obtain ⟨v, N, h1, h2⟩ := C82_brep_partial modelLibrary modelRuntime modelRuntime_ok _ _
      (tetrahedronBRep_ok .positive)
    have he : isBRepOfValid modelLibrary modelRuntime (N + 20) (exampleModel tetrahedronBRep (10 * ·) .positive) =
      .ok {} := by rfl
    have h1 := h1 (N + 20) (by omega)
    rw [he] at h1
    injection h1 with h1
    exact (h2.1 (tetrahedronBRep_readable .positive)).1 (by rw [← h1]; rfl)
  · obtain ⟨v, N, h1, h2⟩ := C82_brep_partial modelLibrary modelRuntime modelRuntime_ok _ _
      (tetrahedronBRep_ok .negative)
    refine ⟨v, N, h1, ?_⟩
    rw [← Bool.not_eq_true, h2.1 (tetrahedronBRep_readable .negative), not_not]
    exact Or.inr (Or.inr (Or.inr (Or.inr (Or.inl ⟨_, List.mem_cons_self, rfl, Or.inr (Or.inr (Or.inr (Or.inr (Or.inr
      (Or.inr (Or.inr (Or.inr ⟨0, by decide, Or.inl ⟨rfl, rfl⟩⟩)))))))⟩))))

theorem lineInTetrahedron_ok (sign : Sign) :
    BRepOk modelLibrary modelRuntime (exampleModel lineInTetrahedron (10 * ·) sign) noCandidate where
  meshesKnown := MeshesOk.toMeshesKnown (exampleModel_meshes _ _ _ (by decide))
  blockWalks := MeshesOk.blockWalks (exampleModel_meshes _ _ _ (by decide))
  types := exampleModel_types _ _ _ _ (by decide)
  trees := exampleModel_trees _ _ _ _ (by cases sign <;> decide +kernel)
  nbModelEdges := by cases sign <;> decide +kernel
  topology := exampleModel_wf _ _ _ _ (by decide) (by decide) (by decide)
  around := by
    have aw := lineInTetrahedron.aw_of_check (by decide)
    rw [exampleModel_topology lineInTetrahedron _ sign modelRuntime (by decide) (by decide)]
    exact ⟨fun m => List.reverse_perm m, aw.surfaces, aw.surfaceKeys, aw.blocks, aw.blockKeys, aw.polygons,
      by cases sign <;> decide +kernel, by cases sign <;> decide +kernel⟩
  coherent := lineInTetrahedron.coherent_of_check (by decide)
  surfaceEmbeddings := by
    rintro id ⟨c, hc, rfl, _⟩ e he
    have hc' : c ∈ (exampleModel lineInTetrahedron (10 * ·) sign).surfaces.map fun c =>
      (⟨c.id, c.active, c.points.length, c.nbPolygons⟩ : TopologyComponent) := hc
    have hn : ∀ x ∈ lineInTetrahedron.surfaces, lineInTetrahedron.toModel.embeddings x.id = [] := by decide
    obtain ⟨f, hf, rfl⟩ := List.mem_map.1 hc'
    obtain ⟨x, hx, rfl⟩ := List.mem_map.1 hf
    have he' : e ∈ lineInTetrahedron.toModel.embeddings x.id := he
    rw [hn x hx] at he'
    exact absurd he' List.not_mem_nil
  firstEdges := by cases sign <;> decide +kernel
  counts := by
    rw [exampleModel_topology lineInTetrahedron _ sign modelRuntime (by decide) (by decide)]
    exact counts_of_check lineInTetrahedron (by decide)
  graph := firstEdge_finder
  geometry := noGeometry_raises
  rays := example_rays _
  modelBoundaries := Or.inl rfl

/-- the Line embedded in the Block is at a vertex where the Block is not -/
theorem lineInTetrahedron_wrong :
    BRepInvalidEmbeddedLine ((exampleModel lineInTetrahedron (10 * ·) .positive).topology modelRuntime) 4 := by
  refine ⟨17, ⟨⟨⟨⟨.line, 17⟩, 0⟩, by decide, rfl⟩, ⟨17, true, 2, 1⟩, by decide, rfl, rfl⟩, ⟨.block, 31⟩, by decide,
    .inr ⟨?_, ?_⟩⟩
  · intro _ c hc
    have : c = ⟨31, true, 4, 1⟩ := List.mem_singleton.1 hc
    subst this
    simp
  · rintro ⟨cmv, hc, hid⟩
    have : cmv = ⟨⟨.line, 17⟩, 0⟩ := List.mem_singleton.1 hc
    subst this
    cases hid

set_option maxRecDepth 20000 in
/-- **C81 is false** for BReps: the Line embedded in a Block is at a vertex where the Block is not, and the list of the
vertices with such a Line is empty. -/
theorem C81_brep_false : ∃ (lib : ModelLibrary Nat) (rt : ModelRuntime) (m : ModelData Nat) (c : Candidates Nat),
    ModelRuntimeOk rt ∧ BRepOk lib rt m c ∧
    (4 < (m.topology rt).nbUniqueVertices ∧ BRepInvalidEmbeddedLine (m.topology rt) 4) ∧
    ∀ fuel ≥ 20, ∃ r, inspectBRepOf lib rt fuel m = .ok r ∧
      r.topology.lines.unique_vertices_linked_to_a_line_with_invalid_embeddings.issues = [] := by
  refine ⟨modelLibrary, modelRuntime, exampleModel lineInTetrahedron (10 * ·) .positive, _, modelRuntime_ok,
    lineInTetrahedron_ok .positive, ⟨by decide, lineInTetrahedron_wrong⟩, ?_⟩
  intro fuel hf
  obtain ⟨k, rfl⟩ := Nat.exists_eq_add_of_le' hf
  exact ⟨_, rfl, rfl⟩

/-- The hypotheses of `C81_brep_partial` and `C82_brep_partial` are met by the BRep of `C82_brep_false`, whose wrong
embedding is not reported. -/
example : LinesUnreadable ((exampleModel lineInTetrahedron (10 * ·) .positive).topology modelRuntime) ∧
    ∃ r N, (∀ fuel ≥ N, inspectBRepOf modelLibrary modelRuntime fuel
      (exampleModel lineInTetrahedron (10 * ·) .positive) = .ok r) ∧ r.topology.lines = {} := by
  have hu : LinesUnreadable ((exampleModel lineInTetrahedron (10 * ·) .positive).topology modelRuntime) := by
    refine ⟨4, by decide, [], ⟨⟨.line, 17⟩, 0⟩, [], rfl, ⟨rfl, ⟨17, true, 2, 1⟩, by decide, rfl, rfl⟩,
      fun _ h => (by cases h), [], ⟨.block, 31⟩, [], rfl, ?_, .inr ⟨?_, ?_⟩, fun _ h => (by cases h)⟩
    · rintro ⟨c, hc, hid⟩
      revert c
      decide
    · intro _ c hc
      have : c = ⟨31, true, 4, 1⟩ := List.mem_singleton.1 hc
      subst this
      simp
    · rintro ⟨cmv, hc, hid⟩
      have : cmv = ⟨⟨.line, 17⟩, 0⟩ := List.mem_singleton.1 hc
      subst this
      cases hid
  obtain ⟨r, N, h1, _, h3⟩ := C81_brep_partial modelLibrary modelRuntime modelRuntime_ok _ _
    (lineInTetrahedron_ok .positive)
  exact ⟨hu, r, N, h1, h3.noLines hu⟩

end Inspector
