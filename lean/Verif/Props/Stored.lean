import Verif.Proofs.Stored
import Verif.Props.Plain
/-
C104: the verdict on a model does not depend on the order in which it is stored.
-/
namespace Inspector
open Spec

/-- **C104** (Sections): the same Section with its components and relationships stored in other orders, inspected in any
other execution and with other search trees, gets the same verdict. -/
theorem C104_section {P : Type} (lib : ModelLibrary P) (rt rt' : ModelRuntime) (hrt : ModelRuntimeOk rt)
    (hrt' : ModelRuntimeOk rt') (m m' : ModelData P) (same : StoredOtherwise m m') (c c' : Candidates P)
    (h : SectionOk lib rt m c) (h' : SectionOk lib rt' m' c') :
    ∃ v v', isSectionOfValid lib rt m = .ok v ∧ isSectionOfValid lib rt' m' = .ok v' ∧ v.isValid = v'.isValid := by
  obtain ⟨v, h1, h2⟩ := C99_section lib rt hrt m c h
  obtain ⟨v', h1', h2'⟩ := C99_section lib rt' hrt' m' c' h'
  refine ⟨v, v', h1, h1', ?_⟩
  rw [Bool.eq_iff_iff, h2, h2', not_iff_not]
  have ht : (∃ t, GivenTopology m t ∧ SectionTopologyDefect t) ↔ ∃ t, GivenTopology m' t ∧ SectionTopologyDefect t := by
    constructor
    · rintro ⟨t, g, d⟩
      have g' := Plain.given_topology h'.meshes rt'
      exact ⟨_, g', (Stored.sectionTopology (Stored.given_same same g g')).1 d⟩
    · rintro ⟨t, g', d⟩
      have g := Plain.given_topology h.meshes rt
      exact ⟨_, g, (Stored.sectionTopology (Stored.given_same same g g')).2 d⟩
  unfold PlainSectionDefect
  rw [ht]
  simp only [same.nbUniqueVertices, Stored.differentPoints same, Stored.colocatedUvs same, same.lines.mem_iff,
    Stored.lineDefect same, same.surfaces.mem_iff, Stored.surfaceDefect same, Stored.polygonsMeet same]

/-- **C104** (BReps): the same for BReps, if the wrong embeddings of the Lines can be described in both (see C54) and if
the geometry of the boundaries of the Blocks is sound (see C103).  Missing: without this, the order matters (see
`C104_brep_false` and `C103_equal_boxes`). -/
theorem C104_brep_partial {P : Type} (lib : ModelLibrary P) (rt rt' : ModelRuntime) (hrt : ModelRuntimeOk rt)
    (hrt' : ModelRuntimeOk rt') (m m' : ModelData P) (same : StoredOtherwise m m') (c c' : Candidates P)
    (h : BRepOk lib rt m c) (h' : BRepOk lib rt' m' c') (hr : ¬ PlainUnreadable m) (hr' : ¬ PlainUnreadable m')
    (sound : SoundGeometry m) :
    ∃ v v' N, (∀ fuel ≥ N, isBRepOfValid lib rt fuel m = .ok v ∧ isBRepOfValid lib rt' fuel m' = .ok v') ∧
      v.isValid = v'.isValid := by
  obtain ⟨v, N, h1, h2, _⟩ := C99_brep_partial lib rt hrt m c h
  obtain ⟨v', N', h1', h2', _⟩ := C99_brep_partial lib rt' hrt' m' c' h'
  refine ⟨v, v', max N N', fun fuel hf => ⟨h1 fuel (by omega), h1' fuel (by omega)⟩, ?_⟩
  rw [Bool.eq_iff_iff, h2 hr, h2' hr', not_iff_not]
  have key : ∀ t t', GivenTopology m t → GivenTopology m' t' →
      (BRepTopologyDefect t m.blocksOracle ↔ BRepTopologyDefect t' m'.blocksOracle) := by
    intro t t' g g'
    have s := Stored.given_same same g g'
    have wf : WellFormed t := Stored.wellFormed_of_given h.meshes h.topology g
    have wf' : WellFormed t' := Stored.wellFormed_of_given h'.meshes h'.topology g'
    have coh : CoherentLines t := Stored.coherent_of_given h.coherent g
    have coh' : CoherentLines t' := Stored.coherent_of_given h'.coherent g'
    refine Stored.brepTopology s (fun l e => by rw [g.surfaceEdges]; exact h.around.surfaceKeys l e)
      (Stored.blocksDefect s (funext fun a => funext fun b => same.isInsideBlock a b)
        (fun x => same.modelBoundaries.mem_iff) fun x hx ha => ?_)
    obtain ⟨shape, smaller⟩ := sound t g
    have hm : InsideIsSmaller t m.blocksOracle.geometry (boundarySurfaces t x.id) := by
      rw [g.blocks] at hx
      obtain ⟨b, hb, rfl⟩ := List.mem_map.1 hx
      exact smaller b hb ha
    have sb := Stored.sameBoundaries s x.id
    rw [← same.geometry, Stored.encloses_iff wf coh h.geometry shape x.id hm,
      Stored.encloses_iff wf' coh' h.geometry (Closed.shape_same sb shape) x.id (Closed.smaller_same sb hm),
      Closed.closed_same sb]
  have ht : (∃ t, GivenTopology m t ∧ BRepTopologyDefect t m.blocksOracle) ↔
      ∃ t, GivenTopology m' t ∧ BRepTopologyDefect t m'.blocksOracle := by
    constructor
    · rintro ⟨t, g, d⟩
      have g' := Plain.given_topology h'.meshes rt'
      exact ⟨_, g', (key _ _ g g').1 d⟩
    · rintro ⟨t, g', d⟩
      have g := Plain.given_topology h.meshes rt
      exact ⟨_, g, (key _ _ g g').2 d⟩
  unfold PlainBRepDefect
  rw [ht, Stored.meshDefect same, Stored.lineMeets same]

/-! ### Examples -/

/-- The same data, listed in another order. -/
structure DataPerm (d d' : TopologyData) : Prop where
  corners : d.corners.Perm d'.corners
  lines : d.lines.Perm d'.lines
  surfaces : d.surfaces.Perm d'.surfaces
  blocks : d.blocks.Perm d'.blocks
  vertices : d.vertices = d'.vertices
  boundary : d.boundary.Perm d'.boundary
  internal : d.internal.Perm d'.internal
  surfaceEdges : d.surfaceEdges.Perm d'.surfaceEdges
  blockEdges : d.blockEdges.Perm d'.blockEdges
  blockPolygons : d.blockPolygons.Perm d'.blockPolygons
  border : d.border = d'.border

theorem stored_of_data {d d' : TopologyData} (h : DataPerm d d') (scale : Nat → Nat) (sign : Sign) :
    StoredOtherwise (exampleModel d scale sign) (exampleModel d' scale sign) := by
  have hu : d.toModel.uniqueVertex = d'.toModel.uniqueVertex := by
    funext cmv
    show d.vertices.findIdx? _ = d'.vertices.findIdx? _
    rw [h.vertices]
  have hv : exampleModel.vertices d = exampleModel.vertices d' := by
    funext kind c
    unfold exampleModel.vertices
    rw [hu]
  have hp : exampleModel.points d scale = exampleModel.points d' scale := by
    funext kind c
    unfold exampleModel.points
    rw [hv]
  refine
    { corners := ?_, lines := ?_, surfaces := ?_, blocks := ?_, noId := rfl
      nbUniqueVertices := congrArg List.length h.vertices
      componentMeshVertices := fun uv => congrArg (fun l => List.getD l uv []) h.vertices
      uniqueVertex := fun cmv => congrFun hu cmv
      isBoundary := fun a b => h.boundary.any_eq
      isInternal := fun a b => h.internal.any_eq
      embeddings := fun id => (h.internal.map _).filterMap _
      incidences := fun id => (h.boundary.map _).filterMap _
      boundaries := fun id => (h.boundary.map _).filterMap _
      isVertexOnBorder := fun s v => congrArg (fun l => decide ((s, v) ∈ l)) h.border
      surfaceEdges := fun l e => h.surfaceEdges.filterMap _
      blockEdges := fun l e => h.blockEdges.filterMap _
      blockPolygons := fun s p => h.blockPolygons.filterMap _
      lineComponentMeshEdges := ?_, surfaceComponentMeshPolygons := ?_
      isInsideBlock := fun _ _ => rfl, geometry := rfl, modelBoundaries := List.Perm.refl _ }
  · unfold exampleModel; simp only [hp]; exact h.corners.map _
  · unfold exampleModel; simp only [hp]; exact h.lines.map _
  · unfold exampleModel; simp only [hp]; exact h.surfaces.map _
  · unfold exampleModel; simp only [hp]; exact h.blocks.map _
  · intro u v
    unfold exampleModel; simp only [hu]; exact h.lines.flatMap_right _
  · intro l
    unfold exampleModel; simp only [hu]; exact h.surfaces.flatMap_right _

/-- `triangleSection`, listed in another order. -/
def otherTriangleSection : TopologyData := { triangleSection with
  corners := triangleSection.corners.reverse
  lines := triangleSection.lines.reverse
  boundary := triangleSection.boundary.reverse }

theorem otherTriangleSection_perm : DataPerm triangleSection otherTriangleSection where
  corners := (List.reverse_perm _).symm
  lines := (List.reverse_perm _).symm
  surfaces := .refl _
  blocks := .refl _
  vertices := rfl
  boundary := (List.reverse_perm _).symm
  internal := .refl _
  surfaceEdges := .refl _
  blockEdges := .refl _
  blockPolygons := .refl _
  border := rfl

theorem otherTriangleSection_ok (sign : Sign) :
    SectionOk modelLibrary otherRuntime (exampleModel otherTriangleSection (10 * ·) sign) noCandidate where
  meshes := exampleModel_meshes _ _ _ (by decide)
  noBlock := rfl
  types := exampleModel_types _ _ _ _ (by decide)
  trees := exampleModel_trees _ _ _ _ (by cases sign <;> decide +kernel)
  tests := fun _ => noCandidate_tests _ _ _ _
  topology := exampleModel_wf _ _ _ _ (by decide) (by decide) (by decide)
  embeddings := by
    intro id _ e he
    exact absurd (TopologyData.mem_select.1 he) (by simp [otherTriangleSection, triangleSection])

/-- The hypotheses hold: the triangle, stored in another order and inspected in another execution, has the same verdict,
both when it is valid and when it is not. -/
example (sign : Sign) : ∃ v v', isSectionOfValid modelLibrary modelRuntime (exampleModel triangleSection (10 * ·) sign) =
      .ok v ∧ isSectionOfValid modelLibrary otherRuntime (exampleModel otherTriangleSection (10 * ·) sign) = .ok v' ∧
    v.isValid = v'.isValid :=
  C104_section modelLibrary modelRuntime otherRuntime modelRuntime_ok otherRuntime_ok _ _
    (stored_of_data otherTriangleSection_perm _ _) _ _ (triangleSection_ok sign) (otherTriangleSection_ok sign)

/-- `tetrahedronBRep`, listed in another order. -/
def otherTetrahedronBRep : TopologyData := { tetrahedronBRep with
  corners := tetrahedronBRep.corners.reverse
  lines := tetrahedronBRep.lines.reverse
  surfaces := tetrahedronBRep.surfaces.reverse
  boundary := tetrahedronBRep.boundary.reverse
  surfaceEdges := tetrahedronBRep.surfaceEdges.reverse
  blockEdges := tetrahedronBRep.blockEdges.reverse
  blockPolygons := tetrahedronBRep.blockPolygons.reverse }

theorem otherTetrahedronBRep_perm : DataPerm tetrahedronBRep otherTetrahedronBRep where
  corners := (List.reverse_perm _).symm
  lines := (List.reverse_perm _).symm
  surfaces := (List.reverse_perm _).symm
  blocks := .refl _
  vertices := rfl
  boundary := (List.reverse_perm _).symm
  internal := .refl _
  surfaceEdges := (List.reverse_perm _).symm
  blockEdges := (List.reverse_perm _).symm
  blockPolygons := (List.reverse_perm _).symm
  border := rfl

theorem otherTetrahedronBRep_ok (sign : Sign) :
    BRepOk modelLibrary modelRuntime (exampleModel otherTetrahedronBRep (10 * ·) sign) noCandidate where
  meshesKnown := MeshesOk.toMeshesKnown (exampleModel_meshes _ _ _ (by decide))
  blockWalks := MeshesOk.blockWalks (exampleModel_meshes _ _ _ (by decide))
  types := exampleModel_types _ _ _ _ (by decide)
  trees := exampleModel_trees _ _ _ _ (by cases sign <;> decide +kernel)
  nbModelEdges := by cases sign <;> decide +kernel
  topology := exampleModel_wf _ _ _ _ (by decide) (by decide) (by decide)
  around := by
    have aw := otherTetrahedronBRep.aw_of_check (by decide)
    rw [exampleModel_topology otherTetrahedronBRep _ sign modelRuntime (by decide) (by decide)]
    exact ⟨fun m => List.reverse_perm m, aw.surfaces, aw.surfaceKeys, aw.blocks, aw.blockKeys, aw.polygons,
      by cases sign <;> decide +kernel, by cases sign <;> decide +kernel⟩
  coherent := otherTetrahedronBRep.coherent_of_check (by decide)
  surfaceEmbeddings := fun id _ e he => absurd he List.not_mem_nil
  firstEdges := by cases sign <;> decide +kernel
  counts := by
    rw [exampleModel_topology otherTetrahedronBRep _ sign modelRuntime (by decide) (by decide)]
    exact counts_of_check otherTetrahedronBRep (by decide)
  graph := firstEdge_finder
  geometry := noGeometry_raises
  rays := example_rays _
  modelBoundaries := Or.inl rfl

/-- Nothing is inside anything: the geometry is sound. -/
theorem exampleModel_sound (d : TopologyData) (scale : Nat → Nat) (sign : Sign) (rt : ModelRuntime)
    (hm : MeshesOk modelLibrary (exampleModel d scale sign)) (wf : WellFormed ((exampleModel d scale sign).topology rt))
    (hs : ∀ c ∈ d.surfaces, c.nbVertices ≠ 0) : SoundGeometry (exampleModel d scale sign) := by
  intro t g
  refine ⟨fun _ _ _ _ _ _ _ _ _ => rfl, fun block _ _ a ha b hb hl p q mesh hp hq hf hin => ?_⟩
  obtain ⟨c, hc, he⟩ := Closed.boundary_has (Stored.wellFormed_of_given hm wf g) block.id b hb
  have hcq : c ∈ q := (hq.2 c).2 ⟨hc, he ▸ hb, he ▸ Relation.ReflTransGen.refl⟩
  have hv : 0 < c.nbVertices := by
    rw [g.surfaces] at hc
    obtain ⟨f, hf, rfl⟩ := List.mem_map.1 hc
    obtain ⟨x, hx, rfl⟩ := List.mem_map.1 hf
    have := hs x hx
    simp only [exampleModel.points, exampleModel.vertices, List.length_map, List.length_range]
    omega
  have := hin c hcq 0 hv
  cases this

theorem otherTetrahedronBRep_readable (sign : Sign) :
    ¬ PlainUnreadable (exampleModel otherTetrahedronBRep (10 * ·) sign) := by
  rw [← Plain.unreadable_iff (otherTetrahedronBRep_ok sign).meshes modelRuntime]
  exact C68_surfaces_readable _ (otherTetrahedronBRep_ok sign).topology fun id _ e he => absurd he List.not_mem_nil

/-- The hypotheses hold for the tetrahedron. -/
example (sign : Sign) : ∃ v v' N, (∀ fuel ≥ N,
      isBRepOfValid modelLibrary modelRuntime fuel (exampleModel tetrahedronBRep (10 * ·) sign) = .ok v ∧
      isBRepOfValid modelLibrary modelRuntime fuel (exampleModel otherTetrahedronBRep (10 * ·) sign) = .ok v') ∧
    v.isValid = v'.isValid :=
  C104_brep_partial modelLibrary modelRuntime modelRuntime modelRuntime_ok modelRuntime_ok _ _
    (stored_of_data otherTetrahedronBRep_perm _ _) _ _ (tetrahedronBRep_ok sign) (otherTetrahedronBRep_ok sign)
    (by rw [← Plain.unreadable_iff (tetrahedronBRep_ok sign).meshes modelRuntime]; exact tetrahedronBRep_readable sign)
    (otherTetrahedronBRep_readable sign)
    (exampleModel_sound _ _ _ modelRuntime (tetrahedronBRep_ok sign).meshes (tetrahedronBRep_ok sign).topology (by decide))

/-- The tetrahedron, with a line 17 of two edges embedded in block 31 and surface 21 (given in this order or in the other
one), which have no vertex on it. -/
def doublyEmbedded (internal : List (ComponentID × ComponentID)) : TopologyData := { tetrahedronBRep with
  lines := tetrahedronBRep.lines ++ [⟨17, true, 3, 2⟩]
  vertices := tetrahedronBRep.vertices ++ [[⟨⟨.line, 17⟩, 0⟩], [⟨⟨.line, 17⟩, 1⟩], [⟨⟨.line, 17⟩, 2⟩]]
  internal := internal }

theorem doublyEmbedded_ok (internal : List (ComponentID × ComponentID))
    (h : internal = [(⟨.line, 17⟩, ⟨.block, 31⟩), (⟨.line, 17⟩, ⟨.surface, 21⟩)] ∨
      internal = [(⟨.line, 17⟩, ⟨.surface, 21⟩), (⟨.line, 17⟩, ⟨.block, 31⟩)]) :
    BRepOk modelLibrary modelRuntime (exampleModel (doublyEmbedded internal) (10 * ·) .positive) noCandidate where
  meshesKnown := MeshesOk.toMeshesKnown (exampleModel_meshes _ _ _ (by rcases h with rfl | rfl <;> decide))
  blockWalks := MeshesOk.blockWalks (exampleModel_meshes _ _ _ (by rcases h with rfl | rfl <;> decide))
  types := exampleModel_types _ _ _ _ (by rcases h with rfl | rfl <;> decide)
  trees := exampleModel_trees _ _ _ _ (by rcases h with rfl | rfl <;> decide +kernel)
  nbModelEdges := by rcases h with rfl | rfl <;> decide +kernel
  topology := exampleModel_wf _ _ _ _ (by rcases h with rfl | rfl <;> decide) (by rcases h with rfl | rfl <;> decide)
    (by rcases h with rfl | rfl <;> decide)
  around := by
    have aw := (doublyEmbedded internal).aw_of_check (by rcases h with rfl | rfl <;> decide)
    rw [exampleModel_topology (doublyEmbedded internal) _ .positive modelRuntime
      (by rcases h with rfl | rfl <;> decide) (by rcases h with rfl | rfl <;> decide)]
    exact ⟨fun m => List.reverse_perm m, aw.surfaces, aw.surfaceKeys, aw.blocks, aw.blockKeys, aw.polygons,
      by rcases h with rfl | rfl <;> decide +kernel, by rcases h with rfl | rfl <;> decide +kernel⟩
  coherent := (doublyEmbedded internal).coherent_of_check (by rcases h with rfl | rfl <;> decide)
  surfaceEmbeddings := by
    rintro id ⟨c, hc, rfl, _⟩ e he
    have hc' : c ∈ (exampleModel (doublyEmbedded internal) (10 * ·) .positive).surfaces.map fun c =>
      (⟨c.id, c.active, c.points.length, c.nbPolygons⟩ : TopologyComponent) := hc
    have hn : ∀ x ∈ (doublyEmbedded internal).surfaces, (doublyEmbedded internal).toModel.embeddings x.id = [] := by
      rcases h with rfl | rfl <;> decide
    obtain ⟨f, hf, rfl⟩ := List.mem_map.1 hc'
    obtain ⟨x, hx, rfl⟩ := List.mem_map.1 hf
    have he' : e ∈ (doublyEmbedded internal).toModel.embeddings x.id := he
    rw [hn x hx] at he'
    exact absurd he' List.not_mem_nil
  firstEdges := by rcases h with rfl | rfl <;> decide +kernel
  counts := by
    rw [exampleModel_topology (doublyEmbedded internal) _ .positive modelRuntime
      (by rcases h with rfl | rfl <;> decide) (by rcases h with rfl | rfl <;> decide)]
    exact counts_of_check (doublyEmbedded internal) (by rcases h with rfl | rfl <;> decide)
  graph := firstEdge_finder
  geometry := noGeometry_raises
  rays := example_rays _
  modelBoundaries := Or.inl rfl

set_option maxRecDepth 20000 in
theorem doublyEmbedded_first (k : Nat) : ∃ v, isBRepOfValid modelLibrary modelRuntime (k + 20) (exampleModel (doublyEmbedded
      [(⟨.line, 17⟩, ⟨.block, 31⟩), (⟨.line, 17⟩, ⟨.surface, 21⟩)]) (10 * ·) .positive) = .ok v ∧ v.isValid = true :=
  ⟨_, rfl, rfl⟩

set_option maxHeartbeats 2000000 in
set_option maxRecDepth 20000 in
theorem doublyEmbedded_second (k : Nat) : ∃ v, isBRepOfValid modelLibrary modelRuntime (k + 20) (exampleModel (doublyEmbedded
      [(⟨.line, 17⟩, ⟨.surface, 21⟩), (⟨.line, 17⟩, ⟨.block, 31⟩)]) (10 * ·) .positive) = .ok v ∧ v.isValid = false :=
  ⟨_, rfl, rfl⟩

theorem doublyEmbedded_verdicts (k : Nat) : ∃ v v',
    isBRepOfValid modelLibrary modelRuntime (k + 20) (exampleModel (doublyEmbedded
      [(⟨.line, 17⟩, ⟨.block, 31⟩), (⟨.line, 17⟩, ⟨.surface, 21⟩)]) (10 * ·) .positive) = .ok v ∧
    isBRepOfValid modelLibrary modelRuntime (k + 20) (exampleModel (doublyEmbedded
      [(⟨.line, 17⟩, ⟨.surface, 21⟩), (⟨.line, 17⟩, ⟨.block, 31⟩)]) (10 * ·) .positive) = .ok v' ∧
    v.isValid = true ∧ v'.isValid = false := by
  obtain ⟨v, h1, h2⟩ := doublyEmbedded_first k
  obtain ⟨v', h1', h2'⟩ := doublyEmbedded_second k
  exact ⟨v, v', h1, h1', h2, h2'⟩

set_option maxRecDepth 20000 in
/-- **C104 is false** for BReps: the same BRep is valid or not according to the order in which the two embeddings of a
Line are stored. -/
theorem C104_brep_false : ∃ (lib : ModelLibrary Nat) (rt : ModelRuntime) (m m' : ModelData Nat) (c : Candidates Nat),
    ModelRuntimeOk rt ∧ BRepOk lib rt m c ∧ BRepOk lib rt m' c ∧ StoredOtherwise m m' ∧ SoundGeometry m ∧
    ∀ fuel ≥ 20, ∃ v v', isBRepOfValid lib rt fuel m = .ok v ∧ isBRepOfValid lib rt fuel m' = .ok v' ∧
      v.isValid = true ∧ v'.isValid = false := by
  have h1 := doublyEmbedded_ok _ (Or.inl rfl)
  have h2 := doublyEmbedded_ok _ (Or.inr rfl)
  refine ⟨modelLibrary, modelRuntime, _, _, _, modelRuntime_ok, h1, h2, stored_of_data ?_ _ _,
    exampleModel_sound _ _ _ modelRuntime h1.meshes h1.topology (by decide), ?_⟩
  · exact { corners := .refl _, lines := .refl _, surfaces := .refl _, blocks := .refl _, vertices := rfl,
            boundary := .refl _, internal := .swap _ _ _, surfaceEdges := .refl _, blockEdges := .refl _,
            blockPolygons := .refl _, border := rfl }
  · intro fuel hf
    obtain ⟨k, rfl⟩ := Nat.exists_eq_add_of_le' hf
    exact doublyEmbedded_verdicts k

end Inspector
