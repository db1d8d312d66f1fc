import Verif.Proofs.Parts
import Verif.Props.Numbers
import Verif.Props.PartsData
import Verif.Props.Inactive
/-
C129: a model made of two parts which have nothing in common is valid when both parts are.
-/
namespace Inspector
open Spec

/-- **C129** (Sections): a Section made of two parts which have no component, unique vertex, relationship or place in common
is declared valid when, and only when, each of its parts, inspected in another execution, is.  Proved when the inactive
Surfaces have polygons; otherwise it is false (`C129_section_false`). -/
theorem C129_section_partial {P : Type} (lib : ModelLibrary P) (rt rt1 rt2 : ModelRuntime) (hrt : ModelRuntimeOk rt)
    (hrt1 : ModelRuntimeOk rt1) (hrt2 : ModelRuntimeOk rt2) (m m1 m2 : ModelData P) (ι1 ι2 : Index → Index)
    (h : MadeOf m m1 m2 ι1 ι2) (near : P → P → Prop) (far : FarApart lib (SectionTrianglesMeet lib.geometry) near m m1 m2)
    (c c1 c2 : Candidates P) (ok : SectionOk lib rt m c) (ok1 : SectionOk lib rt1 m1 c1) (ok2 : SectionOk lib rt2 m2 c2)
    (hn : NumbersKnown m) (hn1 : NumbersKnown m1) (hn2 : NumbersKnown m2) (hs : UniqueVerticesNear lib near m)
    (hs1 : UniqueVerticesNear lib near m1) (hs2 : UniqueVerticesNear lib near m2) (hin : InactiveSurfacesMeshed m) :
    ∃ v v1 v2, isSectionOfValid lib rt m = .ok v ∧ isSectionOfValid lib rt1 m1 = .ok v1 ∧
      isSectionOfValid lib rt2 m2 = .ok v2 ∧ (v.isValid = true ↔ v1.isValid = true ∧ v2.isValid = true) := by
  obtain ⟨v, e, hv⟩ := C99_section lib rt hrt m c ok
  obtain ⟨v1, e1, hv1⟩ := C99_section lib rt1 hrt1 m1 c1 ok1
  obtain ⟨v2, e2, hv2⟩ := C99_section lib rt2 hrt2 m2 c2 ok2
  refine ⟨v, v1, v2, e, e1, e2, ?_⟩
  rw [hv, hv1, hv2, ← not_or, not_iff_not]
  by_cases hall : ∀ s ∈ m.surfaces, s.nbPolygons ≠ 0
  · have g := Parts.allMeshed_of rt hall
    have g1 := Parts.allMeshed_of rt1 fun s hs => hall s (h.first.surfaces s hs)
    have g2 := Parts.allMeshed_of rt2 fun s hs => hall s (h.second.surfaces s hs)
    have s1 : Parts.Setting lib rt rt1 near ι1 m m1 := ⟨h.first, ok.meshes, ok1.meshes, ok.types, ok1.types, hn.noId, hn1,
      ok1.topology, hs, hs1, iff_of_true g g1⟩
    have s2 : Parts.Setting lib rt rt2 near ι2 m m2 := ⟨h.second, ok.meshes, ok2.meshes, ok.types, ok2.types, hn.noId, hn2,
      ok2.topology, hs, hs2, iff_of_true g g2⟩
    exact ⟨Parts.part_of_whole h far s1 s2, fun hd => hd.elim (Parts.whole_of_part s1) (Parts.whole_of_part s2)⟩
  · push Not at hall
    obtain ⟨x, hx, h0⟩ := hall
    have ha : x.active = true := by
      cases e : x.active with
      | true => rfl
      | false => exact absurd h0 (hin x hx e)
    refine iff_of_true (Parts.unmeshed_defect ok.meshes rt hx ha h0) ?_
    exact (h.surfaces x hx).imp (fun hx => Parts.unmeshed_defect ok1.meshes rt1 hx ha h0)
      fun hx => Parts.unmeshed_defect ok2.meshes rt2 hx ha h0

theorem Parts.noShared {P : Type} {r1 r2 : ModelSurface P} {t1 t2 : List Index} {c : List (Index × Index)}
    (h : ∀ v ∈ t1, ∀ w ∈ t2, r1.uniqueVertex v ≠ r2.uniqueVertex w) (hc : CommonVertices r1 r2 t1 t2 c) : c = [] := by
  have := hc.vertices
  rw [List.filter_eq_nil_iff.2 (fun v hv => by
    rw [decide_eq_true_iff]
    rintro ⟨w, hw, e⟩
    exact h v hv w hw e), List.map_eq_nil_iff] at this
  exact this

theorem Parts.sectionApart (r1 r2 : ModelSurface Nat) (t1 t2 : List Index)
    (h : ∀ v ∈ t1, ∀ w ∈ t2, r1.uniqueVertex v ≠ r2.uniqueVertex w) :
    ¬ SectionTrianglesMeet modelLibrary.geometry r1 r2 t1 t2 := by
  rintro ⟨c, hc, hm⟩
  obtain rfl := Parts.noShared h hc
  obtain ⟨e1, _, e2, _, h1, _⟩ := hm
  exact h1 rfl

theorem Parts.brepApart (r1 r2 : ModelSurface Nat) (t1 t2 : List Index)
    (h : ∀ v ∈ t1, ∀ w ∈ t2, r1.uniqueVertex v ≠ r2.uniqueVertex w) :
    ¬ BRepTrianglesMeet modelLibrary.geometry r1 r2 t1 t2 := by
  rintro ⟨c, hc, hm⟩
  obtain rfl := Parts.noShared h hc
  rcases hm with ⟨e1, _, x, _, h1⟩ | ⟨e1, _, x, _, h1⟩ <;> exact h1 rfl

/-- A triangle with other ids. -/
def otherTriangle : TopologyData := Parts.otherIds 100 triangleSection

theorem otherTriangle_ok (scale : Nat → Nat) (hs : scale = fun n => 10 * (n + triangleSection.vertices.length)) :
    SectionOk modelLibrary modelRuntime (exampleModel otherTriangle scale .positive) noCandidate where
  meshes := exampleModel_meshes _ _ _ (by decide)
  noBlock := rfl
  types := exampleModel_types _ _ _ _ (by decide)
  trees := exampleModel_trees _ _ _ _ (by subst hs; decide +kernel)
  tests := fun _ => noCandidate_tests _ _ _ _
  topology := exampleModel_wf _ _ _ _ (by decide) (by decide) (by decide)
  embeddings := by
    intro id _ e he
    exact absurd (TopologyData.mem_select.1 he) (by simp [otherTriangle, Parts.otherIds, triangleSection])

theorem twoTriangles_ok :
    SectionOk modelLibrary modelRuntime (exampleModel (Parts.beside triangleSection otherTriangle) (10 * ·) .positive)
      noCandidate where
  meshes := exampleModel_meshes _ _ _ (by decide)
  noBlock := rfl
  types := exampleModel_types _ _ _ _ (by decide)
  trees := exampleModel_trees _ _ _ _ (by decide +kernel)
  tests := fun _ => noCandidate_tests _ _ _ _
  topology := exampleModel_wf _ _ _ _ (by decide) (by decide) (by decide)
  embeddings := by
    intro id _ e he
    exact absurd (TopologyData.mem_select.1 he) (by simp [otherTriangle, Parts.beside, Parts.otherIds, triangleSection])

/-- the hypotheses are met by two triangles, and the Section made of both is valid since each of them is -/
example : ∃ v, isSectionOfValid modelLibrary modelRuntime
    (exampleModel (Parts.beside triangleSection otherTriangle) (10 * ·) .positive) = .ok v ∧ v.isValid = true := by
  have h1 : Parts.Ignores triangleSection otherTriangle := by decide
  have h2 : Parts.Ignores otherTriangle triangleSection := by decide
  have h3 : Parts.AllLinkedData otherTriangle := by decide
  obtain ⟨v, v1, v2, e, e1, e2, hv⟩ := C129_section_partial modelLibrary modelRuntime modelRuntime modelRuntime modelRuntime_ok
    modelRuntime_ok modelRuntime_ok _ _ _ _ _ (Parts.madeOf (10 * ·) .positive h1 h2 h3) (fun _ _ => False)
    (Parts.apart _ _ _ Parts.sectionApart h1 h2 (by decide) (by decide)) _ _ _ twoTriangles_ok
    (triangleSection_ok .positive) (otherTriangle_ok _ rfl) (Parts.numbersKnown _ _ _ (by decide))
    (Parts.numbersKnown _ _ _ (by decide)) (Parts.numbersKnown _ _ _ (by decide)) (example_near _) (example_near _)
    (example_near _) (by
      intro s hs
      simp only [exampleModel, Parts.beside, otherTriangle, Parts.otherIds, triangleSection, List.map_cons, List.map_nil,
        List.cons_append, List.nil_append, List.mem_cons, List.not_mem_nil, or_false] at hs
      rcases hs with rfl | rfl <;> decide)
  refine ⟨v, e, hv.2 ⟨?_, ?_⟩⟩
  · have he : isSectionOfValid modelLibrary modelRuntime (exampleModel triangleSection (10 * ·) .positive) = .ok {} := by rfl
    rw [he] at e1
    injection e1 with e1
    rw [← e1]; rfl
  · have he : isSectionOfValid modelLibrary modelRuntime (exampleModel otherTriangle
      (fun n => 10 * (n + triangleSection.vertices.length)) .positive) = .ok {} := by rfl
    have := he.symm.trans e2
    injection this with e2
    rw [← e2]; rfl

/-! ### an inactive Surface without polygon -/

/-- A triangle, with a Line embedded in its Surface which is at no vertex of it. -/
def strayLine : TopologyData where
  corners := triangleSection.corners ++ [⟨4, true, 1, 0⟩, ⟨5, true, 1, 0⟩]
  lines := triangleSection.lines ++ [⟨17, true, 2, 1⟩]
  surfaces := triangleSection.surfaces
  vertices := triangleSection.vertices ++ [[⟨⟨.corner, 4⟩, 0⟩, ⟨⟨.line, 17⟩, 0⟩], [⟨⟨.corner, 5⟩, 0⟩, ⟨⟨.line, 17⟩, 1⟩]]
  boundary := triangleSection.boundary ++ [(⟨.corner, 4⟩, ⟨.line, 17⟩), (⟨.corner, 5⟩, ⟨.line, 17⟩)]
  internal := [(⟨.line, 17⟩, ⟨.surface, 21⟩)]
  border := triangleSection.border

/-- A Section with an inactive Surface which has vertices and no polygon, and nothing else. -/
def emptySurface : TopologyData where
  surfaces := [⟨29, false, 3, 0⟩]
  vertices := [[⟨⟨.surface, 29⟩, 0⟩], [⟨⟨.surface, 29⟩, 1⟩], [⟨⟨.surface, 29⟩, 2⟩]]

theorem strayLine_ok : SectionOk modelLibrary modelRuntime (exampleModel strayLine (10 * ·) .positive) noCandidate where
  meshes := exampleModel_meshes _ _ _ (by decide)
  noBlock := rfl
  types := exampleModel_types _ _ _ _ (by decide)
  trees := exampleModel_trees _ _ _ _ (by decide +kernel)
  tests := fun _ => noCandidate_tests _ _ _ _
  topology := exampleModel_wf _ _ _ _ (by decide) (by decide) (by decide)
  embeddings := by
    intro id _ e he
    have := TopologyData.mem_select.1 he
    simp [strayLine] at this
    rw [this.2]

theorem emptySurface_ok (scale : Nat → Nat) (hs : scale = fun n => 10 * (n + strayLine.vertices.length)) :
    SectionOk modelLibrary modelRuntime (exampleModel emptySurface scale .positive) noCandidate where
  meshes := exampleModel_meshes _ _ _ (by decide)
  noBlock := rfl
  types := exampleModel_types _ _ _ _ (by decide)
  trees := exampleModel_trees _ _ _ _ (by subst hs; decide +kernel)
  tests := fun _ => noCandidate_tests _ _ _ _
  topology := exampleModel_wf _ _ _ _ (by decide) (by decide) (by decide)
  embeddings := by
    intro id _ e he
    exact absurd (TopologyData.mem_select.1 he) (by simp [emptySurface])

theorem strayLineBesideEmpty_ok : SectionOk modelLibrary modelRuntime
    (exampleModel (Parts.beside strayLine emptySurface) (10 * ·) .positive) noCandidate where
  meshes := exampleModel_meshes _ _ _ (by decide)
  noBlock := rfl
  types := exampleModel_types _ _ _ _ (by decide)
  trees := exampleModel_trees _ _ _ _ (by decide +kernel)
  tests := fun _ => noCandidate_tests _ _ _ _
  topology := exampleModel_wf _ _ _ _ (by decide) (by decide) (by decide)
  embeddings := by
    intro id _ e he
    have := TopologyData.mem_select.1 he
    simp [strayLine, Parts.beside, emptySurface] at this
    rw [this.2]

/-- **C129** is not true without conditions: a Section made of two parts which have nothing in common is declared valid
although one of the parts is not.  (topology_helpers.cpp:51-61 asks all Surfaces of the Section, the inactive ones too, for
polygons: an inactive Surface without polygon in one part hides the Line of the other which is embedded in a Surface without being at its
vertices.) -/
theorem C129_section_false : ∃ (m m1 m2 : ModelData Nat) (ι1 ι2 : Index → Index) (near : Nat → Nat → Prop)
    (c c1 c2 : Candidates Nat), MadeOf m m1 m2 ι1 ι2 ∧
    FarApart modelLibrary (SectionTrianglesMeet modelLibrary.geometry) near m m1 m2 ∧
    SectionOk modelLibrary modelRuntime m c ∧ SectionOk modelLibrary modelRuntime m1 c1 ∧
    SectionOk modelLibrary modelRuntime m2 c2 ∧ NumbersKnown m ∧ NumbersKnown m1 ∧ NumbersKnown m2 ∧
    UniqueVerticesNear modelLibrary near m ∧ UniqueVerticesNear modelLibrary near m1 ∧
    UniqueVerticesNear modelLibrary near m2 ∧
    ∃ v v1 v2, isSectionOfValid modelLibrary modelRuntime m = .ok v ∧ isSectionOfValid modelLibrary modelRuntime m1 = .ok v1 ∧
      isSectionOfValid modelLibrary modelRuntime m2 = .ok v2 ∧ v.isValid = true ∧ v1.isValid = false ∧ v2.isValid = true := by
  have h1 : Parts.Ignores strayLine emptySurface := by decide
  have h2 : Parts.Ignores emptySurface strayLine := by decide
  exact ⟨exampleModel (Parts.beside strayLine emptySurface) (10 * ·) .positive, exampleModel strayLine (10 * ·) .positive,
    exampleModel emptySurface (fun n => 10 * (n + strayLine.vertices.length)) .positive, id, (· + strayLine.vertices.length),
    fun _ _ => False, noCandidate, noCandidate, noCandidate, Parts.madeOf (10 * ·) .positive h1 h2 (by decide),
    Parts.apart _ _ _ Parts.sectionApart h1 h2 (by decide) (by decide), strayLineBesideEmpty_ok, strayLine_ok,
    emptySurface_ok _ rfl, Parts.numbersKnown _ _ _ (by decide), Parts.numbersKnown _ _ _ (by decide),
    Parts.numbersKnown _ _ _ (by decide), example_near _, example_near _, example_near _, {}, _, {}, rfl, rfl, rfl, rfl, rfl, rfl⟩

/-! ### BReps -/

/-- A model with the given model boundaries. -/
def withBoundaries (m : ModelData Nat) (b : List (List Uuid)) : ModelData Nat :=
  { m with blocksOracle := { noModelBoundary with modelBoundaries := b } }

theorem Parts.withBoundaries_part {ι : Index → Index} {m1 m : ModelData Nat} (h : IsBRepPart ι m1 m) (b1 b : List (List Uuid)) :
    IsBRepPart ι (withBoundaries m1 b1) (withBoundaries m b) :=
  ⟨⟨h.corners, h.lines, h.surfaces, h.blocks, h.noId, h.injective, h.numbers, h.componentMeshVertices, h.uniqueVertex,
    h.isBoundary, h.isInternal, h.embeddings, h.incidences, h.isVertexOnBorder, h.lineComponentMeshEdges⟩, h.boundaries,
    h.surfaceEdges, h.blockEdges, h.blockPolygons, h.surfaceComponentMeshPolygons⟩

theorem Parts.withBoundaries_made {ι1 ι2 : Index → Index} {m m1 m2 : ModelData Nat} (h : MadeOf m m1 m2 ι1 ι2)
    (h1 : IsBRepPart ι1 m1 m) (h2 : IsBRepPart ι2 m2 m) (b b1 b2 : List (List Uuid)) :
    MadeOf (withBoundaries m b) (withBoundaries m1 b1) (withBoundaries m2 b2) ι1 ι2 :=
  ⟨(Parts.withBoundaries_part h1 b1 b).toIsPart, (Parts.withBoundaries_part h2 b2 b).toIsPart, h.corners, h.lines, h.surfaces,
    h.blocks, h.different, h.vertices⟩

theorem Parts.withBoundaries_ok {m : ModelData Nat} {c : Candidates Nat} (h : BRepOk modelLibrary modelRuntime m c)
    (ho : m.blocksOracle = noModelBoundary) (b : List (List Uuid)) (hb : b.flatten ≠ []) :
    BRepOk modelLibrary modelRuntime (withBoundaries m b) c where
  meshesKnown := ⟨h.meshesKnown.ids, h.meshesKnown.nbComponents, h.meshesKnown.corners, h.meshesKnown.lines,
    h.meshesKnown.surfaces, h.meshesKnown.walks, h.meshesKnown.blocks, h.meshesKnown.uniqueVertices,
    h.meshesKnown.nbUniqueVertices, h.meshesKnown.nbLinks, h.meshesKnown.smallPolygons, h.meshesKnown.positions⟩
  blockWalks := h.blockWalks
  types := h.types
  trees := h.trees
  nbModelEdges := h.nbModelEdges
  topology := h.topology
  around := h.around
  coherent := h.coherent
  surfaceEmbeddings := h.surfaceEmbeddings
  firstEdges := h.firstEdges
  counts := h.counts
  graph := firstEdge_finder
  geometry := noGeometry_raises
  rays := example_rays _
  modelBoundaries := .inr hb

/-- A tetrahedron with other ids. -/
def otherTetrahedron : TopologyData := Parts.otherIds 100 tetrahedronBRep

def twoTetrahedra : TopologyData := Parts.beside tetrahedronBRep otherTetrahedron

set_option maxRecDepth 20000 in
theorem otherTetrahedron_ok (scale : Nat → Nat) (hs : scale = fun n => 10 * (n + tetrahedronBRep.vertices.length)) :
    BRepOk modelLibrary modelRuntime (exampleModel otherTetrahedron scale .positive) noCandidate where
  meshesKnown := MeshesOk.toMeshesKnown (exampleModel_meshes _ _ _ (by decide))
  blockWalks := MeshesOk.blockWalks (exampleModel_meshes _ _ _ (by decide))
  types := exampleModel_types _ _ _ _ (by decide)
  trees := exampleModel_trees _ _ _ _ (by subst hs; decide +kernel)
  nbModelEdges := by subst hs; decide +kernel
  topology := exampleModel_wf _ _ _ _ (by decide) (by decide) (by decide)
  around := by
    have aw := otherTetrahedron.aw_of_check (by decide +kernel)
    rw [exampleModel_topology otherTetrahedron _ _ modelRuntime (by decide +kernel) (by decide +kernel)]
    exact ⟨fun m => List.reverse_perm m, aw.surfaces, aw.surfaceKeys, aw.blocks, aw.blockKeys, aw.polygons,
      by subst hs; decide +kernel, by subst hs; decide +kernel⟩
  coherent := otherTetrahedron.coherent_of_check (by decide +kernel)
  surfaceEmbeddings := fun id _ e he => absurd he List.not_mem_nil
  firstEdges := by subst hs; decide +kernel
  counts := by
    rw [exampleModel_topology otherTetrahedron _ _ modelRuntime (by decide +kernel) (by decide +kernel)]
    exact counts_of_check otherTetrahedron (by decide +kernel)
  graph := firstEdge_finder
  geometry := noGeometry_raises
  rays := example_rays _
  modelBoundaries := Or.inl rfl

set_option maxRecDepth 20000 in
theorem twoTetrahedra_ok :
    BRepOk modelLibrary modelRuntime (exampleModel twoTetrahedra (10 * ·) .positive) noCandidate where
  meshesKnown := MeshesOk.toMeshesKnown (exampleModel_meshes _ _ _ (by decide +kernel))
  blockWalks := MeshesOk.blockWalks (exampleModel_meshes _ _ _ (by decide +kernel))
  types := exampleModel_types _ _ _ _ (by decide +kernel)
  trees := exampleModel_trees _ _ _ _ (by decide +kernel)
  nbModelEdges := by decide +kernel
  topology := exampleModel_wf _ _ _ _ (by decide +kernel) (by decide +kernel) (by decide +kernel)
  around := by
    have aw := twoTetrahedra.aw_of_check (by decide +kernel)
    rw [exampleModel_topology twoTetrahedra _ _ modelRuntime (by decide +kernel) (by decide +kernel)]
    exact ⟨fun m => List.reverse_perm m, aw.surfaces, aw.surfaceKeys, aw.blocks, aw.blockKeys, aw.polygons,
      by decide +kernel, by decide +kernel⟩
  coherent := twoTetrahedra.coherent_of_check (by decide +kernel)
  surfaceEmbeddings := fun id _ e he => absurd he List.not_mem_nil
  firstEdges := by decide +kernel
  counts := by
    rw [exampleModel_topology twoTetrahedra _ _ modelRuntime (by decide +kernel) (by decide +kernel)]
    exact counts_of_check twoTetrahedra (by decide +kernel)
  graph := firstEdge_finder
  geometry := noGeometry_raises
  rays := example_rays _
  modelBoundaries := Or.inl rfl

set_option maxRecDepth 100000 in
set_option maxHeartbeats 4000000 in
theorem Parts.tetrahedron_valid (n : Nat) : isBRepOfValid modelLibrary modelRuntime (n + 50)
    (withBoundaries (exampleModel tetrahedronBRep (10 * ·) .positive) [[21, 22, 23, 24]]) = .ok {} := by rfl

set_option maxRecDepth 100000 in
set_option maxHeartbeats 4000000 in
theorem Parts.otherTetrahedron_valid (n : Nat) : isBRepOfValid modelLibrary modelRuntime (n + 50)
    (withBoundaries (exampleModel otherTetrahedron (fun n => 10 * (n + tetrahedronBRep.vertices.length)) .positive)
      [[121, 122, 123, 124]]) = .ok {} := by rfl

set_option maxRecDepth 100000 in
set_option maxHeartbeats 4000000 in
theorem Parts.twoTetrahedra_invalid (n : Nat) : (isBRepOfValid modelLibrary modelRuntime (n + 50)
    (withBoundaries (exampleModel twoTetrahedra (10 * ·) .positive)
      [[21, 22, 23, 24], [121, 122, 123, 124]])).toOption.map (·.isValid) = some false := by rfl

set_option maxRecDepth 40000 in
/-- **C129** is not true of BReps: two tetrahedra, each of them a valid BRep whose faces are its model boundary, have nothing in
common, and the BRep made of both is declared invalid.  (brep_blocks_topology.cpp:341-350, 504-512 and 956-962 ask all the model boundaries of the
BRep to be linked to one another by Lines, as if the Blocks were in one piece.) -/
theorem C129_brep_false : ∃ (m m1 m2 : ModelData Nat) (ι1 ι2 : Index → Index) (near : Nat → Nat → Prop)
    (c c1 c2 : Candidates Nat), MadeOf m m1 m2 ι1 ι2 ∧ IsBRepPart ι1 m1 m ∧ IsBRepPart ι2 m2 m ∧
    m.blocksOracle = { m1.blocksOracle with
      modelBoundaries := m1.blocksOracle.modelBoundaries ++ m2.blocksOracle.modelBoundaries } ∧
    FarApart modelLibrary (BRepTrianglesMeet modelLibrary.geometry) near m m1 m2 ∧
    BRepOk modelLibrary modelRuntime m c ∧ BRepOk modelLibrary modelRuntime m1 c1 ∧ BRepOk modelLibrary modelRuntime m2 c2 ∧
    NumbersKnown m ∧ NumbersKnown m1 ∧ NumbersKnown m2 ∧ UniqueVerticesNear modelLibrary near m ∧
    UniqueVerticesNear modelLibrary near m1 ∧ UniqueVerticesNear modelLibrary near m2 ∧ ∀ fuel ≥ 50,
    ∃ v v1 v2, isBRepOfValid modelLibrary modelRuntime fuel m = .ok v ∧
      isBRepOfValid modelLibrary modelRuntime fuel m1 = .ok v1 ∧
      isBRepOfValid modelLibrary modelRuntime fuel m2 = .ok v2 ∧ v.isValid = false ∧ v1.isValid = true ∧ v2.isValid = true := by
  have h1 : Parts.Ignores tetrahedronBRep otherTetrahedron := by decide +kernel
  have h2 : Parts.Ignores otherTetrahedron tetrahedronBRep := by decide +kernel
  have h3 : Parts.AllLinkedData otherTetrahedron := by decide +kernel
  have p1 := Parts.first (10 * ·) .positive h1 h2
  have p2 := Parts.second (10 * ·) .positive h1 h2 h3
  refine ⟨withBoundaries (exampleModel twoTetrahedra (10 * ·) .positive) [[21, 22, 23, 24], [121, 122, 123, 124]],
    withBoundaries (exampleModel tetrahedronBRep (10 * ·) .positive) [[21, 22, 23, 24]],
    withBoundaries (exampleModel otherTetrahedron (fun n => 10 * (n + tetrahedronBRep.vertices.length)) .positive)
      [[121, 122, 123, 124]], id, (· + tetrahedronBRep.vertices.length), fun _ _ => False, noCandidate, noCandidate, noCandidate,
    Parts.withBoundaries_made (Parts.madeOf (10 * ·) .positive h1 h2 h3) p1 p2 _ _ _, Parts.withBoundaries_part p1 _ _,
    Parts.withBoundaries_part p2 _ _, rfl, ?_, Parts.withBoundaries_ok twoTetrahedra_ok rfl _ (by decide),
    Parts.withBoundaries_ok (tetrahedronBRep_ok .positive) rfl _ (by decide),
    Parts.withBoundaries_ok (otherTetrahedron_ok _ rfl) rfl _ (by decide), ?_, ?_, ?_, example_near _, example_near _,
    example_near _, ?_⟩
  · have hf := Parts.apart (10 * ·) .positive _ Parts.brepApart h1 h2 (by decide +kernel) (by decide +kernel)
    exact ⟨hf.points, fun s1 i1 s2 i2 a1 a2 r1 r2 g1 g2 => hf.polygons s1 i1 s2 i2 a1 a2 r1 r2
      ⟨g1.id, g1.active, g1.nbPolygons, g1.polygonVertices, g1.nbVertices, g1.point, g1.uniqueVertex⟩
      ⟨g2.id, g2.active, g2.nbPolygons, g2.polygonVertices, g2.nbVertices, g2.point, g2.uniqueVertex⟩⟩
  · have := Parts.numbersKnown (10 * ·) .positive twoTetrahedra (by decide)
    exact ⟨this.range, this.noId⟩
  · have := Parts.numbersKnown (10 * ·) .positive tetrahedronBRep (by decide)
    exact ⟨this.range, this.noId⟩
  · have := Parts.numbersKnown (fun n => 10 * (n + tetrahedronBRep.vertices.length)) .positive otherTetrahedron (by decide)
    exact ⟨this.range, this.noId⟩
  · intro fuel hf
    obtain ⟨n, rfl⟩ := Nat.exists_eq_add_of_le hf
    rw [Nat.add_comm]
    have hv := Parts.twoTetrahedra_invalid n
    obtain ⟨v, he⟩ : ∃ v, isBRepOfValid modelLibrary modelRuntime (n + 50)
        (withBoundaries (exampleModel twoTetrahedra (10 * ·) .positive)
          [[21, 22, 23, 24], [121, 122, 123, 124]]) = .ok v := by
      cases hc : isBRepOfValid modelLibrary modelRuntime (n + 50)
        (withBoundaries (exampleModel twoTetrahedra (10 * ·) .positive) [[21, 22, 23, 24], [121, 122, 123, 124]]) with
      | ok v => exact ⟨v, rfl⟩
      | error e => rw [hc] at hv; exact absurd hv (by simp [Except.toOption])
    rw [he] at hv
    exact ⟨v, {}, {}, he, Parts.tetrahedron_valid n, Parts.otherTetrahedron_valid n, Option.some.inj hv, rfl, rfl⟩

end Inspector
