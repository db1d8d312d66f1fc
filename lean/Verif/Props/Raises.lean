import Verif.Proofs.Raises
import Verif.Props.WholeModel
/-
C111: an exception raised by a test or a walk of OpenGeode is neither hidden nor turned into a wrong report.
-/
namespace Inspector
open Spec

/-! ### surfaces -/

/-- **C111** (surfaces): the test of two polygons may raise.  Whenever the inspection returns, its lists are right and the
verdict is exact; whatever it raises has been raised by the test of two candidate polygons; it raises as soon as the test
of two candidates does. -/
theorem C111_surface {P : Type} (dimension : Nat) (lib : Library P) (rt : Runtime) (hrt : RuntimeOk rt)
    (mesh : SurfaceData P) (candidates : List ElementPair) (h : SurfaceDataKnown lib mesh candidates) :
    (∀ r, inspectSurfaceMesh dimension lib rt mesh = .ok r → SurfaceReport dimension lib mesh r) ∧
    (∀ v, isSurfaceMeshValid dimension lib rt mesh = .ok v → (v.isValid = true ↔ ¬ SurfaceDefect dimension lib mesh)) ∧
    (∀ f, inspectSurfaceMesh dimension lib rt mesh = .error f → ∃ x ∈ candidates, PolygonTestRaises mesh x f) ∧
    ((∃ x ∈ candidates, ∃ f, PolygonTestRaises mesh x f) →
      ∃ f, inspectSurfaceMesh dimension lib rt mesh = .error f ∧ isSurfaceMeshValid dimension lib rt mesh = .error f) := by
  by_cases hr : ∃ x ∈ candidates, ∃ f, PolygonTestRaises mesh x f
  · obtain ⟨g, hg, _, _⟩ := meshColocated_ok lib mesh.points h.search
    obtain ⟨v, hv, _⟩ := C27_surface_vertices (mesh.topo lib) h.vertices h.walks
    obtain ⟨x, hx, f, hne, hf⟩ := hr
    obtain ⟨e, he, y, hy, hy1, hy2⟩ := C33_raises mesh.intersections candidates mesh.traverse h.tree.traversal
      ⟨x, hx, fun ha => by
        obtain ⟨b, hb⟩ := ha hne
        have hb : mesh.polygonsIntersect (mesh.polygonVertices x.1) (mesh.polygonVertices x.2) = .ok b := hb
        rw [hf] at hb
        cases hb⟩
    have hi : inspectSurfaceMesh dimension lib rt mesh = .error e := by
      unfold inspectSurfaceMesh
      cases hi : inspectSurface rt.choose rt.schedule
        { polygon_edges_with_wrong_adjacency := .ok (polygonEdgesWithWrongAdjacency mesh.label mesh.toSurfaceMesh)
          colocated_points_groups := meshColocatedPointsGroups lib mesh.points
          degenerated_edges := .ok (degeneratedEdges lib.eps (mesh.measures lib))
          degenerated_polygons := .ok (degeneratedPolygons lib.eps (mesh.measures lib))
          non_manifold_edges := .ok (surfaceNonManifoldEdges rt.edgeOrder mesh.toSurfaceMesh)
          non_manifold_vertices := surfaceNonManifoldVertices (mesh.topo lib)
          intersecting_elements := surfaceIntersectingElements mesh.traverse mesh.intersections
          negative_polygons := .ok (negativePolygons dimension mesh.signed) } with
      | ok r =>
        have := ((C53_surface_partial rt.choose hrt.choose rt.schedule _).1 r).1 hi
        have h7 := this.2.2.2.2.2.2.1
        simp only [he] at h7
        cases h7
      | error e' =>
        rcases (C53_surface_partial rt.choose hrt.choose rt.schedule _).2 e' hi with
          h | h | h | h | h | h | h | h
        · cases h
        · simp only [hg] at h; cases h
        · cases h
        · cases h
        · cases h
        · simp only [hv] at h; cases h
        · simp only [he] at h; injection h with h; rw [h]
        · cases h
    refine ⟨fun r h => ?_, fun v h => ?_, fun f h => ?_, fun _ => ⟨e, hi, ?_⟩⟩
    · rw [hi] at h; cases h
    · unfold isSurfaceMeshValid at h; rw [hi] at h; cases h
    · rw [hi] at h
      injection h with h
      subst h
      exact ⟨y, hy, hy1, hy2⟩
    · unfold isSurfaceMeshValid; rw [hi]
  · have hok : SurfaceDataOk lib mesh candidates := ⟨h, fun x hx f hf => hr ⟨x, hx, f, hf⟩⟩
    obtain ⟨r, h1, h2⟩ := C79_surface dimension lib rt hrt mesh candidates hok
    obtain ⟨v, h3, h4⟩ := C80_surface dimension lib rt hrt mesh candidates hok
    refine ⟨fun r' h => ?_, fun v' h => ?_, fun f h => ?_, fun h => absurd h hr⟩
    · rw [h1] at h; injection h with h; rw [← h]; exact h2
    · rw [h3] at h; injection h with h; rw [← h]; exact h4
    · rw [h1] at h; cases h

/-- the test of the two triangles of the square raises -/
example : ∃ mesh : SurfaceData Nat, SurfaceDataKnown (exampleLibrary fourPoints) mesh [(0, 1)] ∧
    PolygonTestRaises mesh (0, 1) .openGeodeException ∧
    isSurfaceMeshValid 3 (exampleLibrary fourPoints) exampleRuntime mesh = .error .openGeodeException := by
  have h := exampleSurfaceData_ok [0, 10, 20, 30] fourPoints fourPoints_ok rfl true
  have hk : SurfaceDataKnown (exampleLibrary fourPoints)
      { exampleSurfaceData [0, 10, 20, 30] true with
        polygonsIntersect := fun _ _ => .error .openGeodeException } [(0, 1)] := by
    refine ⟨h.search, ⟨h.tree.traversal, h.tree.polygons, fun p q hpq => ?_, h.tree.length⟩, h.vertices, h.walks,
      h.nbEdges, h.nbPolygons, h.nbPolygonEdges, h.uses⟩
    obtain ⟨_, _, _, hb⟩ := hpq
    cases hb
  refine ⟨_, hk, ⟨by decide, rfl⟩, ?_⟩
  obtain ⟨f, h1, h2⟩ := (C111_surface 3 _ exampleRuntime exampleRuntime_ok _ _ hk).2.2.2
    ⟨(0, 1), by simp, .openGeodeException, by decide, rfl⟩
  obtain ⟨x, _, _, h3⟩ := (C111_surface 3 _ exampleRuntime exampleRuntime_ok _ _ hk).2.2.1 f h1
  injection h3 with h3
  rw [h2, h3]

/-! ### Sections -/

/-- **C111** (Sections): the test of two polygons may raise.  Whenever the inspection of a Section returns, its lists are
right and the verdict is exact; whatever it raises has been raised by the test of two candidate polygons; it raises as
soon as the test of two candidates does (no active Surface being empty, otherwise no polygons are tested). -/
theorem C111_section {P : Type} (lib : ModelLibrary P) (rt : ModelRuntime) (hrt : ModelRuntimeOk rt) (m : ModelData P)
    (c : Candidates P) (h : SectionKnown lib rt m c) :
    (∀ r, inspectSectionOf lib rt m = .ok r → SectionMeshesReport lib m c r.meshes ∧
      SectionTopologyReport (m.topology rt) r.topology) ∧
    (∀ v, isSectionOfValid lib rt m = .ok v → (v.isValid = true ↔ ¬ SectionDefect lib rt m)) ∧
    (∀ f, inspectSectionOf lib rt m = .error f → NoEmptySurface (m.intersections lib false) ∧
      ∃ x ∈ comparisons (m.intersections lib false) c, ∃ p ∈ x.2,
        PolygonsRaise (m.intersections lib false) x.1.1 x.1.2 p f) ∧
    (NoEmptySurface (m.intersections lib false) → (∃ x ∈ comparisons (m.intersections lib false) c, ∃ p ∈ x.2, ∃ f,
        PolygonsRaise (m.intersections lib false) x.1.1 x.1.2 p f) →
      ∃ f, inspectSectionOf lib rt m = .error f ∧ isSectionOfValid lib rt m = .error f) := by
  have hsm := allSmall h.meshes.toMeshesKnown false h.trees
  by_cases hr : NoEmptySurface (m.intersections lib false) ∧ ∃ x ∈ comparisons (m.intersections lib false) c,
      ∃ p ∈ x.2, ∃ f, PolygonsRaise (m.intersections lib false) x.1.1 x.1.2 p f
  · obtain ⟨e, he⟩ := Raises.polygons_raises _ c h.trees.trees hsm hr.1 hr.2
    have hx : inspectIntersections 2 (m.intersections lib false) = .error e := by
      unfold inspectIntersections addIntersectingSurfacesElements
      rw [he]
    have hmesh : inspectSectionMeshesOf lib rt m = .error e := by
      cases hm : inspectSectionMeshesOf lib rt m with
      | error e' =>
        have := (section_meshes_but lib rt hrt m c h.meshes h.types).1 e' hm
        rw [hx] at this
        injection this with this
        rw [this]
      | ok r =>
        unfold inspectSectionMeshesOf at hm
        have := ((C53_section_meshes_partial rt.choose hrt.choose rt.meshesSchedule _).1 r).1 hm
        have h5 := this.2.2.2.2.1
        simp only [hx] at h5
        cases h5
    obtain ⟨t, ht, _⟩ := section_topology lib rt hrt m h.meshes h.topology h.embeddings
    have hi : inspectSectionOf lib rt m = .error e := by
      cases hi : inspectSectionOf lib rt m with
      | ok r =>
        unfold inspectSectionOf at hi
        have := ((C53_section_partial rt.choose hrt.choose rt.schedule _ _).1 r).1 hi
        rw [hmesh] at this
        cases this.1
      | error e' =>
        unfold inspectSectionOf at hi
        rcases (C53_section_partial rt.choose hrt.choose rt.schedule _ _).2 e' hi with h | h
        · rw [hmesh] at h; injection h with h; rw [h]
        · rw [ht] at h; cases h
    refine ⟨fun r h => ?_, fun v h => ?_, fun f hf => ?_, fun _ _ => ⟨e, hi, ?_⟩⟩
    · rw [hi] at h; cases h
    · unfold isSectionOfValid at h; rw [hi] at h; cases h
    · rw [hi] at hf
      injection hf with hf
      subst hf
      exact Raises.polygons_error _ c h.trees.trees hsm _ he
    · unfold isSectionOfValid; rw [hi]
  · have hok : SectionOk lib rt m c := ⟨h, fun hne x hx p hp f hf => hr ⟨hne, x, hx, p, hp, f, hf⟩⟩
    obtain ⟨r, h1, h2⟩ := section_whole lib rt hrt m c hok
    obtain ⟨v, h3, h4⟩ := section_verdict lib rt hrt m c hok
    refine ⟨fun r' h => ?_, fun v' h => ?_, fun f h => ?_, fun hne h => absurd ⟨hne, h⟩ hr⟩
    · rw [h1] at h; injection h with h; rw [← h]; exact h2
    · rw [h3] at h; injection h with h; rw [← h]; exact h4
    · rw [h1] at h; cases h

/-- A Section of two surfaces sharing an edge: a triangle 21, and a surface 22 of four vertices, the last three of which
are those of its triangle. -/
def wideSection : TopologyData where
  surfaces := [⟨21, true, 3, 1⟩, ⟨22, true, 4, 1⟩]
  vertices := [
    [⟨⟨.surface, 21⟩, 0⟩, ⟨⟨.surface, 22⟩, 1⟩],
    [⟨⟨.surface, 21⟩, 1⟩, ⟨⟨.surface, 22⟩, 3⟩],
    [⟨⟨.surface, 21⟩, 2⟩],
    [⟨⟨.surface, 22⟩, 0⟩],
    [⟨⟨.surface, 22⟩, 2⟩]]

/-- The meshes of this Section, and the trees: the boxes of the two surfaces overlap. -/
def wideModel : ModelData Nat where
  __ := exampleModel wideSection (10 * ·) .positive
  surfaces := (exampleModel wideSection (10 * ·) .positive).surfaces.map fun s =>
    { s with
      polygonVertex := fun x => x.2 + (s.points.length - 3) }
  otherTree _ _ _ := [(0, 0)]
  overlappingSurfaces := (((exampleModel wideSection (10 * ·) .positive).surfaces.map fun s =>
    { s with
      polygonVertex := fun x => x.2 + (s.points.length - 3) }).zip
    (((exampleModel wideSection (10 * ·) .positive).surfaces.map fun s =>
    { s with
      polygonVertex := fun x => x.2 + (s.points.length - 3) }).drop 1))

def wideCandidates : Candidates Nat := ⟨fun _ => [], fun _ _ => [(0, 0)], fun _ _ => []⟩

theorem wideModel_known : SectionKnown modelLibrary modelRuntime wideModel wideCandidates where
  meshes := {
    ids := by decide
    nbComponents := by decide
    corners := fun _ h => by cases h
    lines := fun _ h => by cases h
    surfaces := by
      intro s hs
      rcases List.mem_cons.1 hs with rfl | hs
      · exact ⟨identity_search _ (by decide), by decide, by decide, by decide⟩
      · rcases List.mem_cons.1 hs with rfl | hs
        · exact ⟨identity_search _ (by decide), by decide, by decide, by decide⟩
        · cases hs
    walks := by
      intro s hs
      rcases List.mem_cons.1 hs with rfl | hs
      · exact ⟨fun p k _ hk => (hk : k < 3), fun _ _ _ h => (by cases h), by decide, by decide, fun e => Nat.lt_of_le_of_lt (List.length_filter_le ..) (by decide)⟩
      · rcases List.mem_cons.1 hs with rfl | hs
        · exact ⟨fun p k _ hk => Nat.add_lt_add_right hk 1, fun _ _ _ h => (by cases h), by decide, by decide, fun e => Nat.lt_of_le_of_lt (List.length_filter_le ..) (by decide)⟩
        · cases hs
    blocks := fun _ h => by cases h
    uniqueVertices := by
      rw [← activePositions_length]
      exact identity_search _ (by decide)
    nbUniqueVertices := by decide
    nbLinks := by decide
    smallPolygons := by
      intro s hs p
      rcases List.mem_cons.1 hs with rfl | hs
      · exact (by decide : 3 ≤ 256)
      · rcases List.mem_cons.1 hs with rfl | hs
        · exact (by decide : 3 ≤ 256)
        · cases hs
    positions := ⟨fun _ _ _ h => (by cases h), fun _ _ _ h => (by cases h), fun _ _ _ h => (by cases h),
      fun _ _ _ h => (by cases h)⟩
    blockWalks := fun _ h => by cases h }
  noBlock := rfl
  types := exampleModel_types wideSection (10 * ·) .positive false (by decide)
  trees := {
    trees := ⟨fun _ _ => ⟨⟨[], List.Perm.refl _, List.Sublist.refl _⟩, fun _ => List.Perm.refl _⟩,
      fun _ _ _ => ⟨⟨[(0, 0)], List.Perm.refl _, List.Sublist.refl _⟩, fun _ => List.Perm.refl _⟩,
      fun _ _ _ => ⟨⟨[], List.Perm.refl _, List.Sublist.refl _⟩, fun _ => List.Perm.refl _⟩⟩
    surfaces := by
      intro x hx
      rcases List.mem_cons.1 hx with rfl | hx
      · exact ⟨List.mem_cons_self, rfl, List.mem_cons_self, rfl, fun p hp => (by cases hp)⟩
      · rcases List.mem_cons.1 hx with rfl | hx
        · exact ⟨List.mem_cons_of_mem _ List.mem_cons_self, rfl, List.mem_cons_of_mem _ List.mem_cons_self, rfl,
            fun p hp => (by cases hp)⟩
        · rcases List.mem_cons.1 hx with rfl | hx
          · refine ⟨List.mem_cons_self, rfl, List.mem_cons_of_mem _ List.mem_cons_self, rfl, fun p hp => ?_⟩
            obtain rfl := List.mem_singleton.1 hp
            exact (by decide : (0 : Nat) < 1 ∧ (0 : Nat) < 1)
          · cases hx
    complete := by
      rintro s1 s2 p q ⟨h1, _, h2, _, hp, hq, hm⟩
      have key : ∀ s ∈ (wideModel.intersections modelLibrary false).surfaces, s.nbPolygons = 1 := by decide
      have hn : ∀ s1 ∈ (wideModel.intersections modelLibrary false).surfaces,
          ∀ s2 ∈ (wideModel.intersections modelLibrary false).surfaces,
          ¬ PolygonsMeet (wideModel.intersections modelLibrary false) s1 s2 (0, 0) := by decide +kernel
      rw [key s1 h1] at hp
      rw [key s2 h2] at hq
      obtain rfl : p = 0 := by unfold Index at *; clear hm hn; omega
      obtain rfl : q = 0 := by unfold Index at *; clear hm hn; omega
      exact absurd hm (hn s1 h1 s2 h2)
    lines := fun _ _ _ hp => absurd hp List.not_mem_nil
    linesComplete := by
      rintro s l p e ⟨_, _, hl, _⟩
      cases hl
    length := by decide +kernel }
  topology := by
    have wf := wideSection.wf_of_check (by decide)
    exact ⟨wf.ids, wf.vertices, wf.embeddings, wf.incidences, wf.boundaries⟩
  embeddings := by
    intro id _ e he
    exact absurd (TopologyData.mem_select.1 he) (by simp [wideSection])

/-- the test of the two triangles reads a vertex that the first surface has not (see C57): the inspection does not return
a report -/
example : ∃ f, inspectSectionOf modelLibrary modelRuntime wideModel = .error f ∧
    isSectionOfValid modelLibrary modelRuntime wideModel = .error f :=
  (C111_section modelLibrary modelRuntime modelRuntime_ok _ _ wideModel_known).2.2.2
    (by unfold NoEmptySurface; decide)
    ⟨_, List.mem_cons_of_mem _ (List.mem_cons_of_mem _ List.mem_cons_self), (0, 0), List.mem_singleton.2 rfl,
      .undefinedBehaviour, (by decide), [], ([0, 1, 2], [1, 2, 3]), [], rfl, (by simp), (by decide +kernel)⟩

/-! ### solids -/

/-- **C111** (solids): the walk around a vertex may raise.  Whenever the inspection returns, its lists are right and the
verdict is exact; whatever it raises has been raised by the walk around a vertex; it raises as soon as the walk around a
vertex does. -/
theorem C111_solid {P : Type} (lib : Library P) (rt : Runtime) (hrt : RuntimeOk rt) (mesh : SolidData P)
    (h : SolidDataKnown lib mesh) :
    (∀ r, inspectSolidMesh lib rt mesh = .ok r → SolidReport lib mesh r) ∧
    (∀ v, isSolidMeshValid lib rt mesh = .ok v → (v.isValid = true ↔ ¬ SolidDefect lib mesh)) ∧
    (∀ f, inspectSolidMesh lib rt mesh = .error f →
      ∃ v, v < mesh.points.length ∧ mesh.polyhedraAroundVertex v = .error f) ∧
    ((∃ v f, v < mesh.points.length ∧ mesh.polyhedraAroundVertex v = .error f) →
      ∃ f, inspectSolidMesh lib rt mesh = .error f ∧ isSolidMeshValid lib rt mesh = .error f) := by
  by_cases hr : ∃ v f, v < mesh.points.length ∧ mesh.polyhedraAroundVertex v = .error f
  · obtain ⟨g, hg, _, _⟩ := meshColocated_ok lib mesh.points h.search
    have huse : ∀ x ∈ solidEdgeUses (mesh.topo lib), x.1 < mesh.nbPolyhedra ∧ x.2 ∈ mesh.polyhedronEdgesVertices x.1 := by
      intro x hx
      unfold solidEdgeUses at hx
      obtain ⟨p, hp, hx⟩ := List.mem_flatMap.1 hx
      obtain ⟨e, he, rfl⟩ := List.mem_map.1 hx
      exact ⟨List.mem_range.1 hp, he⟩
    obtain ⟨t, ht, _⟩ := C29_solid_edges (mesh.topo lib)
      (fun x hx f => h.turns x.1 x.2 f (huse x hx).1 (huse x hx).2)
      (fun x hx f => h.turnsOnce x.1 x.2 f (huse x hx).1 (huse x hx).2)
    obtain ⟨v, f, hv, hf⟩ := hr
    obtain ⟨e, he⟩ := C28_solid_vertices_raise (mesh.topo lib) v hv f hf
    have hi : inspectSolidMesh lib rt mesh = .error e := by
      cases hi : inspectSolidMesh lib rt mesh with
      | ok r =>
        unfold inspectSolidMesh at hi
        have := ((C53_solid_partial rt.choose hrt.choose rt.schedule _).1 r).1 hi
        have h5 := this.2.2.2.2.1
        simp only [he] at h5
        cases h5
      | error e' =>
        unfold inspectSolidMesh at hi
        rcases (C53_solid_partial rt.choose hrt.choose rt.schedule _).2 e' hi with
          h | h | h | h | h | h | h | h
        · cases h
        · simp only [hg] at h; cases h
        · cases h
        · cases h
        · simp only [he] at h; injection h with h; rw [h]
        · simp only [ht] at h; cases h
        · cases h
        · cases h
    refine ⟨fun r h => ?_, fun v h => ?_, fun f hf => ?_, fun _ => ⟨e, hi, ?_⟩⟩
    · rw [hi] at h; cases h
    · unfold isSolidMeshValid at h; rw [hi] at h; cases h
    · rw [hi] at hf
      injection hf with hf
      subst hf
      exact Raises.solidVertices_error (mesh.topo lib) h.vertices e he
    · unfold isSolidMeshValid; rw [hi]
  · have hok : SolidDataOk lib mesh := ⟨h.search, h.vertices, fun v hv => by
      cases hw : mesh.polyhedraAroundVertex v with
      | ok fan => exact ⟨fan, rfl⟩
      | error f => exact absurd ⟨v, f, hv, hw⟩ hr, h.turns, h.turnsOnce, h.nbEdges, h.nbPolyhedra, h.nbPolyhedronEdges,
      h.nbFacets⟩
    obtain ⟨r, h1, h2⟩ := C79_solid lib rt hrt mesh hok
    obtain ⟨v, h3, h4⟩ := C80_solid lib rt hrt mesh hok
    refine ⟨fun r' h => ?_, fun v' h => ?_, fun f h => ?_, fun h => absurd h hr⟩
    · rw [h1] at h; injection h with h; rw [← h]; exact h2
    · rw [h3] at h; injection h with h; rw [← h]; exact h4
    · rw [h1] at h; cases h

/-- the walk around the last vertex of a tetrahedron raises -/
example : ∃ mesh : SolidData Nat, SolidDataKnown (exampleLibrary fourPoints) mesh ∧
    isSolidMeshValid (exampleLibrary fourPoints) exampleRuntime mesh = .error .openGeodeException := by
  have h := exampleSolidData_ok .positive
  have hk : SolidDataKnown (exampleLibrary fourPoints)
      { exampleSolidData .positive with
        polyhedraAroundVertex := fun v => if v = 3 then .error .openGeodeException else .ok [(0, v)] } :=
    ⟨h.search, h.vertices, h.turns, h.turnsOnce, h.nbEdges, h.nbPolyhedra, h.nbPolyhedronEdges, h.nbFacets⟩
  refine ⟨_, hk, ?_⟩
  obtain ⟨f, h1, h2⟩ := (C111_solid _ exampleRuntime exampleRuntime_ok _ hk).2.2.2
    ⟨3, .openGeodeException, by decide, rfl⟩
  obtain ⟨v, _, h3⟩ := (C111_solid _ exampleRuntime exampleRuntime_ok _ hk).2.2.1 f h1
  rw [h2]
  have h3 : (if v = 3 then (.error .openGeodeException : Except Failure (List (Nat × Nat))) else .ok [(0, v)]) =
    .error f := h3
  split at h3
  · injection h3 with h3; rw [h3]
  · cases h3

/-! ### BReps -/

/-- **C111** (BReps): the walks around the vertices of the Blocks may raise.  For a large enough fuel: whenever the
inspection of a BRep returns, its lists are right and the verdict is as exact as C82 says; whatever it raises has been
raised by the walk around a vertex of an active Block; it raises as soon as such a walk does. -/
theorem C111_brep {P : Type} (lib : ModelLibrary P) (rt : ModelRuntime) (hrt : ModelRuntimeOk rt) (m : ModelData P)
    (c : Candidates P) (h : BRepKnown lib rt m c) : ∃ N, ∀ fuel ≥ N,
    (∀ r, inspectBRepOf lib rt fuel m = .ok r → BRepMeshesReport lib m c r.meshes ∧
      BRepTopologyReport (m.topology rt) m.blocksOracle r.topology) ∧
    (∀ v, isBRepOfValid lib rt fuel m = .ok v →
      (¬ LinesUnreadable (m.topology rt) → (v.isValid = true ↔ ¬ BRepDefect lib rt m)) ∧
      (v.isValid = false → BRepDefect lib rt m)) ∧
    (∀ f, inspectBRepOf lib rt fuel m = .error f → BlockWalkRaises m f) ∧
    ((∃ f, BlockWalkRaises m f) →
      ∃ f, inspectBRepOf lib rt fuel m = .error f ∧ isBRepOfValid lib rt fuel m = .error f) := by
  by_cases hr : ∃ f, BlockWalkRaises m f
  · obtain ⟨t, N, ht, _⟩ := brep_topology lib rt hrt m c h
    obtain ⟨e, he, hew⟩ := Raises.brepManifold lib rt m h.meshesKnown hr
    have hmesh : inspectBRepMeshesOf lib rt m = .error e := by
      cases hm : inspectBRepMeshesOf lib rt m with
      | error e' =>
        have := brep_meshes_error lib rt hrt m c h.meshesKnown h.types h.trees e' hm
        rw [he] at this
        injection this with this
        rw [this]
      | ok r =>
        unfold inspectBRepMeshesOf at hm
        have := ((C53_brep_meshes_partial rt.choose hrt.choose rt.meshesSchedule _).1 r).1 hm
        have h6 := this.2.2.2.2.2.1
        simp only [he] at h6
        cases h6
    refine ⟨N, fun fuel hfuel => ?_⟩
    have hi : inspectBRepOf lib rt fuel m = .error e := by
      cases hi : inspectBRepOf lib rt fuel m with
      | ok r =>
        unfold inspectBRepOf at hi
        have := ((C53_brep_partial rt.choose hrt.choose rt.schedule _ _).1 r).1 hi
        rw [hmesh] at this
        cases this.1
      | error e' =>
        unfold inspectBRepOf at hi
        rcases (C53_brep_partial rt.choose hrt.choose rt.schedule _ _).2 e' hi with h | h
        · rw [hmesh] at h; injection h with h; rw [h]
        · rw [ht fuel hfuel] at h; cases h
    refine ⟨fun r h => ?_, fun v h => ?_, fun f hf => ?_, fun _ => ⟨e, hi, ?_⟩⟩
    · rw [hi] at h; cases h
    · unfold isBRepOfValid at h; rw [hi] at h; cases h
    · rw [hi] at hf
      injection hf with hf
      subst hf
      exact hew
    · unfold isBRepOfValid; rw [hi]
  · have hok : BRepOk lib rt m c := ⟨h, fun b hb ha v hv => by
      cases hw : b.polyhedraAroundVertex v with
      | ok fan => exact ⟨fan, rfl⟩
      | error f => exact absurd ⟨f, b, hb, ha, v, hv, hw⟩ hr⟩
    obtain ⟨r, N1, h1, h2⟩ := C81_brep_partial lib rt hrt m c hok
    obtain ⟨v, N2, h3, h4, _, h5⟩ := C82_brep_partial lib rt hrt m c hok
    refine ⟨max N1 N2, fun fuel hf => ⟨fun r' h => ?_, fun v' h => ?_, fun f h => ?_, fun h => absurd h hr⟩⟩
    · rw [h1 fuel (le_trans (le_max_left _ _) hf)] at h; injection h with h; rw [← h]; exact h2
    · rw [h3 fuel (le_trans (le_max_right _ _) hf)] at h; injection h with h; rw [← h]; exact ⟨h4, h5⟩
    · rw [h1 fuel (le_trans (le_max_left _ _) hf)] at h; cases h

/-- The tetrahedron, the walk around its vertex 2 raising. -/
def raisingModel : ModelData Nat :=
  { exampleModel tetrahedronBRep (10 * ·) .positive with
    blocks := (exampleModel tetrahedronBRep (10 * ·) .positive).blocks.map fun b =>
      { b with
        polyhedraAroundVertex := fun v =>
          if v = 2 then .error .openGeodeException else b.polyhedraAroundVertex v } }

/-- the walk around vertex 2 of the tetrahedron raises: so do the inspection and the verdict of the BRep -/
example : ∃ m : ModelData Nat, BRepKnown modelLibrary modelRuntime m noCandidate ∧
    BlockWalkRaises m .openGeodeException ∧
    ∃ N, ∀ fuel ≥ N, isBRepOfValid modelLibrary modelRuntime fuel m = .error .openGeodeException := by
  have h := tetrahedronBRep_ok .positive
  have hall : ∀ b ∈ (exampleModel tetrahedronBRep (10 * ·) .positive).blocks, ∀ v f,
      b.polyhedraAroundVertex v ≠ .error f := by
    intro b hb v f hf
    obtain ⟨b', _, rfl⟩ := List.mem_map.1 hb
    cases hf
  have hk : BRepKnown modelLibrary modelRuntime raisingModel noCandidate :=
    { meshesKnown :=
        { h.meshesKnown with
          blocks := by
            intro b hb
            obtain ⟨b', hb', rfl⟩ := List.mem_map.1 hb
            exact { h.meshesKnown.blocks b' hb' with } }
      types := h.types
      trees := h.trees
      nbModelEdges := h.nbModelEdges
      topology := h.topology
      around := h.around
      coherent := h.coherent
      surfaceEmbeddings := h.surfaceEmbeddings
      firstEdges := h.firstEdges
      counts := h.counts
      graph := h.graph
      geometry := h.geometry
      rays := h.rays
      modelBoundaries := h.modelBoundaries }
  have hw : BlockWalkRaises raisingModel .openGeodeException :=
    ⟨_, List.mem_map.2 ⟨_, List.mem_cons_self, rfl⟩, rfl, 2, by decide, rfl⟩
  refine ⟨raisingModel, hk, hw, ?_⟩
  obtain ⟨N, hN⟩ := C111_brep modelLibrary modelRuntime modelRuntime_ok raisingModel noCandidate hk
  refine ⟨N, fun fuel hf => ?_⟩
  obtain ⟨f, h1, h2⟩ := (hN fuel hf).2.2.2 ⟨_, hw⟩
  obtain ⟨b, hb, _, v, _, hv⟩ := (hN fuel hf).2.2.1 f h1
  obtain ⟨b', hb', hbb⟩ := List.mem_map.1 hb
  rw [← hbb] at hv
  have hv : (if v = 2 then Except.error Failure.openGeodeException else b'.polyhedraAroundVertex v) = .error f := hv
  split at hv
  · injection hv with hv
    exact h2.trans (congrArg Except.error hv.symm)
  · exact absurd hv (hall b' hb' v f)

end Inspector
