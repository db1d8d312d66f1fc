import Verif.Proofs.OrientedCheck
import Verif.Props.WholeModel
/-
Properties C117 (surfaces) and C118 (solids): what it means, for the mesh itself, that the adjacency and manifold
inspections report nothing.
-/
namespace Inspector
open Spec Oriented

theorem exactly_empty {α : Type} {lt : α → α → Prop} {p : α → Prop} {l : List α} (h : Exactly lt p l) :
    l = [] ↔ ∀ x, ¬ p x := by
  have := exactly_nil_iff h
  rw [← not_iff_not]
  simpa using this

/-! ### C117: surfaces -/

/-- **C117** (criteria on a surface): the adjacency, edge and vertex inspections report nothing exactly when the surface
is an oriented manifold. -/
theorem C117_criteria (iterate : EdgeMap → EdgeMap) (hi : ∀ m, (iterate m).Perm m) (name : String) (mesh : SurfaceTopo)
    (h : Walkable mesh) (hv : VerticesExist mesh)
    (hf : ∀ v, v < mesh.nbVertices → ∀ f, mesh.polygonsAroundVertex v = .error f → f = .openGeodeException)
    (h256 : ∀ e, (usesOfEdge mesh.toSurfaceMesh e).length < 256) :
    ∃ vertices, surfaceNonManifoldVertices mesh = .ok vertices ∧
      (((polygonEdgesWithWrongAdjacency name mesh.toSurfaceMesh).issues = [] ∧
        (surfaceNonManifoldEdges iterate mesh.toSurfaceMesh).issues = [] ∧ vertices.issues = []) ↔
        OrientedManifold mesh.toSurfaceMesh) := by
  obtain ⟨s, h1, h2⟩ := C27_surface_vertices mesh hv hf
  refine ⟨s, h1, ?_⟩
  rw [exactly_empty (C15_surface_adjacency name mesh.toSurfaceMesh).1,
    exactly_empty (C24_surface_edges iterate hi mesh.toSurfaceMesh h256), exactly_empty h2]
  exact manifold_iff mesh h hv

/-- **C117** (booleans on a surface). -/
theorem C117_booleans (iterate : EdgeMap → EdgeMap) (hi : ∀ m, (iterate m).Perm m) (mesh : SurfaceTopo)
    (h : Walkable mesh) (hv : VerticesExist mesh)
    (hf : ∀ v, v < mesh.nbVertices → ∀ f, mesh.polygonsAroundVertex v = .error f → f = .openGeodeException)
    (h256 : ∀ e, (usesOfEdge mesh.toSurfaceMesh e).length < 256) :
    ∃ b, surfaceVerticesAreManifold mesh = .ok b ∧
      ((surfaceHasWrongAdjacencies mesh.toSurfaceMesh = false ∧
        surfaceEdgesAreManifold iterate mesh.toSurfaceMesh = true ∧ b = true) ↔
        OrientedManifold mesh.toSurfaceMesh) := by
  obtain ⟨s, h1, h2⟩ := C117_criteria iterate hi "" mesh h hv hf h256
  obtain ⟨b, h3, h4⟩ := C26_surface_vertices mesh s h1
  refine ⟨b, h3, ?_⟩
  rw [← h2, h4, C26_surface_edges iterate iterate hi hi, ← Bool.not_eq_true,
    (C15_surface_adjacency "" mesh.toSurfaceMesh).2]
  simp only [ne_eq, not_not]

/-- **C117** (verdict on a surface): a surface declared valid is an oriented manifold. -/
theorem C117_verdict {P : Type} (dimension : Nat) (lib : Library P) (rt : Runtime) (hrt : RuntimeOk rt)
    (mesh : SurfaceData P) (candidates : List ElementPair) (h : SurfaceDataOk lib mesh candidates)
    (hm : Walkable (mesh.topo lib)) :
    ∃ v, isSurfaceMeshValid dimension lib rt mesh = .ok v ∧
      (v.isValid = true → OrientedManifold mesh.toSurfaceMesh) := by
  obtain ⟨v, h1, h2⟩ := C80_surface dimension lib rt hrt mesh candidates h
  refine ⟨v, h1, fun hv => ?_⟩
  have hd := h2.1 hv
  unfold SurfaceDefect at hd
  push Not at hd
  exact (manifold_iff (mesh.topo lib) hm h.vertices).1 ⟨hd.1, hd.2.2.2.2.1, hd.2.2.2.2.2.1⟩

/-- the hypotheses are met by two glued triangles, which are an oriented manifold -/
theorem exampleSurface_walkable : Walkable ((exampleSurfaceData [0, 10, 20, 30] false).topo (exampleLibrary fourPoints)) :=
  walkable_of_check _ (by decide +kernel)

/-- two triangles 0-1-2 and 0-3-4 sharing only the vertex 0 -/
def bowTie : SurfaceTopo where
  nbPolygons := 2
  nbPolygonVertices _ := 3
  polygonVertex x := (([[0, 1, 2], [0, 3, 4]].getD x.1 []).getD x.2 0)
  polygonAdjacent _ := none
  nbVertices := 5
  polygonsAroundVertex v := .ok ([[(1, 0)], [(0, 1)], [(0, 2)], [(1, 1)], [(1, 2)]].getD v [])

/-- two triangles glued by their edge 1-2, which both run from 1 to 2: they are not oriented the same way -/
def badlyOriented : SurfaceTopo where
  nbPolygons := 2
  nbPolygonVertices _ := 3
  polygonVertex x := (([[0, 1, 2], [1, 2, 3]].getD x.1 []).getD x.2 0)
  polygonAdjacent x := if x = (0, 1) then some 1 else if x = (1, 0) then some 0 else none
  nbVertices := 4
  polygonsAroundVertex v := .ok ([[(0, 0)], [(0, 1), (1, 0)], [(0, 2), (1, 1)], [(1, 2)]].getD v [])

/-- the bow tie is not a manifold, nor are the badly oriented triangles -/
example : Walkable bowTie ∧ VerticesExist bowTie ∧ ¬ OrientedManifold bowTie.toSurfaceMesh ∧
    ¬ OrientedManifold badlyOriented.toSurfaceMesh := by
  have hw : Walkable bowTie := by
    refine walkable_alone bowTie (fun _ => rfl) ?_ ?_
    · have h : ∀ p < 2, ∀ k < 3, (polygonEdgeEnds bowTie.toSurfaceMesh (p, k)).1 ≠
          (polygonEdgeEnds bowTie.toSurfaceMesh (p, k)).2 := by decide +kernel
      exact fun x hx => h x.1 hx.1 x.2 hx.2
    · intro v hv
      have hv : v < 5 := hv
      obtain rfl | rfl | rfl | rfl | rfl : v = 0 ∨ v = 1 ∨ v = 2 ∨ v = 3 ∨ v = 4 := by omega
      all_goals exact ⟨_, rfl, ⟨by decide, by decide⟩, by decide⟩
  have hv : VerticesExist bowTie := by
    intro p k hp hk
    have h : ∀ p < 2, ∀ k < 3, bowTie.polygonVertex (p, k) < 5 := by decide +kernel
    exact h p hp k hk
  refine ⟨hw, hv, fun hm => ?_, fun hm => ?_⟩
  · obtain ⟨s, h1, h2⟩ := C117_criteria id (fun m => List.Perm.refl m) "" bowTie hw hv
      (by intro v _ f hf; cases hf) (fun e => Nat.lt_of_le_of_lt (List.length_filter_le ..) (by decide))
    have h3 := (h2.2 hm).2.2
    have h4 : surfaceNonManifoldVertices bowTie = .ok
        ((Issues.new "non manifold vertices").add 0 "vertex 0, at position []") := by rfl
    rw [h4] at h1
    injection h1 with h1
    subst h1
    cases h3
  · rcases hm.edges (0, 1) (by decide) with ⟨h, _⟩ | ⟨⟨p, k⟩, _, ⟨_, hy, he, hadj, _⟩, _⟩
    · cases h
    · have hp : 1 = p := Option.some.inj hadj
      subst hp
      have hk : k < 3 := hy.2
      have h : ∀ k < 3, polygonEdgeEnds badlyOriented.toSurfaceMesh (1, k) ≠ (2, 1) := by decide +kernel
      exact h k hk he

example : OrientedManifold (exampleSurfaceData [0, 10, 20, 30] false).toSurfaceMesh := by
  obtain ⟨v, h1, h2⟩ := C117_verdict 3 (exampleLibrary fourPoints) exampleRuntime exampleRuntime_ok
    (exampleSurfaceData [0, 10, 20, 30] false) _
    (exampleSurfaceData_ok [0, 10, 20, 30] fourPoints fourPoints_ok rfl false) exampleSurface_walkable
  refine h2 ?_
  have h3 : (isSurfaceMeshValid 3 (exampleLibrary fourPoints) exampleRuntime
      (exampleSurfaceData [0, 10, 20, 30] false)).map ObjectValidity.isValid = .ok true := by rfl
  rw [h1] at h3
  injection h3

/-- **C117** (Sections): in a Section declared valid, every active Surface is an oriented manifold whose border is made
of Lines. -/
theorem C117_section {P : Type} (lib : ModelLibrary P) (rt : ModelRuntime) (hrt : ModelRuntimeOk rt) (m : ModelData P)
    (c : Candidates P) (h : SectionOk lib rt m c) (hm : ∀ s ∈ m.surfaces, Walkable (s.topo lib.toLibrary)) :
    ∃ v, isSectionOfValid lib rt m = .ok v ∧
      (v.isValid = true → ∀ s ∈ m.surfaces, s.active = true →
        OrientedManifold s.toSurfaceMesh ∧ ∀ x, ¬ BorderEdgeNotOnLine m.adjacency (m.adjacencySurface s) x) := by
  obtain ⟨v, h1, h2⟩ := C82_section lib rt hrt m c h
  refine ⟨v, h1, fun hv s hs ha => ?_⟩
  have hd := h2.1 hv
  unfold SectionDefect at hd
  simp only [not_or] at hd
  have hs' : ¬ SurfaceMeshDefect lib m s := fun hc => hd.2.2.2.1 ⟨s, hs, ha, Or.inl hc⟩
  unfold SurfaceMeshDefect at hs'
  simp only [not_or, not_exists] at hs'
  exact ⟨(manifold_iff (s.topo lib.toLibrary) (hm s hs) (h.meshes.walks s hs).vertices).1
    ⟨hs'.2.1, hs'.2.2.2.2.2.2, hs'.2.2.2.2.2.1⟩, hs'.2.2.1⟩

/-- the meshes of a BRep declared valid have no defect, even when the topology of the Lines is unread -/
theorem brep_valid_meshes {P : Type} (lib : ModelLibrary P) (rt : ModelRuntime) (hrt : ModelRuntimeOk rt)
    (m : ModelData P) (c : Candidates P) (h : BRepOk lib rt m c) :
    ∃ v N, (∀ fuel ≥ N, isBRepOfValid lib rt fuel m = .ok v) ∧
      (v.isValid = true → (∀ s ∈ m.surfaces, s.active = true → ¬ SurfaceMeshDefect lib m s) ∧
        ∀ b ∈ m.blocks, b.active = true → ¬ BlockMeshDefect lib m b) := by
  obtain ⟨v, N, h1, h2, h3, _⟩ := C82_brep_partial lib rt hrt m c h
  refine ⟨v, N, h1, fun hv => ?_⟩
  by_cases hu : LinesUnreadable (m.topology rt)
  · have hd := (h3 hu).2.1 hv
    unfold BRepDefectBesideLines at hd
    simp only [not_or] at hd
    exact ⟨fun s hs ha hc => hd.2.2.2.1 ⟨s, hs, ha, hc⟩, fun b hb ha hc => hd.2.2.2.2.1 ⟨b, hb, ha, hc⟩⟩
  · have hd := (h2 hu).1 hv
    unfold BRepDefect at hd
    simp only [not_or] at hd
    exact ⟨fun s hs ha hc => hd.2.2.2.1 ⟨s, hs, ha, hc⟩, fun b hb ha hc => hd.2.2.2.2.1 ⟨b, hb, ha, hc⟩⟩

/-- **C117** (BReps): in a BRep declared valid, every active Surface is an oriented manifold whose border is made of
Lines. -/
theorem C117_brep {P : Type} (lib : ModelLibrary P) (rt : ModelRuntime) (hrt : ModelRuntimeOk rt) (m : ModelData P)
    (c : Candidates P) (h : BRepOk lib rt m c) (hm : ∀ s ∈ m.surfaces, Walkable (s.topo lib.toLibrary)) :
    ∃ v N, (∀ fuel ≥ N, isBRepOfValid lib rt fuel m = .ok v) ∧
      (v.isValid = true → ∀ s ∈ m.surfaces, s.active = true →
        OrientedManifold s.toSurfaceMesh ∧ ∀ x, ¬ BorderEdgeNotOnLine m.adjacency (m.adjacencySurface s) x) := by
  obtain ⟨v, N, h1, h2⟩ := brep_valid_meshes lib rt hrt m c h
  refine ⟨v, N, h1, fun hv s hs ha => ?_⟩
  have hs' := (h2 hv).1 s hs ha
  unfold SurfaceMeshDefect at hs'
  simp only [not_or, not_exists] at hs'
  exact ⟨(manifold_iff (s.topo lib.toLibrary) (hm s hs) (h.meshes.walks s hs).vertices).1
    ⟨hs'.2.1, hs'.2.2.2.2.2.2, hs'.2.2.2.2.2.1⟩, hs'.2.2.1⟩

/-! ### C118: solids -/

/-- **C118** (partial: cracks are not excluded): a solid is reported to have no adjacency nor manifold defect exactly when
it is conformal but for cracks. -/
theorem C118_criteria_partial (iterate : FacetMap → FacetMap) (hi : ∀ m, (iterate m).Perm m)
    (cycle : List Index → List Index) (opposite same : List Index → List Index → Bool)
    (hc : ∀ a b, cycle a = cycle b ↔ same a b = true) (name : String) (mesh : SolidTopo)
    (h : WalkableSolid opposite same mesh) (hv : SolidVerticesExist mesh)
    (hw : ∀ v, v < mesh.nbVertices → ∃ fan, mesh.polyhedraAroundVertex v = .ok fan)
    (hf : ∀ x ∈ solidEdgeUses mesh, ∀ f, mesh.polyhedraAroundEdge x.2 x.1 = .error f → f = .openGeodeException)
    (hn : ∀ x ∈ solidEdgeUses mesh, ∀ fan, mesh.polyhedraAroundEdge x.2 x.1 = .ok fan → fan.Nodup)
    (hsz : (pairs mesh.nbPolyhedra mesh.nbPolyhedronFacets).length < 2 ^ 32) :
    ∃ vertices edges, solidNonManifoldVertices mesh = .ok vertices ∧ solidNonManifoldEdges mesh = .ok edges ∧
      (((polyhedronFacetsWithWrongAdjacency opposite name mesh.toSolidMesh).issues = [] ∧ vertices.issues = [] ∧
        edges.issues = [] ∧ (solidNonManifoldFacets iterate cycle mesh.toSolidMesh).issues = []) ↔
        ConformalButCracks opposite same mesh) := by
  obtain ⟨s, h1, h2⟩ := C28_solid_vertices mesh hv hw
  obtain ⟨t, h3, h4, h5, _⟩ := C29_solid_edges mesh hf hn
  refine ⟨s, t, h1, h3, ?_⟩
  rw [exactly_empty (C16_solid_adjacency opposite name mesh.toSolidMesh).1, exactly_empty h2,
    exactly_empty ⟨h4, h5⟩, exactly_empty (facetsExactly iterate hi cycle mesh.toSolidMesh hsz)]
  exact conformal_iff hc mesh h hv

/-- **C118** (partial: verdict on a solid). -/
theorem C118_verdict_partial {P : Type} (lib : Library P) (rt : Runtime) (hrt : RuntimeOk rt) (mesh : SolidData P)
    (h : SolidDataOk lib mesh) (same : List Index → List Index → Bool)
    (hc : ∀ a b, lib.cycle a = lib.cycle b ↔ same a b = true)
    (hm : WalkableSolid lib.isOpposite same (mesh.topo lib)) :
    ∃ v, isSolidMeshValid lib rt mesh = .ok v ∧
      (v.isValid = true → ConformalButCracks lib.isOpposite same (mesh.topo lib)) := by
  obtain ⟨v, h1, h2⟩ := C80_solid lib rt hrt mesh h
  refine ⟨v, h1, fun hv => ?_⟩
  have hd := h2.1 hv
  unfold SolidDefect at hd
  simp only [not_or, not_exists] at hd
  exact (conformal_iff hc (mesh.topo lib) hm h.vertices).1
    ⟨hd.1, hd.2.2.2.2.1, fun e ⟨p, hp⟩ => hd.2.2.2.2.2.1 p e hp, hd.2.2.2.2.2.2.1⟩

/-- **C118** (BReps): in a BRep declared valid, every active Block is conformal but for cracks, and the facets of these
and of its border are polygons of Surfaces, as soon as their vertices have unique vertices. -/
theorem C118_brep {P : Type} (lib : ModelLibrary P) (rt : ModelRuntime) (hrt : ModelRuntimeOk rt) (m : ModelData P)
    (c : Candidates P) (h : BRepOk lib rt m c) (same : List Index → List Index → Bool)
    (hc : ∀ a b, lib.cycle a = lib.cycle b ↔ same a b = true)
    (hm : ∀ b ∈ m.blocks, WalkableSolid lib.isOpposite same (b.topo lib.toLibrary)) :
    ∃ v N, (∀ fuel ≥ N, isBRepOfValid lib rt fuel m = .ok v) ∧
      (v.isValid = true → ∀ b ∈ m.blocks, b.active = true →
        ConformalButCracks lib.isOpposite same (b.topo lib.toLibrary) ∧
        ∀ x, IsPolyhedronFacet b.toSolidMesh x → b.polyhedronAdjacent x = none →
          ∀ uvs : List Index, (b.polyhedronFacetVertices x).map (m.adjacencyBlock b).uniqueVertex = uvs.map some →
            m.adjacency.surfaceComponentMeshPolygons uvs ≠ []) := by
  obtain ⟨v, N, h1, h2⟩ := brep_valid_meshes lib rt hrt m c h
  refine ⟨v, N, h1, fun hv b hb ha => ?_⟩
  have hd := (h2 hv).2 b hb ha
  unfold BlockMeshDefect at hd
  simp only [not_or, not_exists] at hd
  refine ⟨(conformal_iff hc (b.topo lib.toLibrary) (hm b hb) (h.meshes.blocks b hb).vertices).1
    ⟨hd.2.1, hd.2.2.2.2.2.1, fun e ⟨p, hp⟩ => hd.2.2.2.2.2.2.1 p e hp, hd.2.2.2.2.2.2.2.1⟩, ?_⟩
  intro x hx hadj uvs huv hnil
  exact hd.2.2.1 x ⟨hx, hadj, uvs, huv, hnil⟩

/-! ### examples of C117 and C118 -/

/-- A tetrahedron 0-1-2-3 cut in four by a point 4, one of the four, 0-1-2-4, being cut in four by a point 5.  The facet
0-4-5 is the common facet of two tetrahedra; they are adjacent unless the facet is `cracked`. -/
def sevenTetrahedra (cracked : Bool) : SolidData Nat where
  nbPolyhedra := 7
  nbPolyhedronFacets _ := 4
  polyhedronFacetVertices x := ([
    [[5, 4, 1], [0, 4, 5], [5, 1, 0], [0, 1, 4]], [[5, 4, 2], [1, 4, 5], [5, 2, 1], [1, 2, 4]],
    [[2, 4, 5], [5, 4, 0], [0, 2, 5], [4, 2, 0]], [[1, 2, 5], [5, 2, 0], [0, 1, 5], [2, 1, 0]],
    [[4, 3, 1], [0, 3, 4], [4, 1, 0], [0, 1, 3]], [[4, 3, 2], [1, 3, 4], [4, 2, 1], [1, 2, 3]],
    [[2, 3, 4], [4, 3, 0], [0, 2, 4], [3, 2, 0]]].getD x.1 []).getD x.2 []
  polyhedronAdjacent x :=
    if x = (0, 1) then (if cracked then none else some 2)
    else if x = (2, 1) then (if cracked then none else some 0)
    else ([[some 1, none, some 3, some 4], [some 2, some 0, some 3, some 5], [some 1, none, some 3, some 6],
      [some 1, some 2, some 0, none], [some 5, some 6, some 0, none], [some 6, some 4, some 1, none],
      [some 5, some 4, some 2, none]].getD x.1 []).getD x.2 none
  label := "seven tetrahedra"
  points := [0, 10, 20, 30, 40, 50]
  nbPolyhedronVertices _ := 4
  polyhedronVertex x := ([[0, 1, 4, 5], [1, 2, 4, 5], [0, 2, 4, 5], [0, 1, 2, 5], [0, 1, 3, 4], [1, 2, 3, 4],
    [0, 2, 3, 4]].getD x.1 []).getD x.2 0
  polyhedraAroundVertex v := .ok ([[(0, 0), (3, 0), (4, 0), (6, 0), (2, 0)], [(0, 1), (1, 0), (3, 1), (4, 1), (5, 0)],
    [(1, 1), (2, 1), (3, 2), (5, 1), (6, 1)], [(4, 2), (5, 2), (6, 2)],
    [(0, 2), (1, 2), (2, 2), (4, 3), (5, 3), (6, 3)], [(0, 3), (1, 3), (2, 3), (3, 3)]].getD v [])
  polyhedronEdgesVertices p := let t := [[0, 1, 4, 5], [1, 2, 4, 5], [0, 2, 4, 5], [0, 1, 2, 5], [0, 1, 3, 4],
    [1, 2, 3, 4], [0, 2, 3, 4]].getD p []
    [(t.getD 0 0, t.getD 1 0), (t.getD 0 0, t.getD 2 0), (t.getD 0 0, t.getD 3 0), (t.getD 1 0, t.getD 2 0),
      (t.getD 1 0, t.getD 3 0), (t.getD 2 0, t.getD 3 0)]
  polyhedraAroundEdge e _ := .ok (([[[], [0, 3, 4], [2, 3, 6], [4, 6], [0, 4, 6, 2], [0, 3, 2]],
    [[], [], [1, 3, 5], [4, 5], [0, 1, 4, 5], [0, 1, 3]], [[], [], [], [5, 6], [1, 2, 5, 6], [1, 2, 3]],
    [[], [], [], [], [4, 5, 6], []], [[], [], [], [], [], [0, 1, 2]]].getD e.1 []).getD e.2 [])
  nbEdges := 14
  edgeVertices e := [(0, 1), (0, 2), (0, 3), (0, 4), (0, 5), (1, 2), (1, 3), (1, 4), (1, 5), (2, 3), (2, 4), (2, 5),
    (3, 4), (4, 5)].getD e (0, 0)
  minimumHeight _ := .num 5
  isPolyhedronDegenerated _ := false
  tetrahedronVolumeSign _ _ _ _ := .positive
  polyhedronVolume _ := .num 7

/-- six different points -/
def sixPoints : ColocatedInfo Nat := ⟨[0, 1, 2, 3, 4, 5], [0, 10, 20, 30, 40, 50]⟩

theorem sixPoints_ok : SearchOk sixPoints 6 := by
  refine ⟨rfl, by decide, by decide, ?_⟩
  intro u hu
  have : u < 6 := hu
  match u, this with
  | 0, _ | 1, _ | 2, _ | 3, _ | 4, _ | 5, _ => decide

/-- two facets of at most nine vertices are the same when they have the same vertices -/
def sameFacet (a b : List Index) : Bool :=
  (exampleLibrary sixPoints).cycle a == (exampleLibrary sixPoints).cycle b

theorem sameFacet_cycle (a b : List Index) :
    (exampleLibrary sixPoints).cycle a = (exampleLibrary sixPoints).cycle b ↔ sameFacet a b = true :=
  beq_iff_eq.symm

theorem sameFacet_opposite (a b : List Index) (h : (exampleLibrary sixPoints).isOpposite a b = true) :
    sameFacet b a = true := by
  have h : a = b.reverse := by simpa [exampleLibrary] using h
  subst h
  have : (fun x => b.reverse.contains x) = fun x => b.contains x := by
    funext x
    simp [List.contains_eq_mem]
  show ((List.range 9).filter (fun x => b.contains x) == (List.range 9).filter (fun x => b.reverse.contains x)) = true
  rw [this]
  exact beq_self_eq_true _

theorem sevenTetrahedra_walkable (cracked : Bool) : WalkableSolid (exampleLibrary sixPoints).isOpposite sameFacet
    ((sevenTetrahedra cracked).topo (exampleLibrary sixPoints)) :=
  walkableSolid_of_check _ sameFacet_opposite (by cases cracked <;> decide +kernel)

theorem sevenTetrahedra_ok (cracked : Bool) : SolidDataOk (exampleLibrary sixPoints) (sevenTetrahedra cracked) where
  search := sixPoints_ok
  vertices := by
    have h : ∀ p < 7, ∀ k < 4, (sevenTetrahedra false).polyhedronVertex (p, k) < 6 := by decide +kernel
    exact fun p k hp hk => h p hp k hk
  walks := fun _ _ => ⟨_, rfl⟩
  turns := by intro p e f _ _ h; cases h
  turnsOnce := by
    have h : ∀ p < 7, ∀ e ∈ (sevenTetrahedra false).polyhedronEdgesVertices p,
        (match (sevenTetrahedra false).polyhedraAroundEdge e p with
        | .ok fan => decide fan.Nodup
        | .error _ => true) = true := by decide +kernel
    intro p e fan hp he hf
    have h' := h p hp e he
    have hf' : (sevenTetrahedra false).polyhedraAroundEdge e p = .ok fan := hf
    rw [hf'] at h'
    exact of_decide_eq_true h'
  nbEdges := (by decide : (14 : Nat) < 2 ^ 32)
  nbPolyhedra := (by decide : (7 : Nat) < 2 ^ 32)
  nbPolyhedronEdges := (by decide : (42 : Nat) < 2 ^ 32)
  nbFacets := (by decide : (28 : Nat) < 2 ^ 32)

set_option maxRecDepth 40000 in
/-- **C118 is false**: the cracked solid is declared valid, though two tetrahedra have the same facet 0-4-5 and none is
adjacent to the other there. -/
theorem C118_false :
    (∃ v, isSolidMeshValid (exampleLibrary sixPoints) exampleRuntime (sevenTetrahedra true) = .ok v ∧
      v.isValid = true) ∧
    WalkableSolid (exampleLibrary sixPoints).isOpposite sameFacet
      ((sevenTetrahedra true).topo (exampleLibrary sixPoints)) ∧
    CrackedFacet sameFacet (sevenTetrahedra true).toSolidMesh (0, 1) ∧
    ¬ ConformalSolid (exampleLibrary sixPoints).isOpposite sameFacet
      ((sevenTetrahedra true).topo (exampleLibrary sixPoints)) := by
  have hoth : OtherFacet sameFacet (sevenTetrahedra true).toSolidMesh (0, 1) (2, 1) :=
    ⟨by decide, by decide, by decide⟩
  have hvalid : (isSolidMeshValid (exampleLibrary sixPoints) exampleRuntime (sevenTetrahedra true)).map
      ObjectValidity.isValid = .ok true := by rfl
  obtain ⟨v, h1, _⟩ := C118_verdict_partial _ exampleRuntime exampleRuntime_ok _ (sevenTetrahedra_ok true) sameFacet
    sameFacet_cycle (sevenTetrahedra_walkable true)
  have hv : v.isValid = true := by
    rw [h1] at hvalid
    injection hvalid
  refine ⟨⟨v, h1, hv⟩, sevenTetrahedra_walkable true, ⟨rfl, (2, 1), hoth, rfl, ?_⟩, ?_⟩
  · have h : ∀ p < 7, ∀ k < 4, (p, k) ≠ (0, 1) →
        sameFacet ((sevenTetrahedra true).polyhedronFacetVertices (p, k))
          ((sevenTetrahedra true).polyhedronFacetVertices (0, 1)) = true → (p, k) = (2, 1) := by decide +kernel
    rintro ⟨p, k⟩ ⟨⟨hp, hk⟩, hne, hs⟩
    exact h p hp k hk hne hs
  · intro hc
    rcases hc.facets (0, 1) (by decide) with ⟨_, hno⟩ | ⟨y, _, hg, _⟩
    · exact hno ⟨_, hoth⟩
    · have := hg.2.2.2.1
      cases this

set_option maxRecDepth 40000 in
/-- the solid without crack is conformal -/
example : ConformalSolid (exampleLibrary sixPoints).isOpposite sameFacet
    ((sevenTetrahedra false).topo (exampleLibrary sixPoints)) := by
  obtain ⟨v, h1, h2⟩ := C118_verdict_partial _ exampleRuntime exampleRuntime_ok _ (sevenTetrahedra_ok false) sameFacet
    sameFacet_cycle (sevenTetrahedra_walkable false)
  have hv : v.isValid = true := by
    have h3 : (isSolidMeshValid (exampleLibrary sixPoints) exampleRuntime (sevenTetrahedra false)).map
      ObjectValidity.isValid = .ok true := by rfl
    rw [h1] at h3
    injection h3
  have hc := h2 hv
  refine ⟨fun x hx => ?_, hc.vertices, hc.edges⟩
  rcases hc.facets x hx with h | h | ⟨h0, y, hy, h1, _⟩
  · exact Or.inl h
  · exact Or.inr h
  · exfalso
    have h : ∀ p < 7, ∀ k < 4, ∀ q < 7, ∀ l < 4,
        (!((sevenTetrahedra false).polyhedronAdjacent (p, k)).isNone ||
        !((sevenTetrahedra false).polyhedronAdjacent (q, l)).isNone || (q == p && l == k) ||
        !sameFacet ((sevenTetrahedra false).polyhedronFacetVertices (q, l))
          ((sevenTetrahedra false).polyhedronFacetVertices (p, k))) = true := by decide +kernel
    have h2 := h x.1 hx.1 x.2 hx.2 y.1 hy.1.1 y.2 hy.1.2
    have h0 : (sevenTetrahedra false).polyhedronAdjacent (x.1, x.2) = none := h0
    have h1 : (sevenTetrahedra false).polyhedronAdjacent (y.1, y.2) = none := h1
    rw [h0, h1, show sameFacet ((sevenTetrahedra false).polyhedronFacetVertices (y.1, y.2))
      ((sevenTetrahedra false).polyhedronFacetVertices (x.1, x.2)) = true from hy.2.2] at h2
    have h3 : (y.1 == x.1 && y.2 == x.2) = true := by simpa using h2
    rw [Bool.and_eq_true, beq_iff_eq, beq_iff_eq] at h3
    exact hy.2.1 (Prod.ext h3.1 h3.2)

/-- in the models of the examples, a Surface of one triangle can be walked -/
theorem exampleModel_walkable (d : TopologyData) (sign : Sign)
    (h : ∀ c ∈ d.surfaces, c.nbElements = 1 ∧ c.nbVertices = 3) :
    ∀ s ∈ (exampleModel d (10 * ·) sign).surfaces, Walkable (s.topo modelLibrary.toLibrary) := by
  intro s hs
  obtain ⟨c, hc, rfl⟩ := List.mem_map.1 hs
  refine walkable_alone _ (fun _ => rfl) ?_ ?_
  · rintro ⟨p, k⟩ ⟨_, hk⟩
    have hk : k < 3 := hk
    show k ≠ (k + 1) % 3
    omega
  · intro v hv
    have hv : v < 3 := by
      have hl : v < (((List.range c.nbVertices).map _).map _).length := hv
      rw [List.length_map, List.length_map, List.length_range, (h c hc).2] at hl
      exact hl
    refine ⟨(0, v), rfl, ⟨?_, hv⟩, rfl⟩
    show 0 < c.nbElements
    rw [(h c hc).1]
    exact Nat.one_pos

/-- the triangle of the Section declared valid is an oriented manifold -/
example : ∀ s ∈ (exampleModel triangleSection (10 * ·) .positive).surfaces, OrientedManifold s.toSurfaceMesh := by
  obtain ⟨v, h1, h2⟩ := C117_section modelLibrary modelRuntime modelRuntime_ok _ _ (triangleSection_ok .positive)
    (exampleModel_walkable triangleSection .positive (by decide))
  have he : isSectionOfValid modelLibrary modelRuntime (exampleModel triangleSection (10 * ·) .positive) = .ok {} :=
    by rfl
  rw [he] at h1
  injection h1 with h1
  intro s hs
  refine (h2 (by rw [← h1]; rfl) s hs ?_).1
  obtain ⟨c, hc, rfl⟩ := List.mem_map.1 hs
  have : ∀ c ∈ triangleSection.surfaces, c.active = true := by decide
  exact this c hc

set_option maxRecDepth 20000 in
/-- the four triangles of the tetrahedron declared valid are oriented manifolds, its Block is conformal but for cracks,
and its facets are polygons of Surfaces -/
example : (∀ s ∈ (exampleModel tetrahedronBRep (10 * ·) .positive).surfaces, OrientedManifold s.toSurfaceMesh) ∧
    ∀ b ∈ (exampleModel tetrahedronBRep (10 * ·) .positive).blocks,
      ConformalButCracks modelLibrary.isOpposite sameFacet (b.topo modelLibrary.toLibrary) := by
  have he : ∀ N, isBRepOfValid modelLibrary modelRuntime (N + 20)
      (exampleModel tetrahedronBRep (10 * ·) .positive) = .ok {} := fun N => by rfl
  constructor
  · obtain ⟨v, N, h1, h2⟩ := C117_brep modelLibrary modelRuntime modelRuntime_ok _ _ (tetrahedronBRep_ok .positive)
      (exampleModel_walkable tetrahedronBRep .positive (by decide))
    have h1 := h1 (N + 20) (by omega)
    rw [he] at h1
    injection h1 with h1
    intro s hs
    refine (h2 (by rw [← h1]; rfl) s hs ?_).1
    obtain ⟨c, hc, rfl⟩ := List.mem_map.1 hs
    have : ∀ c ∈ tetrahedronBRep.surfaces, c.active = true := by decide
    exact this c hc
  · obtain ⟨v, N, h1, h2⟩ := C118_brep modelLibrary modelRuntime modelRuntime_ok _ _ (tetrahedronBRep_ok .positive)
      sameFacet sameFacet_cycle (fun b hb => walkableSolid_of_check _ sameFacet_opposite (by
        have h : ((exampleModel tetrahedronBRep (10 * ·) .positive).blocks.all fun b =>
          solidCheck modelLibrary.isOpposite (b.topo modelLibrary.toLibrary)) = true := by decide +kernel
        exact List.all_eq_true.1 h b hb))
    have h1 := h1 (N + 20) (by omega)
    rw [he] at h1
    injection h1 with h1
    intro b hb
    refine (h2 (by rw [← h1]; rfl) b hb ?_).1
    obtain ⟨c, hc, rfl⟩ := List.mem_map.1 hb
    have : ∀ c ∈ tetrahedronBRep.blocks, c.active = true := by decide
    exact this c hc

end Inspector
