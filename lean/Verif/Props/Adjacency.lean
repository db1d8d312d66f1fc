import Verif.Proofs.Adjacency
/-
Properties C15 - C18: adjacencies, for every mesh and model (no consistency assumed).
-/
namespace Inspector
open Spec

/-- two triangles 0-1-2 and 2-1-3; the adjacency of edge 1 of polygon 0 is reciprocal, edge 2 of
polygon 1 claims polygon 0 as adjacent without reciprocity -/
def exampleSurface : SurfaceMesh where
  nbPolygons := 2
  nbPolygonVertices _ := 3
  polygonVertex x := (([[0, 1, 2], [2, 1, 3]].getD x.1 []).getD x.2 0)
  polygonAdjacent x := if x = (0, 1) then some 1 else if x = (1, 0) then some 0
    else if x = (1, 2) then some 0 else none

/-- two polyhedra with two facets each -/
def exampleSolid : SolidMesh where
  nbPolyhedra := 2
  nbPolyhedronFacets _ := 2
  polyhedronFacetVertices x := [[[0, 1, 2], [0, 2, 3]], [[2, 1, 0], [4, 5, 6]]].getD x.1 [] |>.getD x.2 []
  polyhedronAdjacent x := if x = (0, 0) then some 1 else if x = (1, 0) then some 0
    else if x = (0, 1) then some 1 else none

/-- **C15.** -/
theorem C15_surface_adjacency (name : String) (mesh : SurfaceMesh) :
    Exactly LexLt (WrongEdge mesh) (polygonEdgesWithWrongAdjacency name mesh).issues ∧
    (surfaceHasWrongAdjacencies mesh = true
      ↔ (polygonEdgesWithWrongAdjacency name mesh).issues ≠ []) := by
  have h : Exactly LexLt (WrongEdge mesh) (polygonEdgesWithWrongAdjacency name mesh).issues := by
    rw [polygonEdgesWithWrongAdjacency, collect_issues]
    exact exactly_filter (pairs_pairwise ..) _ _ (wrongEdge_iff mesh)
  refine ⟨h, ?_⟩
  rw [exactly_nil_iff h]
  unfold surfaceHasWrongAdjacencies
  rw [loopAny_iff]
  exact exists_congr (wrongEdge_iff mesh)

example : (polygonEdgesWithWrongAdjacency "s" exampleSurface).issues = [(1, 2)] ∧
    surfaceHasWrongAdjacencies exampleSurface = true := by decide

/-- **C16.** -/
theorem C16_solid_adjacency (opposite : List Index → List Index → Bool) (name : String) (mesh : SolidMesh) :
    Exactly LexLt (WrongFacet opposite mesh) (polyhedronFacetsWithWrongAdjacency opposite name mesh).issues ∧
    (solidHasWrongAdjacencies opposite mesh = true
      ↔ (polyhedronFacetsWithWrongAdjacency opposite name mesh).issues ≠ []) := by
  have h : Exactly LexLt (WrongFacet opposite mesh)
      (polyhedronFacetsWithWrongAdjacency opposite name mesh).issues := by
    rw [polyhedronFacetsWithWrongAdjacency, collect_issues]
    exact exactly_filter (pairs_pairwise ..) _ _ (wrongFacet_iff opposite mesh)
  refine ⟨h, ?_⟩
  rw [exactly_nil_iff h]
  unfold solidHasWrongAdjacencies
  rw [loopAny_iff]
  exact exists_congr (wrongFacet_iff opposite mesh)

example : (polyhedronFacetsWithWrongAdjacency (fun a b => a == b.reverse) "s" exampleSolid).issues
    = [(0, 1)] := by decide

/-- **C17** (Section). -/
theorem C17_section_surface_adjacency (model : AdjacencyModel)
    (hn : (model.surfaces.map SurfaceComponent.id).Nodup)
    (hs : ∀ s ∈ model.surfaces, totalPolygonEdges s.mesh < 2 ^ 32) :
    MapReports (inspectSectionMeshesAdjacencies model).surfaces_edges_with_wrong_adjacencies
      (model.surfaces.filter fun s => s.active) SurfaceComponent.id (ExpectedSurfaceIssues model) := by
  apply mapReports_of_adds
  · exact hn.sublist (List.filter_sublist.map _)
  · intro s h
    exact Nat.lt_of_le_of_lt (surfaceAdjacencyIssues_length model s) (hs s (List.mem_filter.1 h).1)
  · intro s _
    exact surfaceAdjacencyIssues_ok model s

/-- **C17** (BRep). -/
theorem C17_brep_surface_adjacency (opposite : List Index → List Index → Bool) (model : AdjacencyModel)
    (hn : (model.surfaces.map SurfaceComponent.id).Nodup)
    (hs : ∀ s ∈ model.surfaces, totalPolygonEdges s.mesh < 2 ^ 32) :
    MapReports (inspectBRepMeshesAdjacencies opposite model).surfaces_edges_with_wrong_adjacencies
      (model.surfaces.filter fun s => s.active) SurfaceComponent.id (ExpectedSurfaceIssues model) :=
  C17_section_surface_adjacency model hn hs

/-- **C18.** -/
theorem C18_brep_block_adjacency (opposite : List Index → List Index → Bool) (model : AdjacencyModel)
    (hn : (model.blocks.map BlockComponent.id).Nodup)
    (hs : ∀ b ∈ model.blocks, totalPolyhedronFacets b.mesh < 2 ^ 32) :
    MapReports (inspectBRepMeshesAdjacencies opposite model).blocks_facets_with_wrong_adjacencies
      (model.blocks.filter fun b => b.active) BlockComponent.id (ExpectedBlockIssues opposite model) := by
  apply mapReports_of_adds
  · exact hn.sublist (List.filter_sublist.map _)
  · intro b h
    exact Nat.lt_of_le_of_lt (blockAdjacencyIssues_length opposite model b) (hs b (List.mem_filter.1 h).1)
  · intro b _
    exact blockAdjacencyIssues_ok opposite model b

/-- a model with an active and an inactive Surface and a Block: only border edges (0,0) and (0,2) of
the active surface are on a Line -/
def exampleAdjacencyModel : AdjacencyModel where
  surfaces := [⟨1, true, "a", exampleSurface, fun v => some (v + 10)⟩,
    ⟨2, false, "b", exampleSurface, fun v => some (v + 10)⟩]
  blocks := [⟨3, true, "c", exampleSolid, fun v => some v⟩]
  nbUniqueVertices := 13
  lineComponentMeshEdges u v := if u ≤ 12 ∧ v ≤ 12 then [⟨⟨.line, 9⟩, 0⟩] else []

/-- hypotheses of C17 and C18 are met and the reported edges are as announced -/
example : (exampleAdjacencyModel.surfaces.map SurfaceComponent.id).Nodup ∧
    (∀ s ∈ exampleAdjacencyModel.surfaces, totalPolygonEdges s.mesh < 2 ^ 32) ∧
    (exampleAdjacencyModel.blocks.map BlockComponent.id).Nodup ∧
    (∀ b ∈ exampleAdjacencyModel.blocks, totalPolyhedronFacets b.mesh < 2 ^ 32) ∧
    (inspectBRepMeshesAdjacencies (fun a b => a == b.reverse) exampleAdjacencyModel).surfaces_edges_with_wrong_adjacencies.entries.map
      (fun e => (e.1, e.2.issues)) = [(1, [(1, 2), (1, 1)])] ∧
    (inspectBRepMeshesAdjacencies (fun a b => a == b.reverse) exampleAdjacencyModel).blocks_facets_with_wrong_adjacencies.entries.map
      (fun e => (e.1, e.2.issues)) = [(3, [(0, 1), (1, 1)])] := by
  refine ⟨by decide, by decide, by decide, by decide, by decide, by decide⟩

end Inspector
