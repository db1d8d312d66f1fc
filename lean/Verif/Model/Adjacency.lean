import Verif.Model.Mesh
import Verif.Model.Results
/-
Model of the adjacency criteria (paths relative to src/geode/inspector/inspection/criterion/):
adjacency/surface_adjacency.cpp, adjacency/solid_adjacency.cpp,
internal/component_meshes_adjacency.cpp, adjacency/{section,brep}_meshes_adjacency.cpp.
-/
namespace Inspector

/-- `mesh_polygon_edge_has_right_adjacency`, adjacency/surface_adjacency.cpp:84-111.  The first
case (`value()` of an empty optional, an exception) is never met by the callers. -/
def polygonEdgeHasRightAdjacency (mesh : SurfaceMesh) (polygon_edge : PolygonEdge) : Bool :=
  match mesh.polygonAdjacent polygon_edge with
  | none => false
  | some polygon_adj_id =>
    let v0 := mesh.polygonEdgeVertex polygon_edge 0
    let v1 := mesh.polygonEdgeVertex polygon_edge 1
    loopAny (fun edge_id =>
      let adj_edge : PolygonEdge := (polygon_adj_id, edge_id)
      let adj_v0 := mesh.polygonVertex adj_edge
      if adj_v0 == v1 then
        let adj_v1 := mesh.polygonEdgeVertex adj_edge 1
        adj_v1 == v0 && mesh.polygonAdjacent adj_edge == some polygon_edge.1
      else false) (List.range (mesh.nbPolygonEdges polygon_adj_id))

/-- `mesh_has_wrong_adjacencies`, adjacency/surface_adjacency.cpp:39-56. -/
def surfaceHasWrongAdjacencies (mesh : SurfaceMesh) : Bool :=
  loopAny (fun polygon_edge => !mesh.isEdgeOnBorder polygon_edge
      && !polygonEdgeHasRightAdjacency mesh polygon_edge)
    (pairs mesh.nbPolygons mesh.nbPolygonEdges)

/-- `polygon_edges_with_wrong_adjacency`, adjacency/surface_adjacency.cpp:59-81.  `name` is the name
or id of the mesh. -/
def polygonEdgesWithWrongAdjacency (name : String) (mesh : SurfaceMesh) : Issues PolygonEdge :=
  collect ("Surface " ++ name ++ " polygon edges adjacencies issues")
    (pairs mesh.nbPolygons mesh.nbPolygonEdges)
    (fun polygon_edge => !mesh.isEdgeOnBorder polygon_edge
      && !polygonEdgeHasRightAdjacency mesh polygon_edge)
    (fun e => "edge " ++ toString e.2 ++ " of polygon " ++ toString e.1 ++ " has wrong adjacencies")

/-- `mesh_polyhedron_facet_has_right_adjacency`, adjacency/solid_adjacency.cpp:86-113.
`isOpposite` is the external `OrientedVertexCycle::is_opposite` of two facets given by their
vertices. -/
def polyhedronFacetHasRightAdjacency (isOpposite : List Index → List Index → Bool) (mesh : SolidMesh)
    (polyhedron_facet : PolyhedronFacet) : Bool :=
  match mesh.polyhedronAdjacent polyhedron_facet with
  | none => false
  | some polyhedron_adj_id =>
    let facet_vertices := mesh.polyhedronFacetVertices polyhedron_facet
    loopAny (fun facet_id =>
      let adj_facet : PolyhedronFacet := (polyhedron_adj_id, facet_id)
      let adj_facet_vertices := mesh.polyhedronFacetVertices adj_facet
      isOpposite facet_vertices adj_facet_vertices
        && mesh.polyhedronAdjacent adj_facet == some polyhedron_facet.1)
      (List.range (mesh.nbPolyhedronFacets polyhedron_adj_id))

/-- `mesh_has_wrong_adjacencies`, adjacency/solid_adjacency.cpp:40-58. -/
def solidHasWrongAdjacencies (isOpposite : List Index → List Index → Bool) (mesh : SolidMesh) : Bool :=
  loopAny (fun polyhedron_facet => !mesh.isPolyhedronFacetOnBorder polyhedron_facet
      && !polyhedronFacetHasRightAdjacency isOpposite mesh polyhedron_facet)
    (pairs mesh.nbPolyhedra mesh.nbPolyhedronFacets)

/-- `polyhedron_facets_with_wrong_adjacency`, adjacency/solid_adjacency.cpp:61-86. -/
def polyhedronFacetsWithWrongAdjacency (isOpposite : List Index → List Index → Bool) (name : String)
    (mesh : SolidMesh) : Issues PolyhedronFacet :=
  collect ("Solid " ++ name ++ " polyhedron facets adjacencies issues")
    (pairs mesh.nbPolyhedra mesh.nbPolyhedronFacets)
    (fun polyhedron_facet => !mesh.isPolyhedronFacetOnBorder polyhedron_facet
      && !polyhedronFacetHasRightAdjacency isOpposite mesh polyhedron_facet)
    (fun f => "facet " ++ toString f.2 ++ " of polyhedron " ++ toString f.1 ++ " has wrong adjacencies")

/-- A Surface of a model: id, activity, name and id in the texts, mesh, unique vertex of each mesh
vertex (`none` is `NO_ID`). -/
structure SurfaceComponent where
  id : Uuid
  active : Bool
  label : String
  mesh : SurfaceMesh
  uniqueVertex : Index → Option Index

/-- A Block of a BRep. -/
structure BlockComponent where
  id : Uuid
  active : Bool
  label : String
  mesh : SolidMesh
  uniqueVertex : Index → Option Index

/-- What the adjacency criterion reads of a model: Surfaces, Blocks (none for a Section), number of
unique vertices and the external `line_component_mesh_edges` / `surface_component_mesh_polygons`
lookups. -/
structure AdjacencyModel where
  surfaces : List SurfaceComponent
  blocks : List BlockComponent := []
  nbUniqueVertices : Nat
  lineComponentMeshEdges : Index → Index → List ComponentMeshElement
  surfaceComponentMeshPolygons : List Index → List ComponentMeshElement := fun _ => []

/-- `polygon_edge_is_on_a_line`, internal/component_meshes_adjacency.cpp:42-63.  `throw` is the
exception of the two `check_exception` (the external `edge_unique_vertices` gives the unique
vertices of the two edge vertices). -/
def polygonEdgeIsOnALine (model : AdjacencyModel) (surface : SurfaceComponent)
    (polygon_edge : PolygonEdge) : Except String Bool :=
  let uv0 := surface.uniqueVertex (surface.mesh.polygonEdgeVertex polygon_edge 0)
  let uv1 := surface.uniqueVertex (surface.mesh.polygonEdgeVertex polygon_edge 1)
  match uv0, uv1 with
  | some uv0, some uv1 =>
    if uv0 < model.nbUniqueVertices && uv1 < model.nbUniqueVertices then
      pure (!(model.lineComponentMeshEdges uv0 uv1).isEmpty)
    else throw "[ComponentMeshesAdjacency] Wrong unique_vertices"
  | _, _ => throw "[ComponentMeshesAdjacency] Missing unique_vertices"

/-- The condition of the border loop with its `try`/`catch`,
internal/component_meshes_adjacency.cpp:99-121: an exception also adds the issue. -/
def surfaceBorderEdgeIssue (model : AdjacencyModel) (surface : SurfaceComponent)
    (polygon_edge : PolygonEdge) : Bool :=
  if surface.mesh.isEdgeOnBorder polygon_edge then
    match polygonEdgeIsOnALine model surface polygon_edge with
    | .ok is_on_a_line => !is_on_a_line
    | .error _ => true
  else false

/-- The issues of one surface, internal/component_meshes_adjacency.cpp:84-123. -/
def surfaceAdjacencyIssues (model : AdjacencyModel) (surface : SurfaceComponent) : Issues PolygonEdge :=
  let issues := (polygonEdgesWithWrongAdjacency surface.label surface.mesh).setDescription
    ("Surface " ++ surface.label ++ " polygon edges adjacency issues")
  collectFrom issues (pairs surface.mesh.nbPolygons surface.mesh.nbPolygonEdges)
    (surfaceBorderEdgeIssue model surface) id
    (fun e => "edge " ++ toString e.2 ++ " of polygon " ++ toString e.1 ++
      " has no adjacencies but is not part of a model Line.")

/-- `add_surfaces_edges_with_wrong_adjacencies`,
internal/component_meshes_adjacency.cpp:78-127. -/
def addSurfacesEdgesWithWrongAdjacencies (model : AdjacencyModel) (map : IssuesMap PolygonEdge) :
    IssuesMap PolygonEdge :=
  (model.surfaces.filter fun s => s.active).foldl (fun map surface =>
    map.addIssues surface.id (surfaceAdjacencyIssues model surface)) map

/-- `polyhedron_facet_is_on_a_surface`, adjacency/brep_meshes_adjacency.cpp:129-142: `none` when a
vertex has no unique vertex (the external `polygon_unique_vertices` maps the facet vertices). -/
def polyhedronFacetIsOnASurface (model : AdjacencyModel) (block : BlockComponent)
    (polyhedron_facet : PolyhedronFacet) : Option Bool :=
  let facet_unique_vertices :=
    (block.mesh.polyhedronFacetVertices polyhedron_facet).map block.uniqueVertex
  if facet_unique_vertices.contains none then none
  else some (!(model.surfaceComponentMeshPolygons
    (facet_unique_vertices.filterMap fun uv => uv)).isEmpty)

/-- The condition of the border loop, adjacency/brep_meshes_adjacency.cpp:98-110. -/
def blockBorderFacetIssue (model : AdjacencyModel) (block : BlockComponent)
    (polyhedron_facet : PolyhedronFacet) : Bool :=
  if !block.mesh.isPolyhedronFacetOnBorder polyhedron_facet then false
  else
    match polyhedronFacetIsOnASurface model block polyhedron_facet with
    | some is_on_surface => !is_on_surface
    | none => false

/-- The issues of one block, adjacency/brep_meshes_adjacency.cpp:83-121. -/
def blockAdjacencyIssues (isOpposite : List Index → List Index → Bool) (model : AdjacencyModel)
    (block : BlockComponent) : Issues PolyhedronFacet :=
  let wrong_adjacencies :=
    (polyhedronFacetsWithWrongAdjacency isOpposite block.label block.mesh).setDescription
      ("Block " ++ block.label ++ " polyhedron facets adjacencies issues")
  collectFrom wrong_adjacencies (pairs block.mesh.nbPolyhedra block.mesh.nbPolyhedronFacets)
    (blockBorderFacetIssue model block) id
    (fun f => "facet " ++ toString f.2 ++ " of polyhedron " ++ toString f.1 ++
      " has no adjacencies but is not part of a model Surface.")

/-- `add_blocks_facets_with_wrong_adjacencies`, adjacency/brep_meshes_adjacency.cpp:83-126. -/
def addBlocksFacetsWithWrongAdjacencies (isOpposite : List Index → List Index → Bool)
    (model : AdjacencyModel) (map : IssuesMap PolyhedronFacet) : IssuesMap PolyhedronFacet :=
  (model.blocks.filter fun b => b.active).foldl (fun map block =>
    map.addIssues block.id (blockAdjacencyIssues isOpposite model block)) map

/-- `inspect_section_meshes_adjacencies`, adjacency/section_meshes_adjacency.cpp:74-81. -/
def inspectSectionMeshesAdjacencies (model : AdjacencyModel) : SectionMeshesAdjacencyInspectionResult :=
  let result : SectionMeshesAdjacencyInspectionResult := {}
  { surfaces_edges_with_wrong_adjacencies :=
      addSurfacesEdgesWithWrongAdjacencies model result.surfaces_edges_with_wrong_adjacencies }

/-- `inspect_brep_meshes_adjacencies`, adjacency/brep_meshes_adjacency.cpp:154-167: two tasks
writing different maps (scheduling is the subject of C53). -/
def inspectBRepMeshesAdjacencies (isOpposite : List Index → List Index → Bool)
    (model : AdjacencyModel) : BRepMeshesAdjacencyInspectionResult :=
  let result : BRepMeshesAdjacencyInspectionResult := {}
  { surfaces_edges_with_wrong_adjacencies :=
      addSurfacesEdgesWithWrongAdjacencies model result.surfaces_edges_with_wrong_adjacencies,
    blocks_facets_with_wrong_adjacencies :=
      addBlocksFacetsWithWrongAdjacencies isOpposite model result.blocks_facets_with_wrong_adjacencies }

end Inspector
