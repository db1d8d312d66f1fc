import Verif.Model.Mesh
import Verif.Model.Results
import Verif.Model.HashMap
import Verif.Model.Degeneration
/-
Model of the manifold criteria (paths relative to src/geode/inspector/inspection/criterion/):
manifold/{surface_edge,surface_vertex,solid_vertex,solid_edge,solid_facet}_manifold.cpp,
internal/component_meshes_manifold.cpp, manifold/{section,brep}_meshes_manifold.cpp.
-/
namespace Inspector

/-- `SurfaceMesh` with the external walk around a vertex. -/
structure SurfaceTopo extends SurfaceMesh where
  nbVertices : Nat
  polygonsAroundVertex : Index → Except Failure (List PolygonEdge)
  pointText : Index → String := fun _ => ""

/-- `SolidMesh` with the external walks around a vertex and around an edge. -/
structure SolidTopo extends SolidMesh where
  nbVertices : Nat
  nbPolyhedronVertices : Index → Nat
  polyhedronVertex : Nat × Nat → Index
  polyhedraAroundVertex : Index → Except Failure (List (Nat × Nat))
  polyhedronEdgesVertices : Index → List (Index × Index)
  polyhedraAroundEdge : Index × Index → Index → Except Failure (List Index)
  pointText : Index → String := fun _ => ""

/-- `VertexCycle< std::array< index_t, 2 > >` (external): the two vertices, smallest first. -/
def edgeCycle (e : Index × Index) : Index × Index := if e.2 < e.1 then (e.2, e.1) else e

/-! ### edges of surfaces -/

/-- Body of the loops of `edge_to_polygons_around`, manifold/surface_edge_manifold.cpp:48-67.
`local_index_t` is `unsigned char`. -/
def edgeToPolygonsAroundStep (mesh : SurfaceMesh) (polygons_around_edges : HMap (Index × Index) (UInt8 × Bool))
    (polygon_edge : PolygonEdge) : HMap (Index × Index) (UInt8 × Bool) :=
  let polygon_edge_vertex_cycle :=
    edgeCycle (mesh.polygonEdgeVertex polygon_edge 0, mesh.polygonEdgeVertex polygon_edge 1)
  let emplaced := polygons_around_edges.tryEmplace polygon_edge_vertex_cycle (1, false)
  let polygons_around_edges :=
    if !emplaced.2 then emplaced.1.update polygon_edge_vertex_cycle (fun v => (v.1 + 1, v.2))
    else emplaced.1
  match mesh.polygonAdjacent polygon_edge with
  | none => polygons_around_edges.update polygon_edge_vertex_cycle (fun v => (v.1, true))
  | some _ => polygons_around_edges

/-- `edge_to_polygons_around`, manifold/surface_edge_manifold.cpp:39-70. -/
def edgeToPolygonsAround (mesh : SurfaceMesh) : HMap (Index × Index) (UInt8 × Bool) :=
  (pairs mesh.nbPolygons mesh.nbPolygonEdges).foldl (edgeToPolygonsAroundStep mesh) []

/-- `SurfaceMeshEdgeManifold::Impl::mesh_edges_are_manifold`,
manifold/surface_edge_manifold.cpp:81-96. -/
def surfaceEdgesAreManifold
    (iterate : HMap (Index × Index) (UInt8 × Bool) → HMap (Index × Index) (UInt8 × Bool))
    (mesh : SurfaceMesh) : Bool :=
  !loopAny (fun edge =>
    if edge.2.2 && edge.2.1 != 1 then true
    else if !edge.2.2 && edge.2.1 != 2 then true
    else false) (iterate (edgeToPolygonsAround mesh))

/-- `SurfaceMeshEdgeManifold::Impl::non_manifold_edges`, manifold/surface_edge_manifold.cpp:98-124. -/
def surfaceNonManifoldEdges
    (iterate : HMap (Index × Index) (UInt8 × Bool) → HMap (Index × Index) (UInt8 × Bool))
    (mesh : SurfaceMesh) : Issues (Index × Index) :=
  (iterate (edgeToPolygonsAround mesh)).foldl (fun issues edge =>
    let issues :=
      if edge.2.2 && edge.2.1 != 1 then
        issues.add edge.1 ("edge between vertices " ++ toString edge.1.1 ++ " and " ++
          toString edge.1.2 ++ " is not manifold (detected as on border).")
      else issues
    if !edge.2.2 && edge.2.1 != 2 then
      issues.add edge.1 ("edge between vertices with index " ++ toString edge.1.1 ++ " and index " ++
        toString edge.1.2 ++ " is not manifold (detected as not on border).")
    else issues) (Issues.new "non manifold edges")

/-! ### vertices of surfaces -/

/-- `polygons_around_vertex_are_the_same`, manifold/surface_vertex_manifold.cpp:36-52. -/
def polygonsAroundVertexAreTheSame (pav1 pav2 : List PolygonEdge) : Bool :=
  if pav1.length != pav2.length then false
  else !loopAny (fun polygon_vertex => !pav2.contains polygon_vertex) pav1

/-- `polygons_around_vertices`, manifold/surface_vertex_manifold.cpp:54-71. -/
def polygonsAroundVertices (mesh : SurfaceTopo) : Except Failure (List (List PolygonEdge)) :=
  (pairs mesh.nbPolygons mesh.nbPolygonVertices).foldlM
    (fun polygons_list polygon_vertex =>
      pushBackAt polygons_list (mesh.polygonVertex polygon_vertex) polygon_vertex)
    (List.replicate mesh.nbVertices [])

/-- `SurfaceMeshVertexManifold::Impl::mesh_vertices_are_manifold`,
manifold/surface_vertex_manifold.cpp:82-103. -/
def surfaceVerticesAreManifold (mesh : SurfaceTopo) : Except Failure Bool :=
  match polygonsAroundVertices mesh with
  | .error f => .error f
  | .ok polygons_around_vertices_list =>
    match loopAnyM (fun vertex_id =>
      match mesh.polygonsAroundVertex vertex_id with
      | .ok around => .ok (!polygonsAroundVertexAreTheSame (polygons_around_vertices_list.getD vertex_id []) around)
      | .error .openGeodeException => .ok false
      | .error f => .error f) (List.range mesh.nbVertices) with
    | .error f => .error f
    | .ok found => .ok (!found)

/-- `SurfaceMeshVertexManifold::Impl::non_manifold_vertices`,
manifold/surface_vertex_manifold.cpp:105-132. -/
def surfaceNonManifoldVertices (mesh : SurfaceTopo) : Except Failure (Issues Index) :=
  match polygonsAroundVertices mesh with
  | .error f => .error f
  | .ok polygons_around_vertices_list =>
    collectFromM (Issues.new "non manifold vertices") (fun vertex_id =>
      match mesh.polygonsAroundVertex vertex_id with
      | .ok around => .ok (!polygonsAroundVertexAreTheSame (polygons_around_vertices_list.getD vertex_id []) around)
      | .error .openGeodeException => .ok false
      | .error f => .error f) id
      (fun vertex_id => "vertex " ++ toString vertex_id ++ ", at position [" ++ mesh.pointText vertex_id ++ "]")
      (List.range mesh.nbVertices)

/-! ### vertices of solids -/

/-- `polyhedra_around_vertex_are_the_same`, manifold/solid_vertex_manifold.cpp:36-52. -/
def polyhedraAroundVertexAreTheSame (pav1 pav2 : List (Nat × Nat)) : Bool :=
  if pav1.length != pav2.length then false
  else !loopAny (fun polyhedron_vertex => !pav2.contains polyhedron_vertex) pav1

/-- `polyhedra_around_vertices`, manifold/solid_vertex_manifold.cpp:54-72. -/
def polyhedraAroundVertices (mesh : SolidTopo) : Except Failure (List (List (Nat × Nat))) :=
  (pairs mesh.nbPolyhedra mesh.nbPolyhedronVertices).foldlM
    (fun polyhedra_around_vertices_list polyhedron_vertex =>
      pushBackAt polyhedra_around_vertices_list (mesh.polyhedronVertex polyhedron_vertex) polyhedron_vertex)
    (List.replicate mesh.nbVertices [])

/-- `SolidMeshVertexManifold::Impl::mesh_vertices_are_manifold`,
manifold/solid_vertex_manifold.cpp:83-97: nothing is caught. -/
def solidVerticesAreManifold (mesh : SolidTopo) : Except Failure Bool :=
  match polyhedraAroundVertices mesh with
  | .error f => .error f
  | .ok polyhedra_around_vertices_list =>
    match loopAnyM (fun vertex_id =>
      match mesh.polyhedraAroundVertex vertex_id with
      | .ok around => .ok (!polyhedraAroundVertexAreTheSame (polyhedra_around_vertices_list.getD vertex_id []) around)
      | .error f => .error f) (List.range mesh.nbVertices) with
    | .error f => .error f
    | .ok found => .ok (!found)

/-- `SolidMeshVertexManifold::Impl::non_manifold_vertices`,
manifold/solid_vertex_manifold.cpp:99-118: nothing is caught. -/
def solidNonManifoldVertices (mesh : SolidTopo) : Except Failure (Issues Index) :=
  match polyhedraAroundVertices mesh with
  | .error f => .error f
  | .ok polyhedra_around_vertices_list =>
    collectFromM (Issues.new "non manifold vertices") (fun vertex_id =>
      match mesh.polyhedraAroundVertex vertex_id with
      | .ok around => .ok (!polyhedraAroundVertexAreTheSame (polyhedra_around_vertices_list.getD vertex_id []) around)
      | .error f => .error f) id
      (fun vertex_id => "vertex " ++ toString vertex_id ++ ", at position [" ++ mesh.pointText vertex_id ++ "]")
      (List.range mesh.nbVertices)

/-! ### edges of solids -/

/-- The nested loops over the edges of the polyhedra, manifold/solid_edge_manifold.cpp:64-67, 98-101
and 126-129: (polyhedron, edge vertices). -/
def polyhedraEdges (mesh : SolidTopo) : List (Index × (Index × Index)) :=
  (List.range mesh.nbPolyhedra).flatMap fun polyhedron_id =>
    (mesh.polyhedronEdgesVertices polyhedron_id).map fun edge => (polyhedron_id, edge)

/-- `polyhedra_around_edge_are_the_same`, manifold/solid_edge_manifold.cpp:40-56. -/
def polyhedraAroundEdgeAreTheSame (pae1 pae2 : List Index) : Bool :=
  if pae1.length != pae2.length then false
  else !loopAny (fun polyhedron_id => !pae2.contains polyhedron_id) pae1

/-- `edges_to_polyhedra_around`, manifold/solid_edge_manifold.cpp:58-80. -/
def edgesToPolyhedraAround (mesh : SolidTopo) : HMap (Index × Index) (List Index) :=
  (polyhedraEdges mesh).foldl (fun polyhedra_around_edges x =>
    let polyhedron_edge := edgeCycle x.2
    let emplaced := polyhedra_around_edges.tryEmplace polyhedron_edge [x.1]
    if !emplaced.2 then emplaced.1.update polyhedron_edge (fun v => v ++ [x.1]) else emplaced.1) []

/-- Loop of `SolidMeshEdgeManifold::Impl::mesh_edges_are_manifold`,
manifold/solid_edge_manifold.cpp:98-117 (`at` throws for an absent key). -/
def solidEdgesAreManifoldLoop (mesh : SolidTopo) (polyhedra_around_edges : HMap (Index × Index) (List Index)) :
    List (Index × (Index × Index)) → List (Index × Index) → Except Failure Bool
  | [], _ => .ok true
  | x :: rest, checked_edges =>
    let polyhedron_edge := edgeCycle x.2
    if checked_edges.contains polyhedron_edge then
      solidEdgesAreManifoldLoop mesh polyhedra_around_edges rest checked_edges
    else
      match mesh.polyhedraAroundEdge x.2 x.1 with
      | .error f => .error f
      | .ok polyhedra_around =>
        match polyhedra_around_edges.find? polyhedron_edge with
        | none => .error .otherException
        | some known =>
          if !polyhedraAroundEdgeAreTheSame polyhedra_around known then .ok false
          else solidEdgesAreManifoldLoop mesh polyhedra_around_edges rest (polyhedron_edge :: checked_edges)

/-- `SolidMeshEdgeManifold::Impl::mesh_edges_are_manifold`, manifold/solid_edge_manifold.cpp:95-118. -/
def solidEdgesAreManifold (mesh : SolidTopo) : Except Failure Bool :=
  solidEdgesAreManifoldLoop mesh (edgesToPolyhedraAround mesh) (polyhedraEdges mesh) []

/-- Loop of `SolidMeshEdgeManifold::Impl::non_manifold_edges`,
manifold/solid_edge_manifold.cpp:126-162. -/
def solidNonManifoldEdgesLoop (mesh : SolidTopo) (polyhedra_around_edges : HMap (Index × Index) (List Index)) :
    List (Index × (Index × Index)) → List (Index × Index) → Issues (Index × Index) →
      Except Failure (Issues (Index × Index))
  | [], _, issues => .ok issues
  | x :: rest, checked_edges, issues =>
    let polyhedron_edge := edgeCycle x.2
    if checked_edges.contains polyhedron_edge then
      solidNonManifoldEdgesLoop mesh polyhedra_around_edges rest checked_edges issues
    else
      match mesh.polyhedraAroundEdge x.2 x.1 with
      | .error .openGeodeException =>
        solidNonManifoldEdgesLoop mesh polyhedra_around_edges rest (polyhedron_edge :: checked_edges)
          (issues.add x.2 ("Could not check manifold on edge between vertices with index " ++
            toString x.2.1 ++ " and index " ++ toString x.2.2 ++ "; Check issues with solid adjacencies."))
      | .error f => .error f
      | .ok polyhedra_around =>
        match polyhedra_around_edges.find? polyhedron_edge with
        | none => .error .otherException
        | some known =>
          solidNonManifoldEdgesLoop mesh polyhedra_around_edges rest (polyhedron_edge :: checked_edges)
            (if !polyhedraAroundEdgeAreTheSame polyhedra_around known then
              issues.add x.2 ("Non manifold edge between vertices " ++ toString x.2.1 ++ " and " ++
                toString x.2.2)
            else issues)

/-- `SolidMeshEdgeManifold::Impl::non_manifold_edges`, manifold/solid_edge_manifold.cpp:120-164. -/
def solidNonManifoldEdges (mesh : SolidTopo) : Except Failure (Issues (Index × Index)) :=
  solidNonManifoldEdgesLoop mesh (edgesToPolyhedraAround mesh) (polyhedraEdges mesh) []
    (Issues.new "Non manifold edges")

/-! ### facets of solids -/

/-- `facets_to_nb_adjacent_polyhedra`, manifold/solid_facet_manifold.cpp:39-61.  `cycle` is the
external `VertexCycle` of a list of vertices. -/
def facetsToNbAdjacentPolyhedra (cycle : List Index → List Index) (mesh : SolidMesh) :
    HMap (List Index) UInt32 :=
  (pairs mesh.nbPolyhedra mesh.nbPolyhedronFacets).foldl (fun nb_polyhedra_adjacent_to_facets x =>
    let facet := cycle (mesh.polyhedronFacetVertices x)
    let emplaced := nb_polyhedra_adjacent_to_facets.tryEmplace facet 1
    if !emplaced.2 then emplaced.1.update facet (fun n => n + 1) else emplaced.1) []

/-- `SolidMeshFacetManifold::Impl::mesh_facets_are_manifold`,
manifold/solid_facet_manifold.cpp:72-85. -/
def solidFacetsAreManifold (iterate : HMap (List Index) UInt32 → HMap (List Index) UInt32)
    (cycle : List Index → List Index) (mesh : SolidMesh) : Bool :=
  !loopAny (fun facet => decide (facet.2 > 2)) (iterate (facetsToNbAdjacentPolyhedra cycle mesh))

/-- `SolidMeshFacetManifold::Impl::non_manifold_facets`, manifold/solid_facet_manifold.cpp:87-111. -/
def solidNonManifoldFacets (iterate : HMap (List Index) UInt32 → HMap (List Index) UInt32)
    (cycle : List Index → List Index) (mesh : SolidMesh) : Issues (List Index) :=
  collectFrom (Issues.new "non manifold facets") (iterate (facetsToNbAdjacentPolyhedra cycle mesh))
    (fun facet => decide (facet.2 > 2)) (fun facet => facet.1)
    (fun facet => facet.1.foldl (fun message vertex_id => message ++ toString vertex_id ++ ", ")
      "facet made of vertices with index " ++ "is not manifold.")

/-! ### models -/

/-- Surface of a model as read by the manifold criterion. -/
structure ManifoldSurface where
  id : Uuid
  active : Bool
  label : String
  mesh : SurfaceTopo
  /-- unique vertex of a mesh vertex (`NO_ID` is a number) -/
  uniqueVertex : Index → Index
  nbEmbeddingBlocks : Nat

/-- Line of a model as read by the manifold criterion: `edgeVertex k` is vertex `k` of edge 0. -/
structure ManifoldLine where
  id : Uuid
  active : Bool
  label : String
  nbEdges : Nat
  edgeVertex : Nat → Index
  uniqueVertex : Index → Index
  nbEmbeddingSurfaces : Nat

/-- Section or BRep (no block for a Section) as read by the manifold criterion;
`nbComponentMeshVertices u` is `component_mesh_vertices( u ).size()`. -/
structure ManifoldModel where
  lines : List ManifoldLine
  surfaces : List ManifoldSurface
  blocks : List (MeasuredComponent SolidTopo) := []
  nbComponentMeshVertices : Index → Nat

/-- `add_surfaces_meshes_non_manifold_vertices`, internal/component_meshes_manifold.cpp:48-66. -/
def addSurfacesNonManifoldVertices (model : ManifoldModel) (map : IssuesMap Index) :
    Except Failure (IssuesMap Index) :=
  (model.surfaces.filter fun s => s.active).foldlM (fun map surface =>
    match surfaceNonManifoldVertices surface.mesh with
    | .error f => .error f
    | .ok issues => .ok (map.addIssues surface.id (issues.setDescription
        ("Surface " ++ surface.label ++ " non manifold vertices")))) map

/-- `add_surfaces_meshes_non_manifold_edges`, internal/component_meshes_manifold.cpp:68-87.
`iterate` may differ for each mesh. -/
def addSurfacesNonManifoldEdges
    (iterate : Uuid → HMap (Index × Index) (UInt8 × Bool) → HMap (Index × Index) (UInt8 × Bool))
    (model : ManifoldModel) (map : IssuesMap (Index × Index)) : IssuesMap (Index × Index) :=
  (model.surfaces.filter fun s => s.active).foldl (fun map surface =>
    map.addIssues surface.id ((surfaceNonManifoldEdges (iterate surface.id) surface.mesh.toSurfaceMesh).setDescription
      ("Surface " ++ surface.label ++ " non manifold edges"))) map

/-- `add_component_meshes_non_manifold_vertices`, blocks part,
manifold/brep_meshes_manifold.cpp:108-117. -/
def addBlocksNonManifoldVertices (model : ManifoldModel) (map : IssuesMap Index) :
    Except Failure (IssuesMap Index) :=
  (model.blocks.filter fun b => b.active).foldlM (fun map block =>
    match solidNonManifoldVertices block.mesh with
    | .error f => .error f
    | .ok issues => .ok (map.addIssues block.id (issues.setDescription
        ("Block " ++ block.label ++ " non manifold vertices")))) map

/-- `add_component_meshes_non_manifold_edges`, blocks part,
manifold/brep_meshes_manifold.cpp:127-136. -/
def addBlocksNonManifoldEdges (model : ManifoldModel) (map : IssuesMap (Index × Index)) :
    Except Failure (IssuesMap (Index × Index)) :=
  (model.blocks.filter fun b => b.active).foldlM (fun map block =>
    match solidNonManifoldEdges block.mesh with
    | .error f => .error f
    | .ok issues => .ok (map.addIssues block.id (issues.setDescription
        ("Block " ++ block.label ++ " non manifold edges")))) map

/-- `add_component_meshes_non_manifold_facets`, manifold/brep_meshes_manifold.cpp:139-153. -/
def addBlocksNonManifoldFacets (iterate : Uuid → HMap (List Index) UInt32 → HMap (List Index) UInt32)
    (cycle : List Index → List Index) (model : ManifoldModel) (map : IssuesMap (List Index)) :
    IssuesMap (List Index) :=
  (model.blocks.filter fun b => b.active).foldl (fun map block =>
    map.addIssues block.id ((solidNonManifoldFacets (iterate block.id) cycle block.mesh.toSolidMesh).setDescription
      ("Block " ++ block.label ++ " non manifold facets"))) map

/-- Loops of `add_model_non_manifold_edges`, manifold/brep_meshes_manifold.cpp:160-190, for one
Surface. -/
def surfaceModelEdges (surface : ManifoldSurface) (edges : HMap (Index × Index) (List Uuid)) :
    HMap (Index × Index) (List Uuid) :=
  (pairs surface.mesh.nbPolygons surface.mesh.nbPolygonVertices).foldl (fun edges x =>
    let polygon_id := x.1
    let edge_id := x.2
    let edge := edgeCycle (surface.uniqueVertex (surface.mesh.polygonVertex (polygon_id, edge_id)),
      surface.uniqueVertex (surface.mesh.polygonVertex (polygon_id,
        if edge_id == surface.mesh.nbPolygonVertices polygon_id - 1 then 0 else edge_id + 1)))
    match surface.mesh.polygonAdjacent (polygon_id, edge_id) with
    | none => edges
    | some adj =>
      if adj < polygon_id then edges
      else
        let info := edges.tryEmplace edge [surface.id]
        if !info.2 then info.1.update edge (fun v => v ++ [surface.id]) else info.1) edges

/-- `several_cmvs_on_one_vertex`, manifold/brep_meshes_manifold.cpp:279-292. -/
def severalCmvsOnOneVertex (model : ManifoldModel) (unique_vertices : List Index) : Bool :=
  loopAny (fun unique_vertex => decide (model.nbComponentMeshVertices unique_vertex > 1)) unique_vertices

/-- Name (or uuid) and uuid of a Surface of the model in a message, manifold/brep_meshes_manifold.cpp:203-209; the
uuids come from the Surfaces of the model. -/
def ManifoldModel.surfaceLabel (model : ManifoldModel) (id : Uuid) : String :=
  (model.surfaces.find? fun surface => surface.id == id).elim "" ManifoldSurface.label

/-- `add_model_non_manifold_edges`, manifold/brep_meshes_manifold.cpp:155-244. -/
def addModelNonManifoldEdges
    (iterate : HMap (Index × Index) (List Uuid) → HMap (Index × Index) (List Uuid))
    (model : ManifoldModel) (issues : Issues ((Index × Index) × List Uuid)) :
    Issues ((Index × Index) × List Uuid) :=
  let edges := (model.surfaces.filter fun s => s.active).foldl (fun edges surface =>
    surfaceModelEdges surface edges) []
  let issues := collectFrom issues (iterate edges) (fun edge => !decide (edge.2.length ≤ 1))
    (fun edge => (edge.1, edge.2))
    (fun edge => edge.2.foldl (fun message surface_uuid => message ++ model.surfaceLabel surface_uuid ++ ", ")
      ("Model edge between unique vertices " ++ toString edge.1.1 ++ " and " ++ toString edge.1.2 ++
        " is not manifold: it is on several Surfaces: ") ++ "but not on their border")
  collectFrom issues (model.lines.filter fun l => l.active)
    (fun line =>
      if line.nbEdges != 1 || line.nbEmbeddingSurfaces == 0 then false
      else !severalCmvsOnOneVertex model
        [line.uniqueVertex (line.edgeVertex 0), line.uniqueVertex (line.edgeVertex 1)])
    (fun line => ((line.uniqueVertex (line.edgeVertex 0), line.uniqueVertex (line.edgeVertex 1)), [line.id]))
    (fun line => "Model edge between unique vertices " ++ toString (line.uniqueVertex (line.edgeVertex 0)) ++ " and " ++
      toString (line.uniqueVertex (line.edgeVertex 1)) ++ " is not manifold: it belongs to internal Line " ++ line.label ++
      " with only one edge")

/-- `polygon_unique_vertices` (external), of polygon 0. -/
def polygonUniqueVertices (surface : ManifoldSurface) : List Index :=
  (List.range (surface.mesh.nbPolygonVertices 0)).map fun v =>
    surface.uniqueVertex (surface.mesh.polygonVertex (0, v))

/-- `add_model_non_manifold_facets`, manifold/brep_meshes_manifold.cpp:246-276. -/
def addModelNonManifoldFacets (model : ManifoldModel) (issues : Issues (List Index × List Uuid)) :
    Issues (List Index × List Uuid) :=
  collectFrom issues (model.surfaces.filter fun s => s.active)
    (fun surface =>
      if surface.mesh.nbPolygons != 1 || surface.nbEmbeddingBlocks == 0 then false
      else !severalCmvsOnOneVertex model (polygonUniqueVertices surface))
    (fun surface => (polygonUniqueVertices surface, [surface.id]))
    (fun surface => (polygonUniqueVertices surface).foldl (fun message polygon_vertex =>
        message ++ toString polygon_vertex ++ " ") "Model facet between unique vertices " ++
      " is not manifold: it belongs to internal Surface " ++ surface.label ++
      " with only one facet")

/-- `SectionComponentMeshesManifold::inspect_section_manifold`,
manifold/section_meshes_manifold.cpp:82-91. -/
def inspectSectionManifold
    (iterate : Uuid → HMap (Index × Index) (UInt8 × Bool) → HMap (Index × Index) (UInt8 × Bool))
    (model : ManifoldModel) : Except Failure SectionMeshesManifoldInspectionResult :=
  let result : SectionMeshesManifoldInspectionResult := {}
  match addSurfacesNonManifoldVertices model result.meshes_non_manifold_vertices with
  | .error f => .error f
  | .ok vertices => .ok
    { meshes_non_manifold_vertices := vertices,
      meshes_non_manifold_edges := addSurfacesNonManifoldEdges iterate model result.meshes_non_manifold_edges }

/-- The iteration orders of the hash maps of a BRep inspection. -/
structure ManifoldOrders where
  surfaceEdges : Uuid → HMap (Index × Index) (UInt8 × Bool) → HMap (Index × Index) (UInt8 × Bool)
  facets : Uuid → HMap (List Index) UInt32 → HMap (List Index) UInt32
  modelEdges : HMap (Index × Index) (List Uuid) → HMap (Index × Index) (List Uuid)

/-- `BRepComponentMeshesManifold::inspect_brep_manifold`, manifold/brep_meshes_manifold.cpp:303-316
(and 101-107, 120-126 for the calls on the Surfaces). -/
def inspectBRepManifold (orders : ManifoldOrders) (cycle : List Index → List Index) (model : ManifoldModel) :
    Except Failure BRepMeshesManifoldInspectionResult :=
  let result : BRepMeshesManifoldInspectionResult := {}
  match addSurfacesNonManifoldVertices model result.meshes_non_manifold_vertices with
  | .error f => .error f
  | .ok vertices =>
    match addBlocksNonManifoldVertices model vertices with
    | .error f => .error f
    | .ok vertices =>
      match addBlocksNonManifoldEdges model
          (addSurfacesNonManifoldEdges orders.surfaceEdges model result.meshes_non_manifold_edges) with
      | .error f => .error f
      | .ok edges => .ok
        { meshes_non_manifold_vertices := vertices,
          meshes_non_manifold_edges := edges,
          meshes_non_manifold_facets :=
            addBlocksNonManifoldFacets orders.facets cycle model result.meshes_non_manifold_facets,
          brep_non_manifold_edges := addModelNonManifoldEdges orders.modelEdges model result.brep_non_manifold_edges,
          brep_non_manifold_facets := addModelNonManifoldFacets model result.brep_non_manifold_facets }

end Inspector
