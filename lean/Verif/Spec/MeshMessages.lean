import Verif.Spec.TopologyMessages
import Verif.Spec.WholeModel
/-
Specification of the messages of the inspection of meshes: descriptions of the lists and exact texts of the messages.
-/
namespace Inspector.Spec
variable {P : Type}

/-- The list has this description, and one message per issue, in the same order, related to its issue by `claim`. -/
def Told {α : Type} (s : Issues α) (description : String) (claim : α → String → Prop) : Prop :=
  s.description = description ∧ Explained s claim

/-- The map has this description, and each of its lists is as told by `told`. -/
def ToldMap {α : Type} (map : IssuesMap α) (description : String) (told : Uuid → Issues α → Prop) : Prop :=
  map.description = description ∧ ∀ e ∈ map.entries, told e.1 e.2

/-- Numbers, each preceded by a space. -/
def spaced (l : List Index) : String := String.join (l.map fun i => " " ++ toString i)

/-- The text gives the colocated vertices and the point found by the search for the first of them. -/
def ColocatedSays (lib : Library P) (points : List P) (group : List Index) (t : String) : Prop :=
  ∃ first rest u p, group = first :: rest ∧ (lib.search points).colocated_mapping[first]? = some u ∧
    (lib.search points).unique_points[u]? = some p ∧
    t = "vertices " ++ spaced group ++ " are colocated at the position [" ++ lib.pointString p ++ "]"

/-- The text gives the index of the edge of a curve and the position of its barycenter. -/
def CurveEdgeSays (mesh : CurveData P) (e : Index) (t : String) : Prop :=
  t = "degenerated edge " ++ toString e ++ ", at position [" ++ mesh.edgeText e ++ "]"

/-- The text of the position of the vertex. -/
def positionText (lib : Library P) (points : List P) (v : Index) : String :=
  match points[v]? with
  | some p => lib.pointString p
  | none => ""

/-- The text gives the two vertices of the edge and the position of the first one. -/
def SmallEdgeSays (lib : Library P) (points : List P) (edgeVertices : Index → Index × Index) (e : Index) (t : String) : Prop :=
  t = "degenerated edge between vertices " ++ toString (edgeVertices e).1 ++ " and " ++ toString (edgeVertices e).2 ++
    ", at position [" ++ positionText lib points (edgeVertices e).1 ++ "]"

/-- The text gives the vertex and its position. -/
def VertexSays (lib : Library P) (points : List P) (v : Index) (t : String) : Prop :=
  t = "vertex " ++ toString v ++ ", at position [" ++ positionText lib points v ++ "]"

/-- The text gives the two vertices of the edge, and says whether one of the polygons having it has no adjacent there;
the number of these polygons is counted modulo 256. -/
inductive SurfaceEdgeSays (mesh : SurfaceMesh) (e : Index × Index) : String → Prop
  | border : DeclaredBorder mesh e → (usesOfEdge mesh e).length % 256 ≠ 1 →
      SurfaceEdgeSays mesh e ("edge between vertices " ++ toString e.1 ++ " and " ++ toString e.2 ++
        " is not manifold (detected as on border).")
  | inside : ¬ DeclaredBorder mesh e → (usesOfEdge mesh e).length % 256 ≠ 2 →
      SurfaceEdgeSays mesh e ("edge between vertices with index " ++ toString e.1 ++ " and index " ++ toString e.2 ++
        " is not manifold (detected as not on border).")

/-- The text gives the two vertices of the edge, and says whether the polyhedra around it could be found from the first
polyhedron having it. -/
inductive SolidEdgeSays (mesh : SolidTopo) (e : Index × Index) : String → Prop
  | notFound (p : Index) : FirstUse mesh p e → mesh.polyhedraAroundEdge e p = .error .openGeodeException →
      SolidEdgeSays mesh e ("Could not check manifold on edge between vertices with index " ++ toString e.1 ++
        " and index " ++ toString e.2 ++ "; Check issues with solid adjacencies.")
  | found (p : Index) (fan : List Index) : FirstUse mesh p e → mesh.polyhedraAroundEdge e p = .ok fan →
      SolidEdgeSays mesh e ("Non manifold edge between vertices " ++ toString e.1 ++ " and " ++ toString e.2)

/-- The text gives the vertices of the facet. -/
def SolidFacetSays (f : List Index) (t : String) : Prop :=
  t = "facet made of vertices with index " ++ String.join (f.map fun v => toString v ++ ", ") ++ "is not manifold."

/-- The text gives the edge and its polygon. -/
def PolygonEdgeSays (x : PolygonEdge) (t : String) : Prop :=
  t = "edge " ++ toString x.2 ++ " of polygon " ++ toString x.1 ++ " has wrong adjacencies"

/-- The text gives the facet and its polyhedron. -/
def PolyhedronFacetSays (x : PolyhedronFacet) (t : String) : Prop :=
  t = "facet " ++ toString x.2 ++ " of polyhedron " ++ toString x.1 ++ " has wrong adjacencies"

/-! ### meshes -/

/-- Descriptions and messages of the inspection of a curve. -/
structure CurveMessages (lib : Library P) (mesh : CurveData P) (r : EdgedCurveInspectionResult) : Prop where
  colocation : Told r.colocated_points_groups "groups of colocated points" (ColocatedSays lib mesh.points)
  edges : Told r.degenerated_edges "degenerated edges." (CurveEdgeSays mesh)

/-- Descriptions and messages of the inspection of a surface. -/
structure SurfaceMessages (lib : Library P) (mesh : SurfaceData P) (r : SurfaceInspectionResult) : Prop where
  adjacency : Told r.polygon_edges_with_wrong_adjacency
    ("Surface " ++ mesh.label ++ " polygon edges adjacencies issues") PolygonEdgeSays
  colocation : Told r.colocated_points_groups "groups of colocated points" (ColocatedSays lib mesh.points)
  edges : Told r.degenerated_edges "degenerated edges" (SmallEdgeSays lib mesh.points mesh.edgeVertices)
  polygons : Told r.degenerated_polygons "Degenerated Polygons." fun p t => t = "degenerated polygons " ++ toString p
  manifoldEdges : Told r.non_manifold_edges "non manifold edges" (SurfaceEdgeSays mesh.toSurfaceMesh)
  manifoldVertices : Told r.non_manifold_vertices "non manifold vertices" (VertexSays lib mesh.points)
  intersecting : Told r.intersecting_elements "intersections between polygons"
    fun x t => t = "Polygons " ++ toString x.1 ++ " and " ++ toString x.2 ++ " intersect"
  negative : Told r.negative_polygons "negative area polygons" fun p t => t = "negative polygon " ++ toString p

/-- Descriptions and messages of the inspection of a solid. -/
structure SolidMessages (lib : Library P) (mesh : SolidData P) (r : SolidInspectionResult) : Prop where
  adjacency : Told r.polyhedron_facets_with_wrong_adjacency
    ("Solid " ++ mesh.label ++ " polyhedron facets adjacencies issues") PolyhedronFacetSays
  colocation : Told r.colocated_points_groups "groups of colocated points" (ColocatedSays lib mesh.points)
  edges : Told r.degenerated_edges "degenerated edges" (SmallEdgeSays lib mesh.points mesh.edgeVertices)
  polyhedra : Told r.degenerated_polyhedra "Degenerated Polyhedra." fun p t => t = "degenerated polyhedra " ++ toString p
  manifoldVertices : Told r.non_manifold_vertices "non manifold vertices" (VertexSays lib mesh.points)
  manifoldEdges : Told r.non_manifold_edges "Non manifold edges" (SolidEdgeSays (mesh.topo lib))
  manifoldFacets : Told r.non_manifold_facets "non manifold facets" SolidFacetSays
  negative : Told r.negative_polyhedra "negative volume polyhedra" fun p t => t = "negative polyhedron " ++ toString p

/-! ### models -/

variable (lib : ModelLibrary P) (m : ModelData P)

/-- The list is about an active Line of the model, named in the description. -/
def LineTold {α : Type} (ending : String) (claim : LineData P → α → String → Prop) (id : Uuid) (s : Issues α) : Prop :=
  ∃ l ∈ m.lines, l.active = true ∧ l.id = id ∧ Told s ("Line " ++ l.label ++ ending) (claim l)

/-- The list is about an active Surface of the model, named in the description. -/
def FaceTold {α : Type} (ending : String) (claim : FaceData P → α → String → Prop) (id : Uuid) (s : Issues α) : Prop :=
  ∃ f ∈ m.surfaces, f.active = true ∧ f.id = id ∧ Told s ("Surface " ++ f.label ++ ending) (claim f)

/-- The list is about an active Block of the model, named in the description. -/
def VolumeTold {α : Type} (ending : String) (claim : VolumeData P → α → String → Prop) (id : Uuid) (s : Issues α) :
    Prop :=
  ∃ b ∈ m.blocks, b.active = true ∧ b.id = id ∧ Told s ("Block " ++ b.label ++ ending) (claim b)

/-- The text gives the component, its colocated vertices and the position of the first of them. -/
def ComponentColocatedSays (kind label : String) (points : List P) (group : List Index) (t : String) : Prop :=
  ∃ first rest p, group = first :: rest ∧ points[first]? = some p ∧
    t = kind ++ label ++ " has vertices " ++ spaced group ++ " colocated at position [" ++ lib.pointString p ++ "]"

/-- The text gives the edge and its polygon, and says what is wrong with it. -/
inductive ModelPolygonEdgeSays (f : FaceData P) (x : PolygonEdge) : String → Prop
  | wrong : WrongEdge f.toSurfaceMesh x → ModelPolygonEdgeSays f x
      ("edge " ++ toString x.2 ++ " of polygon " ++ toString x.1 ++ " has wrong adjacencies")
  | border : BorderEdgeNotOnLine m.adjacency (m.adjacencySurface f) x → ModelPolygonEdgeSays f x
      ("edge " ++ toString x.2 ++ " of polygon " ++ toString x.1 ++
        " has no adjacencies but is not part of a model Line.")

/-- The text gives the facet and its polyhedron, and says what is wrong with it. -/
inductive ModelPolyhedronFacetSays (b : VolumeData P) (x : PolyhedronFacet) : String → Prop
  | wrong : WrongFacet lib.isOpposite b.toSolidMesh x → ModelPolyhedronFacetSays b x
      ("facet " ++ toString x.2 ++ " of polyhedron " ++ toString x.1 ++ " has wrong adjacencies")
  | border : BorderFacetNotOnSurface m.adjacency (m.adjacencyBlock b) x → ModelPolyhedronFacetSays b x
      ("facet " ++ toString x.2 ++ " of polyhedron " ++ toString x.1 ++
        " has no adjacencies but is not part of a model Surface.")

/-- The text gives the unique vertices, and the position of the first of them. -/
def ColocatedUniqueVerticesSays (group : List Index) (t : String) : Prop :=
  ∃ first rest cmv others, group = first :: rest ∧ activeCmvs (m.uniqueVertices lib) first = cmv :: others ∧
    t = "unique vertices " ++ spaced group ++ " are colocated at the position [" ++
      lib.pointString (position (m.uniqueVertices lib) cmv) ++ "]"

/-- The text names two active Surfaces, and gives the polygons which intersect. -/
inductive SurfacesIntersectSays (x : ComponentMeshElement × ComponentMeshElement) : String → Prop
  | surfaces (f g : FaceData P) : f ∈ m.surfaces → g ∈ m.surfaces → x.1.component_id = ⟨.surface, f.id⟩ →
      x.2.component_id = ⟨.surface, g.id⟩ →
      SurfacesIntersectSays x ("Surfaces " ++ f.label ++ " and " ++ g.label ++ " intersect on polygons " ++
        toString x.1.element_id ++ " and " ++ toString x.2.element_id)

/-- The text names a Surface, and gives its polygons which intersect (there is no space after the first of them). -/
inductive SelfIntersectsSays (x : ComponentMeshElement × ComponentMeshElement) : String → Prop
  | surface (f : FaceData P) : f ∈ m.surfaces → x.1.component_id = ⟨.surface, f.id⟩ → x.2.component_id = ⟨.surface, f.id⟩ →
      SelfIntersectsSays x ("Surface " ++ f.label ++ " has a self intersection on polygons " ++
        toString x.1.element_id ++ "and " ++ toString x.2.element_id)

/-- The text names a Surface and a Line, and gives the polygon and the edge which intersect. -/
inductive LineIntersectsSays (x : ComponentMeshElement × ComponentMeshElement) : String → Prop
  | line (f : FaceData P) (l : LineData P) : f ∈ m.surfaces → l ∈ m.lines → x.1.component_id = ⟨.surface, f.id⟩ →
      x.2.component_id = ⟨.line, l.id⟩ →
      LineIntersectsSays x ("Surface " ++ f.label ++ " and Line " ++ l.label ++ " intersect on polygon " ++
        toString x.1.element_id ++ " and edge " ++ toString x.2.element_id)

/-- Labels of the Surfaces of these ids, each followed by a comma. -/
inductive Labels : List Uuid → String → Prop
  | nil : Labels [] ""
  | cons (f : FaceData P) (ids : List Uuid) (t : String) : f ∈ m.surfaces → Labels ids t →
      Labels (f.id :: ids) (f.label ++ ", " ++ t)

/-- The text gives the unique vertices of the edge, and the Surfaces or the Line having it. -/
inductive ModelEdgeSays (x : (Index × Index) × List Uuid) : String → Prop
  | surfaces (names : String) : 2 ≤ x.2.length → Labels m x.2 names →
      ModelEdgeSays x ("Model edge between unique vertices " ++ toString x.1.1 ++ " and " ++ toString x.1.2 ++
        " is not manifold: it is on several Surfaces: " ++ names ++ "but not on their border")
  | line (l : LineData P) : l ∈ m.lines → x.2 = [l.id] → IsolatedEdgeLine (m.manifold lib) (m.manifoldLine l) →
      ModelEdgeSays x ("Model edge between unique vertices " ++ toString x.1.1 ++ " and " ++ toString x.1.2 ++
        " is not manifold: it belongs to internal Line " ++ l.label ++ " with only one edge")

/-- The text gives the unique vertices of the facet, and its Surface. -/
inductive ModelFacetSays (x : List Index × List Uuid) : String → Prop
  | surface (f : FaceData P) : f ∈ m.surfaces → x.2 = [f.id] →
      IsolatedFacetSurface (m.manifold lib) (m.manifoldSurface lib f) →
      ModelFacetSays x ("Model facet between unique vertices " ++ String.join (x.1.map fun v => toString v ++ " ") ++
        " is not manifold: it belongs to internal Surface " ++ f.label ++ " with only one facet")

/-- Descriptions and messages on unique vertices. -/
structure UniqueVerticesMessages (r : UniqueVerticesInspectionResult) : Prop where
  colocated : Told r.colocated_unique_vertices_groups "colocated unique vertices" (ColocatedUniqueVerticesSays lib m)
  points : Told r.unique_vertices_linked_to_different_points "unique vertex refering multiple positions"
    fun uv t => t = "unique vertex " ++ toString uv ++ " is linked to several mesh vertices on different positions"

/-- Descriptions and messages of the inspection of the meshes of a Section. -/
structure SectionMeshesMessages (r : SectionMeshesInspectionResult) : Prop where
  uniqueVertices : UniqueVerticesMessages lib m r.unique_vertices_colocation
  colocation : ToldMap r.meshes_colocation.colocated_points_groups "colocated points" fun id s =>
    LineTold m " colocated vertices" (fun l => ComponentColocatedSays lib "Line " l.label l.points) id s ∨
    FaceTold m " colocated vertices" (fun f => ComponentColocatedSays lib "Surface " f.label f.points) id s
  adjacency : ToldMap r.meshes_adjacencies.surfaces_edges_with_wrong_adjacencies "polygon edges adjacencies"
    (FaceTold m " polygon edges adjacency issues" (ModelPolygonEdgeSays m))
  edges : ToldMap r.meshes_degenerations.degenerated_edges "degenerated edges" fun id s =>
    LineTold m " small edges" (fun l => CurveEdgeSays l.toCurveData) id s ∨
    FaceTold m " small facet edges" (fun f => SmallEdgeSays lib.toLibrary f.points f.edgeVertices) id s
  polygons : ToldMap r.meshes_degenerations.degenerated_polygons "degenerated polygons"
    (FaceTold m " small height polygons" fun _ p t => t = "degenerated polygons " ++ toString p)
  intersections : Told r.meshes_intersections.elements_intersections "intersections" (SurfacesIntersectSays m)
  manifoldVertices : ToldMap r.meshes_non_manifolds.meshes_non_manifold_vertices "non manifold mesh vertices"
    (FaceTold m " non manifold vertices" fun f => VertexSays lib.toLibrary f.points)
  manifoldEdges : ToldMap r.meshes_non_manifolds.meshes_non_manifold_edges "non manifold mesh edges"
    (FaceTold m " non manifold edges" fun f => SurfaceEdgeSays f.toSurfaceMesh)
  negative : ToldMap r.meshes_negative_elements.negative_polygons "negative polygons"
    (FaceTold m " negative polygons" fun _ p t => t = "negative polygon " ++ toString p)

/-- Descriptions and messages of the inspection of the meshes of a BRep. -/
structure BRepMeshesMessages (r : BRepMeshesInspectionResult) : Prop where
  uniqueVertices : UniqueVerticesMessages lib m r.unique_vertices_colocation
  colocation : ToldMap r.meshes_colocation.colocated_points_groups "colocated points" fun id s =>
    LineTold m " colocated vertices" (fun l => ComponentColocatedSays lib "Line " l.label l.points) id s ∨
    FaceTold m " colocated vertices" (fun f => ComponentColocatedSays lib "Surface " f.label f.points) id s ∨
    VolumeTold m " colocated vertices" (fun b => ComponentColocatedSays lib "Block " b.label b.points) id s
  adjacency : ToldMap r.meshes_adjacencies.surfaces_edges_with_wrong_adjacencies "polygon edges adjacencies"
    (FaceTold m " polygon edges adjacency issues" (ModelPolygonEdgeSays m))
  facetsAdjacency : ToldMap r.meshes_adjacencies.blocks_facets_with_wrong_adjacencies "polyhedron facets adjacencies"
    (VolumeTold m " polyhedron facets adjacencies issues" (ModelPolyhedronFacetSays lib m))
  edges : ToldMap r.meshes_degenerations.degenerated_edges "degenerated edges" fun id s =>
    LineTold m " small edges" (fun l => CurveEdgeSays l.toCurveData) id s ∨
    FaceTold m " small facet edges" (fun f => SmallEdgeSays lib.toLibrary f.points f.edgeVertices) id s ∨
    VolumeTold m " small edges polyhedra" (fun b => SmallEdgeSays lib.toLibrary b.points b.edgeVertices) id s
  polygons : ToldMap r.meshes_degenerations.degenerated_polygons "degenerated polygons"
    (FaceTold m " small height polygons" fun _ p t => t = "degenerated polygons " ++ toString p)
  polyhedra : ToldMap r.meshes_degenerations.degenerated_polyhedra "degenerated polyhedra"
    (VolumeTold m " small height polyhedra" fun _ p t => t = "degenerated polyhedra " ++ toString p)
  intersections : Told r.meshes_intersections.elements_intersections "intersections"
    fun x t => SurfacesIntersectSays m x t ∨ LineIntersectsSays m x t
  manifoldVertices : ToldMap r.meshes_non_manifolds.meshes_non_manifold_vertices "non manifold mesh vertices" fun id s =>
    FaceTold m " non manifold vertices" (fun f => VertexSays lib.toLibrary f.points) id s ∨
    VolumeTold m " non manifold vertices" (fun b => VertexSays lib.toLibrary b.points) id s
  manifoldEdges : ToldMap r.meshes_non_manifolds.meshes_non_manifold_edges "non manifold mesh edges" fun id s =>
    FaceTold m " non manifold edges" (fun f => SurfaceEdgeSays f.toSurfaceMesh) id s ∨
    VolumeTold m " non manifold edges" (fun b => SolidEdgeSays (b.topo lib.toLibrary)) id s
  manifoldFacets : ToldMap r.meshes_non_manifolds.meshes_non_manifold_facets "non manifold mesh facets"
    (VolumeTold m " non manifold facets" fun _ => SolidFacetSays)
  modelEdges : Told r.meshes_non_manifolds.brep_non_manifold_edges "non manifold model edges" (ModelEdgeSays lib m)
  modelFacets : Told r.meshes_non_manifolds.brep_non_manifold_facets "non manifold model facets" (ModelFacetSays lib m)
  negative : ToldMap r.meshes_negative_elements.negative_polyhedra "negative polyhedra"
    (VolumeTold m " negative polyhedra" fun _ p t => t = "negative polyhedron " ++ toString p)

end Inspector.Spec
