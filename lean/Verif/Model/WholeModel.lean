import Verif.Model.Whole
import Verif.Model.TopologyInspector
/-
Whole inspections of a Section and of a BRep: the inspectors run the criteria of the other files on the same model, and
`is_section_valid`, `is_brep_valid` run the inspectors (src/geode/inspector/inspection/section_inspector.cpp,
brep_inspector.cpp, criterion/section_meshes_inspector.cpp, criterion/brep_meshes_inspector.cpp,
src/geode/inspector/validity/section_validity.cpp, brep_validity.cpp).
-/
namespace Inspector

/-- A Corner of a model with its mesh (external). -/
structure CornerData (P : Type) where
  id : Uuid
  active : Bool
  points : List P

/-- A Line of a model with its mesh (external). -/
structure LineData (P : Type) extends CurveData P where
  id : Uuid
  active : Bool
  label : String

/-- A Surface of a model with its mesh (external). -/
structure FaceData (P : Type) extends SurfaceData P where
  id : Uuid
  active : Bool

/-- A Block of a BRep with its mesh (external). -/
structure VolumeData (P : Type) extends SolidData P where
  id : Uuid
  active : Bool

/-- What the inspector uses of OpenGeode (external) for the models: `origin` is the position of the vertices made by
`create_vertices`. -/
structure ModelLibrary (P : Type) extends Library P where
  origin : P
  inexactEqual : P → P → Bool
  geometry : Geometry P

/-- A Section (without Block) or a BRep (external), as a whole: its components with their meshes, its unique vertices,
its relationships, the answers of the lookups of mesh elements by unique vertices, and the trees of its meshes. -/
structure ModelData (P : Type) where
  corners : List (CornerData P)
  lines : List (LineData P)
  surfaces : List (FaceData P)
  blocks : List (VolumeData P)
  /-- the number `NO_ID` -/
  noId : Index
  nbUniqueVertices : Nat
  componentMeshVertices : Index → List ComponentMeshVertex
  uniqueVertex : ComponentMeshVertex → Option Index
  isBoundary : Uuid → Uuid → Bool
  isInternal : Uuid → Uuid → Bool
  embeddings : Uuid → List ComponentID
  incidences : Uuid → List ComponentID
  boundaries : Uuid → List ComponentID
  isVertexOnBorder : Uuid → Index → Bool
  surfaceEdges : Uuid → Index → HMap Uuid Nat
  blockEdges : Uuid → Index → HMap Uuid Nat
  blockPolygons : Uuid → Index → HMap Uuid Nat
  lineComponentMeshEdges : Index → Index → List ComponentMeshElement
  surfaceComponentMeshPolygons : List Index → List ComponentMeshElement
  selfTree : Uuid → Traversal
  otherTree : Uuid → Uuid → Traversal
  lineTree : Uuid → Uuid → Traversal
  overlappingSurfaces : List (FaceData P × FaceData P)
  blocksOracle : BlocksOracle

/-- What differs from an execution to another: schedules of the tasks, exception chosen when several are thrown,
iteration orders of the hash maps. -/
structure ModelRuntime where
  choose : List Failure → Failure
  schedule : List Nat
  meshesSchedule : List Nat
  topologySchedule : List Nat
  orders : ManifoldOrders
  aroundOrder : HMap Uuid Nat → HMap Uuid Nat

namespace ModelData
variable {P : Type} (m : ModelData P)

/-- The number read as the unique vertex of a vertex: `NO_ID` if there is none. -/
def uniqueVertexId (kind : ComponentType) (id : Uuid) (v : Index) : Index :=
  (m.uniqueVertex ⟨⟨kind, id⟩, v⟩).getD m.noId

/-- Point of a vertex of the mesh of a component (external); `origin` stands for an access out of bounds. -/
def pointOf (lib : ModelLibrary P) (points : Option (List P)) (v : Index) : P :=
  ((points.getD [])[v]?).getD lib.origin

/-- The model as read by the topology inspectors. -/
def topology (rt : ModelRuntime) : TopologyModel where
  components
    | .corner => m.corners.map fun c => ⟨c.id, c.active, c.points.length, 0⟩
    | .line => m.lines.map fun c => ⟨c.id, c.active, c.points.length, c.nbEdges⟩
    | .surface => m.surfaces.map fun c => ⟨c.id, c.active, c.points.length, c.nbPolygons⟩
    | .block => m.blocks.map fun c => ⟨c.id, c.active, c.points.length, c.nbPolyhedra⟩
    | .other => []
  nbUniqueVertices := m.nbUniqueVertices
  componentMeshVertices := m.componentMeshVertices
  uniqueVertex := m.uniqueVertex
  isBoundary := m.isBoundary
  isInternal := m.isInternal
  embeddings := m.embeddings
  incidences := m.incidences
  boundaries := m.boundaries
  isVertexOnBorder := m.isVertexOnBorder
  surfaceEdges := m.surfaceEdges
  blockEdges := m.blockEdges
  blockPolygons := m.blockPolygons
  lineEdgeVertices id e := ((m.lines.find? fun l => l.id == id).map fun l =>
    [(l.edgeVertices e).1, (l.edgeVertices e).2]).getD []
  polygonVertices id p := ((m.surfaces.find? fun s => s.id == id).map fun s => s.polygonVertices p).getD []
  iterate := rt.aroundOrder

/-- A Surface as read by the adjacency criterion. -/
def adjacencySurface (s : FaceData P) : SurfaceComponent :=
  ⟨s.id, s.active, s.label, s.toSurfaceMesh, fun v => m.uniqueVertex ⟨⟨.surface, s.id⟩, v⟩⟩

/-- A Block as read by the adjacency criterion. -/
def adjacencyBlock (b : VolumeData P) : BlockComponent :=
  ⟨b.id, b.active, b.label, b.toSolidMesh, fun v => m.uniqueVertex ⟨⟨.block, b.id⟩, v⟩⟩

/-- The model as read by the adjacency criterion. -/
def adjacency : AdjacencyModel where
  surfaces := m.surfaces.map m.adjacencySurface
  blocks := m.blocks.map m.adjacencyBlock
  nbUniqueVertices := m.nbUniqueVertices
  lineComponentMeshEdges := m.lineComponentMeshEdges
  surfaceComponentMeshPolygons := m.surfaceComponentMeshPolygons

/-- The model as read by the degeneration criterion. -/
def degeneration (lib : ModelLibrary P) : DegenerationModel where
  lines := m.lines.map fun l => ⟨l.id, l.active, l.label, l.measures lib.toLibrary⟩
  surfaces := m.surfaces.map fun s => ⟨s.id, s.active, s.label, s.measures lib.toLibrary⟩
  blocks := m.blocks.map fun b => ⟨b.id, b.active, b.label, b.measures lib.toLibrary⟩

/-- The Lines as read by the colocation criterion. -/
def linePoints : List (PointComponent P) :=
  m.lines.map fun l => ⟨l.id, l.active, l.label, ⟨l.points⟩, m.uniqueVertexId .line l.id⟩

/-- The Surfaces as read by the colocation criterion. -/
def surfacePoints : List (PointComponent P) :=
  m.surfaces.map fun s => ⟨s.id, s.active, s.label, ⟨s.points⟩, m.uniqueVertexId .surface s.id⟩

/-- The Blocks as read by the colocation criterion. -/
def blockPoints : List (PointComponent P) :=
  m.blocks.map fun b => ⟨b.id, b.active, b.label, ⟨b.points⟩, m.uniqueVertexId .block b.id⟩

/-- The activity of a component (external `component( id ).is_active()`). -/
def isActive (id : Uuid) : Bool :=
  (m.corners.any fun c => c.id == id && c.active) || (m.lines.any fun c => c.id == id && c.active) ||
  (m.surfaces.any fun c => c.id == id && c.active) || (m.blocks.any fun c => c.id == id && c.active)

/-- The model as read by the colocation of unique vertices. -/
def uniqueVertices (lib : ModelLibrary P) : UVModel P where
  nbUniqueVertices := m.nbUniqueVertices
  componentMeshVertices := m.componentMeshVertices
  isActive := m.isActive
  cornerPoint id := pointOf lib ((m.corners.find? fun c => c.id == id).map CornerData.points)
  linePoint id := pointOf lib ((m.lines.find? fun c => c.id == id).map fun c => c.points)
  surfacePoint id := pointOf lib ((m.surfaces.find? fun c => c.id == id).map fun c => c.points)
  blockPoint id := pointOf lib ((m.blocks.find? fun c => c.id == id).map fun c => c.points)

/-- Number of the components of a kind in which a component is embedded (external `nb_embedding_blocks`,
`nb_embedding_surfaces`). -/
def nbEmbeddingsOf (kind : ComponentType) (id : Uuid) : Nat :=
  ((m.embeddings id).filter fun c => c.type == kind).length

/-- A Line as read by the manifold criterion. -/
def manifoldLine (l : LineData P) : ManifoldLine where
  id := l.id
  active := l.active
  label := l.label
  nbEdges := l.nbEdges
  edgeVertex k := if k == 0 then (l.edgeVertices 0).1 else (l.edgeVertices 0).2
  uniqueVertex := m.uniqueVertexId .line l.id
  nbEmbeddingSurfaces := m.nbEmbeddingsOf .surface l.id

/-- A Surface as read by the manifold criterion. -/
def manifoldSurface (lib : ModelLibrary P) (s : FaceData P) : ManifoldSurface where
  id := s.id
  active := s.active
  label := s.label
  mesh := s.topo lib.toLibrary
  uniqueVertex := m.uniqueVertexId .surface s.id
  nbEmbeddingBlocks := m.nbEmbeddingsOf .block s.id

/-- The model as read by the manifold criterion. -/
def manifold (lib : ModelLibrary P) : ManifoldModel where
  lines := m.lines.map m.manifoldLine
  surfaces := m.surfaces.map (m.manifoldSurface lib)
  blocks := m.blocks.map fun b => ⟨b.id, b.active, b.label, b.topo lib.toLibrary⟩
  nbComponentMeshVertices u := (m.componentMeshVertices u).length

/-- A Surface as read by the intersection criterion. -/
def modelSurface (lib : ModelLibrary P) (s : FaceData P) : ModelSurface P where
  id := s.id
  active := s.active
  nbPolygons := s.nbPolygons
  polygonVertices := s.polygonVertices
  nbVertices := s.points.length
  point := pointOf lib (some s.points)
  uniqueVertex := m.uniqueVertexId .surface s.id

/-- A Line as read by the intersection criterion. -/
def modelLine (lib : ModelLibrary P) (l : LineData P) : ModelLine P where
  id := l.id
  active := l.active
  nbEdges := l.nbEdges
  segment e := (pointOf lib (some l.points) (l.edgeVertices e).1, pointOf lib (some l.points) (l.edgeVertices e).2)
  nbEmbeddingBlocks := m.nbEmbeddingsOf .block l.id

/-- The model as read by the intersection criterion, with the test of two triangles of a Section or of a BRep. -/
def intersections (lib : ModelLibrary P) (brep : Bool) : IntersectionModel P where
  surfaces := m.surfaces.map (m.modelSurface lib)
  lines := m.lines.map (m.modelLine lib)
  geometry := lib.geometry
  selfTraversal s := m.selfTree s.id
  otherTraversal s1 s2 := m.otherTree s1.id s2.id
  lineTraversal s l := m.lineTree s.id l.id
  overlappingSurfaces := m.overlappingSurfaces.map fun ss => (m.modelSurface lib ss.1, m.modelSurface lib ss.2)
  trianglesIntersect := if brep then brepTrianglesIntersect lib.geometry else sectionTrianglesIntersect lib.geometry
  surfaceLabel id := ((m.surfaces.find? fun s => s.id == id).map (·.label)).getD ""
  lineLabel id := ((m.lines.find? fun l => l.id == id).map (·.label)).getD ""

/-- The Surfaces as read by the negative elements criterion. -/
def signedSurfaces : List (MeasuredComponent SignedSurface) :=
  m.surfaces.map fun s => ⟨s.id, s.active, s.label, s.signed⟩

/-- The Blocks as read by the negative elements criterion. -/
def signedBlocks : List (MeasuredComponent SignedSolid) :=
  m.blocks.map fun b => ⟨b.id, b.active, b.label, b.signed⟩

end ModelData

/-- An exception or undefined behaviour of the colocation criteria, told apart in no other way. -/
def orFail {α : Type} : Option α → Except Failure α
  | some x => .ok x
  | none => .error .undefinedBehaviour

variable {P : Type}

/-! ### Section -/

/-- `SectionMeshesInspector::inspect_section_meshes` on a Section, criterion/section_meshes_inspector.cpp:64-95. -/
def inspectSectionMeshesOf (lib : ModelLibrary P) (rt : ModelRuntime) (m : ModelData P) :
    Except Failure SectionMeshesInspectionResult :=
  inspectSectionMeshes rt.choose rt.meshesSchedule
    { unique_vertices_colocation := orFail (inspectUniqueVertices false lib.origin lib.inexactEqual lib.search
        lib.pointString (m.uniqueVertices lib))
      meshes_colocation := orFail ((inspectMeshesPointColocationsSection lib.search lib.pointString m.linePoints
        m.surfacePoints).map fun map => { colocated_points_groups := map })
      meshes_adjacencies := .ok (inspectSectionMeshesAdjacencies m.adjacency)
      meshes_degenerations := .ok (inspectSectionDegeneration lib.eps (m.degeneration lib))
      meshes_intersections := inspectIntersections 2 (m.intersections lib false)
      meshes_non_manifolds := inspectSectionManifold rt.orders.surfaceEdges (m.manifold lib)
      meshes_negative_elements := .ok (inspectSectionNegativeElements m.signedSurfaces) }

/-- `SectionInspector::inspect_section` on a Section, section_inspector.cpp:54-66. -/
def inspectSectionOf (lib : ModelLibrary P) (rt : ModelRuntime) (m : ModelData P) :
    Except Failure SectionInspectionResult :=
  inspectSection rt.choose rt.schedule (inspectSectionMeshesOf lib rt m)
    (inspectSectionTopology (m.topology rt) rt.choose rt.topologySchedule)

/-- `is_section_valid`, validity/section_validity.cpp:297-306. -/
def isSectionOfValid (lib : ModelLibrary P) (rt : ModelRuntime) (m : ModelData P) : Except Failure ObjectValidity :=
  match inspectSectionOf lib rt m with
  | .error f => .error f
  | .ok inspection_result => .ok (isSectionValid inspection_result)

/-! ### BRep -/

/-- `BRepMeshesInspector::inspect_brep_meshes` on a BRep, criterion/brep_meshes_inspector.cpp:64-93. -/
def inspectBRepMeshesOf (lib : ModelLibrary P) (rt : ModelRuntime) (m : ModelData P) :
    Except Failure BRepMeshesInspectionResult :=
  inspectBRepMeshes rt.choose rt.meshesSchedule
    { unique_vertices_colocation := orFail (inspectUniqueVertices true lib.origin lib.inexactEqual lib.search
        lib.pointString (m.uniqueVertices lib))
      meshes_colocation := orFail ((inspectMeshesPointColocationsBRep lib.search lib.pointString m.linePoints
        m.surfacePoints m.blockPoints).map fun map => { colocated_points_groups := map })
      meshes_adjacencies := .ok (inspectBRepMeshesAdjacencies lib.isOpposite m.adjacency)
      meshes_degenerations := .ok (inspectBRepDegeneration lib.eps (m.degeneration lib))
      meshes_intersections := inspectIntersections 3 (m.intersections lib true)
      meshes_non_manifolds := inspectBRepManifold rt.orders lib.cycle (m.manifold lib)
      meshes_negative_elements := .ok (inspectBRepNegativeElements m.signedBlocks) }

/-- `BRepInspector::inspect_brep` on a BRep, brep_inspector.cpp:54-66. -/
def inspectBRepOf (lib : ModelLibrary P) (rt : ModelRuntime) (fuel : Nat) (m : ModelData P) :
    Except Failure BRepInspectionResult :=
  inspectBRep rt.choose rt.schedule (inspectBRepMeshesOf lib rt m)
    (inspectBRepTopology (m.topology rt) m.blocksOracle fuel rt.choose rt.topologySchedule)

/-- `is_brep_valid`, validity/brep_validity.cpp:420-428. -/
def isBRepOfValid (lib : ModelLibrary P) (rt : ModelRuntime) (fuel : Nat) (m : ModelData P) :
    Except Failure ObjectValidity :=
  match inspectBRepOf lib rt fuel m with
  | .error f => .error f
  | .ok inspection_result => .ok (isBRepValid inspection_result)

end Inspector
