import Verif.Spec.Whole
import Verif.Spec.Triangles
import Verif.Spec.TopologyInspector
import Verif.Model.WholeModel
/-
Specification side of C81 and C82: the defects of a Section and of a BRep.
-/
namespace Inspector.Spec
open Classical
variable {P : Type}

/-- The iteration orders of an execution visit each element once, and the exception thrown by several tasks is one of
theirs. -/
structure ModelRuntimeOk (rt : ModelRuntime) : Prop where
  choose : ∀ l, l ≠ [] → rt.choose l ∈ l
  surfaceEdges : ∀ u map, (rt.orders.surfaceEdges u map).Perm map
  facets : ∀ u map, (rt.orders.facets u map).Perm map
  modelEdges : ∀ map, (rt.orders.modelEdges map).Perm map

/-! ### defects of meshes -/

/-- Two vertices of a component are colocated and have not the same unique vertex. -/
def HasSplitVertices (lib : ModelLibrary P) (m : ModelData P) (kind : ComponentType) (id : Uuid) (points : List P) :
    Prop :=
  ∃ i j, i < points.length ∧ j < points.length ∧ Colocated (lib.search points) i j ∧
    m.uniqueVertexId kind id i ≠ m.uniqueVertexId kind id j

/-- Two unique vertices of active components are colocated. -/
def HasColocatedUniqueVertices (lib : ModelLibrary P) (m : ModelData P) : Prop :=
  ∃ a b uva uvb, (activeUvs (m.uniqueVertices lib))[a]? = some uva ∧
    (activeUvs (m.uniqueVertices lib))[b]? = some uvb ∧ uva ≠ uvb ∧
    Colocated (lib.search (activePositions (m.uniqueVertices lib))) a b

/-- The mesh of a Line has a defect. -/
def LineMeshDefect (lib : ModelLibrary P) (m : ModelData P) (l : LineData P) : Prop :=
  HasSplitVertices lib m .line l.id l.points ∨
  ∃ e, e < l.nbEdges ∧ EdgeAtMostEps lib.toLibrary l.points (l.edgeVertices e)

/-- The mesh of a Surface has a defect. -/
def SurfaceMeshDefect (lib : ModelLibrary P) (m : ModelData P) (s : FaceData P) : Prop :=
  HasSplitVertices lib m .surface s.id s.points ∨
  (∃ x, WrongEdge s.toSurfaceMesh x) ∨
  (∃ x, BorderEdgeNotOnLine m.adjacency (m.adjacencySurface s) x) ∨
  (∃ e, e < s.nbEdges ∧ EdgeBelowEps lib.toLibrary s.points (s.edgeVertices e)) ∨
  (∃ p, p < s.nbPolygons ∧ AtMost (s.minimumHeight p) lib.eps) ∨
  (∃ v, BrokenFan (s.topo lib.toLibrary) v) ∨
  (∃ e, NonManifoldEdge s.toSurfaceMesh e)

/-- The mesh of a Block has a defect. -/
def BlockMeshDefect (lib : ModelLibrary P) (m : ModelData P) (b : VolumeData P) : Prop :=
  HasSplitVertices lib m .block b.id b.points ∨
  (∃ x, WrongFacet lib.isOpposite b.toSolidMesh x) ∨
  (∃ x, BorderFacetNotOnSurface m.adjacency (m.adjacencyBlock b) x) ∨
  (∃ e, e < b.nbEdges ∧ EdgeBelowEps lib.toLibrary b.points (b.edgeVertices e)) ∨
  (∃ p, p < b.nbPolyhedra ∧ AtMost (b.minimumHeight p) lib.eps) ∨
  (∃ v, BrokenSolidFan (b.topo lib.toLibrary) v) ∨
  (∃ p e, FirstUse (b.topo lib.toLibrary) p e ∧ BadTurn (b.topo lib.toLibrary) p e) ∨
  (∃ f, 2 < (usesOfFacet lib.cycle b.toSolidMesh f).length) ∨
  (∃ p, NegativePolyhedron b.signed p)

/-- Two polygons of active Surfaces intersect. -/
def SurfacesIntersect (im : IntersectionModel P) (s1 s2 : ModelSurface P) (p q : Index) : Prop :=
  s1 ∈ im.surfaces ∧ s1.active = true ∧ s2 ∈ im.surfaces ∧ s2.active = true ∧ p < s1.nbPolygons ∧ q < s2.nbPolygons ∧
    PolygonsMeet im s1 s2 (p, q)

/-- An edge of an active Line embedded in a Block meets a polygon of an active Surface. -/
def LineMeetsSurface (im : IntersectionModel P) (s : ModelSurface P) (l : ModelLine P) (p e : Index) : Prop :=
  s ∈ im.surfaces ∧ s.active = true ∧ l ∈ im.lines ∧ l.active = true ∧ l.nbEmbeddingBlocks ≠ 0 ∧
    p < s.nbPolygons ∧ e < l.nbEdges ∧ EdgeMeetsPolygon im s l (p, e)

/-- What is assumed of the trees of a model: a traversal meets its candidates in any order until asked to stop; the
candidates are polygons of active Surfaces, among which all those that intersect (in one order at least). -/
structure ModelTreesOk (im : IntersectionModel P) (c : Candidates P) : Prop where
  trees : TreesOk im c
  surfaces : ∀ x ∈ comparisons im c, x.1.1 ∈ im.surfaces ∧ x.1.1.active = true ∧ x.1.2 ∈ im.surfaces ∧
    x.1.2.active = true ∧ ∀ p ∈ x.2, p.1 < x.1.1.nbPolygons ∧ p.2 < x.1.2.nbPolygons
  complete : ∀ s1 s2 p q, SurfacesIntersect im s1 s2 p q → ∃ x ∈ comparisons im c,
    (x.1 = (s1, s2) ∧ (p, q) ∈ x.2) ∨ (x.1 = (s2, s1) ∧ (q, p) ∈ x.2 ∧ PolygonsMeet im s2 s1 (q, p))
  lines : ∀ s l, ∀ p ∈ c.line s l, p.1 < s.nbPolygons ∧ p.2 < l.nbEdges
  linesComplete : ∀ s l p e, LineMeetsSurface im s l p e → (p, e) ∈ c.line s l
  length : (meetingPolygons im c ++ meetingEdges im c).length < 2 ^ 32

/-! ### defects of the topology -/

/-- A Section is topologically wrong at a unique vertex. -/
def SectionVertexDefect (t : TopologyModel) (v : Index) : Prop :=
  TwiceActive t v .corner ∨ CornerWithSeveralEmbeddings t v ∨ CornerAlone t v ∨ CornerNotBoundaryOfLine t v ∨
  LineAlone t v ∨ EmbeddedBefore t v (t.componentMeshVertices v) ∨ InvalidSingleLine t v ∨ LinesWithoutCorner t v ∨
  TwoSurfacesWithoutLine t v ∨ LineNotOnBorder t v

/-- An active component has no mesh. -/
def HasUnmeshedComponent (t : TopologyModel) (kinds : List ComponentType) : Prop :=
  ∃ kind ∈ kinds, ∃ c ∈ t.components kind, c.active = true ∧ ¬ Meshed kind c

/-- A vertex of an active component has no unique vertex. -/
def HasUnlinkedVertex (t : TopologyModel) (kinds : List ComponentType) : Prop :=
  ∃ kind ∈ kinds, ∃ c ∈ t.components kind, c.active = true ∧ ∃ v, NotAssociated t kind c v

/-- The topology of a Section has a defect. -/
def SectionTopologyDefect (t : TopologyModel) : Prop :=
  ¬ BijectivelyLinked t sectionKinds ∨ HasUnmeshedComponent t sectionKinds ∨ HasUnlinkedVertex t sectionKinds ∨
  ∃ v, v < t.nbUniqueVertices ∧ SectionVertexDefect t v

/-- A BRep is topologically wrong at a unique vertex, apart from its Blocks. -/
def BRepVertexDefect (t : TopologyModel) (v : Index) : Prop :=
  TwiceActive t v .corner ∨ CornerMultiplyEmbedded t v ∨ CornerAlone t v ∨ CornerNotOnLine t v ∨
  BRepInvalidEmbeddedLine t v ∨ BRepLineWrong t v ∨ BRepInvalidSingleLine t v ∨ LinesWithoutCorner t v ∨
  InvalidEmbeddedSurface t v ∨ InvalidMultipleSurfaces t v ∨ RelatedLineNotOnBorder t v

/-- The Blocks of a BRep have a defect (looked for only if a Block is active). -/
def BlocksDefect (t : TopologyModel) (o : BlocksOracle) : Prop :=
  (∃ c ∈ t.components .block, c.active = true ∧ ¬ BlockMeshed c ∧
    ∃ c' ∈ t.components .block, c'.active = true ∧ BlockMeshed c') ∨
  (∃ c ∈ t.components .block, c.active = true ∧ BlockMeshed c ∧ ∃ v, NotAssociated t .block c v) ∨
  (∃ c ∈ t.components .block, c.active = true ∧ ¬ BoundaryEncloses t o.geometry c.id) ∨
  (∃ c ∈ t.components .block, c.active = true ∧ HasOpenBoundary t c.id) ∨
  ((∃ c ∈ t.components .block, c.active = true) ∧
    ((o.modelBoundaries ≠ [] ∧ ¬ AllLinked t o.modelBoundaries.flatten) ∨
      ∃ v, v < t.nbUniqueVertices ∧ (TwoBlocksWithoutSurface t v ∨ BlockCountWrong t v ∨ SingleInvalidSurface t v ∨
        SurfaceWrongForBlocks t v o.isInsideBlock ∨ MultipleInvalidSurfaces t v)))

/-- The topology of a BRep has a defect. -/
def BRepTopologyDefect (t : TopologyModel) (o : BlocksOracle) : Prop :=
  ¬ BijectivelyLinked t brepKinds ∨ HasUnmeshedComponent t sectionKinds ∨ HasUnlinkedVertex t sectionKinds ∨
  (∃ v, v < t.nbUniqueVertices ∧ BRepVertexDefect t v) ∨
  (∃ c ∈ t.components .line, c.active = true ∧ (∀ v, ¬ NotAssociated t .line c v) ∧
    ∃ e, e < c.nbElements ∧ EdgeIsWrong t c.id e) ∨
  (∃ c ∈ t.components .surface, c.active = true ∧ (∀ v, ¬ NotAssociated t .surface c v) ∧ AllMeshed t .block ∧
    ∃ f, f < c.nbElements ∧ FacetIsWrong t c.id f) ∨
  BlocksDefect t o

/-- The topology of the Lines of a BRep has a defect. -/
def LinesTopologyDefect (t : TopologyModel) : Prop :=
  HasUnmeshedComponent t [.line] ∨ HasUnlinkedVertex t [.line] ∨
  (∃ v, v < t.nbUniqueVertices ∧
    (BRepInvalidEmbeddedLine t v ∨ BRepLineWrong t v ∨ BRepInvalidSingleLine t v ∨ LinesWithoutCorner t v)) ∨
  ∃ c ∈ t.components .line, c.active = true ∧ (∀ v, ¬ NotAssociated t .line c v) ∧
    ∃ e, e < c.nbElements ∧ EdgeIsWrong t c.id e

/-- The topology of a BRep has a defect which is not one of its Lines. -/
def OtherTopologyDefect (t : TopologyModel) (o : BlocksOracle) : Prop :=
  ¬ BijectivelyLinked t brepKinds ∨ HasUnmeshedComponent t [.corner, .surface] ∨
  HasUnlinkedVertex t [.corner, .surface] ∨
  (∃ v, v < t.nbUniqueVertices ∧ (TwiceActive t v .corner ∨ CornerMultiplyEmbedded t v ∨ CornerAlone t v ∨
    CornerNotOnLine t v ∨ InvalidEmbeddedSurface t v ∨ InvalidMultipleSurfaces t v ∨ RelatedLineNotOnBorder t v)) ∨
  (∃ c ∈ t.components .surface, c.active = true ∧ (∀ v, ¬ NotAssociated t .surface c v) ∧ AllMeshed t .block ∧
    ∃ f, f < c.nbElements ∧ FacetIsWrong t c.id f) ∨
  BlocksDefect t o

/-! ### the models -/

/-- A Section has a defect. -/
def SectionDefect (lib : ModelLibrary P) (rt : ModelRuntime) (m : ModelData P) : Prop :=
  (∃ uv, uv < m.nbUniqueVertices ∧ DifferentPoints lib.inexactEqual (m.uniqueVertices lib) uv) ∨
  HasColocatedUniqueVertices lib m ∨
  (∃ l ∈ m.lines, l.active = true ∧ LineMeshDefect lib m l) ∨
  (∃ s ∈ m.surfaces, s.active = true ∧ (SurfaceMeshDefect lib m s ∨ ∃ p, NegativePolygon s.signed p)) ∨
  (∃ s1 s2 p q, SurfacesIntersect (m.intersections lib false) s1 s2 p q) ∨
  SectionTopologyDefect (m.topology rt)

/-- A BRep has a defect. -/
def BRepDefect (lib : ModelLibrary P) (rt : ModelRuntime) (m : ModelData P) : Prop :=
  (∃ uv, uv < m.nbUniqueVertices ∧ DifferentPoints lib.inexactEqual (m.uniqueVertices lib) uv) ∨
  HasColocatedUniqueVertices lib m ∨
  (∃ l ∈ m.lines, l.active = true ∧ LineMeshDefect lib m l) ∨
  (∃ s ∈ m.surfaces, s.active = true ∧ SurfaceMeshDefect lib m s) ∨
  (∃ b ∈ m.blocks, b.active = true ∧ BlockMeshDefect lib m b) ∨
  (∃ e, e.1 ≤ e.2 ∧ 2 ≤ (interiorUses (m.manifold lib) e).length) ∨
  (∃ l ∈ m.lines, IsolatedEdgeLine (m.manifold lib) (m.manifoldLine l)) ∨
  (∃ s ∈ m.surfaces, IsolatedFacetSurface (m.manifold lib) (m.manifoldSurface lib s)) ∨
  (∃ s1 s2 p q, SurfacesIntersect (m.intersections lib true) s1 s2 p q) ∨
  (∃ s l p e, LineMeetsSurface (m.intersections lib true) s l p e) ∨
  BRepTopologyDefect (m.topology rt) m.blocksOracle

/-- A BRep has a defect other than those of the topology of its Lines; the intersections of Lines and Surfaces count
only if no Line is empty. -/
def BRepDefectBesideLines (lib : ModelLibrary P) (rt : ModelRuntime) (m : ModelData P) : Prop :=
  (∃ uv, uv < m.nbUniqueVertices ∧ DifferentPoints lib.inexactEqual (m.uniqueVertices lib) uv) ∨
  HasColocatedUniqueVertices lib m ∨
  (∃ l ∈ m.lines, l.active = true ∧ LineMeshDefect lib m l) ∨
  (∃ s ∈ m.surfaces, s.active = true ∧ SurfaceMeshDefect lib m s) ∨
  (∃ b ∈ m.blocks, b.active = true ∧ BlockMeshDefect lib m b) ∨
  (∃ e, e.1 ≤ e.2 ∧ 2 ≤ (interiorUses (m.manifold lib) e).length) ∨
  (∃ l ∈ m.lines, IsolatedEdgeLine (m.manifold lib) (m.manifoldLine l)) ∨
  (∃ s ∈ m.surfaces, IsolatedFacetSurface (m.manifold lib) (m.manifoldSurface lib s)) ∨
  (∃ s1 s2 p q, SurfacesIntersect (m.intersections lib true) s1 s2 p q) ∨
  (NoEmptyLine (m.intersections lib true) ∧ ∃ s l p e, LineMeetsSurface (m.intersections lib true) s l p e) ∨
  OtherTopologyDefect (m.topology rt) m.blocksOracle

/-- What is assumed of the meshes of a model, beside the walks around the vertices of its Blocks, which may raise. -/
structure MeshesKnown (lib : ModelLibrary P) (m : ModelData P) : Prop where
  ids : (m.corners.map CornerData.id ++ m.lines.map LineData.id ++ m.surfaces.map FaceData.id ++
    m.blocks.map VolumeData.id).Nodup
  nbComponents : m.corners.length + m.lines.length + m.surfaces.length + m.blocks.length < 2 ^ 32
  corners : ∀ c ∈ m.corners, c.points.length < 2 ^ 32
  lines : ∀ l ∈ m.lines, CurveDataOk lib.toLibrary l.toCurveData
  surfaces : ∀ s ∈ m.surfaces, SearchOk (lib.search s.points) s.points.length ∧ s.nbEdges < 2 ^ 32 ∧
    s.nbPolygons < 2 ^ 32 ∧ totalPolygonEdges s.toSurfaceMesh < 2 ^ 32
  walks : ∀ s ∈ m.surfaces, SurfaceOk (m.manifoldSurface lib s)
  blocks : ∀ b ∈ m.blocks, SolidDataKnown lib.toLibrary b.toSolidData
  uniqueVertices : SearchOk (lib.search (activePositions (m.uniqueVertices lib)))
    (activeUvs (m.uniqueVertices lib)).length
  nbUniqueVertices : m.nbUniqueVertices < 2 ^ 32
  nbLinks : ((List.range m.nbUniqueVertices).map fun uv => (m.componentMeshVertices uv).length).sum < 2 ^ 32
  smallPolygons : ∀ s ∈ m.surfaces, ∀ p, s.nbPolygonVertices p ≤ 256
  /-- the vertices of a segment have indices 0 and 1, those of a triangle 0 to 2 -/
  positions : PositionsOk lib.geometry

/-- The walks around the vertices of the active Blocks raise nothing. -/
def BlockWalksOk (m : ModelData P) : Prop :=
  ∀ b ∈ m.blocks, b.active = true → ∀ v, v < b.points.length → ∃ fan, b.polyhedraAroundVertex v = .ok fan

/-- The walk around a vertex of an active Block raises `f`. -/
def BlockWalkRaises (m : ModelData P) (f : Failure) : Prop :=
  ∃ b ∈ m.blocks, b.active = true ∧ ∃ v, v < b.points.length ∧ b.polyhedraAroundVertex v = .error f

/-- What is assumed of the meshes of a model. -/
structure MeshesOk (lib : ModelLibrary P) (m : ModelData P) : Prop extends MeshesKnown lib m where
  blockWalks : BlockWalksOk m

/-- What is assumed of a Section, beside the test of two polygons: `c` are the candidates of its trees. -/
structure SectionKnown (lib : ModelLibrary P) (rt : ModelRuntime) (m : ModelData P) (c : Candidates P) : Prop where
  meshes : MeshesOk lib m
  noBlock : m.blocks = []
  types : KnownTypes false (m.uniqueVertices lib)
  trees : ModelTreesOk (m.intersections lib false) c
  topology : WellFormed (m.topology rt)
  /-- lines are embedded in surfaces only -/
  embeddings : ∀ id, Active (m.topology rt) .line id → ∀ e ∈ m.embeddings id, e.type = .surface

/-- What is assumed of a Section: `c` are the candidates of its trees. -/
structure SectionOk (lib : ModelLibrary P) (rt : ModelRuntime) (m : ModelData P) (c : Candidates P) : Prop
    extends SectionKnown lib rt m c where
  /-- the test of two polygons raises nothing (see C62 and C111) -/
  tests : NoEmptySurface (m.intersections lib false) → TestsOk (m.intersections lib false) c

/-- What is assumed of a BRep, beside the walks around the vertices of its Blocks, which may raise. -/
structure BRepKnown (lib : ModelLibrary P) (rt : ModelRuntime) (m : ModelData P) (c : Candidates P) : Prop where
  meshesKnown : MeshesKnown lib m
  types : KnownTypes true (m.uniqueVertices lib)
  trees : ModelTreesOk (m.intersections lib true) c
  nbModelEdges : ((activeSurfaces (m.manifold lib)).map fun s =>
    (polygonEdges s.mesh.toSurfaceMesh).length).sum + m.lines.length < 2 ^ 32
  topology : WellFormed (m.topology rt)
  around : AroundWellFormed (m.topology rt)
  coherent : CoherentLines (m.topology rt)
  surfaceEmbeddings : ∀ id, Active (m.topology rt) .surface id → ∀ e ∈ m.embeddings id, e.type = .block
  /-- the first edge of an active line has unique vertices -/
  firstEdges : ∀ l ∈ m.lines, l.active = true → l.nbEdges ≠ 0 →
    ∀ x ∈ [(l.edgeVertices 0).1, (l.edgeVertices 0).2], m.uniqueVertex ⟨⟨.line, l.id⟩, x⟩ ≠ none
  counts : ∀ v < m.nbUniqueVertices, ∀ b, At (m.topology rt) v .block b → CountsFit (m.topology rt) v b
  graph : EdgeFinder m.blocksOracle.edgeFromVertices
  geometry : RaisesOpenGeode m.blocksOracle.geometry
  rays : RaysAnswer (m.topology rt) m.blocksOracle.isInsideBlock
  modelBoundaries : m.blocksOracle.modelBoundaries = [] ∨ m.blocksOracle.modelBoundaries.flatten ≠ []

/-- What is assumed of a BRep. -/
structure BRepOk (lib : ModelLibrary P) (rt : ModelRuntime) (m : ModelData P) (c : Candidates P) : Prop
    extends BRepKnown lib rt m c where
  /-- the walks around the vertices of the Blocks raise nothing (see C111) -/
  blockWalks : BlockWalksOk m

theorem BRepOk.meshes {lib : ModelLibrary P} {rt : ModelRuntime} {m : ModelData P} {c : Candidates P}
    (h : BRepOk lib rt m c) : MeshesOk lib m := ⟨h.meshesKnown, h.blockWalks⟩

/-! ### the reports -/

/-- The groups of colocated unique vertices are right. -/
def ColocatedUniqueVerticesReport (lib : ModelLibrary P) (m : ModelData P) (groups : List (List Index)) : Prop :=
  (∀ g ∈ groups, 2 ≤ g.length ∧ g.Pairwise (· < ·) ∧ ∀ uv ∈ g, uv ∈ activeUvs (m.uniqueVertices lib)) ∧
  groups.Pairwise (fun g g' => ∀ uv ∈ g, uv ∉ g') ∧
  ∀ a b uva uvb, (activeUvs (m.uniqueVertices lib))[a]? = some uva →
    (activeUvs (m.uniqueVertices lib))[b]? = some uvb → uva ≠ uvb →
    ((∃ g ∈ groups, uva ∈ g ∧ uvb ∈ g) ↔ Colocated (lib.search (activePositions (m.uniqueVertices lib))) a b)

/-- The lists on unique vertices are right. -/
structure UniqueVerticesReport (lib : ModelLibrary P) (m : ModelData P) (r : UniqueVerticesInspectionResult) :
    Prop where
  points : Exactly (· < ·) (fun uv => uv < m.nbUniqueVertices ∧
    DifferentPoints lib.inexactEqual (m.uniqueVertices lib) uv) r.unique_vertices_linked_to_different_points.issues
  colocated : ColocatedUniqueVerticesReport lib m r.colocated_unique_vertices_groups.issues

/-- Edges too short of the active Lines. -/
def shortLineEdges (lib : ModelLibrary P) (m : ModelData P) : List (Uuid × (Index → Prop)) :=
  (m.lines.filter fun l => l.active).map fun l =>
    (l.id, fun e => e < l.nbEdges ∧ EdgeAtMostEps lib.toLibrary l.points (l.edgeVertices e))

/-- Edges too short of the active Surfaces. -/
def shortSurfaceEdges (lib : ModelLibrary P) (m : ModelData P) : List (Uuid × (Index → Prop)) :=
  (m.surfaces.filter fun s => s.active).map fun s =>
    (s.id, fun e => e < s.nbEdges ∧ EdgeBelowEps lib.toLibrary s.points (s.edgeVertices e))

/-- Edges too short of the active Blocks. -/
def shortBlockEdges (lib : ModelLibrary P) (m : ModelData P) : List (Uuid × (Index → Prop)) :=
  (m.blocks.filter fun b => b.active).map fun b =>
    (b.id, fun e => e < b.nbEdges ∧ EdgeBelowEps lib.toLibrary b.points (b.edgeVertices e))

/-- Flat polygons of the active Surfaces. -/
def flatPolygons (lib : ModelLibrary P) (m : ModelData P) : List (Uuid × (Index → Prop)) :=
  (m.surfaces.filter fun s => s.active).map fun s =>
    (s.id, fun p => p < s.nbPolygons ∧ AtMost (s.minimumHeight p) lib.eps)

/-- Flat polyhedra of the active Blocks. -/
def flatPolyhedra (lib : ModelLibrary P) (m : ModelData P) : List (Uuid × (Index → Prop)) :=
  (m.blocks.filter fun b => b.active).map fun b =>
    (b.id, fun p => p < b.nbPolyhedra ∧ AtMost (b.minimumHeight p) lib.eps)

/-- The lists on the meshes of a Section are right. -/
structure SectionMeshesReport (lib : ModelLibrary P) (m : ModelData P) (c : Candidates P)
    (r : SectionMeshesInspectionResult) : Prop where
  uniqueVertices : UniqueVerticesReport lib m r.unique_vertices_colocation
  colocation : ColocationMapOk lib.search ((m.linePoints ++ m.surfacePoints).filter fun x => x.active)
    r.meshes_colocation.colocated_points_groups
  adjacency : MapReports r.meshes_adjacencies.surfaces_edges_with_wrong_adjacencies
    (m.surfaces.filter fun s => s.active) FaceData.id
    (fun s l => ExpectedSurfaceIssues m.adjacency (m.adjacencySurface s) l)
  edges : Reports r.meshes_degenerations.degenerated_edges (shortLineEdges lib m ++ shortSurfaceEdges lib m)
  polygons : Reports r.meshes_degenerations.degenerated_polygons (flatPolygons lib m)
  intersections : if NoEmptySurface (m.intersections lib false) then
    r.meshes_intersections.elements_intersections.issues.Perm (meetingPolygons (m.intersections lib false) c)
    else r.meshes_intersections.elements_intersections.issues = []
  manifoldVertices : MapReports r.meshes_non_manifolds.meshes_non_manifold_vertices
    (m.surfaces.filter fun s => s.active) FaceData.id
    (fun s l => Exactly (· < ·) (BrokenFan (s.topo lib.toLibrary)) l)
  manifoldEdges : MapReports r.meshes_non_manifolds.meshes_non_manifold_edges
    (m.surfaces.filter fun s => s.active) FaceData.id
    (fun s l => Exactly (· ≠ ·) (NonManifoldEdge s.toSurfaceMesh) l)
  negative : MapReports r.meshes_negative_elements.negative_polygons
    (m.surfaces.filter fun s => s.active) FaceData.id
    (fun s l => Exactly (· < ·) (NegativePolygon s.signed) l)

/-- The unmeshed active components of a kind. -/
def unmeshed (t : TopologyModel) (kind : ComponentType) : List Uuid :=
  (((t.components kind).filter fun c => c.active).filter fun c =>
    if kind = .corner then c.nbVertices == 0 else c.nbVertices == 0 || c.nbElements == 0).map TopologyComponent.id

/-- A map tells the vertices of the active components of a kind which have no unique vertex. -/
def UnlinkedReport (t : TopologyModel) (kind : ComponentType) (map : IssuesMap Index) : Prop :=
  MapReports map ((t.components kind).filter fun c => c.active) TopologyComponent.id
    (fun c l => Exactly (· < ·) (NotAssociated t kind c) l)

/-- A list tells the unique vertices with a defect. -/
def AtVertices (t : TopologyModel) (p : Index → Prop) (l : List Index) : Prop :=
  Exactly (· < ·) (fun v => v < t.nbUniqueVertices ∧ p v) l

/-- The lists on the topology of a Section are right. -/
structure SectionTopologyReport (t : TopologyModel) (r : SectionTopologyInspectionResult) : Prop where
  links : LinkLists t sectionKinds r.unique_vertices_not_linked_to_any_component.issues
    r.unique_vertices_linked_to_inexistant_cmv.issues r.unique_vertices_nonbijectively_linked_to_cmv.issues
  corners : r.corners.corners_not_meshed.issues = unmeshed t .corner ∧
    UnlinkedReport t .corner r.corners.corners_not_linked_to_a_unique_vertex ∧
    AtVertices t (TwiceActive t · .corner) r.corners.unique_vertices_linked_to_multiple_corners.issues ∧
    AtVertices t (CornerWithSeveralEmbeddings t) r.corners.unique_vertices_linked_to_multiple_internals_corner.issues ∧
    AtVertices t (CornerAlone t) r.corners.unique_vertices_linked_to_not_internal_nor_boundary_corner.issues ∧
    AtVertices t (CornerNotBoundaryOfLine t) r.corners.unique_vertices_linked_to_not_boundary_line_corner.issues
  lines : r.lines.lines_not_meshed.issues = unmeshed t .line ∧
    UnlinkedReport t .line r.lines.lines_not_linked_to_a_unique_vertex ∧
    AtVertices t (LineAlone t) r.lines.unique_vertices_linked_to_line_with_wrong_relationship_to_surface.issues ∧
    AtVertices t (fun v => EmbeddedBefore t v (t.componentMeshVertices v))
      r.lines.unique_vertices_linked_to_a_line_with_invalid_embeddings.issues ∧
    AtVertices t (InvalidSingleLine t) r.lines.unique_vertices_linked_to_a_single_and_invalid_line.issues ∧
    AtVertices t (LinesWithoutCorner t)
      r.lines.unique_vertices_linked_to_several_lines_but_not_linked_to_a_corner.issues
  surfaces : r.surfaces.surfaces_not_meshed.issues = unmeshed t .surface ∧
    UnlinkedReport t .surface r.surfaces.surfaces_not_linked_to_a_unique_vertex ∧
    AtVertices t (TwoSurfacesWithoutLine t)
      r.surfaces.unique_vertices_linked_to_a_surface_with_invalid_embbedings.issues ∧
    AtVertices t (LineNotOnBorder t)
      r.surfaces.unique_vertices_linked_to_a_line_but_is_not_on_a_surface_border.issues

/-- The lists on the meshes of a BRep are right. -/
structure BRepMeshesReport (lib : ModelLibrary P) (m : ModelData P) (c : Candidates P)
    (r : BRepMeshesInspectionResult) : Prop where
  uniqueVertices : UniqueVerticesReport lib m r.unique_vertices_colocation
  colocation : ColocationMapOk lib.search ((m.linePoints ++ m.surfacePoints ++ m.blockPoints).filter fun x => x.active)
    r.meshes_colocation.colocated_points_groups
  surfaceAdjacency : MapReports r.meshes_adjacencies.surfaces_edges_with_wrong_adjacencies
    (m.surfaces.filter fun s => s.active) FaceData.id
    (fun s l => ExpectedSurfaceIssues m.adjacency (m.adjacencySurface s) l)
  blockAdjacency : MapReports r.meshes_adjacencies.blocks_facets_with_wrong_adjacencies
    (m.blocks.filter fun b => b.active) VolumeData.id
    (fun b l => ExpectedBlockIssues lib.isOpposite m.adjacency (m.adjacencyBlock b) l)
  edges : Reports r.meshes_degenerations.degenerated_edges
    (shortLineEdges lib m ++ shortSurfaceEdges lib m ++ shortBlockEdges lib m)
  polygons : Reports r.meshes_degenerations.degenerated_polygons (flatPolygons lib m)
  polyhedra : Reports r.meshes_degenerations.degenerated_polyhedra (flatPolyhedra lib m)
  intersections : if NoEmptySurface (m.intersections lib true) then
    r.meshes_intersections.elements_intersections.issues.Perm (meetingPolygons (m.intersections lib true) c ++
      if NoEmptyLine (m.intersections lib true) then meetingEdges (m.intersections lib true) c else [])
    else r.meshes_intersections.elements_intersections.issues = []
  manifoldVertices : MapReports r.meshes_non_manifolds.meshes_non_manifold_vertices
    ((m.surfaces.filter fun s => s.active).map
      (fun s => (s.id, fun l => Exactly (· < ·) (BrokenFan (s.topo lib.toLibrary)) l)) ++
     (m.blocks.filter fun b => b.active).map
      (fun b => (b.id, fun l => Exactly (· < ·) (BrokenSolidFan (b.topo lib.toLibrary)) l)))
    Prod.fst (fun x => x.2)
  manifoldEdges : MapReports r.meshes_non_manifolds.meshes_non_manifold_edges
    ((m.surfaces.filter fun s => s.active).map
      (fun s => (s.id, fun l => Exactly (· ≠ ·) (NonManifoldEdge s.toSurfaceMesh) l)) ++
     (m.blocks.filter fun b => b.active).map
      (fun b => (b.id, fun l => Exactly (fun e e' => ¬ SameEdge e e')
        (fun e => ∃ p, FirstUse (b.topo lib.toLibrary) p e ∧ BadTurn (b.topo lib.toLibrary) p e) l)))
    Prod.fst (fun x => x.2)
  manifoldFacets : MapReports r.meshes_non_manifolds.meshes_non_manifold_facets
    (m.blocks.filter fun b => b.active) VolumeData.id
    (fun b l => Exactly (· ≠ ·) (fun f => 2 < (usesOfFacet lib.cycle b.toSolidMesh f).length) l)
  modelEdges : ∃ a, r.meshes_non_manifolds.brep_non_manifold_edges.issues
      = a ++ (m.lines.filter fun l => decide (IsolatedEdgeLine (m.manifold lib) (m.manifoldLine l))).map (fun l =>
        ((m.uniqueVertexId .line l.id (l.edgeVertices 0).1, m.uniqueVertexId .line l.id (l.edgeVertices 0).2), [l.id])) ∧
    Exactly (fun x y => x.1 ≠ y.1) (fun x : (Index × Index) × List Uuid =>
      x.1.1 ≤ x.1.2 ∧ 2 ≤ (interiorUses (m.manifold lib) x.1).length ∧ x.2 = interiorUses (m.manifold lib) x.1) a
  modelFacets : r.meshes_non_manifolds.brep_non_manifold_facets.issues =
    (m.surfaces.filter fun s => decide (IsolatedFacetSurface (m.manifold lib) (m.manifoldSurface lib s))).map (fun s =>
      ((s.polygonVertices 0).map (m.uniqueVertexId .surface s.id), [s.id]))
  negative : MapReports r.meshes_negative_elements.negative_polyhedra
    (m.blocks.filter fun b => b.active) VolumeData.id
    (fun b l => Exactly (· < ·) (NegativePolyhedron b.signed) l)

/-- The lists on the topology of a BRep are right, but those on lines if a wrong embedding is not in a surface: they are
empty. -/
structure BRepTopologyReport (t : TopologyModel) (o : BlocksOracle) (r : BRepTopologyInspectionResult) : Prop where
  links : LinkLists t brepKinds r.unique_vertices_not_linked_to_any_component.issues
    r.unique_vertices_linked_to_inexistant_cmv.issues r.unique_vertices_nonbijectively_linked_to_cmv.issues
  corners : r.corners.corners_not_meshed.issues = unmeshed t .corner ∧
    UnlinkedReport t .corner r.corners.corners_not_linked_to_a_unique_vertex ∧
    AtVertices t (TwiceActive t · .corner) r.corners.unique_vertices_linked_to_multiple_corners.issues ∧
    AtVertices t (CornerMultiplyEmbedded t) r.corners.unique_vertices_linked_to_multiply_embedded_corner.issues ∧
    AtVertices t (CornerAlone t) r.corners.unique_vertices_linked_to_not_internal_nor_boundary_corner.issues ∧
    AtVertices t (CornerNotOnLine t) r.corners.unique_vertices_linked_to_not_boundary_line_corner.issues
  /-- the lists on lines, when the wrong embeddings can be described (see C54) -/
  lines : ¬ LinesUnreadable t → r.lines.lines_not_meshed.issues = unmeshed t .line ∧
    UnlinkedReport t .line r.lines.lines_not_linked_to_a_unique_vertex ∧
    MapReports r.lines.line_edges_with_wrong_component_edges_around ((t.components .line).filter fun c => c.active)
      TopologyComponent.id (fun c l => Exactly (· < ·) (fun e => e < c.nbElements ∧
        (∀ v, ¬ NotAssociated t .line c v) ∧ EdgeIsWrong t c.id e) l) ∧
    AtVertices t (BRepInvalidEmbeddedLine t) r.lines.unique_vertices_linked_to_a_line_with_invalid_embeddings.issues ∧
    AtVertices t (BRepLineWrong t) r.lines.unique_vertices_linked_to_line_with_wrong_relationship_to_surface.issues ∧
    AtVertices t (BRepInvalidSingleLine t) r.lines.unique_vertices_linked_to_a_single_and_invalid_line.issues ∧
    AtVertices t (LinesWithoutCorner t)
      r.lines.unique_vertices_linked_to_several_lines_but_not_linked_to_a_corner.issues
  noLines : LinesUnreadable t → r.lines = {}
  surfaces : r.surfaces.surfaces_not_meshed.issues = unmeshed t .surface ∧
    UnlinkedReport t .surface r.surfaces.surfaces_not_linked_to_a_unique_vertex ∧
    MapReports r.surfaces.surface_polygons_with_wrong_component_facets_around
      ((t.components .surface).filter fun c => c.active) TopologyComponent.id
      (fun c l => Exactly (· < ·) (fun f => f < c.nbElements ∧ (∀ v, ¬ NotAssociated t .surface c v) ∧
        AllMeshed t .block ∧ FacetIsWrong t c.id f) l) ∧
    AtVertices t (InvalidEmbeddedSurface t)
      r.surfaces.unique_vertices_linked_to_a_surface_with_invalid_embbedings.issues ∧
    AtVertices t (InvalidMultipleSurfaces t)
      r.surfaces.unique_vertices_linked_to_several_and_invalid_surfaces.issues ∧
    AtVertices t (RelatedLineNotOnBorder t)
      r.surfaces.unique_vertices_linked_to_a_line_but_is_not_on_a_surface_border.issues
  blocks : (∃ c ∈ t.components .block, c.active = true) → BlocksReport t o r.blocks
  noBlock : (∀ c ∈ t.components .block, c.active = false) → r.blocks = {}

end Inspector.Spec
