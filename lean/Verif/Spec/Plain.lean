import Verif.Spec.TrianglesMeet
import Verif.Spec.WholeModel
/-
Specification side of C99: the defects of a Section and of a BRep, in terms of the components, meshes, unique vertices
and relationships of the model, and not of what each criterion reads of them.
-/
namespace Inspector.Spec
variable {P : Type}

/-- The number given to the unique vertex of a vertex, `NO_ID` if it has none. -/
def NumberOf (m : ModelData P) (kind : ComponentType) (id : Uuid) (v : Index) (n : Index) : Prop :=
  m.uniqueVertex ⟨⟨kind, id⟩, v⟩ = some n ∨ (m.uniqueVertex ⟨⟨kind, id⟩, v⟩ = none ∧ n = m.noId)

/-- The component `id` exists and is active. -/
def IsActiveId (m : ModelData P) (id : Uuid) : Prop :=
  (∃ c ∈ m.corners, c.id = id ∧ c.active = true) ∨ (∃ c ∈ m.lines, c.id = id ∧ c.active = true) ∨
  (∃ c ∈ m.surfaces, c.id = id ∧ c.active = true) ∨ (∃ c ∈ m.blocks, c.id = id ∧ c.active = true)

/-- The points of a component. -/
def PointsOf (m : ModelData P) (c : ComponentID) (points : List P) : Prop :=
  match c.type with
  | .corner => ∃ x ∈ m.corners, x.id = c.id ∧ x.points = points
  | .line => ∃ x ∈ m.lines, x.id = c.id ∧ x.points = points
  | .surface => ∃ x ∈ m.surfaces, x.id = c.id ∧ x.points = points
  | .block => ∃ x ∈ m.blocks, x.id = c.id ∧ x.points = points
  | .other => False

/-- The component mesh vertex is at the point `p`; a vertex which does not exist is at the origin. -/
def IsAt (lib : ModelLibrary P) (m : ModelData P) (cmv : ComponentMeshVertex) (p : P) : Prop :=
  (∃ points, PointsOf m cmv.component_id points ∧ points[cmv.vertex]? = some p) ∨
  ((¬ ∃ points q, PointsOf m cmv.component_id points ∧ points[cmv.vertex]? = some q) ∧ p = lib.origin)

/-- `first` is the first of the links of a unique vertex to an active component. -/
def FirstActive (m : ModelData P) (uv : Index) (first : ComponentMeshVertex) : Prop :=
  ∃ before after, m.componentMeshVertices uv = before ++ first :: after ∧
    IsActiveId m first.component_id.id ∧ ∀ cmv ∈ before, ¬ IsActiveId m cmv.component_id.id

/-- Two links of a unique vertex to active components are at different points. -/
def PlainDifferentPoints (lib : ModelLibrary P) (m : ModelData P) (uv : Index) : Prop :=
  ∃ first p cmv q, FirstActive m uv first ∧ IsAt lib m first p ∧ cmv ∈ m.componentMeshVertices uv ∧
    IsActiveId m cmv.component_id.id ∧ IsAt lib m cmv q ∧ lib.inexactEqual p q = false

/-- `uvs` are the unique vertices of active components, `points` their positions. -/
def ActivePoints (lib : ModelLibrary P) (m : ModelData P) (uvs : List Index) (points : List P) : Prop :=
  Exactly (· < ·) (fun uv => uv < m.nbUniqueVertices ∧
    ∃ cmv ∈ m.componentMeshVertices uv, IsActiveId m cmv.component_id.id) uvs ∧
  List.Forall₂ (fun uv p => ∃ first, FirstActive m uv first ∧ IsAt lib m first p) uvs points

/-- Two unique vertices of active components are colocated. -/
def PlainColocatedUniqueVertices (lib : ModelLibrary P) (m : ModelData P) : Prop :=
  ∃ uvs points, ActivePoints lib m uvs points ∧ ∃ a b uva uvb, uvs[a]? = some uva ∧ uvs[b]? = some uvb ∧ uva ≠ uvb ∧
    Colocated (lib.search points) a b

/-! ### meshes -/

/-- Two vertices of a component are colocated and have not the same number of unique vertex. -/
def PlainSplitVertices (lib : ModelLibrary P) (m : ModelData P) (kind : ComponentType) (id : Uuid) (points : List P) :
    Prop :=
  ∃ i j, i < points.length ∧ j < points.length ∧ Colocated (lib.search points) i j ∧
    ∃ ni nj, NumberOf m kind id i ni ∧ NumberOf m kind id j nj ∧ ni ≠ nj

/-- The mesh of a Line has a defect. -/
def PlainLineDefect (lib : ModelLibrary P) (m : ModelData P) (l : LineData P) : Prop :=
  PlainSplitVertices lib m .line l.id l.points ∨
  ∃ e, e < l.nbEdges ∧ EdgeAtMostEps lib.toLibrary l.points (l.edgeVertices e)

/-- The polygon edge is on the border of the Surface and is not an edge of a Line. -/
def BorderNotOnLine (m : ModelData P) (s : FaceData P) (x : PolygonEdge) : Prop :=
  IsPolygonEdge s.toSurfaceMesh x ∧ s.polygonAdjacent x = none ∧
    ¬ ∃ a b u v, EdgeFromTo s.toSurfaceMesh x.1 x.2 a b ∧ m.uniqueVertex ⟨⟨.surface, s.id⟩, a⟩ = some u ∧
      m.uniqueVertex ⟨⟨.surface, s.id⟩, b⟩ = some v ∧ u < m.nbUniqueVertices ∧ v < m.nbUniqueVertices ∧
      m.lineComponentMeshEdges u v ≠ []

/-- The walk around the vertex `v` of a Surface succeeds and does not give once each polygon around it. -/
def PlainBrokenFan (s : FaceData P) (v : Index) : Prop :=
  v < s.points.length ∧ ∃ around, s.polygonsAroundVertex v = .ok around ∧
    ¬ (around.Nodup ∧ ∀ x : PolygonEdge, x ∈ around ↔ IsPolygonEdge s.toSurfaceMesh x ∧ s.polygonVertex x = v)

/-- The mesh of a Surface has a defect. -/
def PlainSurfaceDefect (lib : ModelLibrary P) (m : ModelData P) (s : FaceData P) : Prop :=
  PlainSplitVertices lib m .surface s.id s.points ∨
  (∃ x, WrongEdge s.toSurfaceMesh x) ∨
  (∃ x, BorderNotOnLine m s x) ∨
  (∃ e, e < s.nbEdges ∧ EdgeBelowEps lib.toLibrary s.points (s.edgeVertices e)) ∨
  (∃ p, p < s.nbPolygons ∧ AtMost (s.minimumHeight p) lib.eps) ∨
  (∃ v, PlainBrokenFan s v) ∨
  (∃ e, NonManifoldEdge s.toSurfaceMesh e)

/-- The facet is on the border of the Block, its vertices have unique vertices, and no Surface has a polygon on them. -/
def BorderNotOnSurface (m : ModelData P) (b : VolumeData P) (x : PolyhedronFacet) : Prop :=
  IsPolyhedronFacet b.toSolidMesh x ∧ b.polyhedronAdjacent x = none ∧
    ∃ uvs : List Index, List.Forall₂ (fun v uv => m.uniqueVertex ⟨⟨.block, b.id⟩, v⟩ = some uv)
      (b.polyhedronFacetVertices x) uvs ∧ m.surfaceComponentMeshPolygons uvs = []

/-- The walk around the vertex `v` of a Block succeeds and does not give once each polyhedron around it. -/
def PlainBrokenSolidFan (b : VolumeData P) (v : Index) : Prop :=
  v < b.points.length ∧ ∃ around, b.polyhedraAroundVertex v = .ok around ∧
    ¬ (around.Nodup ∧ ∀ x : Nat × Nat, x ∈ around ↔
      x.1 < b.nbPolyhedra ∧ x.2 < b.nbPolyhedronVertices x.1 ∧ b.polyhedronVertex x = v)

/-- The polyhedra of a Block with their edges, in order. -/
def edgesOfPolyhedra (b : VolumeData P) : List (Index × (Index × Index)) :=
  (List.range b.nbPolyhedra).flatMap fun p => (b.polyhedronEdgesVertices p).map fun e => (p, e)

/-- Turning around an edge of a Block, from the first polyhedron having it, raises or does not give the polyhedra
having this edge. -/
def PlainBadTurn (b : VolumeData P) (e : Index × Index) : Prop :=
  ∃ p before after, edgesOfPolyhedra b = before ++ (p, e) :: after ∧ (∀ x ∈ before, ¬ SameEdge x.2 e) ∧
    (b.polyhedraAroundEdge e p = .error .openGeodeException ∨
      ∃ turn, b.polyhedraAroundEdge e p = .ok turn ∧
        ¬ turn.Perm (((edgesOfPolyhedra b).filter fun x => decide (SameEdge x.2 e)).map Prod.fst))

/-- Three polyhedron facets of a Block are the same facet. -/
def ThreeTimesSameFacet (lib : ModelLibrary P) (b : VolumeData P) : Prop :=
  ∃ x y z : PolyhedronFacet, x ≠ y ∧ x ≠ z ∧ y ≠ z ∧
    (∀ f ∈ [x, y, z], IsPolyhedronFacet b.toSolidMesh f) ∧
    lib.cycle (b.polyhedronFacetVertices x) = lib.cycle (b.polyhedronFacetVertices y) ∧
    lib.cycle (b.polyhedronFacetVertices x) = lib.cycle (b.polyhedronFacetVertices z)

/-- A polyhedron has a negative volume. -/
def PlainNegative (b : VolumeData P) (p : Index) : Prop :=
  p < b.nbPolyhedra ∧
  if b.nbPolyhedronVertices p = 4 then
    b.tetrahedronVolumeSign (b.polyhedronVertex (p, 0)) (b.polyhedronVertex (p, 1)) (b.polyhedronVertex (p, 2))
      (b.polyhedronVertex (p, 3)) = .negative
  else Below (b.polyhedronVolume p) (.num 0)

/-- The mesh of a Block has a defect. -/
def PlainBlockDefect (lib : ModelLibrary P) (m : ModelData P) (b : VolumeData P) : Prop :=
  PlainSplitVertices lib m .block b.id b.points ∨
  (∃ x, WrongFacet lib.isOpposite b.toSolidMesh x) ∨
  (∃ x, BorderNotOnSurface m b x) ∨
  (∃ e, e < b.nbEdges ∧ EdgeBelowEps lib.toLibrary b.points (b.edgeVertices e)) ∨
  (∃ p, p < b.nbPolyhedra ∧ AtMost (b.minimumHeight p) lib.eps) ∨
  (∃ v, PlainBrokenSolidFan b v) ∨
  (∃ e, PlainBadTurn b e) ∨
  ThreeTimesSameFacet lib b ∨
  (∃ p, PlainNegative b p)

/-! ### edges and facets of the whole BRep -/

/-- A polygon edge of an active Surface has a polygon on its other side, not before its own, and goes from number `u`
to number `v`. -/
def InteriorEdge (m : ModelData P) (s : FaceData P) (x : PolygonEdge) (u v : Index) : Prop :=
  s ∈ m.surfaces ∧ s.active = true ∧ IsPolygonEdge s.toSurfaceMesh x ∧
  (∃ other, s.polygonAdjacent x = some other ∧ x.1 ≤ other) ∧
  ∃ a b, EdgeFromTo s.toSurfaceMesh x.1 x.2 a b ∧ NumberOf m .surface s.id a u ∧ NumberOf m .surface s.id b v

/-- Two interior edges of Surfaces are the same edge of the BRep. -/
def TwiceInterior (m : ModelData P) : Prop :=
  ∃ s x u v s' x' u' v', InteriorEdge m s x u v ∧ InteriorEdge m s' x' u' v' ∧ (s.id ≠ s'.id ∨ x ≠ x') ∧
    ((u = u' ∧ v = v') ∨ (u = v' ∧ v = u'))

/-- The vertex of a component is the only one, if any, linked to its unique vertex. -/
def AloneAtUniqueVertex (m : ModelData P) (kind : ComponentType) (id : Uuid) (v : Index) : Prop :=
  ∃ n, NumberOf m kind id v n ∧ (m.componentMeshVertices n).length ≤ 1

/-- A Line made of one edge, embedded in a Surface and touching nothing. -/
def FloatingEdge (m : ModelData P) (l : LineData P) : Prop :=
  l.active = true ∧ l.nbEdges = 1 ∧ (∃ c ∈ m.embeddings l.id, c.type = .surface) ∧
  AloneAtUniqueVertex m .line l.id (l.edgeVertices 0).1 ∧ AloneAtUniqueVertex m .line l.id (l.edgeVertices 0).2

/-- A Surface made of one polygon, embedded in a Block and touching nothing. -/
def FloatingFacet (m : ModelData P) (s : FaceData P) : Prop :=
  s.active = true ∧ s.nbPolygons = 1 ∧ (∃ c ∈ m.embeddings s.id, c.type = .block) ∧
  ∀ i < s.nbPolygonVertices 0, AloneAtUniqueVertex m .surface s.id (s.polygonVertex (0, i))

/-! ### intersections -/

/-- Point of a vertex; one which does not exist is at the origin. -/
def IsPoint (lib : ModelLibrary P) (points : List P) (v : Index) (p : P) : Prop :=
  points[v]? = some p ∨ (points[v]? = none ∧ p = lib.origin)

/-- `r` is the Surface `s` as given to the tests of triangles (C57 to C62). -/
structure GivenSurface (lib : ModelLibrary P) (m : ModelData P) (s : FaceData P) (r : ModelSurface P) : Prop where
  id : r.id = s.id
  active : r.active = s.active
  nbPolygons : r.nbPolygons = s.nbPolygons
  polygonVertices : ∀ p, (r.polygonVertices p).length = s.nbPolygonVertices p ∧
    ∀ k, k < s.nbPolygonVertices p → (r.polygonVertices p)[k]? = some (s.polygonVertex (p, k))
  nbVertices : r.nbVertices = s.points.length
  point : ∀ v, IsPoint lib s.points v (r.point v)
  uniqueVertex : ∀ v, NumberOf m .surface s.id v (r.uniqueVertex v)

/-- Two polygons of active Surfaces have triangles that intersect, as `Meet` (see C105). -/
def PlainPolygonsMeet (lib : ModelLibrary P) (m : ModelData P)
    (Meet : ModelSurface P → ModelSurface P → List Index → List Index → Prop) : Prop :=
  ∃ s1 s2 r1 r2 p q, s1 ∈ m.surfaces ∧ s1.active = true ∧ s2 ∈ m.surfaces ∧ s2.active = true ∧
    GivenSurface lib m s1 r1 ∧ GivenSurface lib m s2 r2 ∧ p < s1.nbPolygons ∧ q < s2.nbPolygons ∧
    ¬ (s1.id = s2.id ∧ p = q) ∧
    ∃ t1 ∈ fan (r1.polygonVertices p), ∃ t2 ∈ fan (r2.polygonVertices q),
      Meet r1 r2 t1 t2

/-- An edge of an active Line embedded in a Block meets a triangle of a polygon of an active Surface, by the inside or
an edge of one of them. -/
def PlainLineMeetsSurface (lib : ModelLibrary P) (m : ModelData P) : Prop :=
  ∃ s l r p e a b, s ∈ m.surfaces ∧ s.active = true ∧ l ∈ m.lines ∧ l.active = true ∧
    (∃ c ∈ m.embeddings l.id, c.type = .block) ∧ GivenSurface lib m s r ∧ p < s.nbPolygons ∧ e < l.nbEdges ∧
    IsPoint lib l.points (l.edgeVertices e).1 a ∧ IsPoint lib l.points (l.edgeVertices e).2 b ∧
    ∃ t ∈ fan (r.polygonVertices p), ∃ x ∈ [Position.inside, .edge0, .edge1, .edge2],
      (lib.geometry.segmentTriangle (a, b) (r.point (t.getD 0 0), r.point (t.getD 1 0), r.point (t.getD 2 0))).1 = x ∨
      (lib.geometry.segmentTriangle (a, b) (r.point (t.getD 0 0), r.point (t.getD 1 0), r.point (t.getD 2 0))).2 = x

/-! ### topology -/

/-- `t` has the components, unique vertices and relationships of the model (its texts are free). -/
structure GivenTopology (m : ModelData P) (t : TopologyModel) : Prop where
  corners : t.components .corner = m.corners.map fun c => ⟨c.id, c.active, c.points.length, 0⟩
  lines : t.components .line = m.lines.map fun c => ⟨c.id, c.active, c.points.length, c.nbEdges⟩
  surfaces : t.components .surface = m.surfaces.map fun c => ⟨c.id, c.active, c.points.length, c.nbPolygons⟩
  blocks : t.components .block = m.blocks.map fun c => ⟨c.id, c.active, c.points.length, c.nbPolyhedra⟩
  others : t.components .other = []
  nbUniqueVertices : t.nbUniqueVertices = m.nbUniqueVertices
  componentMeshVertices : t.componentMeshVertices = m.componentMeshVertices
  uniqueVertex : t.uniqueVertex = m.uniqueVertex
  isBoundary : t.isBoundary = m.isBoundary
  isInternal : t.isInternal = m.isInternal
  embeddings : t.embeddings = m.embeddings
  incidences : t.incidences = m.incidences
  boundaries : t.boundaries = m.boundaries
  isVertexOnBorder : t.isVertexOnBorder = m.isVertexOnBorder
  surfaceEdges : t.surfaceEdges = m.surfaceEdges
  blockEdges : t.blockEdges = m.blockEdges
  blockPolygons : t.blockPolygons = m.blockPolygons
  edgeVertices : ∀ l ∈ m.lines, ∀ e, t.lineEdgeVertices l.id e = [(l.edgeVertices e).1, (l.edgeVertices e).2]
  noEdge : ∀ id, (∀ l ∈ m.lines, l.id ≠ id) → ∀ e, t.lineEdgeVertices id e = []
  polygonVertices : ∀ s ∈ m.surfaces, ∀ p, (t.polygonVertices s.id p).length = s.nbPolygonVertices p ∧
    ∀ k, k < s.nbPolygonVertices p → (t.polygonVertices s.id p)[k]? = some (s.polygonVertex (p, k))
  noPolygon : ∀ id, (∀ s ∈ m.surfaces, s.id ≠ id) → ∀ p, t.polygonVertices id p = []

/-! ### the models -/

/-- A Section has a defect. -/
def PlainSectionDefect (lib : ModelLibrary P) (m : ModelData P) : Prop :=
  (∃ uv, uv < m.nbUniqueVertices ∧ PlainDifferentPoints lib m uv) ∨
  PlainColocatedUniqueVertices lib m ∨
  (∃ l ∈ m.lines, l.active = true ∧ PlainLineDefect lib m l) ∨
  (∃ s ∈ m.surfaces, s.active = true ∧
    (PlainSurfaceDefect lib m s ∨ ∃ p, p < s.nbPolygons ∧ s.polygonAreaSign p = .negative)) ∨
  PlainPolygonsMeet lib m (SectionTrianglesMeet lib.geometry) ∨
  ∃ t, GivenTopology m t ∧ SectionTopologyDefect t

/-- A BRep has a defect of meshes. -/
def PlainBRepMeshDefect (lib : ModelLibrary P) (m : ModelData P) : Prop :=
  (∃ uv, uv < m.nbUniqueVertices ∧ PlainDifferentPoints lib m uv) ∨
  PlainColocatedUniqueVertices lib m ∨
  (∃ l ∈ m.lines, l.active = true ∧ PlainLineDefect lib m l) ∨
  (∃ s ∈ m.surfaces, s.active = true ∧ PlainSurfaceDefect lib m s) ∨
  (∃ b ∈ m.blocks, b.active = true ∧ PlainBlockDefect lib m b) ∨
  TwiceInterior m ∨
  (∃ l ∈ m.lines, FloatingEdge m l) ∨
  (∃ s ∈ m.surfaces, FloatingFacet m s) ∨
  PlainPolygonsMeet lib m (BRepTrianglesMeet lib.geometry)

/-- A BRep has a defect. -/
def PlainBRepDefect (lib : ModelLibrary P) (m : ModelData P) : Prop :=
  PlainBRepMeshDefect lib m ∨ PlainLineMeetsSurface lib m ∨
  ∃ t, GivenTopology m t ∧ BRepTopologyDefect t m.blocksOracle

/-- A BRep has a defect other than those of the topology of its Lines; the intersections of Lines and Surfaces count
only if no active Line is empty. -/
def PlainBRepDefectBesideLines (lib : ModelLibrary P) (m : ModelData P) : Prop :=
  PlainBRepMeshDefect lib m ∨
  ((∀ l ∈ m.lines, l.active = true → l.nbEdges ≠ 0) ∧ PlainLineMeetsSurface lib m) ∨
  ∃ t, GivenTopology m t ∧ OtherTopologyDefect t m.blocksOracle

/-- The wrong embeddings of the Lines cannot be described (see C54). -/
def PlainUnreadable (m : ModelData P) : Prop := ∃ t, GivenTopology m t ∧ LinesUnreadable t

end Inspector.Spec
