import Verif.Spec.Plain
/-
Specification side of C128: the same model at another place.
-/
namespace Inspector.Spec
variable {P Q : Type}

/-- `m'` is the model `m` with each of its points moved by `f`.  What the search trees give is not compared. -/
structure PointsMoved (f : P → Q) (m : ModelData P) (m' : ModelData Q) : Prop where
  corners : m'.corners = m.corners.map fun c => { c with points := c.points.map f }
  lines : m'.lines = m.lines.map fun l => { l with points := l.points.map f }
  surfaces : m'.surfaces = m.surfaces.map fun s => { s with points := s.points.map f }
  blocks : m'.blocks = m.blocks.map fun b => { b with points := b.points.map f }
  noId : m'.noId = m.noId
  nbUniqueVertices : m'.nbUniqueVertices = m.nbUniqueVertices
  componentMeshVertices : m'.componentMeshVertices = m.componentMeshVertices
  uniqueVertex : m'.uniqueVertex = m.uniqueVertex
  isBoundary : m'.isBoundary = m.isBoundary
  isInternal : m'.isInternal = m.isInternal
  embeddings : m'.embeddings = m.embeddings
  incidences : m'.incidences = m.incidences
  boundaries : m'.boundaries = m.boundaries
  isVertexOnBorder : m'.isVertexOnBorder = m.isVertexOnBorder
  surfaceEdges : m'.surfaceEdges = m.surfaceEdges
  blockEdges : m'.blockEdges = m.blockEdges
  blockPolygons : m'.blockPolygons = m.blockPolygons
  lineComponentMeshEdges : m'.lineComponentMeshEdges = m.lineComponentMeshEdges
  surfaceComponentMeshPolygons : m'.surfaceComponentMeshPolygons = m.surfaceComponentMeshPolygons
  blocksOracle : m'.blocksOracle = m.blocksOracle

/-- A component of the model has a vertex at the point `p`. -/
def HasPoint (m : ModelData P) (p : P) : Prop :=
  (∃ c ∈ m.corners, p ∈ c.points) ∨ (∃ l ∈ m.lines, p ∈ l.points) ∨ (∃ s ∈ m.surfaces, p ∈ s.points) ∨
  ∃ b ∈ m.blocks, p ∈ b.points

/-- On points of the set `D`, the predicates of the second library answer of the moved points what those of the first one
answer of the points. -/
structure AnswersFollow (f : P → Q) (D : P → Prop) (lib : ModelLibrary P) (lib' : ModelLibrary Q) : Prop where
  eps : lib'.eps = lib.eps
  isOpposite : lib'.isOpposite = lib.isOpposite
  cycle : lib'.cycle = lib.cycle
  positionToIndex : lib'.geometry.positionToIndex = lib.geometry.positionToIndex
  search : ∀ points : List P, (∀ p ∈ points, D p) →
    ∀ i j, Colocated (lib'.search (points.map f)) i j ↔ Colocated (lib.search points) i j
  distance : ∀ p q, D p → D q → lib'.distance (f p) (f q) = lib.distance p q
  inexactEqual : ∀ p q, D p → D q → lib'.inexactEqual (f p) (f q) = lib.inexactEqual p q
  segmentSegment : ∀ a b c d, D a → D b → D c → D d →
    lib'.geometry.segmentSegment (f a, f b) (f c, f d) = lib.geometry.segmentSegment (a, b) (c, d)
  pointTriangle : ∀ a b c d, D a → D b → D c → D d →
    lib'.geometry.pointTriangle (f a) (f b, f c, f d) = lib.geometry.pointTriangle a (b, c, d)
  segmentTriangle : ∀ a b c d e, D a → D b → D c → D d → D e →
    lib'.geometry.segmentTriangle (f a, f b) (f c, f d, f e) = lib.geometry.segmentTriangle (a, b) (c, d, e)

/-- The vertices of the edges of Lines, those of the polygons of Surfaces and those linked to unique vertices exist. -/
structure VerticesKnown (m : ModelData P) : Prop where
  edges : ∀ l ∈ m.lines, ∀ e, e < l.nbEdges →
    (l.edgeVertices e).1 < l.points.length ∧ (l.edgeVertices e).2 < l.points.length
  polygons : ∀ s ∈ m.surfaces, ∀ p k, p < s.nbPolygons → k < s.nbPolygonVertices p →
    s.polygonVertex (p, k) < s.points.length
  links : ∀ uv, uv < m.nbUniqueVertices → ∀ cmv ∈ m.componentMeshVertices uv, IsActiveId m cmv.component_id.id →
    ∃ points, PointsOf m cmv.component_id points ∧ cmv.vertex < points.length

end Inspector.Spec
