import Verif.Spec.Numbers
import Verif.Spec.Alone
/-
Specification side of C129: a model made of two parts which have nothing in common.
-/
namespace Inspector.Spec
variable {P : Type}

/-- `id` is a component of the model. -/
def HasId (m : ModelData P) (id : Uuid) : Prop :=
  (∃ c ∈ m.corners, c.id = id) ∨ (∃ c ∈ m.lines, c.id = id) ∨ (∃ c ∈ m.surfaces, c.id = id) ∨ ∃ c ∈ m.blocks, c.id = id

/-- `m1` is a part of the model `m`: its components are in `m` and have there the same unique vertices, which have the numbers
given by `ι`, and the same relationships; its unique vertices have no link to other components. -/
structure IsPart (ι : Index → Index) (m1 m : ModelData P) : Prop where
  corners : ∀ c ∈ m1.corners, c ∈ m.corners
  lines : ∀ l ∈ m1.lines, l ∈ m.lines
  surfaces : ∀ s ∈ m1.surfaces, s ∈ m.surfaces
  blocks : ∀ b ∈ m1.blocks, b ∈ m.blocks
  noId : m.noId = m1.noId
  injective : Function.Injective ι
  numbers : ∀ u, u < m1.nbUniqueVertices → ι u < m.nbUniqueVertices
  componentMeshVertices : ∀ u, u < m1.nbUniqueVertices → m.componentMeshVertices (ι u) = m1.componentMeshVertices u
  uniqueVertex : ∀ cmv, HasId m1 cmv.component_id.id → m.uniqueVertex cmv = (m1.uniqueVertex cmv).map ι
  isBoundary : ∀ a b, HasId m1 a → HasId m1 b → m.isBoundary a b = m1.isBoundary a b
  isInternal : ∀ a b, HasId m1 a → HasId m1 b → m.isInternal a b = m1.isInternal a b
  embeddings : ∀ id, HasId m1 id → m.embeddings id = m1.embeddings id
  incidences : ∀ id, HasId m1 id → m.incidences id = m1.incidences id
  isVertexOnBorder : ∀ s ∈ m1.surfaces, m.isVertexOnBorder s.id = m1.isVertexOnBorder s.id
  lineComponentMeshEdges : ∀ u v, u < m1.nbUniqueVertices → v < m1.nbUniqueVertices →
    (m.lineComponentMeshEdges (ι u) (ι v) = [] ↔ m1.lineComponentMeshEdges u v = [])

/-- The model `m` is made of two parts `m1` and `m2` and nothing else. -/
structure MadeOf (m m1 m2 : ModelData P) (ι1 ι2 : Index → Index) : Prop where
  first : IsPart ι1 m1 m
  second : IsPart ι2 m2 m
  corners : ∀ c ∈ m.corners, c ∈ m1.corners ∨ c ∈ m2.corners
  lines : ∀ l ∈ m.lines, l ∈ m1.lines ∨ l ∈ m2.lines
  surfaces : ∀ s ∈ m.surfaces, s ∈ m1.surfaces ∨ s ∈ m2.surfaces
  blocks : ∀ b ∈ m.blocks, b ∈ m1.blocks ∨ b ∈ m2.blocks
  different : ∀ id, HasId m1 id → ¬ HasId m2 id
  vertices : ∀ u, u < m.nbUniqueVertices →
    (∃ u1, u1 < m1.nbUniqueVertices ∧ u = ι1 u1) ∨ ∃ u2, u2 < m2.nbUniqueVertices ∧ u = ι2 u2

/-- The unique vertices of the vertices of a model are below their number, and are not `NO_ID`. -/
structure NumbersKnown (m : ModelData P) : Prop where
  range : ∀ cmv u, m.uniqueVertex cmv = some u → u < m.nbUniqueVertices
  noId : NoIdIsFree m

/-- `m1` is a part of the BRep `m`: so are moreover the boundaries of its components, what is around its edges and facets,
the polygons on its unique vertices, and its model boundaries. -/
structure IsBRepPart (ι : Index → Index) (m1 m : ModelData P) : Prop extends IsPart ι m1 m where
  boundaries : ∀ id, HasId m1 id → m.boundaries id = m1.boundaries id
  surfaceEdges : ∀ l ∈ m1.lines, m.surfaceEdges l.id = m1.surfaceEdges l.id
  blockEdges : ∀ l ∈ m1.lines, m.blockEdges l.id = m1.blockEdges l.id
  blockPolygons : ∀ s ∈ m1.surfaces, m.blockPolygons s.id = m1.blockPolygons s.id
  surfaceComponentMeshPolygons : ∀ uvs, (∀ u ∈ uvs, u < m1.nbUniqueVertices) →
    (m.surfaceComponentMeshPolygons (uvs.map ι) = [] ↔ m1.surfaceComponentMeshPolygons uvs = [])

/-- The components of two models which are parts of the model `m` are apart: no point of a component of one is near a point
of a component of the other, and no triangles of their Surfaces meet, as `Meet` (see C105). -/
structure FarApart (lib : ModelLibrary P) (Meet : ModelSurface P → ModelSurface P → List Index → List Index → Prop)
    (near : P → P → Prop) (m m1 m2 : ModelData P) : Prop where
  points : ∀ c1 c2 points1 points2, PointsOf m1 c1 points1 → PointsOf m2 c2 points2 →
    ∀ p ∈ points1, ∀ q ∈ points2, ¬ near p q ∧ ¬ near q p
  polygons : ∀ s1 ∈ m1.surfaces, ∀ s2 ∈ m2.surfaces, s1.active = true → s2.active = true → ∀ r1 r2,
    GivenSurface lib m s1 r1 → GivenSurface lib m s2 r2 → ∀ p q, p < s1.nbPolygons → q < s2.nbPolygons →
    ∀ t1 ∈ fan (r1.polygonVertices p), ∀ t2 ∈ fan (r2.polygonVertices q),
      ¬ Meet r1 r2 t1 t2 ∧ ¬ Meet r2 r1 t2 t1

/-- The Blocks of both parts are alike: there is an active one in both or in none, an active one with a mesh in both or in
none, and one without polyhedron in both or in none. -/
structure BlocksAlike (m1 m2 : ModelData P) : Prop where
  active : (∃ b ∈ m1.blocks, b.active = true) ↔ ∃ b ∈ m2.blocks, b.active = true
  meshed : (∃ b ∈ m1.blocks, b.active = true ∧ b.points ≠ [] ∧ b.nbPolyhedra ≠ 0) ↔
    ∃ b ∈ m2.blocks, b.active = true ∧ b.points ≠ [] ∧ b.nbPolyhedra ≠ 0
  empty : (∃ b ∈ m1.blocks, b.nbPolyhedra = 0) ↔ ∃ b ∈ m2.blocks, b.nbPolyhedra = 0

/-- The edge from `a` to `b` meets the triangle `t` of the Surface `r`, by the inside or an edge of one of them. -/
def EdgeMeetsTriangle (lib : ModelLibrary P) (r : ModelSurface P) (a b : P) (t : List Index) : Prop :=
  ∃ x ∈ [Position.inside, .edge0, .edge1, .edge2],
    (lib.geometry.segmentTriangle (a, b) (r.point (t.getD 0 0), r.point (t.getD 1 0), r.point (t.getD 2 0))).1 = x ∨
    (lib.geometry.segmentTriangle (a, b) (r.point (t.getD 0 0), r.point (t.getD 1 0), r.point (t.getD 2 0))).2 = x

/-- The Blocks of the part `m2` are apart from the part `m1`: no Surface of `m1` is inside them, and the Lines of `m1` which are embedded in Blocks
do not meet the Surfaces of `m2`. -/
structure BlocksApart (lib : ModelLibrary P) (m m1 m2 : ModelData P) : Prop where
  inside : ∀ s ∈ m1.surfaces, ∀ b ∈ m2.blocks, m.blocksOracle.isInsideBlock s.id b.id = .ok false
  edges : ∀ l ∈ m1.lines, l.active = true → (∃ c ∈ m.embeddings l.id, c.type = .block) → ∀ s ∈ m2.surfaces, s.active = true →
    ∀ r, GivenSurface lib m s r → ∀ e a b p, e < l.nbEdges → p < s.nbPolygons → IsPoint lib l.points (l.edgeVertices e).1 a →
      IsPoint lib l.points (l.edgeVertices e).2 b → ∀ t ∈ fan (r.polygonVertices p), ¬ EdgeMeetsTriangle lib r a b t

/-- Every inactive Surface has polygons. -/
def InactiveSurfacesMeshed (m : ModelData P) : Prop := ∀ s ∈ m.surfaces, s.active = false → s.nbPolygons ≠ 0

end Inspector.Spec
