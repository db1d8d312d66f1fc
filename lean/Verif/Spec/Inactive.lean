import Verif.Spec.Plain
/-
Specification side of C124: the same model, whose inactive components have other meshes.
-/
namespace Inspector.Spec
variable {P : Type}

/-- `m'` is the model `m` whose inactive components have other meshes; the edges and polygons of active components around
the edges and polygons of others are the same. -/
structure InactiveRemeshed (m m' : ModelData P) : Prop where
  corners : List.Forall₂ (fun a b : CornerData P => b.id = a.id ∧ b.active = a.active ∧ (a.active = true → b = a))
    m.corners m'.corners
  lines : List.Forall₂ (fun a b : LineData P => b.id = a.id ∧ b.active = a.active ∧ (a.active = true → b = a))
    m.lines m'.lines
  surfaces : List.Forall₂ (fun a b : FaceData P => b.id = a.id ∧ b.active = a.active ∧ (a.active = true → b = a))
    m.surfaces m'.surfaces
  blocks : List.Forall₂ (fun a b : VolumeData P => b.id = a.id ∧ b.active = a.active ∧ (a.active = true → b = a))
    m.blocks m'.blocks
  noId : m'.noId = m.noId
  nbUniqueVertices : m'.nbUniqueVertices = m.nbUniqueVertices
  componentMeshVertices : m'.componentMeshVertices = m.componentMeshVertices
  uniqueVertex : m'.uniqueVertex = m.uniqueVertex
  isBoundary : m'.isBoundary = m.isBoundary
  isInternal : m'.isInternal = m.isInternal
  embeddings : m'.embeddings = m.embeddings
  incidences : m'.incidences = m.incidences
  boundaries : m'.boundaries = m.boundaries
  blocksOracle : m'.blocksOracle = m.blocksOracle
  isVertexOnBorder : ∀ s ∈ m.surfaces, s.active = true → m'.isVertexOnBorder s.id = m.isVertexOnBorder s.id
  surfaceEdges : ∀ s ∈ m.surfaces, s.active = true → ∀ l e n, (s.id, n) ∈ m'.surfaceEdges l e ↔ (s.id, n) ∈ m.surfaceEdges l e
  blockEdges : ∀ b ∈ m.blocks, b.active = true → ∀ l e n, (b.id, n) ∈ m'.blockEdges l e ↔ (b.id, n) ∈ m.blockEdges l e
  blockPolygons : ∀ b ∈ m.blocks, b.active = true → ∀ s p n,
    (b.id, n) ∈ m'.blockPolygons s p ↔ (b.id, n) ∈ m.blockPolygons s p

/-- The meshes of the inactive components have as many vertices, are as empty, and have edges and polygons on the same
unique vertices. -/
structure ReadAlike (m m' : ModelData P) : Prop where
  corners : List.Forall₂ (fun a b : CornerData P => b.points.length = a.points.length) m.corners m'.corners
  lines : List.Forall₂ (fun a b : LineData P => b.points.length = a.points.length ∧ (b.nbEdges = 0 ↔ a.nbEdges = 0))
    m.lines m'.lines
  surfaces : List.Forall₂ (fun a b : FaceData P =>
    b.points.length = a.points.length ∧ (b.nbPolygons = 0 ↔ a.nbPolygons = 0)) m.surfaces m'.surfaces
  blocks : List.Forall₂ (fun a b : VolumeData P =>
    b.points.length = a.points.length ∧ (b.nbPolyhedra = 0 ↔ a.nbPolyhedra = 0)) m.blocks m'.blocks
  lineEdges : ∀ u v, m'.lineComponentMeshEdges u v = [] ↔ m.lineComponentMeshEdges u v = []
  surfacePolygons : ∀ uvs, m'.surfaceComponentMeshPolygons uvs = [] ↔ m.surfaceComponentMeshPolygons uvs = []

/-- The inactive Surfaces have the same polygons and borders. -/
structure SamePolygons (m m' : ModelData P) : Prop where
  polygons : List.Forall₂ (fun a b : FaceData P => b.nbPolygons = a.nbPolygons ∧
    b.nbPolygonVertices = a.nbPolygonVertices ∧ b.polygonVertex = a.polygonVertex) m.surfaces m'.surfaces
  isVertexOnBorder : m'.isVertexOnBorder = m.isVertexOnBorder

end Inspector.Spec
