import Verif.Spec.Plain
import Verif.Spec.Closed
/-
Specification side of C104: the same model stored in another order.
-/
namespace Inspector.Spec
variable {P : Type}

/-- The two models have the same components, unique vertices and relationships; their components, their relationships and
what is found around an edge or a polygon may be listed in other orders.  What the search trees give is not compared. -/
structure StoredOtherwise (m m' : ModelData P) : Prop where
  corners : m.corners.Perm m'.corners
  lines : m.lines.Perm m'.lines
  surfaces : m.surfaces.Perm m'.surfaces
  blocks : m.blocks.Perm m'.blocks
  noId : m.noId = m'.noId
  nbUniqueVertices : m.nbUniqueVertices = m'.nbUniqueVertices
  componentMeshVertices : ∀ uv, m.componentMeshVertices uv = m'.componentMeshVertices uv
  uniqueVertex : ∀ cmv, m.uniqueVertex cmv = m'.uniqueVertex cmv
  isBoundary : ∀ a b, m.isBoundary a b = m'.isBoundary a b
  isInternal : ∀ a b, m.isInternal a b = m'.isInternal a b
  embeddings : ∀ id, (m.embeddings id).Perm (m'.embeddings id)
  incidences : ∀ id, (m.incidences id).Perm (m'.incidences id)
  boundaries : ∀ id, (m.boundaries id).Perm (m'.boundaries id)
  isVertexOnBorder : ∀ s v, m.isVertexOnBorder s v = m'.isVertexOnBorder s v
  surfaceEdges : ∀ l e, (m.surfaceEdges l e).Perm (m'.surfaceEdges l e)
  blockEdges : ∀ l e, (m.blockEdges l e).Perm (m'.blockEdges l e)
  blockPolygons : ∀ s p, (m.blockPolygons s p).Perm (m'.blockPolygons s p)
  lineComponentMeshEdges : ∀ u v, (m.lineComponentMeshEdges u v).Perm (m'.lineComponentMeshEdges u v)
  surfaceComponentMeshPolygons : ∀ uvs, (m.surfaceComponentMeshPolygons uvs).Perm (m'.surfaceComponentMeshPolygons uvs)
  isInsideBlock : ∀ s b, m.blocksOracle.isInsideBlock s b = m'.blocksOracle.isInsideBlock s b
  geometry : m.blocksOracle.geometry = m'.blocksOracle.geometry
  modelBoundaries : m.blocksOracle.modelBoundaries.flatten.Perm m'.blocksOracle.modelBoundaries.flatten

/-- The geometry of the boundaries of the Blocks is that of surfaces, whatever their numberings, and a piece of a
boundary inside another one has a smaller box (see C103). -/
def SoundGeometry (m : ModelData P) : Prop :=
  ∀ t, GivenTopology m t → InsideOfShape t m.blocksOracle.geometry ∧
    ∀ b ∈ m.blocks, b.active = true → InsideIsSmaller t m.blocksOracle.geometry (boundarySurfaces t b.id)

end Inspector.Spec
