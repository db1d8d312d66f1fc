import Mathlib.Logic.Equiv.Basic
import Verif.Spec.Plain
/-
Specification side of C131: the same model, whose components have other uuids.
-/
namespace Inspector.Spec
variable {P : Type} (ρ : Equiv.Perm Uuid)

/-- A component identifier, the uuid being changed. -/
def idOf (c : ComponentID) : ComponentID := { c with id := ρ c.id }

/-- A component mesh vertex, the uuid of its component being changed. -/
def cmvOf (c : ComponentMeshVertex) : ComponentMeshVertex := { c with component_id := idOf ρ c.component_id }

/-- A component mesh element, the uuid of its component being changed. -/
def elementOf (c : ComponentMeshElement) : ComponentMeshElement := { c with component_id := idOf ρ c.component_id }

/-- A map from uuids, the uuids being changed. -/
def keysOf (map : HMap Uuid Nat) : HMap Uuid Nat := map.map fun e => (ρ e.1, e.2)

/-- A fused mesh, the uuids of its Surfaces being changed. -/
def fusedOf (f : FusedSurface) : FusedSurface := { f with points := f.points.map fun p => (ρ p.1, p.2) }

/-- A Corner with another uuid. -/
def cornerOf (c : CornerData P) : CornerData P := { c with id := ρ c.id }

/-- A Line with another uuid. -/
def lineOf (l : LineData P) : LineData P := { l with id := ρ l.id }

/-- A Surface with another uuid. -/
def faceOf (s : FaceData P) : FaceData P := { s with id := ρ s.id }

/-- A Block with another uuid. -/
def volumeOf (b : VolumeData P) : VolumeData P := { b with id := ρ b.id }

/-- What is asked of the geometry of the Surfaces of a model, by their new uuids. -/
def geometryOf (g : BlockGeometry) : BlockGeometry :=
  { g with
    surfaceBox := fun id => g.surfaceBox (ρ.symm id)
    isVertexInside := fun mesh id v => g.isVertexInside (fusedOf ρ.symm mesh) (ρ.symm id) v }

/-- What is asked about the Blocks of a model, by the new uuids. -/
def oracleOf (o : BlocksOracle) : BlocksOracle where
  edgeFromVertices edges a b :=
    o.edgeFromVertices (edges.map fun e => ⟨ρ.symm e.v0, ρ.symm e.v1, ρ.symm e.surface⟩) (ρ.symm a) (ρ.symm b)
  isInsideBlock s b := o.isInsideBlock (ρ.symm s) (ρ.symm b)
  geometry := geometryOf ρ o.geometry
  modelBoundaries := o.modelBoundaries.map (List.map ρ)

/-- The same model, the uuid `id` of each component being replaced by `ρ id`: what is asked of the model by uuids, and the
answers which have uuids, are changed accordingly; nothing else is. -/
def withIds (m : ModelData P) : ModelData P where
  corners := m.corners.map (cornerOf ρ)
  lines := m.lines.map (lineOf ρ)
  surfaces := m.surfaces.map (faceOf ρ)
  blocks := m.blocks.map (volumeOf ρ)
  noId := m.noId
  nbUniqueVertices := m.nbUniqueVertices
  componentMeshVertices uv := (m.componentMeshVertices uv).map (cmvOf ρ)
  uniqueVertex cmv := m.uniqueVertex (cmvOf ρ.symm cmv)
  isBoundary a b := m.isBoundary (ρ.symm a) (ρ.symm b)
  isInternal a b := m.isInternal (ρ.symm a) (ρ.symm b)
  embeddings id := (m.embeddings (ρ.symm id)).map (idOf ρ)
  incidences id := (m.incidences (ρ.symm id)).map (idOf ρ)
  boundaries id := (m.boundaries (ρ.symm id)).map (idOf ρ)
  isVertexOnBorder id v := m.isVertexOnBorder (ρ.symm id) v
  surfaceEdges id e := keysOf ρ (m.surfaceEdges (ρ.symm id) e)
  blockEdges id e := keysOf ρ (m.blockEdges (ρ.symm id) e)
  blockPolygons id f := keysOf ρ (m.blockPolygons (ρ.symm id) f)
  lineComponentMeshEdges u v := (m.lineComponentMeshEdges u v).map (elementOf ρ)
  surfaceComponentMeshPolygons uvs := (m.surfaceComponentMeshPolygons uvs).map (elementOf ρ)
  selfTree id := m.selfTree (ρ.symm id)
  otherTree a b := m.otherTree (ρ.symm a) (ρ.symm b)
  lineTree a b := m.lineTree (ρ.symm a) (ρ.symm b)
  overlappingSurfaces := m.overlappingSurfaces.map fun x => (faceOf ρ x.1, faceOf ρ x.2)
  blocksOracle := oracleOf ρ m.blocksOracle

end Inspector.Spec
