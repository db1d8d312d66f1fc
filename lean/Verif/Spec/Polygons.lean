import Verif.Spec.Vertices
/-
Specification side of C134: the same model, the polygons of its Surfaces, the polyhedra of its Blocks and their edges having
other numbers.
-/
namespace Inspector.Spec
variable {P : Type}

/-- An element of a mesh (and something of it), the element having its new number. -/
def newElement (p : Equiv.Perm Nat) (x : Nat × Nat) : Nat × Nat := (p x.1, x.2)

/-- The same, with its old number. -/
def oldElement (p : Equiv.Perm Nat) (x : Nat × Nat) : Nat × Nat := (p.symm x.1, x.2)

/-- The pairs of elements met by a traversal, with their new numbers. -/
def traversalElements (p q : Equiv.Perm Nat) (t : Traversal) : Traversal := fun stop =>
  (t fun x => stop (p x.1, q x.2)).map fun x => (p x.1, q x.2)

/-- A Surface whose polygons and edges have other numbers: the polygon number `p i` is the one which had the number `i`, the
edge number `e i` the one which had the number `i`. -/
def facePolygons (p e : Equiv.Perm Nat) (s : FaceData P) : FaceData P :=
  { s with
    nbPolygonVertices := fun i => s.nbPolygonVertices (p.symm i)
    polygonVertex := fun x => s.polygonVertex (oldElement p x)
    polygonAdjacent := fun x => (s.polygonAdjacent (oldElement p x)).map p
    polygonsAroundVertex := fun v => (s.polygonsAroundVertex v).map (List.map (newElement p))
    edgeVertices := fun k => s.edgeVertices (e.symm k)
    minimumHeight := fun i => s.minimumHeight (p.symm i)
    isPolygonDegenerated := fun i => s.isPolygonDegenerated (p.symm i)
    polygonAreaSign := fun i => s.polygonAreaSign (p.symm i)
    traverse := traversalElements p p s.traverse }

/-- A Block whose polyhedra and edges have other numbers. -/
def volumePolyhedra (p e : Equiv.Perm Nat) (b : VolumeData P) : VolumeData P :=
  { b with
    nbPolyhedronFacets := fun i => b.nbPolyhedronFacets (p.symm i)
    polyhedronFacetVertices := fun x => b.polyhedronFacetVertices (oldElement p x)
    polyhedronAdjacent := fun x => (b.polyhedronAdjacent (oldElement p x)).map p
    nbPolyhedronVertices := fun i => b.nbPolyhedronVertices (p.symm i)
    polyhedronVertex := fun x => b.polyhedronVertex (oldElement p x)
    polyhedraAroundVertex := fun v => (b.polyhedraAroundVertex v).map (List.map (newElement p))
    polyhedronEdgesVertices := fun i => b.polyhedronEdgesVertices (p.symm i)
    polyhedraAroundEdge := fun k i => (b.polyhedraAroundEdge k (p.symm i)).map (List.map p)
    edgeVertices := fun k => b.edgeVertices (e.symm k)
    minimumHeight := fun i => b.minimumHeight (p.symm i)
    isPolyhedronDegenerated := fun i => b.isPolyhedronDegenerated (p.symm i)
    polyhedronVolume := fun i => b.polyhedronVolume (p.symm i) }

/-- The same model, the number `i` of each polygon of a Surface `c` (of each polyhedron of a Block `c`) being replaced by
`π c i`, and the number `i` of each of its edges by `ε c i`: what is asked of the model by such a number, and the answers
that are such numbers, are changed accordingly; nothing else is.  (For BReps, see `withElementsIn`.) -/
def withElements (π ε : Uuid → Equiv.Perm Nat) (m : ModelData P) : ModelData P :=
  { m with
    surfaces := m.surfaces.map fun s => facePolygons (π s.id) (ε s.id) s
    blocks := m.blocks.map fun b => volumePolyhedra (π b.id) (ε b.id) b
    blockPolygons := fun s i => m.blockPolygons s ((π s).symm i)
    surfaceComponentMeshPolygons := fun uvs => (m.surfaceComponentMeshPolygons uvs).map fun x =>
      { x with element_id := π x.component_id.id x.element_id }
    selfTree := fun s => traversalElements (π s) (π s) (m.selfTree s)
    otherTree := fun s s' => traversalElements (π s) (π s') (m.otherTree s s')
    lineTree := fun s l => traversalElements (π s) (Equiv.refl _) (m.lineTree s l)
    overlappingSurfaces := m.overlappingSurfaces.map fun x =>
      (facePolygons (π x.1.id) (ε x.1.id) x.1, facePolygons (π x.2.id) (ε x.2.id) x.2) }

/-- The same for a BRep: OpenGeode is also asked whether the polygon number 0 of a Surface is in a Block
(brep_blocks_topology.cpp:262-268, `polygon_barycenter( 0 )`), and that number is now the one of another polygon.
`inside s i b` tells if the polygon which had the number `i` in the Surface `s` is in the Block `b`. -/
def withElementsIn (inside : Uuid → Index → Uuid → Except Failure Bool) (π ε : Uuid → Equiv.Perm Nat) (m : ModelData P) :
    ModelData P :=
  { withElements π ε m with
    blocksOracle := { m.blocksOracle with
      isInsideBlock := fun s b => inside s ((π s).symm 0) b } }

/-- `inside` tells which polygons of the Surfaces of the model are in which Blocks. -/
def PolygonsIn (inside : Uuid → Index → Uuid → Except Failure Bool) (m : ModelData P) : Prop :=
  ∀ s b, m.blocksOracle.isInsideBlock s b = inside s 0 b

/-- No Surface crosses the boundary of a Block: all its polygons are inside, or all outside. -/
def OnOneSide (inside : Uuid → Index → Uuid → Except Failure Bool) (m : ModelData P) : Prop :=
  ∀ s ∈ m.surfaces, ∀ i < s.nbPolygons, ∀ b ∈ m.blocks, inside s.id i b.id = inside s.id 0 b.id

/-- `π` gives other numbers to the polygons of each Surface and to the polyhedra of each Block, and `ε` to their edges. -/
structure ElementNumbersOf (π ε : Uuid → Equiv.Perm Nat) (m : ModelData P) : Prop where
  polygons : ∀ s ∈ m.surfaces, Renumbers (π s.id) s.nbPolygons
  surfaceEdges : ∀ s ∈ m.surfaces, Renumbers (ε s.id) s.nbEdges
  polyhedra : ∀ b ∈ m.blocks, Renumbers (π b.id) b.nbPolyhedra
  blockEdges : ∀ b ∈ m.blocks, Renumbers (ε b.id) b.nbEdges

/-- Assumed of OpenGeode: turning around an edge of a Block is the same from all the polyhedra it visits (see C109). -/
def TurnsAgree (m : ModelData P) : Prop :=
  ∀ b ∈ m.blocks, b.active = true → ∃ raises linked, TurnsAround b.toSolidData raises linked

/-- Assumed of OpenGeode: the polygon adjacent to an edge of a Surface exists. -/
def AdjacentsExist (m : ModelData P) : Prop :=
  ∀ s ∈ m.surfaces, s.active = true → ∀ x q, IsPolygonEdge s.toSurfaceMesh x → s.polygonAdjacent x = some q → q < s.nbPolygons

end Inspector.Spec
