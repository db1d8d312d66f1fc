import Verif.Spec.Numbers
/-
Specification side of C132: the same model, the vertices of the meshes of its components having other numbers.
-/
namespace Inspector.Spec
variable {P : Type}

/-- A component mesh vertex with its new number: `σ c` gives the new numbers of the vertices of the component `c`. -/
def vertexOf (σ : ComponentID → Equiv.Perm Nat) (c : ComponentMeshVertex) : ComponentMeshVertex :=
  { c with vertex := σ c.component_id c.vertex }

/-- A component mesh vertex with its old number. -/
def oldVertexOf (σ : ComponentID → Equiv.Perm Nat) (c : ComponentMeshVertex) : ComponentMeshVertex :=
  { c with vertex := (σ c.component_id).symm c.vertex }

/-- The points in the order of the new numbers: the point number `v i` is the one which had the number `i`. -/
def reordered (v : Equiv.Perm Nat) (points : List P) : List P :=
  (List.range points.length).filterMap fun i => points[v.symm i]?

/-- A mesh fused from Surfaces, the vertices of which have other numbers. -/
def fusedVertices (σ : ComponentID → Equiv.Perm Nat) (f : FusedSurface) : FusedSurface :=
  { f with points := f.points.map fun p => (p.1, (σ ⟨.surface, p.1⟩).symm p.2) }

/-- A Corner, with other numbers. -/
def cornerVertices (v : Equiv.Perm Nat) (c : CornerData P) : CornerData P := { c with points := reordered v c.points }

/-- A Line whose vertices have other numbers. -/
def lineVertices (v : Equiv.Perm Nat) (l : LineData P) : LineData P :=
  { l with
    points := reordered v l.points
    edgeVertices := fun e => movedEdge v (l.edgeVertices e) }

/-- A Surface whose vertices have other numbers; the polygons and their edges keep theirs. -/
def faceVertices (v : Equiv.Perm Nat) (s : FaceData P) : FaceData P :=
  { s with
    points := reordered v s.points
    polygonVertex := fun x => v (s.polygonVertex x)
    polygonsAroundVertex := fun i => s.polygonsAroundVertex (v.symm i)
    edgeVertices := fun e => movedEdge v (s.edgeVertices e)
    polygonsIntersect := fun a b => s.polygonsIntersect (a.map v.symm) (b.map v.symm) }

/-- A Block whose vertices have other numbers; the polyhedra, their facets and their edges keep theirs. -/
def volumeVertices (v : Equiv.Perm Nat) (b : VolumeData P) : VolumeData P :=
  { b with
    points := reordered v b.points
    polyhedronFacetVertices := fun x => (b.polyhedronFacetVertices x).map v
    polyhedronVertex := fun x => v (b.polyhedronVertex x)
    polyhedronEdgesVertices := fun p => (b.polyhedronEdgesVertices p).map (movedEdge v)
    polyhedraAroundVertex := fun i => b.polyhedraAroundVertex (v.symm i)
    polyhedraAroundEdge := fun e p => b.polyhedraAroundEdge (movedEdge v.symm e) p
    edgeVertices := fun e => movedEdge v (b.edgeVertices e)
    tetrahedronVolumeSign := fun i j k l => b.tetrahedronVolumeSign (v.symm i) (v.symm j) (v.symm k) (v.symm l) }

/-- What is asked about the Blocks of a model, by the new numbers of the vertices of its Surfaces. -/
def oracleVertices (σ : ComponentID → Equiv.Perm Nat) (o : BlocksOracle) : BlocksOracle :=
  { o with
    geometry := { o.geometry with
      isVertexInside := fun mesh id v => o.geometry.isVertexInside (fusedVertices σ mesh) id ((σ ⟨.surface, id⟩).symm v) } }

/-- The same model, the number `i` of each vertex of the mesh of a component `c` being replaced by `σ c i`: what is asked of
the model by the number of a vertex, and the answers that are such numbers, are changed accordingly; nothing else is. -/
def withVertices (σ : ComponentID → Equiv.Perm Nat) (m : ModelData P) : ModelData P :=
  { m with
    corners := m.corners.map fun c => cornerVertices (σ ⟨.corner, c.id⟩) c
    lines := m.lines.map fun l => lineVertices (σ ⟨.line, l.id⟩) l
    surfaces := m.surfaces.map fun s => faceVertices (σ ⟨.surface, s.id⟩) s
    blocks := m.blocks.map fun b => volumeVertices (σ ⟨.block, b.id⟩) b
    componentMeshVertices := fun uv => (m.componentMeshVertices uv).map (vertexOf σ)
    uniqueVertex := fun cmv => m.uniqueVertex (oldVertexOf σ cmv)
    isVertexOnBorder := fun id v => m.isVertexOnBorder id ((σ ⟨.surface, id⟩).symm v)
    overlappingSurfaces := m.overlappingSurfaces.map fun x =>
      (faceVertices (σ ⟨.surface, x.1.id⟩) x.1, faceVertices (σ ⟨.surface, x.2.id⟩) x.2)
    blocksOracle := oracleVertices σ m.blocksOracle }

/-- `σ` gives other numbers to the vertices of each component of the model. -/
structure VertexNumbersOf (σ : ComponentID → Equiv.Perm Nat) (m : ModelData P) : Prop where
  corners : ∀ c ∈ m.corners, Renumbers (σ ⟨.corner, c.id⟩) c.points.length
  lines : ∀ c ∈ m.lines, Renumbers (σ ⟨.line, c.id⟩) c.points.length
  surfaces : ∀ c ∈ m.surfaces, Renumbers (σ ⟨.surface, c.id⟩) c.points.length
  blocks : ∀ c ∈ m.blocks, Renumbers (σ ⟨.block, c.id⟩) c.points.length

/-- Assumed of the colocation search: on the points of the components, it identifies the vertices whose points are near one
another. -/
structure SearchDecides (lib : ModelLibrary P) (near : P → P → Prop) (m : ModelData P) : Prop where
  lines : ∀ l ∈ m.lines, ∀ (i j : Nat) (a b : P), l.points[i]? = some a → l.points[j]? = some b →
    (Colocated (lib.search l.points) i j ↔ near a b)
  surfaces : ∀ l ∈ m.surfaces, ∀ (i j : Nat) (a b : P), l.points[i]? = some a → l.points[j]? = some b →
    (Colocated (lib.search l.points) i j ↔ near a b)
  blocks : ∀ l ∈ m.blocks, ∀ (i j : Nat) (a b : P), l.points[i]? = some a → l.points[j]? = some b →
    (Colocated (lib.search l.points) i j ↔ near a b)

/-- Assumed of OpenGeode: the comparison and the normal form of the facets of the Blocks are only sensitive to the equality
of their vertices. -/
structure FacetsCompared (lib : ModelLibrary P) (σ : ComponentID → Equiv.Perm Nat) (m : ModelData P) : Prop where
  opposite : ∀ b ∈ m.blocks, ∀ f g : List Index,
    lib.isOpposite (f.map (σ ⟨.block, b.id⟩)) (g.map (σ ⟨.block, b.id⟩)) = lib.isOpposite f g
  cycle : ∀ b ∈ m.blocks, ∀ x y, IsPolyhedronFacet b.toSolidMesh x → IsPolyhedronFacet b.toSolidMesh y →
    (lib.cycle ((b.polyhedronFacetVertices x).map (σ ⟨.block, b.id⟩)) =
      lib.cycle ((b.polyhedronFacetVertices y).map (σ ⟨.block, b.id⟩)) ↔
      lib.cycle (b.polyhedronFacetVertices x) = lib.cycle (b.polyhedronFacetVertices y))

end Inspector.Spec
