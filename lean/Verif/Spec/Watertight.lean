import Verif.Spec.WholeModel
/-
Specification side of C125 to C127: the boundary of a Block is closed; the border facets of a Block are on Surfaces; the
border edges of a Surface are on Lines.
-/
namespace Inspector.Spec
variable {P : Type} (m : ModelData P)

/-- The edge `x` of a polygon of the Surface goes from the unique vertex `u` to the unique vertex `v`. -/
def FaceEdge (s : FaceData P) (x : PolygonEdge) (u v : Index) : Prop :=
  IsPolygonEdge s.toSurfaceMesh x ∧ ∃ a b, EdgeFromTo s.toSurfaceMesh x.1 x.2 a b ∧
    m.uniqueVertex ⟨⟨.surface, s.id⟩, a⟩ = some u ∧ m.uniqueVertex ⟨⟨.surface, s.id⟩, b⟩ = some v

/-- The edge `x` of a polygon of the Surface joins the unique vertices `u` and `v`, in one order or the other. -/
def FaceEdgeOn (s : FaceData P) (x : PolygonEdge) (u v : Index) : Prop := FaceEdge m s x u v ∨ FaceEdge m s x v u

/-- The edge `e` of the Line goes from the unique vertex `u` to the unique vertex `v`. -/
def LineEdge (l : LineData P) (e u v : Index) : Prop :=
  e < l.nbEdges ∧ m.uniqueVertex ⟨⟨.line, l.id⟩, (l.edgeVertices e).1⟩ = some u ∧
    m.uniqueVertex ⟨⟨.line, l.id⟩, (l.edgeVertices e).2⟩ = some v

/-- The Line edges found by OpenGeode between two unique vertices exist. -/
def LineEdgesFound : Prop :=
  ∀ u v, m.lineComponentMeshEdges u v ≠ [] → ∃ l ∈ m.lines, ∃ e, LineEdge m l e u v ∨ LineEdge m l e v u

/-- OpenGeode's searches of edges by unique vertices answer right: the Line edges between two unique vertices exist; the
polygon edges of a Surface found around an edge of a Line are those joining the same unique vertices (`n` of them). -/
structure EdgesFound : Prop where
  lines : LineEdgesFound m
  surfaces : ∀ l ∈ m.lines, ∀ e u v, LineEdge m l e u v → ∀ s ∈ m.surfaces, ∀ n,
    ((s.id, n) ∈ m.surfaceEdges l.id e ↔ n ≠ 0 ∧
      ∃ xs : List PolygonEdge, xs.Nodup ∧ xs.length = n ∧ ∀ x, x ∈ xs ↔ FaceEdgeOn m s x u v)

/-- The boundary relationships are told the same by `is_boundary` and `boundaries`. -/
def BoundariesAgree : Prop :=
  (∀ l ∈ m.lines, ∀ s ∈ m.surfaces, m.isBoundary l.id s.id = true ↔ ⟨.line, l.id⟩ ∈ m.boundaries s.id) ∧
  ∀ s ∈ m.surfaces, ∀ b ∈ m.blocks, m.isBoundary s.id b.id = true ↔ ⟨.surface, s.id⟩ ∈ m.boundaries b.id

/-- No edge of a polygon of a Surface joins a vertex to itself, adjacent polygons exist. -/
structure FacesSound : Prop where
  noLoop : ∀ s ∈ m.surfaces, ∀ x a b, IsPolygonEdge s.toSurfaceMesh x → EdgeFromTo s.toSurfaceMesh x.1 x.2 a b → a ≠ b
  adjacent : ∀ s ∈ m.surfaces, ∀ x q, IsPolygonEdge s.toSurfaceMesh x → s.polygonAdjacent x = some q → q < s.nbPolygons

/-- The active Surfaces bounding the Block form a closed surface: any edge of one of their polygons joins two unique
vertices, which another edge of their polygons joins too. -/
def Watertight (b : VolumeData P) : Prop :=
  ∀ s ∈ m.surfaces, s.active = true → m.isBoundary s.id b.id = true → ∀ x, IsPolygonEdge s.toSurfaceMesh x →
    ∃ u v, FaceEdge m s x u v ∧ ∃ s' ∈ m.surfaces, s'.active = true ∧ m.isBoundary s'.id b.id = true ∧
      ∃ x', (s'.id, x') ≠ (s.id, x) ∧ FaceEdgeOn m s' x' u v

/-- All Lines, and all the Surfaces bounding the Block, are active. -/
def BoundaryActive (b : VolumeData P) : Prop :=
  (∀ l ∈ m.lines, l.active = true) ∧ ∀ s ∈ m.surfaces, m.isBoundary s.id b.id = true → s.active = true

/-! ### the skin of a Block -/

/-- The vertices of the polygon `p` of the Surface have the unique vertices `uvs`, in any order. -/
def PolygonAt (s : FaceData P) (p : Index) (uvs : List Index) : Prop :=
  p < s.nbPolygons ∧ ∃ ws : List Index, ws.Perm uvs ∧
    ((List.range (s.nbPolygonVertices p)).map fun k => m.uniqueVertex ⟨⟨.surface, s.id⟩, s.polygonVertex (p, k)⟩) =
      ws.map some

/-- The facet `x` of the Block is on the polygon `p` of the Surface: same unique vertices. -/
def FacetOn (b : VolumeData P) (x : PolyhedronFacet) (s : FaceData P) (p : Index) : Prop :=
  IsPolyhedronFacet b.toSolidMesh x ∧ ∃ uvs : List Index,
    (b.polyhedronFacetVertices x).map (fun k => m.uniqueVertex ⟨⟨.block, b.id⟩, k⟩) = uvs.map some ∧ PolygonAt m s p uvs

/-- OpenGeode's searches of polygons by unique vertices answer right: the Surface polygons found exist, and the facets of
a Block found around a polygon of a Surface are those on it (`n` of them). -/
structure PolygonsFound : Prop where
  polygons : ∀ uvs, m.surfaceComponentMeshPolygons uvs ≠ [] → ∃ s ∈ m.surfaces, ∃ p, PolygonAt m s p uvs
  blocks : ∀ s ∈ m.surfaces, ∀ p, p < s.nbPolygons → ∀ b ∈ m.blocks, ∀ n,
    ((b.id, n) ∈ m.blockPolygons s.id p ↔ n ≠ 0 ∧
      ∃ xs : List PolyhedronFacet, xs.Nodup ∧ xs.length = n ∧ ∀ x, x ∈ xs ↔ FacetOn m b x s p)

/-- The vertices of the facets of the Blocks exist. -/
def FacetsSound : Prop :=
  ∀ b ∈ m.blocks, ∀ x, IsPolyhedronFacet b.toSolidMesh x → ∀ k ∈ b.polyhedronFacetVertices x, k < b.points.length

/-- The facet of the Block is on a polygon of a Surface which bounds the Block and is on no other facet of it, or which is
inside the Block and is on exactly one other facet of it. -/
def Skinned (b : VolumeData P) (x : PolyhedronFacet) : Prop :=
  ∃ s ∈ m.surfaces, ∃ p, FacetOn m b x s p ∧
    ((m.isBoundary s.id b.id = true ∧ ∀ y, FacetOn m b y s p → y = x) ∨
     (m.isBoundary s.id b.id = false ∧ m.isInternal s.id b.id = true ∧
       ∃ y, y ≠ x ∧ FacetOn m b y s p ∧ ∀ z, FacetOn m b z s p → z = x ∨ z = y))

/-- The edge of a polygon of the Surface is on an edge of a Line. -/
def OnLineEdge (s : FaceData P) (x : PolygonEdge) : Prop :=
  ∃ u v, FaceEdge m s x u v ∧ ∃ l ∈ m.lines, ∃ e, LineEdge m l e u v ∨ LineEdge m l e v u

/-- The edge of a polygon of the Surface is on an edge of a Line which bounds the Surface and is on no other edge of it, or
which is inside the Surface and is on exactly one other edge of it. -/
def Edged (s : FaceData P) (x : PolygonEdge) : Prop :=
  ∃ u v, FaceEdge m s x u v ∧ ∃ l ∈ m.lines, (∃ e, LineEdge m l e u v ∨ LineEdge m l e v u) ∧
    ((m.isBoundary l.id s.id = true ∧ ∀ y, FaceEdgeOn m s y u v → y = x) ∨
     (m.isBoundary l.id s.id = false ∧ m.isInternal l.id s.id = true ∧
       ∃ y, y ≠ x ∧ FaceEdgeOn m s y u v ∧ ∀ z, FaceEdgeOn m s z u v → z = x ∨ z = y))

/-- All Surfaces are active, all Blocks are meshed. -/
def AllKnown : Prop := (∀ s ∈ m.surfaces, s.active = true) ∧ ∀ b ∈ m.blocks, b.nbPolyhedra ≠ 0

end Inspector.Spec
