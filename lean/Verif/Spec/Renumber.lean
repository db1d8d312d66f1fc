import Verif.Spec.Whole
import Mathlib.Logic.Equiv.Defs
/-
Specification side of C109: the same mesh with other numbers.
-/
namespace Inspector.Spec

/-- `σ` gives other numbers to the elements `0 .. n-1`. -/
def Renumbers (σ : Equiv.Perm Nat) (n : Nat) : Prop := ∀ i, σ i < n ↔ i < n

/-- The point of vertex `i` is now the point of vertex `v i`. -/
structure MovedPoints {P : Type} (points points' : List P) (v : Equiv.Perm Nat) : Prop where
  length : points'.length = points.length
  point : ∀ i : Nat, points'[v i]? = points[i]?

/-- the edge with the new numbers of its vertices -/
def movedEdge (v : Equiv.Perm Nat) (e : Index × Index) : Index × Index := (v e.1, v e.2)

/-- the edge, smallest vertex first -/
def sortedEdge (e : Index × Index) : Index × Index := if e.1 ≤ e.2 then e else (e.2, e.1)

/-- Assumed of the colocation search: it identifies two vertices when, and only when, there are two vertices whose
points are near one another. (Which ones are grouped when there are several may depend on the numbers.) -/
def FindsNear {P : Type} (lib : Library P) (near : P → P → Prop) (points : List P) : Prop :=
  HasColocatedVertices lib points ↔
    ∃ (i j : Nat) (a b : P), i ≠ j ∧ points[i]? = some a ∧ points[j]? = some b ∧ near a b

/-- Assumed of the library: the distance is symmetric. -/
def DistanceSymmetric {P : Type} (lib : Library P) : Prop := ∀ a b, lib.distance a b = lib.distance b a

/-! ### curves -/

/-- `m'` is `m` with other numbers: `v` for the vertices, `e` for the edges, whose two ends can be exchanged. -/
structure CurveRenumbering {P : Type} (m m' : CurveData P) (v e : Equiv.Perm Nat) : Prop where
  points : MovedPoints m.points m'.points v
  nbEdges : m'.nbEdges = m.nbEdges
  edges : Renumbers e m.nbEdges
  edgeVertices : ∀ k, k < m.nbEdges → SameEdge (m'.edgeVertices (e k)) (movedEdge v (m.edgeVertices k))

/-- The lists of `r'` are those of `r` with the other numbers. -/
structure RenumberedCurve (e : Equiv.Perm Nat) (r r' : EdgedCurveInspectionResult) : Prop where
  colocation : r'.colocated_points_groups.issues = [] ↔ r.colocated_points_groups.issues = []
  edges : r'.degenerated_edges.issues.Perm (r.degenerated_edges.issues.map e)

/-! ### surfaces -/

/-- the corner (or edge) `x` of a polygon with its new numbers: the polygon has a new number, and its first vertex is
another one -/
def movedCorner (p : Equiv.Perm Nat) (turn : Nat → Nat) (m : SurfaceMesh) (x : PolygonEdge) : PolygonEdge :=
  (p x.1, (x.2 + turn x.1) % m.nbPolygonVertices x.1)

/-- `m'` is `m` with other numbers: `v` for the vertices, `p` for the polygons, `e` for the edges; the vertices of
polygon `i` are turned by `turn i`. -/
structure SurfaceRenumbering {P : Type} (m m' : SurfaceData P) (v p e : Equiv.Perm Nat) (turn : Nat → Nat) :
    Prop where
  points : MovedPoints m.points m'.points v
  nbPolygons : m'.nbPolygons = m.nbPolygons
  polygons : Renumbers p m.nbPolygons
  nbPolygonVertices : ∀ i, i < m.nbPolygons → m'.nbPolygonVertices (p i) = m.nbPolygonVertices i
  polygonVertex : ∀ x, IsPolygonEdge m.toSurfaceMesh x →
    m'.polygonVertex (movedCorner p turn m.toSurfaceMesh x) = v (m.polygonVertex x)
  polygonAdjacent : ∀ x, IsPolygonEdge m.toSurfaceMesh x →
    m'.polygonAdjacent (movedCorner p turn m.toSurfaceMesh x) = (m.polygonAdjacent x).map p
  adjacentExists : ∀ x q, IsPolygonEdge m.toSurfaceMesh x → m.polygonAdjacent x = some q → q < m.nbPolygons
  nbEdges : m'.nbEdges = m.nbEdges
  edges : Renumbers e m.nbEdges
  edgeVertices : ∀ k, k < m.nbEdges → SameEdge (m'.edgeVertices (e k)) (movedEdge v (m.edgeVertices k))
  minimumHeight : ∀ i, i < m.nbPolygons → m'.minimumHeight (p i) = m.minimumHeight i
  polygonAreaSign : ∀ i, i < m.nbPolygons → m'.polygonAreaSign (p i) = m.polygonAreaSign i
  polygonsIntersect : ∀ i j, i < m.nbPolygons → j < m.nbPolygons →
    m'.polygonsIntersect (m'.polygonVertices (p i)) (m'.polygonVertices (p j)) =
      m.polygonsIntersect (m.polygonVertices i) (m.polygonVertices j)

/-- `x` is the corner of a polygon at vertex `i`. -/
def CornerAt (m : SurfaceMesh) (i : Index) (x : PolygonEdge) : Prop :=
  IsPolygonEdge m x ∧ m.polygonVertex x = i

/-- Assumed of the walk around a vertex of a surface: it starts at any corner at this vertex, and visits once each
corner linked to it (through adjacencies), or it raises an exception, which does not depend on the corner. -/
structure WalksFans {P : Type} (m : SurfaceData P) (raises : Index → Prop)
    (linked : Index → PolygonEdge → PolygonEdge → Prop) : Prop where
  refl : ∀ i x, CornerAt m.toSurfaceMesh i x → linked i x x
  symm : ∀ i x y, linked i x y → linked i y x
  trans : ∀ i x y z, linked i x y → linked i y z → linked i x z
  raising : ∀ i, i < m.points.length → raises i → m.polygonsAroundVertex i = .error .openGeodeException
  walking : ∀ i, i < m.points.length → ¬ raises i → ∃ fan, m.polygonsAroundVertex i = .ok fan ∧ fan.Nodup ∧
    ((fan = [] ∧ ∀ x, ¬ CornerAt m.toSurfaceMesh i x) ∨
     ∃ x, CornerAt m.toSurfaceMesh i x ∧ ∀ y, y ∈ fan ↔ CornerAt m.toSurfaceMesh i y ∧ linked i x y)

/-- The links and exceptions of the walks around the vertices do not depend on the numbers. -/
structure SameFans {P : Type} (m : SurfaceData P) (v p : Equiv.Perm Nat) (turn : Nat → Nat)
    (raises raises' : Index → Prop) (linked linked' : Index → PolygonEdge → PolygonEdge → Prop) : Prop where
  raises : ∀ i, i < m.points.length → (raises' (v i) ↔ raises i)
  linked : ∀ i x y, CornerAt m.toSurfaceMesh i x → CornerAt m.toSurfaceMesh i y →
    (linked' (v i) (movedCorner p turn m.toSurfaceMesh x) (movedCorner p turn m.toSurfaceMesh y) ↔ linked i x y)

/-- The lists of `r'` are those of `r` with the other numbers. -/
structure RenumberedSurface (m : SurfaceMesh) (v p e : Equiv.Perm Nat) (turn : Nat → Nat)
    (r r' : SurfaceInspectionResult) : Prop where
  adjacency : r'.polygon_edges_with_wrong_adjacency.issues.Perm
    (r.polygon_edges_with_wrong_adjacency.issues.map (movedCorner p turn m))
  colocation : r'.colocated_points_groups.issues = [] ↔ r.colocated_points_groups.issues = []
  edges : r'.degenerated_edges.issues.Perm (r.degenerated_edges.issues.map e)
  polygons : r'.degenerated_polygons.issues.Perm (r.degenerated_polygons.issues.map p)
  manifoldEdges : r'.non_manifold_edges.issues.Perm
    (r.non_manifold_edges.issues.map fun x => sortedEdge (movedEdge v x))
  manifoldVertices : r'.non_manifold_vertices.issues.Perm (r.non_manifold_vertices.issues.map v)
  intersecting : ∀ i j, ((p i, p j) ∈ r'.intersecting_elements.issues ∨ (p j, p i) ∈ r'.intersecting_elements.issues) ↔
    ((i, j) ∈ r.intersecting_elements.issues ∨ (j, i) ∈ r.intersecting_elements.issues)
  negative : r'.negative_polygons.issues.Perm (r.negative_polygons.issues.map p)

/-! ### solids -/

/-- the corner or facet of a polyhedron, the polyhedron having its new number -/
def movedFacet (p : Equiv.Perm Nat) (x : PolyhedronFacet) : PolyhedronFacet := (p x.1, x.2)

/-- `m'` is `m` with other numbers: `v` for the vertices, `p` for the polyhedra, `e` for the edges. Comparison and
normal form of facets are only sensitive to the equality of vertices. -/
structure SolidRenumbering {P : Type} (lib : Library P) (m m' : SolidData P) (v p e : Equiv.Perm Nat) : Prop where
  points : MovedPoints m.points m'.points v
  nbPolyhedra : m'.nbPolyhedra = m.nbPolyhedra
  polyhedra : Renumbers p m.nbPolyhedra
  nbPolyhedronFacets : ∀ i, i < m.nbPolyhedra → m'.nbPolyhedronFacets (p i) = m.nbPolyhedronFacets i
  polyhedronFacetVertices : ∀ x, IsPolyhedronFacet m.toSolidMesh x →
    m'.polyhedronFacetVertices (movedFacet p x) = (m.polyhedronFacetVertices x).map v
  polyhedronAdjacent : ∀ x, IsPolyhedronFacet m.toSolidMesh x →
    m'.polyhedronAdjacent (movedFacet p x) = (m.polyhedronAdjacent x).map p
  adjacentExists : ∀ x q, IsPolyhedronFacet m.toSolidMesh x → m.polyhedronAdjacent x = some q → q < m.nbPolyhedra
  nbPolyhedronVertices : ∀ i, i < m.nbPolyhedra → m'.nbPolyhedronVertices (p i) = m.nbPolyhedronVertices i
  polyhedronVertex : ∀ i k, i < m.nbPolyhedra → k < m.nbPolyhedronVertices i →
    m'.polyhedronVertex (p i, k) = v (m.polyhedronVertex (i, k))
  polyhedronEdgesVertices : ∀ i, i < m.nbPolyhedra →
    m'.polyhedronEdgesVertices (p i) = (m.polyhedronEdgesVertices i).map (movedEdge v)
  nbEdges : m'.nbEdges = m.nbEdges
  edges : Renumbers e m.nbEdges
  edgeVertices : ∀ k, k < m.nbEdges → SameEdge (m'.edgeVertices (e k)) (movedEdge v (m.edgeVertices k))
  minimumHeight : ∀ i, i < m.nbPolyhedra → m'.minimumHeight (p i) = m.minimumHeight i
  tetrahedronVolumeSign : ∀ a b c d, m'.tetrahedronVolumeSign (v a) (v b) (v c) (v d) = m.tetrahedronVolumeSign a b c d
  polyhedronVolume : ∀ i, i < m.nbPolyhedra → m'.polyhedronVolume (p i) = m.polyhedronVolume i
  opposite : ∀ x y, IsPolyhedronFacet m.toSolidMesh x → IsPolyhedronFacet m.toSolidMesh y →
    lib.isOpposite ((m.polyhedronFacetVertices x).map v) ((m.polyhedronFacetVertices y).map v) =
      lib.isOpposite (m.polyhedronFacetVertices x) (m.polyhedronFacetVertices y)
  cycle : ∀ x y, IsPolyhedronFacet m.toSolidMesh x → IsPolyhedronFacet m.toSolidMesh y →
    (lib.cycle ((m.polyhedronFacetVertices x).map v) = lib.cycle ((m.polyhedronFacetVertices y).map v) ↔
      lib.cycle (m.polyhedronFacetVertices x) = lib.cycle (m.polyhedronFacetVertices y))

/-- `x` is the corner of a polyhedron at vertex `i`. -/
def SolidCornerAt {P : Type} (m : SolidData P) (i : Index) (x : Nat × Nat) : Prop :=
  x.1 < m.nbPolyhedra ∧ x.2 < m.nbPolyhedronVertices x.1 ∧ m.polyhedronVertex x = i

/-- polyhedron `q` has the edge `e` -/
def HasEdge {P : Type} (m : SolidData P) (e : Index × Index) (q : Index) : Prop :=
  q < m.nbPolyhedra ∧ ∃ x ∈ m.polyhedronEdgesVertices q, SameEdge x e

/-- Assumed of the walk around a vertex of a solid: as for surfaces, without exception. -/
structure WalksSolidFans {P : Type} (m : SolidData P) (linked : Index → Nat × Nat → Nat × Nat → Prop) : Prop where
  refl : ∀ i x, SolidCornerAt m i x → linked i x x
  symm : ∀ i x y, linked i x y → linked i y x
  trans : ∀ i x y z, linked i x y → linked i y z → linked i x z
  walking : ∀ i, i < m.points.length → ∃ fan, m.polyhedraAroundVertex i = .ok fan ∧ fan.Nodup ∧
    ((fan = [] ∧ ∀ x, ¬ SolidCornerAt m i x) ∨
     ∃ x, SolidCornerAt m i x ∧ ∀ y, y ∈ fan ↔ SolidCornerAt m i y ∧ linked i x y)

/-- Assumed of the turn around an edge of a solid from a polyhedron: it visits once each polyhedron having this edge
and linked to the first one, or it raises an exception, which does not depend on the polyhedron; the direction of the
edge does not matter. -/
structure TurnsAround {P : Type} (m : SolidData P) (raises : Index × Index → Prop)
    (linked : Index × Index → Index → Index → Prop) : Prop where
  refl : ∀ e q, HasEdge m e q → linked e q q
  symm : ∀ e x y, linked e x y → linked e y x
  trans : ∀ e x y z, linked e x y → linked e y z → linked e x z
  reverse : ∀ a b x y, (raises (a, b) ↔ raises (b, a)) ∧ (linked (a, b) x y ↔ linked (b, a) x y)
  raising : ∀ e q, HasEdge m e q → raises e → m.polyhedraAroundEdge e q = .error .openGeodeException
  turning : ∀ e q, HasEdge m e q → ¬ raises e → ∃ fan, m.polyhedraAroundEdge e q = .ok fan ∧ fan.Nodup ∧
    ∀ y, y ∈ fan ↔ HasEdge m e y ∧ linked e q y

/-- The links and exceptions of the walks and turns do not depend on the numbers. -/
structure SameSolidFans {P : Type} (m : SolidData P) (v p : Equiv.Perm Nat)
    (corners corners' : Index → Nat × Nat → Nat × Nat → Prop) (raises raises' : Index × Index → Prop)
    (linked linked' : Index × Index → Index → Index → Prop) : Prop where
  corners : ∀ i x y, SolidCornerAt m i x → SolidCornerAt m i y →
    (corners' (v i) (movedFacet p x) (movedFacet p y) ↔ corners i x y)
  raises : ∀ e, raises' (movedEdge v e) ↔ raises e
  linked : ∀ e x y, HasEdge m e x → HasEdge m e y → (linked' (movedEdge v e) (p x) (p y) ↔ linked e x y)

/-- The lists of `r'` are those of `r` with the other numbers. -/
structure RenumberedSolid {P : Type} (lib : Library P) (m : SolidMesh) (v p e : Equiv.Perm Nat)
    (r r' : SolidInspectionResult) : Prop where
  adjacency : r'.polyhedron_facets_with_wrong_adjacency.issues.Perm
    (r.polyhedron_facets_with_wrong_adjacency.issues.map (movedFacet p))
  colocation : r'.colocated_points_groups.issues = [] ↔ r.colocated_points_groups.issues = []
  edges : r'.degenerated_edges.issues.Perm (r.degenerated_edges.issues.map e)
  polyhedra : r'.degenerated_polyhedra.issues.Perm (r.degenerated_polyhedra.issues.map p)
  manifoldVertices : r'.non_manifold_vertices.issues.Perm (r.non_manifold_vertices.issues.map v)
  manifoldEdges : (r'.non_manifold_edges.issues.map sortedEdge).Perm
    (r.non_manifold_edges.issues.map fun x => sortedEdge (movedEdge v x))
  manifoldFacets : ∀ x, IsPolyhedronFacet m x →
    (lib.cycle ((m.polyhedronFacetVertices x).map v) ∈ r'.non_manifold_facets.issues ↔
      lib.cycle (m.polyhedronFacetVertices x) ∈ r.non_manifold_facets.issues)
  manifoldFacetsOnly : ∀ f ∈ r'.non_manifold_facets.issues, ∃ x, IsPolyhedronFacet m x ∧
    f = lib.cycle ((m.polyhedronFacetVertices x).map v)
  negative : r'.negative_polyhedra.issues.Perm (r.negative_polyhedra.issues.map p)

end Inspector.Spec
