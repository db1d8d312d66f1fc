import Mathlib.Logic.Relation
import Verif.Spec.Manifold
import Verif.Spec.Adjacency
/-
Specification side of C117 and C118: what a manifold surface or solid is, in terms of the polygons, the polyhedra and
their adjacencies only.
-/
namespace Inspector.Spec

/-! ### surfaces -/

/-- the polygon edges `x` and `y` are glued: the same two vertices in opposite directions, the polygon of each being the
adjacent of the other -/
def Glued (mesh : SurfaceMesh) (x y : PolygonEdge) : Prop :=
  IsPolygonEdge mesh x ∧ IsPolygonEdge mesh y ∧
  polygonEdgeEnds mesh y = ((polygonEdgeEnds mesh x).2, (polygonEdgeEnds mesh x).1) ∧
  mesh.polygonAdjacent x = some y.1 ∧ mesh.polygonAdjacent y = some x.1

/-- `x` is a corner of a polygon at the vertex `v` -/
def CornerOf (mesh : SurfaceMesh) (v : Index) (x : PolygonEdge) : Prop :=
  IsPolygonEdge mesh x ∧ mesh.polygonVertex x = v

/-- crossing the edge that starts at the corner `x` leads to the corner `y`, at the end of the edge glued to it -/
def Turn (mesh : SurfaceMesh) (x y : PolygonEdge) : Prop :=
  ∃ f, Glued mesh x f ∧ y = (f.1, (f.2 + 1) % mesh.nbPolygonVertices f.1)

/-- one turns from the corner `x` to the corner `y` by crossing edges, in any direction -/
def TurnTo (mesh : SurfaceMesh) : PolygonEdge → PolygonEdge → Prop := Relation.EqvGen (Turn mesh)

/-- A polygon edge is either alone on its edge and has no adjacent, or it is glued to one other polygon edge and these
two are alone on their edge. -/
def EdgeIsManifold (mesh : SurfaceMesh) (x : PolygonEdge) : Prop :=
  (mesh.polygonAdjacent x = none ∧
    ∀ y, IsPolygonEdge mesh y → SameEdge (polygonEdgeEnds mesh y) (polygonEdgeEnds mesh x) → y = x) ∨
  (∃ y, y ≠ x ∧ Glued mesh x y ∧
    ∀ z, IsPolygonEdge mesh z → SameEdge (polygonEdgeEnds mesh z) (polygonEdgeEnds mesh x) → z = x ∨ z = y)

/-- The surface is a manifold with border whose polygons are all oriented the same way: at every edge there is one
polygon, or two polygons which run along it in opposite directions and know each other, and the polygons at every vertex
make one fan. -/
structure OrientedManifold (mesh : SurfaceMesh) : Prop where
  edges : ∀ x, IsPolygonEdge mesh x → EdgeIsManifold mesh x
  vertices : ∀ v x y, CornerOf mesh v x → CornerOf mesh v y → TurnTo mesh x y

/-- What is assumed of the surface: adjacents exist, no edge joins a vertex to itself, and, when adjacencies are
reciprocal, `polygons_around_vertex` (external) gives the corners met by turning around the vertex from one of its
corners. -/
structure Walkable (mesh : SurfaceTopo) : Prop where
  adjacents : ∀ x q, IsPolygonEdge mesh.toSurfaceMesh x → mesh.polygonAdjacent x = some q → q < mesh.nbPolygons
  edges : ∀ x, IsPolygonEdge mesh.toSurfaceMesh x →
    (polygonEdgeEnds mesh.toSurfaceMesh x).1 ≠ (polygonEdgeEnds mesh.toSurfaceMesh x).2
  walks : (¬ ∃ x, WrongEdge mesh.toSurfaceMesh x) → ∀ v, v < mesh.nbVertices →
    ∃ fan, mesh.polygonsAroundVertex v = .ok fan ∧ fan.Nodup ∧
      ((fan = [] ∧ ¬ ∃ x, CornerOf mesh.toSurfaceMesh v x) ∨
       ∃ start, CornerOf mesh.toSurfaceMesh v start ∧ ∀ x, x ∈ fan ↔ TurnTo mesh.toSurfaceMesh start x)

/-! ### solids -/

/-- the facets `x` and `y` are glued: opposite, the polyhedron of each being the adjacent of the other -/
def GluedFacets (opposite : List Index → List Index → Bool) (mesh : SolidMesh) (x y : PolyhedronFacet) : Prop :=
  IsPolyhedronFacet mesh x ∧ IsPolyhedronFacet mesh y ∧
  opposite (mesh.polyhedronFacetVertices x) (mesh.polyhedronFacetVertices y) = true ∧
  mesh.polyhedronAdjacent x = some y.1 ∧ mesh.polyhedronAdjacent y = some x.1

/-- the other polyhedron facets that are the same facet as `x` -/
def OtherFacet (same : List Index → List Index → Bool) (mesh : SolidMesh) (x y : PolyhedronFacet) : Prop :=
  IsPolyhedronFacet mesh y ∧ y ≠ x ∧ same (mesh.polyhedronFacetVertices y) (mesh.polyhedronFacetVertices x) = true

/-- The facet has no adjacent and no other polyhedron has it. -/
def OuterFacet (same : List Index → List Index → Bool) (mesh : SolidMesh) (x : PolyhedronFacet) : Prop :=
  mesh.polyhedronAdjacent x = none ∧ ¬ ∃ y, OtherFacet same mesh x y

/-- The facet is glued to the facet of one other polyhedron, and no third polyhedron has it. -/
def InnerFacet (opposite same : List Index → List Index → Bool) (mesh : SolidMesh) (x : PolyhedronFacet) : Prop :=
  ∃ y, OtherFacet same mesh x y ∧ GluedFacets opposite mesh x y ∧ ∀ z, OtherFacet same mesh x z → z = y

/-- A crack: two polyhedra have the facet, and it is said to be on the border of both. -/
def CrackedFacet (same : List Index → List Index → Bool) (mesh : SolidMesh) (x : PolyhedronFacet) : Prop :=
  mesh.polyhedronAdjacent x = none ∧
  ∃ y, OtherFacet same mesh x y ∧ mesh.polyhedronAdjacent y = none ∧ ∀ z, OtherFacet same mesh x z → z = y

/-- `x` is a corner of a polyhedron at the vertex `v` -/
def SolidCornerOf (mesh : SolidTopo) (v : Index) (x : Nat × Nat) : Prop :=
  x.1 < mesh.nbPolyhedra ∧ x.2 < mesh.nbPolyhedronVertices x.1 ∧ mesh.polyhedronVertex x = v

/-- one goes from the corner `x` to the corner `y`, both at the vertex `v`, through glued facets at this vertex -/
def AroundVertex (opposite : List Index → List Index → Bool) (mesh : SolidTopo) (v : Index) :
    Nat × Nat → Nat × Nat → Prop :=
  Relation.EqvGen fun x y => SolidCornerOf mesh v x ∧ SolidCornerOf mesh v y ∧
    ∃ f g, GluedFacets opposite mesh.toSolidMesh f g ∧ f.1 = x.1 ∧ g.1 = y.1 ∧ v ∈ mesh.polyhedronFacetVertices f

/-- polyhedron `p` has the edge `e` -/
def PolyhedronHasEdge (mesh : SolidTopo) (e : Index × Index) (p : Index) : Prop :=
  p < mesh.nbPolyhedra ∧ ∃ e' ∈ mesh.polyhedronEdgesVertices p, SameEdge e' e

/-- one goes from polyhedron `p` to polyhedron `q`, both having the edge `e`, through glued facets having the edge -/
def AroundEdge (opposite : List Index → List Index → Bool) (mesh : SolidTopo) (e : Index × Index) :
    Index → Index → Prop :=
  Relation.EqvGen fun p q => PolyhedronHasEdge mesh e p ∧ PolyhedronHasEdge mesh e q ∧
    ∃ f g, GluedFacets opposite mesh.toSolidMesh f g ∧ f.1 = p ∧ g.1 = q ∧
      e.1 ∈ mesh.polyhedronFacetVertices f ∧ e.2 ∈ mesh.polyhedronFacetVertices f

/-- The solid is conformal: every facet is on the border or glued, and the polyhedra around every vertex and every edge
hold together. -/
structure ConformalSolid (opposite same : List Index → List Index → Bool) (mesh : SolidTopo) : Prop where
  facets : ∀ x, IsPolyhedronFacet mesh.toSolidMesh x →
    OuterFacet same mesh.toSolidMesh x ∨ InnerFacet opposite same mesh.toSolidMesh x
  vertices : ∀ v x y, SolidCornerOf mesh v x → SolidCornerOf mesh v y → AroundVertex opposite mesh v x y
  edges : ∀ e p q, PolyhedronHasEdge mesh e p → PolyhedronHasEdge mesh e q → AroundEdge opposite mesh e p q

/-- The same but for cracks. -/
structure ConformalButCracks (opposite same : List Index → List Index → Bool) (mesh : SolidTopo) : Prop where
  facets : ∀ x, IsPolyhedronFacet mesh.toSolidMesh x →
    OuterFacet same mesh.toSolidMesh x ∨ InnerFacet opposite same mesh.toSolidMesh x ∨
      CrackedFacet same mesh.toSolidMesh x
  vertices : ∀ v x y, SolidCornerOf mesh v x → SolidCornerOf mesh v y → AroundVertex opposite mesh v x y
  edges : ∀ e p q, PolyhedronHasEdge mesh e p → PolyhedronHasEdge mesh e q → AroundEdge opposite mesh e p q

/-- What is assumed of the solid: opposite facets are the same facet, no facet is its own opposite; adjacents exist; a polyhedron has a vertex or an edge once; and,
when adjacencies are reciprocal, `polyhedra_around_vertex` and `polyhedra_around_edge` (external) give what is met by going
around the vertex from one of its corners, and around the edge from the given polyhedron. -/
structure WalkableSolid (opposite same : List Index → List Index → Bool) (mesh : SolidTopo) : Prop where
  opposites : ∀ a b, opposite a b = true → same b a = true
  noOwnOpposite : ∀ x, IsPolyhedronFacet mesh.toSolidMesh x →
    opposite (mesh.polyhedronFacetVertices x) (mesh.polyhedronFacetVertices x) = false
  adjacents : ∀ x q, IsPolyhedronFacet mesh.toSolidMesh x → mesh.polyhedronAdjacent x = some q → q < mesh.nbPolyhedra
  edgesOnce : ∀ p, p < mesh.nbPolyhedra → (mesh.polyhedronEdgesVertices p).Pairwise fun a b => ¬ SameEdge a b
  walks : (¬ ∃ x, WrongFacet opposite mesh.toSolidMesh x) → ∀ v, v < mesh.nbVertices →
    ∃ fan, mesh.polyhedraAroundVertex v = .ok fan ∧ fan.Nodup ∧
      ((fan = [] ∧ ¬ ∃ x, SolidCornerOf mesh v x) ∨
       ∃ start, SolidCornerOf mesh v start ∧ ∀ x, x ∈ fan ↔ AroundVertex opposite mesh v start x)
  turns : (¬ ∃ x, WrongFacet opposite mesh.toSolidMesh x) → ∀ p e, p < mesh.nbPolyhedra →
    e ∈ mesh.polyhedronEdgesVertices p →
    ∃ fan, mesh.polyhedraAroundEdge e p = .ok fan ∧ fan.Nodup ∧ ∀ q, q ∈ fan ↔ AroundEdge opposite mesh e p q

end Inspector.Spec
