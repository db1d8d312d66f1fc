import Verif.Spec.Common
import Verif.Model.Manifold
/-
Specification side of C24-C31.
-/
namespace Inspector.Spec

/-- two pairs of vertices are the same edge, whatever their directions -/
def SameEdge (a b : Index × Index) : Prop := a = b ∨ (a.1 = b.2 ∧ a.2 = b.1)

instance (a b : Index × Index) : Decidable (SameEdge a b) := by unfold SameEdge; infer_instance

/-- the polygon edges of a mesh -/
def polygonEdges (mesh : SurfaceMesh) : List PolygonEdge := pairs mesh.nbPolygons mesh.nbPolygonVertices

/-- the two vertices of a polygon edge -/
def polygonEdgeEnds (mesh : SurfaceMesh) (x : PolygonEdge) : Index × Index :=
  (mesh.polygonVertex x, mesh.polygonVertex (x.1, (x.2 + 1) % mesh.nbPolygonVertices x.1))

/-- the polygon edges that are on the edge `e` -/
def usesOfEdge (mesh : SurfaceMesh) (e : Index × Index) : List PolygonEdge :=
  (polygonEdges mesh).filter fun x => decide (SameEdge (polygonEdgeEnds mesh x) e)

/-- an edge used by some polygon edge without adjacent -/
def DeclaredBorder (mesh : SurfaceMesh) (e : Index × Index) : Prop :=
  ∃ x ∈ usesOfEdge mesh e, mesh.polygonAdjacent x = none

/-- `e` (smallest vertex first) is an edge of the mesh and is not manifold: on the border it should be
used once, elsewhere twice. -/
def NonManifoldEdge (mesh : SurfaceMesh) (e : Index × Index) : Prop :=
  e.1 ≤ e.2 ∧ usesOfEdge mesh e ≠ [] ∧
  ((DeclaredBorder mesh e ∧ (usesOfEdge mesh e).length ≠ 1) ∨
   (¬ DeclaredBorder mesh e ∧ (usesOfEdge mesh e).length ≠ 2))

/-- the fan lists each polygon corner at `v` exactly once -/
def IsWholeFan (mesh : SurfaceMesh) (v : Index) (fan : List PolygonEdge) : Prop :=
  fan.Nodup ∧ ∀ x : PolygonEdge, x ∈ fan ↔
    x.1 < mesh.nbPolygons ∧ x.2 < mesh.nbPolygonVertices x.1 ∧ mesh.polygonVertex x = v

/-- same, for the polyhedra of a solid -/
def IsWholeSolidFan (mesh : SolidTopo) (v : Index) (fan : List (Nat × Nat)) : Prop :=
  fan.Nodup ∧ ∀ x : Nat × Nat, x ∈ fan ↔
    x.1 < mesh.nbPolyhedra ∧ x.2 < mesh.nbPolyhedronVertices x.1 ∧ mesh.polyhedronVertex x = v

/-- the (polyhedron, edge) pairs of a solid, in order -/
def solidEdgeUses (mesh : SolidTopo) : List (Index × (Index × Index)) :=
  (List.range mesh.nbPolyhedra).flatMap fun p => (mesh.polyhedronEdgesVertices p).map fun e => (p, e)

/-- polyhedra having the edge, once for each time they have it -/
def polyhedraHaving (mesh : SolidTopo) (e : Index × Index) : List Index :=
  ((solidEdgeUses mesh).filter fun x => decide (SameEdge x.2 e)).map Prod.fst

/-- `e` is met for the first time in polyhedron `p` -/
def FirstUse (mesh : SolidTopo) (p : Index) (e : Index × Index) : Prop :=
  ∃ before after, solidEdgeUses mesh = before ++ (p, e) :: after ∧ ∀ x ∈ before, ¬ SameEdge x.2 e

/-- turning around `e` from `p` does not give the polyhedra having `e`, or raises an exception -/
def BadTurn (mesh : SolidTopo) (p : Index) (e : Index × Index) : Prop :=
  mesh.polyhedraAroundEdge e p = .error .openGeodeException ∨
  ∃ fan, mesh.polyhedraAroundEdge e p = .ok fan ∧ ¬ fan.Perm (polyhedraHaving mesh e)

/-- the polyhedron facets that are the facet `f` up to the normalisation `cycle` -/
def usesOfFacet (cycle : List Index → List Index) (mesh : SolidMesh) (f : List Index) : List (Nat × Nat) :=
  (pairs mesh.nbPolyhedra mesh.nbPolyhedronFacets).filter
    fun x => decide (cycle (mesh.polyhedronFacetVertices x) = f)

/-- a polygon edge of a Surface of a model seen once as interior edge: it has an adjacent polygon which
is not before its own polygon -/
def interiorUses (model : ManifoldModel) (e : Index × Index) : List Uuid :=
  (model.surfaces.filter fun s => s.active).flatMap fun s =>
    ((polygonEdges s.mesh.toSurfaceMesh).filter fun x =>
      (match s.mesh.polygonAdjacent x with
        | none => false
        | some adj => decide (x.1 ≤ adj)) &&
      decide (SameEdge (s.uniqueVertex (polygonEdgeEnds s.mesh.toSurfaceMesh x).1,
        s.uniqueVertex (polygonEdgeEnds s.mesh.toSurfaceMesh x).2) e)).map fun _ => s.id

/-- an active Line made of one edge, embedded in a Surface, whose two unique vertices have no other
component mesh vertex -/
def IsolatedEdgeLine (model : ManifoldModel) (l : ManifoldLine) : Prop :=
  l.active = true ∧ l.nbEdges = 1 ∧ 0 < l.nbEmbeddingSurfaces ∧
  model.nbComponentMeshVertices (l.uniqueVertex (l.edgeVertex 0)) ≤ 1 ∧
  model.nbComponentMeshVertices (l.uniqueVertex (l.edgeVertex 1)) ≤ 1

instance (model : ManifoldModel) (l : ManifoldLine) : Decidable (IsolatedEdgeLine model l) := by
  unfold IsolatedEdgeLine; infer_instance

/-- an active Surface made of one polygon, embedded in a Block, whose unique vertices have no other
component mesh vertex -/
def IsolatedFacetSurface (model : ManifoldModel) (s : ManifoldSurface) : Prop :=
  s.active = true ∧ s.mesh.nbPolygons = 1 ∧ 0 < s.nbEmbeddingBlocks ∧
  ∀ i, i < s.mesh.nbPolygonVertices 0 →
    model.nbComponentMeshVertices (s.uniqueVertex (s.mesh.polygonVertex (0, i))) ≤ 1

instance (model : ManifoldModel) (s : ManifoldSurface) : Decidable (IsolatedFacetSurface model s) := by
  unfold IsolatedFacetSurface; infer_instance

/-- Polygon vertices are vertices of the mesh. -/
def VerticesExist (mesh : SurfaceTopo) : Prop :=
  ∀ p k, p < mesh.nbPolygons → k < mesh.nbPolygonVertices p → mesh.polygonVertex (p, k) < mesh.nbVertices

/-- Polyhedron vertices are vertices of the mesh. -/
def SolidVerticesExist (mesh : SolidTopo) : Prop :=
  ∀ p k, p < mesh.nbPolyhedra → k < mesh.nbPolyhedronVertices p → mesh.polyhedronVertex (p, k) < mesh.nbVertices

/-- The walk around `v` succeeds and is not the whole fan. -/
def BrokenFan (mesh : SurfaceTopo) (v : Index) : Prop :=
  v < mesh.nbVertices ∧ ∃ fan, mesh.polygonsAroundVertex v = .ok fan ∧ ¬ IsWholeFan mesh.toSurfaceMesh v fan

/-- same for solids -/
def BrokenSolidFan (mesh : SolidTopo) (v : Index) : Prop :=
  v < mesh.nbVertices ∧ ∃ fan, mesh.polyhedraAroundVertex v = .ok fan ∧ ¬ IsWholeSolidFan mesh v fan

/-- What is assumed of the Surfaces: vertices in range, sizes, and walks raising only OpenGeode
exceptions. -/
structure SurfaceOk (s : ManifoldSurface) : Prop where
  vertices : VerticesExist s.mesh
  walks : ∀ v, v < s.mesh.nbVertices → ∀ f, s.mesh.polygonsAroundVertex v = .error f → f = .openGeodeException
  nbVertices : s.mesh.nbVertices < 2 ^ 32
  nbEdges : (polygonEdges s.mesh.toSurfaceMesh).length < 2 ^ 32
  uses : ∀ e, (usesOfEdge s.mesh.toSurfaceMesh e).length < 256

/-- What is assumed of the Blocks. -/
structure BlockOk (b : MeasuredComponent SolidTopo) : Prop where
  vertices : SolidVerticesExist b.mesh
  walks : ∀ v, v < b.mesh.nbVertices → ∃ fan, b.mesh.polyhedraAroundVertex v = .ok fan
  turns : ∀ x ∈ solidEdgeUses b.mesh, ∀ f, b.mesh.polyhedraAroundEdge x.2 x.1 = .error f → f = .openGeodeException
  turnsOnce : ∀ x ∈ solidEdgeUses b.mesh, ∀ fan, b.mesh.polyhedraAroundEdge x.2 x.1 = .ok fan → fan.Nodup
  nbVertices : b.mesh.nbVertices < 2 ^ 32
  nbEdges : (solidEdgeUses b.mesh).length < 2 ^ 32
  nbFacets : (pairs b.mesh.nbPolyhedra b.mesh.nbPolyhedronFacets).length < 2 ^ 32

/-- active Surfaces of a model -/
def activeSurfaces (m : ManifoldModel) : List ManifoldSurface := m.surfaces.filter fun s => s.active
/-- active Blocks of a model -/
def activeBlocks (m : ManifoldModel) : List (MeasuredComponent SolidTopo) := m.blocks.filter fun b => b.active

end Inspector.Spec
