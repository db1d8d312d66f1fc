import Verif.Spec.LinkedSurfaces
import Verif.Spec.ExpectedCmvs
/-
Specification side of C103: a closed boundary, in terms of the set of the boundary surfaces of the block, of their
common lines and of their polygons, whatever the order in which they are stored.
-/
namespace Inspector.Spec

/-- `piece` are the surfaces of `Q` linked to `a` through common boundary lines, in any order. -/
def Piece (m : TopologyModel) (Q : List Uuid) (a : Uuid) (piece : List TopologyComponent) : Prop :=
  piece.Nodup ∧ ∀ c, c ∈ piece ↔ c ∈ m.components .surface ∧ c.id ∈ Q ∧ LinkedIn m Q a c.id

/-- The vertices of the surface `c` are inside the closed surface `mesh`. -/
def SurfaceInside (g : BlockGeometry) (mesh : FusedSurface) (c : TopologyComponent) : Prop :=
  ∀ v < c.nbVertices, g.isVertexInside mesh c.id v = .ok true

/-- The piece of `a`, its polygons being glued along unique vertices, contains the vertices of the surfaces of `Q` which
are not in it. -/
def PieceEncloses (m : TopologyModel) (g : BlockGeometry) (Q : List Uuid) (a : Uuid) : Prop :=
  ∃ piece mesh, Piece m Q a piece ∧ IsFusion m (piece.flatMap (facetsOfSurface m)) mesh ∧
    ∀ c ∈ m.components .surface, c.id ∈ Q → ¬ LinkedIn m Q a c.id → SurfaceInside g mesh c

/-- The boundary of the block is closed: it is in one piece, or one of its pieces encloses the others. -/
def ClosedBoundary (m : TopologyModel) (g : BlockGeometry) (block : Uuid) : Prop :=
  AllLinked m (boundarySurfaces m block) ∨
  ∃ a ∈ boundarySurfaces m block, PieceEncloses m g (boundarySurfaces m block) a

/-- Points are inside a closed surface or not whatever the order of its polygons and the numbering of its points. -/
def InsideOfShape (m : TopologyModel) (g : BlockGeometry) : Prop :=
  ∀ polygons polygons' mesh mesh', polygons.Perm polygons' → IsFusion m polygons mesh → IsFusion m polygons' mesh' →
    ∀ s v, g.isVertexInside mesh s v = g.isVertexInside mesh' s v

/-- The box around surfaces. -/
def boxAround (g : BlockGeometry) (piece : List TopologyComponent) : g.Box :=
  (piece.map TopologyComponent.id).foldl (fun box s => g.addBox box (g.surfaceBox s)) g.emptyBox

/-- A piece inside another one has a strictly smaller box. -/
def InsideIsSmaller (m : TopologyModel) (g : BlockGeometry) (Q : List Uuid) : Prop :=
  ∀ a ∈ Q, ∀ b ∈ Q, ¬ LinkedIn m Q a b → ∀ p q mesh, Piece m Q a p → Piece m Q b q →
    IsFusion m (p.flatMap (facetsOfSurface m)) mesh → (∀ c ∈ q, SurfaceInside g mesh c) →
    g.contains (boxAround g p) (boxAround g q) = true ∧ g.contains (boxAround g q) (boxAround g p) = false

/-- The same surfaces, with the same polygons and unique vertices, and the same boundaries, in other orders. -/
structure SameBoundaries (m m' : TopologyModel) (block : Uuid) : Prop where
  surfaces : ∀ c, c ∈ m.components .surface ↔ c ∈ m'.components .surface
  boundarySurfaces : ∀ s, ⟨.surface, s⟩ ∈ m.boundaries block ↔ ⟨.surface, s⟩ ∈ m'.boundaries block
  boundaryLines : ∀ s line, ⟨.line, line⟩ ∈ m.boundaries s ↔ ⟨.line, line⟩ ∈ m'.boundaries s
  polygonVertices : ∀ s p, m.polygonVertices s p = m'.polygonVertices s p
  uniqueVertex : ∀ s v, m.uniqueVertex ⟨⟨.surface, s⟩, v⟩ = m'.uniqueVertex ⟨⟨.surface, s⟩, v⟩

end Inspector.Spec
