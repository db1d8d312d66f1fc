import Verif.Spec.Plain
import Verif.Spec.Renumber
/-
Specification side of C122: the same model, whose unique vertices have other numbers.
-/
namespace Inspector.Spec
variable {P : Type}

/-- The same model, the number `uv` of each unique vertex being replaced by `σ uv`: what is asked of the model by the number
of a unique vertex, and the answers that are such numbers, are changed accordingly; nothing else is. -/
def withNumbers (σ : Equiv.Perm Nat) (m : ModelData P) : ModelData P :=
  { m with
    componentMeshVertices := fun uv => m.componentMeshVertices (σ.symm uv)
    uniqueVertex := fun cmv => (m.uniqueVertex cmv).map σ
    lineComponentMeshEdges := fun u v => m.lineComponentMeshEdges (σ.symm u) (σ.symm v)
    surfaceComponentMeshPolygons := fun uvs => m.surfaceComponentMeshPolygons (uvs.map σ.symm) }

/-- `σ` gives other numbers to the unique vertices of a model, and leaves the number `NO_ID`. -/
structure NumbersOf (σ : Equiv.Perm Nat) (m : ModelData P) : Prop where
  range : ∀ uv, σ uv < m.nbUniqueVertices ↔ uv < m.nbUniqueVertices
  noId : σ m.noId = m.noId

/-- Assumed of the colocation search on the positions of the unique vertices: it identifies two of them when, and only when,
two of them are near one another. -/
def UniqueVerticesNear (lib : ModelLibrary P) (near : P → P → Prop) (m : ModelData P) : Prop :=
  ∀ uvs points, ActivePoints lib m uvs points → FindsNear lib.toLibrary near points

/-- Assumed of `is_point_inside_closed_surface`: it reads the points and the polygons of the mesh, not the numbers of the
unique vertices from which it has been built. -/
def ReadsMeshOnly (g : BlockGeometry) : Prop :=
  ∀ mesh mesh' : FusedSurface, mesh.points = mesh'.points → mesh.polygons = mesh'.polygons →
    ∀ s v, g.isVertexInside mesh s v = g.isVertexInside mesh' s v

end Inspector.Spec
