import Verif.Spec.Degeneration
import Verif.Model.Negative
/-
Specification side of C32.
-/
namespace Inspector.Spec

/-- `p` is a polyhedron of negative volume: by the sign of the volume of the tetrahedron made of its
vertices when it has four of them, otherwise by its volume. -/
def NegativePolyhedron (mesh : SignedSolid) (p : Index) : Prop :=
  p < mesh.nbPolyhedra ∧
  ((mesh.nbPolyhedronVertices p = 4 ∧
      mesh.tetrahedronVolumeSign (mesh.polyhedronVertex (p, 0)) (mesh.polyhedronVertex (p, 1))
        (mesh.polyhedronVertex (p, 2)) (mesh.polyhedronVertex (p, 3)) = .negative) ∨
   (mesh.nbPolyhedronVertices p ≠ 4 ∧ Below (mesh.polyhedronVolume p) (.num 0)))

/-- `p` is a polygon of negative area. -/
def NegativePolygon (mesh : SignedSurface) (p : Index) : Prop :=
  p < mesh.nbPolygons ∧ mesh.polygonAreaSign p = .negative

end Inspector.Spec
