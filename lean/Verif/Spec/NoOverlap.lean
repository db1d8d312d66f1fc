import Verif.Spec.SamePlace
import Verif.Spec.Plane
import Verif.Spec.Space
/-
Specification side of C120: the triangles of the Surfaces of a model, as points of the plane or of the space, and what they
may have in common.
-/
namespace Inspector.Spec

/-- The point of the vertex `k` of the polygon `p` of a Surface (`none` standing for no such vertex). -/
def facePoint {P : Type} (none : P) (s : FaceData P) (p k : Index) : P := (s.points[s.polygonVertex (p, k)]?).getD none

/-- The polygon `p` of the Surface is a triangle. -/
def IsTriangle {P : Type} (s : FaceData P) (p : Index) : Prop := p < s.nbPolygons ∧ s.nbPolygonVertices p = 3

/-- The vertices of a triangle. -/
def triangleVertices {P : Type} (T : P × P × P) : List P := [T.1, T.2.1, T.2.2]

variable {K : Type} [Field K] [LinearOrder K] [IsStrictOrderedRing K]

/-- The triangle `p` of a Surface of a Section. -/
def faceTriangle (s : FaceData (K × K)) (p : Index) : (K × K) × (K × K) × (K × K) :=
  (facePoint (0, 0) s p 0, facePoint (0, 0) s p 1, facePoint (0, 0) s p 2)

/-- The triangle `p` of a Surface of a BRep. -/
def spaceFaceTriangle (s : FaceData (K × K × K)) (p : Index) : (K × K × K) × (K × K × K) × (K × K × K) :=
  (facePoint (0, 0, 0) s p 0, facePoint (0, 0, 0) s p 1, facePoint (0, 0, 0) s p 2)

/-- One of the triangles contains the other. -/
def Nested (T1 T2 : (K × K) × (K × K) × (K × K)) : Prop :=
  (∀ x, InTriangle T1 x → InTriangle T2 x) ∨ ∀ x, InTriangle T2 x → InTriangle T1 x

/-- The triangles have at most one vertex in common. -/
def AtMostOneVertex {P : Type} (T1 T2 : P × P × P) : Prop :=
  ∀ x ∈ triangleVertices T1, x ∈ triangleVertices T2 → ∀ y ∈ triangleVertices T1, y ∈ triangleVertices T2 → x = y

/-- The triangles are not in a same plane, and each edge of one in the plane of the other is an edge of both. -/
def InGeneralPosition (T1 T2 : (K × K × K) × (K × K × K) × (K × K × K)) : Prop :=
  ¬ SamePlane T1 T2 ∧
  (∀ e ∈ spaceSides T1, InPlane T2 e.1 → InPlane T2 e.2 → e.1 ∈ triangleVertices T2 ∧ e.2 ∈ triangleVertices T2) ∧
  ∀ e ∈ spaceSides T2, InPlane T1 e.1 → InPlane T1 e.2 → e.1 ∈ triangleVertices T1 ∧ e.2 ∈ triangleVertices T1

/-- A point is a vertex of both triangles, or is on the edge between two of these. -/
def OnCommonPart (T1 T2 : (K × K × K) × (K × K × K) × (K × K × K)) (x : K × K × K) : Prop :=
  ∃ y z, y ∈ triangleVertices T1 ∧ y ∈ triangleVertices T2 ∧ z ∈ triangleVertices T1 ∧ z ∈ triangleVertices T2 ∧ OnSpaceSegment (y, z) x

end Inspector.Spec
