import Mathlib.Algebra.Order.Field.Basic
import Verif.Spec.Triangles
/-
Specification side of C113: geometry of the space, over any ordered field.
-/
namespace Inspector.Spec
variable {K : Type} [Field K] [LinearOrder K] [IsStrictOrderedRing K]

/-- The vector from a point to another one. -/
def vector (a b : K × K × K) : K × K × K := (b.1 - a.1, b.2.1 - a.2.1, b.2.2 - a.2.2)

/-- The cross product of two vectors. -/
def crossProduct (u v : K × K × K) : K × K × K :=
  (u.2.1 * v.2.2 - u.2.2 * v.2.1, u.2.2 * v.1 - u.1 * v.2.2, u.1 * v.2.1 - u.2.1 * v.1)

/-- The dot product of two vectors. -/
def dotProduct (u v : K × K × K) : K := u.1 * v.1 + u.2.1 * v.2.1 + u.2.2 * v.2.2

/-- A normal vector of a triangle. -/
def normal (T : (K × K × K) × (K × K × K) × (K × K × K)) : K × K × K := crossProduct (vector T.1 T.2.1) (vector T.1 T.2.2)

/-- The three vertices of a triangle are on a line. -/
def FlatInSpace (T : (K × K × K) × (K × K × K) × (K × K × K)) : Prop := normal T = (0, 0, 0)

/-- A point is in the plane of a triangle. -/
def InPlane (T : (K × K × K) × (K × K × K) × (K × K × K)) (x : K × K × K) : Prop := dotProduct (normal T) (vector T.1 x) = 0

/-- A point is on a segment of the space (ends included). -/
def OnSpaceSegment (s : (K × K × K) × (K × K × K)) (x : K × K × K) : Prop :=
  ∃ t : K, 0 ≤ t ∧ t ≤ 1 ∧ x.1 = s.1.1 + t * (s.2.1 - s.1.1) ∧ x.2.1 = s.1.2.1 + t * (s.2.2.1 - s.1.2.1) ∧
    x.2.2 = s.1.2.2 + t * (s.2.2.2 - s.1.2.2)

/-- A point is in a triangle of the space (edges included). -/
def InSpaceTriangle (T : (K × K × K) × (K × K × K) × (K × K × K)) (x : K × K × K) : Prop :=
  ∃ u v w : K, 0 ≤ u ∧ 0 ≤ v ∧ 0 ≤ w ∧ u + v + w = 1 ∧ x.1 = u * T.1.1 + v * T.2.1.1 + w * T.2.2.1 ∧
    x.2.1 = u * T.1.2.1 + v * T.2.1.2.1 + w * T.2.2.2.1 ∧ x.2.2 = u * T.1.2.2 + v * T.2.1.2.2 + w * T.2.2.2.2

/-- The edges of a triangle. -/
def spaceSides (T : (K × K × K) × (K × K × K) × (K × K × K)) : List ((K × K × K) × (K × K × K)) :=
  [(T.1, T.2.1), (T.2.1, T.2.2), (T.2.2, T.1)]

/-- The two triangles are in a same plane. -/
def SamePlane (T1 T2 : (K × K × K) × (K × K × K) × (K × K × K)) : Prop :=
  InPlane T2 T1.1 ∧ InPlane T2 T1.2.1 ∧ InPlane T2 T1.2.2

/-- No edge of a triangle is in the plane of the other one. -/
def NoEdgeInPlane (T1 T2 : (K × K × K) × (K × K × K) × (K × K × K)) : Prop :=
  (∀ e ∈ spaceSides T1, ¬ (InPlane T2 e.1 ∧ InPlane T2 e.2)) ∧ ∀ e ∈ spaceSides T2, ¬ (InPlane T1 e.1 ∧ InPlane T1 e.2)

/-- What is assumed of the predicates of the space (external, OpenGeode computes them exactly), only for segments which are not
in the plane of the triangle: they are said to be outside the triangle exactly when they have no point in common with it, and
the positions tell whether this point is an end of the segment and a vertex of the triangle. -/
structure ExactSpace (g : Geometry (K × K × K)) : Prop where
  crossing : ∀ s T, ¬ FlatInSpace T → ¬ (InPlane T s.1 ∧ InPlane T s.2) → (g.segmentTriangle s T).1 ≠ .parallel ∧
    ((g.segmentTriangle s T).1 ≠ .outside ↔ ∃ x, OnSpaceSegment s x ∧ InSpaceTriangle T x)
  first : ∀ s T x, ¬ FlatInSpace T → ¬ (InPlane T s.1 ∧ InPlane T s.2) → OnSpaceSegment s x → InSpaceTriangle T x →
    (g.positionToIndex (g.segmentTriangle s T).1 = some 0 ↔ x = s.1) ∧
    (g.positionToIndex (g.segmentTriangle s T).1 = some 1 ↔ x = s.2)
  second : ∀ s T x, ¬ FlatInSpace T → ¬ (InPlane T s.1 ∧ InPlane T s.2) → OnSpaceSegment s x → InSpaceTriangle T x →
    (g.positionToIndex (g.segmentTriangle s T).2 = some 0 ↔ x = T.1) ∧
    (g.positionToIndex (g.segmentTriangle s T).2 = some 1 ↔ x = T.2.1) ∧
    (g.positionToIndex (g.segmentTriangle s T).2 = some 2 ↔ x = T.2.2)

/-- The triangle of three vertices of a mesh. -/
def spaceTriangleAt (s : ModelSurface (K × K × K)) (a b c : Index) : (K × K × K) × (K × K × K) × (K × K × K) :=
  (s.point a, s.point b, s.point c)

end Inspector.Spec
