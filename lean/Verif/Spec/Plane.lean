import Mathlib.Algebra.Order.Field.Basic
import Verif.Spec.Triangles
/-
Specification side of C112: plane geometry, over any ordered field.
-/
namespace Inspector.Spec
variable {K : Type} [Field K] [LinearOrder K] [IsStrictOrderedRing K]

/-- Twice the signed area of a triangle of the plane. -/
def orientation (a b c : K × K) : K := (b.1 - a.1) * (c.2 - a.2) - (b.2 - a.2) * (c.1 - a.1)

/-- A point is on a segment (ends included). -/
def OnSegment (s : (K × K) × (K × K)) (x : K × K) : Prop :=
  ∃ t : K, 0 ≤ t ∧ t ≤ 1 ∧ x.1 = s.1.1 + t * (s.2.1 - s.1.1) ∧ x.2 = s.1.2 + t * (s.2.2 - s.1.2)

/-- A point is in a triangle (edges included). -/
def InTriangle (T : (K × K) × (K × K) × (K × K)) (x : K × K) : Prop :=
  ∃ u v w : K, 0 ≤ u ∧ 0 ≤ v ∧ 0 ≤ w ∧ u + v + w = 1 ∧
    x.1 = u * T.1.1 + v * T.2.1.1 + w * T.2.2.1 ∧ x.2 = u * T.1.2 + v * T.2.1.2 + w * T.2.2.2

/-- A point is in the interior of a triangle. -/
def InsideTriangle (T : (K × K) × (K × K) × (K × K)) (x : K × K) : Prop :=
  ∃ u v w : K, 0 < u ∧ 0 < v ∧ 0 < w ∧ u + v + w = 1 ∧
    x.1 = u * T.1.1 + v * T.2.1.1 + w * T.2.2.1 ∧ x.2 = u * T.1.2 + v * T.2.1.2 + w * T.2.2.2

/-- The edges of a triangle. -/
def sides (T : (K × K) × (K × K) × (K × K)) : List ((K × K) × (K × K)) := [(T.1, T.2.1), (T.2.1, T.2.2), (T.2.2, T.1)]

/-- A point is on an edge of each triangle. -/
def OnBothBorders (T1 T2 : (K × K) × (K × K) × (K × K)) (x : K × K) : Prop :=
  (∃ e ∈ sides T1, OnSegment e x) ∧ ∃ e ∈ sides T2, OnSegment e x

/-- The three vertices of a triangle are on a line. -/
def Flat (T : (K × K) × (K × K) × (K × K)) : Prop := orientation T.1 T.2.1 T.2.2 = 0

/-- The ends of the second segment are on the line of the first one. -/
def OnLine (s1 s2 : (K × K) × (K × K)) : Prop := orientation s1.1 s1.2 s2.1 = 0 ∧ orientation s1.1 s1.2 s2.2 = 0

/-- What is assumed of the predicates of the plane (external, OpenGeode computes them exactly): segments on a same line are
said to be parallel or outside each other; other ones are said to be outside each other exactly when they have no point in
common, and the positions tell whether this point is an end of them; points are said to be outside a triangle exactly when
they are. -/
structure ExactPlane (g : Geometry (K × K)) : Prop where
  aligned : ∀ s1 s2, OnLine s1 s2 →
    (g.segmentSegment s1 s2).1 = .outside ∨ (g.segmentSegment s1 s2).1 = .parallel
  crossing : ∀ s1 s2, ¬ OnLine s1 s2 → (g.segmentSegment s1 s2).1 ≠ .parallel ∧
    ((g.segmentSegment s1 s2).1 ≠ .outside ↔ ∃ x, OnSegment s1 x ∧ OnSegment s2 x)
  first : ∀ s1 s2 x, ¬ OnLine s1 s2 → OnSegment s1 x → OnSegment s2 x →
    (g.positionToIndex (g.segmentSegment s1 s2).1 = some 0 ↔ x = s1.1) ∧
    (g.positionToIndex (g.segmentSegment s1 s2).1 = some 1 ↔ x = s1.2)
  second : ∀ s1 s2 x, ¬ OnLine s1 s2 → OnSegment s1 x → OnSegment s2 x →
    (g.positionToIndex (g.segmentSegment s1 s2).2 = some 0 ↔ x = s2.1) ∧
    (g.positionToIndex (g.segmentSegment s1 s2).2 = some 1 ↔ x = s2.2)
  point : ∀ p T, g.pointTriangle p T ≠ .outside ↔ InTriangle T p

/-- The triangle of three vertices of a mesh. -/
def triangleAt (s : ModelSurface (K × K)) (a b c : Index) : (K × K) × (K × K) × (K × K) :=
  (s.point a, s.point b, s.point c)

end Inspector.Spec
