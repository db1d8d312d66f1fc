import Verif.Spec.Plane
import Verif.Spec.Space
/-
Specification side of C114 and C115: edges of a curve (or Line) crossing triangles, over any ordered field.
-/
namespace Inspector.Spec
variable {K : Type} [Field K] [LinearOrder K] [IsStrictOrderedRing K]

/-- A segment and a triangle of the plane have a point in common, which is not both an end of the segment and a vertex of the
triangle. -/
def CrossesTriangle (s : (K × K) × (K × K)) (T : (K × K) × (K × K) × (K × K)) : Prop :=
  ∃ x, OnSegment s x ∧ InTriangle T x ∧ ¬ ((x = s.1 ∨ x = s.2) ∧ (x = T.1 ∨ x = T.2.1 ∨ x = T.2.2))

/-- A segment is on the line of an edge of the triangle. -/
def AlongEdge (s : (K × K) × (K × K)) (T : (K × K) × (K × K) × (K × K)) : Prop := ∃ e ∈ sides T, OnLine s e

/-- A vertex of the triangle is on the segment, and is not an end of it. -/
def VertexWithin (s : (K × K) × (K × K)) (T : (K × K) × (K × K) × (K × K)) : Prop :=
  ∃ v, (v = T.1 ∨ v = T.2.1 ∨ v = T.2.2) ∧ OnSegment s v ∧ v ≠ s.1 ∧ v ≠ s.2

/-- What is assumed of the predicates of the plane (external): a point is said to be inside a triangle exactly when it is in its
interior; segments on a same line are said to be parallel or outside each other; other ones are said to be outside each other
when they have no point in common, and otherwise the positions tell whether this point is an end of each of them. -/
structure ExactCrossing (pointTriangle : K × K → (K × K) × (K × K) × (K × K) → Position)
    (segmentSegment : (K × K) × (K × K) → (K × K) × (K × K) → Position × Position) : Prop where
  point : ∀ p T, ¬ Flat T → (pointTriangle p T = .inside ↔ InsideTriangle T p)
  aligned : ∀ s1 s2, OnLine s1 s2 → (segmentSegment s1 s2).1 ∈ [Position.outside, .parallel] ∧
    (segmentSegment s1 s2).2 ∈ [Position.outside, .parallel]
  apart : ∀ s1 s2, ¬ OnLine s1 s2 → (¬ ∃ x, OnSegment s1 x ∧ OnSegment s2 x) →
    segmentSegment s1 s2 = (.outside, .outside)
  first : ∀ s1 s2 x, ¬ OnLine s1 s2 → OnSegment s1 x → OnSegment s2 x →
    ((segmentSegment s1 s2).1 = .inside ↔ ¬ (x = s1.1 ∨ x = s1.2))
  second : ∀ s1 s2 x, ¬ OnLine s1 s2 → OnSegment s1 x → OnSegment s2 x →
    ((segmentSegment s1 s2).2 = .inside ↔ ¬ (x = s2.1 ∨ x = s2.2))

/-- The edges of the triangles of a mesh join consecutive vertices. -/
def EdgesOfTriangles {P : Type} (m : SurfaceCurve P) : Prop :=
  ∀ t, m.triangleEdge t 0 = ((m.triangle t).1, (m.triangle t).2.1) ∧
    m.triangleEdge t 1 = ((m.triangle t).2.1, (m.triangle t).2.2) ∧
    m.triangleEdge t 2 = ((m.triangle t).2.2, (m.triangle t).1)

/-- A segment and a triangle of the space have a point in common, which is not both an end of the segment and a vertex of the
triangle. -/
def CrossesSpaceTriangle (s : (K × K × K) × (K × K × K)) (T : (K × K × K) × (K × K × K) × (K × K × K)) : Prop :=
  ∃ x, OnSpaceSegment s x ∧ InSpaceTriangle T x ∧ ¬ ((x = s.1 ∨ x = s.2) ∧ (x = T.1 ∨ x = T.2.1 ∨ x = T.2.2))

/-- A segment is in the plane of a triangle. -/
def SegmentInPlane (s : (K × K × K) × (K × K × K)) (T : (K × K × K) × (K × K × K) × (K × K × K)) : Prop :=
  InPlane T s.1 ∧ InPlane T s.2

/-- What is assumed of the predicate on a segment and a triangle of the space (external), when the segment is not in the plane
of the triangle: both positions are outside when they have no point in common, and otherwise the positions tell whether this
point is an end of the segment, and whether it is a vertex of the triangle. -/
structure ExactSpaceCrossing
    (segmentTriangle : (K × K × K) × (K × K × K) → (K × K × K) × (K × K × K) × (K × K × K) → Position × Position) : Prop where
  apart : ∀ s T, ¬ FlatInSpace T → ¬ SegmentInPlane s T → (¬ ∃ x, OnSpaceSegment s x ∧ InSpaceTriangle T x) →
    segmentTriangle s T = (.outside, .outside)
  first : ∀ s T x, ¬ FlatInSpace T → ¬ SegmentInPlane s T → OnSpaceSegment s x → InSpaceTriangle T x →
    ((segmentTriangle s T).1 ∈ [Position.vertex0, .vertex1] ∧ (x = s.1 ∨ x = s.2)) ∨
    ((segmentTriangle s T).1 = .inside ∧ ¬ (x = s.1 ∨ x = s.2))
  second : ∀ s T x, ¬ FlatInSpace T → ¬ SegmentInPlane s T → OnSpaceSegment s x → InSpaceTriangle T x →
    ((segmentTriangle s T).2 ∈ [Position.vertex0, .vertex1, .vertex2] ∧ (x = T.1 ∨ x = T.2.1 ∨ x = T.2.2)) ∨
    ((segmentTriangle s T).2 ∈ [Position.inside, .edge0, .edge1, .edge2] ∧ ¬ (x = T.1 ∨ x = T.2.1 ∨ x = T.2.2))

/-- A point that is said to be inside a triangle of the space is a point of it other than its vertices. -/
def SoundPoints (pointTriangle : K × K × K → (K × K × K) × (K × K × K) × (K × K × K) → Position) : Prop :=
  ∀ p T, ¬ FlatInSpace T → pointTriangle p T = .inside →
    InSpaceTriangle T p ∧ ¬ (p = T.1 ∨ p = T.2.1 ∨ p = T.2.2)

/-- What is assumed of the trees of a surface and a curve: the candidates are a triangle and an edge, among which all those with
a point in common. -/
structure CurveCandidates {P : Type} (m : SurfaceCurve P) (nbTriangles nbEdges : Nat) (Common : P × P → P × P × P → Prop)
    (candidates : List ElementPair) : Prop where
  range : ∀ p ∈ candidates, p.1 < nbTriangles ∧ p.2 < nbEdges
  complete : ∀ t e, t < nbTriangles → e < nbEdges → Common (m.segment e) (m.triangle t) → (t, e) ∈ candidates

/-- An edge of a Line crosses a polygon: it has a point in common with one of the triangles joining the first vertex of the
polygon to its edges, which is not both an end of the edge and a vertex of the triangle. -/
def PolygonCrossed (s : ModelSurface (K × K × K)) (l : ModelLine (K × K × K)) (p e : Index) : Prop :=
  ∃ t ∈ fan (s.polygonVertices p), CrossesSpaceTriangle (l.segment e) (spaceTriangleAt s (t.getD 0 0) (t.getD 1 0) (t.getD 2 0))

end Inspector.Spec
