import Verif.Spec.Space
/-
Specification side of C116: what it means that two triangles of a BRep intersect, with their common vertices and edges put aside.
-/
namespace Inspector.Spec
variable {K : Type} [Field K] [LinearOrder K] [IsStrictOrderedRing K]

/-- The triangle of the vertices of a list. -/
def spaceTriangleOf (s : ModelSurface (K × K × K)) (t : List Index) : (K × K × K) × (K × K × K) × (K × K × K) :=
  spaceTriangleAt s (t.getD 0 0) (t.getD 1 0) (t.getD 2 0)

/-- A vertex has the unique vertex of a vertex of another triangle. -/
def IsCommon {P : Type} (s1 s2 : ModelSurface P) (t2 : List Index) (v : Index) : Prop := ∃ w ∈ t2, Shared s1 s2 v w

/-- A point is a common vertex of two triangles, or is on their common edge. -/
def InCommonPart (s1 s2 : ModelSurface (K × K × K)) (t1 t2 : List Index) (x : K × K × K) : Prop :=
  ∃ v ∈ t1, ∃ w ∈ t1, IsCommon s1 s2 t2 v ∧ IsCommon s1 s2 t2 w ∧ OnSpaceSegment (s1.point v, s1.point w) x

/-- Two triangles have a point in common elsewhere than at their common vertices and edge. -/
def Overlap (s1 s2 : ModelSurface (K × K × K)) (t1 t2 : List Index) : Prop :=
  ∃ x, InSpaceTriangle (spaceTriangleOf s1 t1) x ∧ InSpaceTriangle (spaceTriangleOf s2 t2) x ∧ ¬ InCommonPart s1 s2 t1 t2 x

/-- Two triangles are not flat, nor in a same plane; an edge of one of them which is in the plane of the other is common; and the
vertices with the same unique vertex are at the same point. -/
structure GeneralPosition (s1 s2 : ModelSurface (K × K × K)) (t1 t2 : List Index) : Prop where
  first : ¬ FlatInSpace (spaceTriangleOf s1 t1)
  second : ¬ FlatInSpace (spaceTriangleOf s2 t2)
  plane : ¬ SamePlane (spaceTriangleOf s1 t1) (spaceTriangleOf s2 t2)
  edges1 : ∀ e ∈ edgesOf t1, InPlane (spaceTriangleOf s2 t2) (s1.point e.1) → InPlane (spaceTriangleOf s2 t2) (s1.point e.2) →
    IsCommon s1 s2 t2 e.1 ∧ IsCommon s1 s2 t2 e.2
  edges2 : ∀ e ∈ edgesOf t2, InPlane (spaceTriangleOf s1 t1) (s2.point e.1) → InPlane (spaceTriangleOf s1 t1) (s2.point e.2) →
    IsCommon s2 s1 t1 e.1 ∧ IsCommon s2 s1 t1 e.2
  points : ∀ v ∈ t1, ∀ w ∈ t2, Shared s1 s2 v w → s1.point v = s2.point w

end Inspector.Spec
