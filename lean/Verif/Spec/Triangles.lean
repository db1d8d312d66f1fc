import Verif.Spec.Intersections
/-
Specification side of C83 and C84: what it means for two triangles of Surfaces of a model to intersect, in terms of the
external geometric predicates.
-/
namespace Inspector.Spec
variable {P : Type}

/-- the two vertices have the same unique vertex -/
def Shared (s1 s2 : ModelSurface P) (v w : Index) : Prop := s1.uniqueVertex v = s2.uniqueVertex w

/-- the edges of a triangle -/
def edgesOf : List Index → List (Index × Index)
  | [a, b, c] => [(a, b), (b, c), (c, a)]
  | _ => []

/-- the segment between two vertices of a mesh -/
def segmentOf (s : ModelSurface P) (e : Index × Index) : P × P := (s.point e.1, s.point e.2)

/-- the triangle of three vertices of a mesh -/
def TriangleOf (s : ModelSurface P) (t : List Index) (x : P × P × P) : Prop :=
  ∃ a b c, t = [a, b, c] ∧ x = (s.point a, s.point b, s.point c)

/-- The positions found on two elements are those of the vertex `c.1` of the first one and of the vertex `c.2` of the
second one. -/
def FoundAt (g : Geometry P) (element1 element2 : List Index) (found : Position × Position) (c : Index × Index) : Prop :=
  ∃ i j, g.positionToIndex found.1 = some i ∧ g.positionToIndex found.2 = some j ∧
    element1[i]? = some c.1 ∧ element2[j]? = some c.2

/-- Two edges cross (parallel edges do not). -/
def EdgesCross (g : Geometry P) (s1 s2 : ModelSurface P) (e1 e2 : Index × Index) : Prop :=
  (g.segmentSegment (segmentOf s1 e1) (segmentOf s2 e2)).1 ≠ .outside ∧
  (g.segmentSegment (segmentOf s1 e1) (segmentOf s2 e2)).1 ≠ .parallel

/-- An edge is not outside a triangle. -/
def EdgeMeets (g : Geometry P) (s1 s2 : ModelSurface P) (e : Index × Index) (t : List Index) : Prop :=
  ∃ x, TriangleOf s2 t x ∧ (g.segmentTriangle (segmentOf s1 e) x).1 ≠ .outside

/-- An edge is not outside a triangle, and what is found is not just their common vertex `c`. -/
def EdgeMeetsElsewhere (g : Geometry P) (s1 s2 : ModelSurface P) (e : Index × Index) (t : List Index)
    (c : Index × Index) : Prop :=
  ∃ x, TriangleOf s2 t x ∧ (g.segmentTriangle (segmentOf s1 e) x).1 ≠ .outside ∧
    ¬ FoundAt g [e.1, e.2] t (g.segmentTriangle (segmentOf s1 e) x) c

/-- The only vertices with the same unique vertex are `c.1` and `c.2`. -/
def OneShared (s1 s2 : ModelSurface P) (t1 t2 : List Index) (c : Index × Index) : Prop :=
  c.1 ∈ t1 ∧ c.2 ∈ t2 ∧ Shared s1 s2 c.1 c.2 ∧
  ∀ v ∈ t1, ∀ w ∈ t2, Shared s1 s2 v w → v = c.1 ∧ w = c.2

/-- The vertices `v0` and `v1` of the first triangle have the unique vertices of vertices of the second one, its third
vertex `x` has not. -/
def TwoShared (s1 s2 : ModelSurface P) (t1 t2 : List Index) (v0 v1 x : Index) : Prop :=
  t1.Perm [v0, v1, x] ∧ t1.Nodup ∧ (∃ w ∈ t2, Shared s1 s2 v0 w) ∧ (∃ w ∈ t2, Shared s1 s2 v1 w) ∧
  ∀ w ∈ t2, ¬ Shared s1 s2 x w

/-- Indices of positions on a segment and on a triangle (external). -/
structure PositionsOk (g : Geometry P) : Prop where
  segment : ∀ a b i, g.positionToIndex (g.segmentSegment a b).1 = some i → i < 2
  otherSegment : ∀ a b i, g.positionToIndex (g.segmentSegment a b).2 = some i → i < 2
  edge : ∀ a b i, g.positionToIndex (g.segmentTriangle a b).1 = some i → i < 2
  triangle : ∀ a b i, g.positionToIndex (g.segmentTriangle a b).2 = some i → i < 3

end Inspector.Spec
