import Verif.Spec.Triangles
/-
Specification side of C105: when two triangles of Surfaces of a model are said to intersect, whatever the unique
vertices they share.
-/
namespace Inspector.Spec
variable {P : Type}

/-- `y` is the first element of `t` with a property -/
def FirstOf (p : Index → Prop) (t : List Index) (y : Index) : Prop :=
  ∃ before after, t = before ++ y :: after ∧ p y ∧ ∀ u ∈ before, ¬ p u

/-- the vertex has the unique vertex of a vertex of the other triangle -/
def IsShared (s1 s2 : ModelSurface P) (t2 : List Index) (v : Index) : Prop := ∃ w ∈ t2, Shared s1 s2 v w

instance (s1 s2 : ModelSurface P) (t2 : List Index) (v : Index) : Decidable (IsShared s1 s2 t2 v) := by
  unfold IsShared Shared; infer_instance

/-- The common vertices of two triangles: the vertices of the first one that are shared, in its order, each with the first
vertex of the second one with the same unique vertex. -/
structure CommonVertices (s1 s2 : ModelSurface P) (t1 t2 : List Index) (common : List (Index × Index)) : Prop where
  vertices : common.map Prod.fst = t1.filter fun v => decide (IsShared s1 s2 t2 v)
  others : ∀ c ∈ common, FirstOf (fun w => Shared s1 s2 c.1 w) t2 c.2

/-- Two triangles of the plane, with the points `p0` and `p1` in common and other vertices `x` and `y`, overlap: two of
their other edges without common end meet, or the last vertex of one of them is not outside the other. -/
def FoldedTriangles (g : Geometry P) (p0 p1 x y : P) (triangle1 triangle2 : P × P × P) : Prop :=
  (g.segmentSegment (p0, x) (p1, y)).1 ≠ .outside ∨ (g.segmentSegment (p1, x) (p0, y)).1 ≠ .outside ∨
  g.pointTriangle x triangle2 ≠ .outside ∨ g.pointTriangle y triangle1 ≠ .outside

/-- Two triangles of a Section with two common vertices overlap; the second common point is `p1`. -/
def SectionAdjacentMeet (g : Geometry P) (s1 s2 : ModelSurface P) (t1 t2 : List Index) (c0 c1 : Index × Index) (p1 : P) :
    Prop :=
  ∃ x y z1 z2, FirstOf (fun v => v ≠ c0.1 ∧ v ≠ c1.1) t1 x ∧ FirstOf (fun v => v ≠ c0.2 ∧ v ≠ c1.2) t2 y ∧
    TriangleOf s1 t1 z1 ∧ TriangleOf s2 t2 z2 ∧ FoldedTriangles g (s1.point c0.1) p1 (s1.point x) (s2.point y) z1 z2

/-- Two triangles of a Section are said to intersect.  With two common vertices, the point of the second one is looked for in
the first Surface, at the index it has in the second one. -/
def SectionTrianglesMeet (g : Geometry P) (s1 s2 : ModelSurface P) (t1 t2 : List Index) : Prop :=
  ∃ common, CommonVertices s1 s2 t1 t2 common ∧
    match common with
    | [] => ∃ e1 ∈ edgesOf t1, ∃ e2 ∈ edgesOf t2, EdgesCross g s1 s2 e1 e2
    | [c] => ∃ e1 ∈ edgesOf t1, ∃ e2 ∈ edgesOf t2, EdgesCross g s1 s2 e1 e2 ∧
        ¬ FoundAt g [e1.1, e1.2] [e2.1, e2.2] (g.segmentSegment (segmentOf s1 e1) (segmentOf s2 e2)) c
    | [c0, c1] => c1.2 < s1.nbVertices ∧ SectionAdjacentMeet g s1 s2 t1 t2 c0 c1 (s1.point c1.2)
    | _ => True

/-- Two triangles of a BRep are said to intersect. -/
def BRepTrianglesMeet (g : Geometry P) (s1 s2 : ModelSurface P) (t1 t2 : List Index) : Prop :=
  ∃ common, CommonVertices s1 s2 t1 t2 common ∧
    match common with
    | [] => (∃ e1 ∈ edgesOf t1, EdgeMeets g s1 s2 e1 t2) ∨ ∃ e2 ∈ edgesOf t2, EdgeMeets g s2 s1 e2 t1
    | [c] => (∃ e1 ∈ edgesOf t1, EdgeMeetsElsewhere g s1 s2 e1 t2 c) ∨
        ∃ e2 ∈ edgesOf t2, EdgeMeetsElsewhere g s2 s1 e2 t1 (c.2, c.1)
    | [c0, c1] => ∃ x y, FirstOf (fun v => v ≠ c0.1 ∧ v ≠ c1.1) t1 x ∧ TriangleOf s2 t2 y ∧
        ((g.segmentTriangle (segmentOf s1 (c0.1, x)) y).1 = .parallel ∨
          (g.segmentTriangle (segmentOf s1 (c1.1, x)) y).1 = .parallel)
    | _ => True

end Inspector.Spec
