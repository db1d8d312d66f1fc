import Verif.Spec.Common
import Verif.Model.Intersections
/-
Specification side of C33-C37 and C57-C61.
-/
namespace Inspector.Spec

/-- What is assumed of an external traversal of trees: it meets only candidate pairs, none more times
than it is a candidate, in any order, and all of them unless the action asked to stop. -/
def IsTraversal (traverse : Traversal) (candidates : List ElementPair) : Prop :=
  ∀ stop : ElementPair → Bool,
    (∃ l : List ElementPair, l.Perm (traverse stop) ∧ l.Sublist candidates) ∧
    ((∀ x ∈ traverse stop, stop x = false) → (traverse stop).Perm candidates)

/-- two distinct polygons that intersect -/
def SelfIntersecting (mesh : IntersectionSurface) (p : ElementPair) : Prop :=
  p.1 ≠ p.2 ∧ mesh.polygonsIntersect (mesh.polygonVertices p.1) (mesh.polygonVertices p.2) = .ok true

instance (mesh : IntersectionSurface) (p : ElementPair) : Decidable (SelfIntersecting mesh p) := by
  unfold SelfIntersecting
  exact match h : mesh.polygonsIntersect (mesh.polygonVertices p.1) (mesh.polygonVertices p.2) with
  | .ok true => if hp : p.1 ≠ p.2 then isTrue ⟨hp, rfl⟩ else isFalse fun x => hp x.1
  | .ok false => isFalse fun x => by cases x.2
  | .error _ => isFalse fun x => by cases x.2

/-- The test of two distinct polygons raises nothing. -/
def PolygonTestAnswers (mesh : IntersectionSurface) (p : ElementPair) : Prop :=
  p.1 ≠ p.2 → ∃ b, mesh.polygonsIntersect (mesh.polygonVertices p.1) (mesh.polygonVertices p.2) = .ok b

/-- In 2D: an end of the segment is inside the triangle, or the segment and an edge of the triangle cross
inside one of them. -/
def SegmentMeetsTriangle2D {P : Type} (m : SurfaceCurve P) (t e : Index) : Prop :=
  (∃ v, (v = (m.segment e).1 ∨ v = (m.segment e).2) ∧ m.pointTriangle v (m.triangle t) = .inside) ∨
  (∃ k, k < 3 ∧ ((m.segmentSegment (m.segment e) (m.triangleEdge t k)).1 = .inside ∨
    (m.segmentSegment (m.segment e) (m.triangleEdge t k)).2 = .inside))

/-- In 3D: an end of the segment is inside the triangle, or the segment meets the triangle elsewhere than
by a vertex on both sides: by its inside, or inside or on an edge of the triangle, or it is in the plane
of the triangle without joining two of its vertices. -/
def SegmentMeetsTriangle3D {P : Type} (m : SurfaceCurve P) (t e : Index) : Prop :=
  let r := m.segmentTriangle (m.segment e) (m.triangle t)
  (∃ v, (v = (m.segment e).1 ∨ v = (m.segment e).2) ∧ m.pointTriangle v (m.triangle t) = .inside) ∨
  (r.1 ≠ .outside ∧ r.2 ≠ .outside ∧
    (r.1 = .inside ∨ r.2 ∈ [Position.inside, .edge0, .edge1, .edge2] ∨
      (r.1 = .parallel ∧ ∃ v, (v = (m.segment e).1 ∨ v = (m.segment e).2) ∧
        m.pointTriangle v (m.triangle t) ∉ [Position.vertex0, .vertex1, .vertex2])))

/-- `a`-`b` is an edge of the triangle `t` -/
def EdgeOf (a b : Index) (t : List Index) : Prop :=
  (t.getD 0 0, t.getD 1 0) = (a, b) ∨ (t.getD 1 0, t.getD 2 0) = (a, b) ∨ (t.getD 2 0, t.getD 0 0) = (a, b)

/-- cross product of two points of the plane -/
def cross (a b : Int × Int) : Int := a.1 * b.2 - a.2 * b.1

/-- twice the signed area of a triangle -/
def triangleArea (at' : Index → Int × Int) (t : List Index) : Int :=
  cross (at' (t.getD 0 0)) (at' (t.getD 1 0)) + cross (at' (t.getD 1 0)) (at' (t.getD 2 0)) +
    cross (at' (t.getD 2 0)) (at' (t.getD 0 0))

/-- twice the signed area of a polygon -/
def polygonArea (at' : Index → Int × Int) (polygon : List Index) : Int :=
  ((List.range polygon.length).map fun i =>
    cross (at' (polygon.getD i 0)) (at' (polygon.getD ((i + 1) % polygon.length) 0))).sum

/-- The candidate pairs of the trees of a model. -/
structure Candidates (P : Type) where
  self : ModelSurface P → List ElementPair
  other : ModelSurface P → ModelSurface P → List ElementPair
  line : ModelSurface P → ModelLine P → List ElementPair

/-- The traversals of the trees of a model meet these candidates. -/
structure TreesOk {P : Type} (m : IntersectionModel P) (c : Candidates P) : Prop where
  self : ∀ s, IsTraversal (m.selfTraversal s) (c.self s)
  other : ∀ s1 s2, IsTraversal (m.otherTraversal s1 s2) (c.other s1 s2)
  line : ∀ s l, IsTraversal (m.lineTraversal s l) (c.line s l)

/-- The pairs of surfaces to compare, with their candidate polygons: each active surface with itself, and
the surfaces whose boxes overlap. -/
def comparisons {P : Type} (m : IntersectionModel P) (c : Candidates P) :
    List ((ModelSurface P × ModelSurface P) × List ElementPair) :=
  ((m.surfaces.filter fun s => s.active).map fun s => ((s, s), c.self s)) ++
  m.overlappingSurfaces.map fun ss => (ss, c.other ss.1 ss.2)

instance : DecidableEq (Except Failure Bool) := fun a b =>
  match a, b with
  | .ok x, .ok y => if h : x = y then .isTrue (by rw [h]) else .isFalse (by intro e; injection e; exact h ‹_›)
  | .error x, .error y => if h : x = y then .isTrue (by rw [h]) else .isFalse (by intro e; injection e; exact h ‹_›)
  | .ok _, .error _ => .isFalse (by intro e; cases e)
  | .error _, .ok _ => .isFalse (by intro e; cases e)

/-- The triangles joining the first vertex of a polygon to its edges. -/
def fan (polygon : List Index) : List (List Index) :=
  (List.range (polygon.length - 2)).map fun k => [polygon.getD 0 0, polygon.getD (k + 1) 0, polygon.getD (k + 2) 0]

/-- The answer of the test of a triangle of `s1` and a triangle of `s2`. -/
abbrev triangleTest {P : Type} (m : IntersectionModel P) (s1 s2 : ModelSurface P) (t1 t2 : List Index) :
    Except Failure Bool :=
  trianglesIntersectionDetection m.trianglesIntersect s1 s2 t1 t2

/-- Two triangles of the polygons intersect; a polygon does not intersect itself. -/
def PolygonsMeet {P : Type} (m : IntersectionModel P) (s1 s2 : ModelSurface P) (p : ElementPair) : Prop :=
  ¬ (s1.id = s2.id ∧ p.1 = p.2) ∧
    ∃ t1 ∈ fan (s1.polygonVertices p.1), ∃ t2 ∈ fan (s2.polygonVertices p.2),
      triangleTest m s1 s2 t1 t2 = .ok true

instance {P : Type} (m : IntersectionModel P) (s1 s2 : ModelSurface P) (p : ElementPair) :
    Decidable (PolygonsMeet m s1 s2 p) := by unfold PolygonsMeet; infer_instance

/-- Polygon `p.1` of `s1` and polygon `p.2` of `s2`, as elements of components. -/
def polygonsOf {P : Type} (s1 s2 : ModelSurface P) (p : ElementPair) :
    ComponentMeshElement × ComponentMeshElement :=
  (⟨⟨.surface, s1.id⟩, p.1⟩, ⟨⟨.surface, s2.id⟩, p.2⟩)

/-- All the pairs of polygons that should be reported. -/
def meetingPolygons {P : Type} (m : IntersectionModel P) (c : Candidates P) :
    List (ComponentMeshElement × ComponentMeshElement) :=
  (comparisons m c).flatMap fun x =>
    (x.2.filter fun p => decide (PolygonsMeet m x.1.1 x.1.2 p)).map (polygonsOf x.1.1 x.1.2)

/-- every active surface has polygons -/
def NoEmptySurface {P : Type} (m : IntersectionModel P) : Prop :=
  ∀ s ∈ m.surfaces, s.active = true → s.nbPolygons ≠ 0

/-- every active line has edges -/
def NoEmptyLine {P : Type} (m : IntersectionModel P) : Prop :=
  ∀ l ∈ m.lines, l.active = true → l.nbEdges ≠ 0

/-- The pairs of triangles of two polygons, in the order in which they are tested. -/
def trianglePairs {P : Type} (s1 s2 : ModelSurface P) (p : ElementPair) : List (List Index × List Index) :=
  (fan (s1.polygonVertices p.1)).flatMap fun t1 => (fan (s2.polygonVertices p.2)).map fun t2 => (t1, t2)

/-- The test of two distinct polygons raises: that of two of their triangles raises, and none has found an intersection
before. -/
def PolygonsRaise {P : Type} (m : IntersectionModel P) (s1 s2 : ModelSurface P) (p : ElementPair) (f : Failure) :
    Prop :=
  ¬ (s1.id = s2.id ∧ p.1 = p.2) ∧ ∃ before t after, trianglePairs s1 s2 p = before ++ t :: after ∧
    (∀ u ∈ before, triangleTest m s1 s2 u.1 u.2 = .ok false) ∧ triangleTest m s1 s2 t.1 t.2 = .error f

/-- the test of two candidate polygons never raises -/
def TestsOk {P : Type} (m : IntersectionModel P) (c : Candidates P) : Prop :=
  ∀ x ∈ comparisons m c, ∀ p ∈ x.2, ∀ f, ¬ PolygonsRaise m x.1.1 x.1.2 p f

/-- no polygon has more than 256 vertices -/
def SmallPolygons {P : Type} (s : ModelSurface P) : Prop := ∀ p, (s.polygonVertices p).length ≤ 256

/-- none of the polygons to compare has more than 256 vertices -/
def AllSmall {P : Type} (m : IntersectionModel P) : Prop :=
  (∀ s ∈ m.surfaces, SmallPolygons s) ∧
  ∀ ss ∈ m.overlappingSurfaces, SmallPolygons ss.1 ∧ SmallPolygons ss.2

/-- The edge meets a triangle of the polygon by the inside or an edge of one of them. -/
def EdgeMeetsPolygon {P : Type} (m : IntersectionModel P) (s : ModelSurface P) (l : ModelLine P)
    (p : ElementPair) : Prop :=
  ∃ t ∈ fan (s.polygonVertices p.1), ∃ x ∈ [Position.inside, .edge0, .edge1, .edge2],
    (m.geometry.segmentTriangle (l.segment p.2)
      (s.point (t.getD 0 0), s.point (t.getD 1 0), s.point (t.getD 2 0))).1 = x ∨
    (m.geometry.segmentTriangle (l.segment p.2)
      (s.point (t.getD 0 0), s.point (t.getD 1 0), s.point (t.getD 2 0))).2 = x

instance {P : Type} (m : IntersectionModel P) (s : ModelSurface P) (l : ModelLine P) (p : ElementPair) :
    Decidable (EdgeMeetsPolygon m s l p) := by unfold EdgeMeetsPolygon; infer_instance

/-- All the pairs (polygon, edge of a line embedded in a block) that should be reported. -/
def meetingEdges {P : Type} (m : IntersectionModel P) (c : Candidates P) :
    List (ComponentMeshElement × ComponentMeshElement) :=
  (m.surfaces.filter fun s => s.active).flatMap fun s =>
    (m.lines.filter fun l => l.active && decide (l.nbEmbeddingBlocks ≠ 0)).flatMap fun l =>
      ((c.line s l).filter fun p => decide (EdgeMeetsPolygon m s l p)).map fun p =>
        (⟨⟨.surface, s.id⟩, p.1⟩, ⟨⟨.line, l.id⟩, p.2⟩)

end Inspector.Spec
