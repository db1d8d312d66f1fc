import Verif.Proofs.Whole
/-
Properties C79 and C80: whole inspections of meshes, from the mesh to the lists and to the verdict.
-/
namespace Inspector
open Spec

/-! ### examples -/

/-- points are numbers; the search finds what is given -/
def exampleLibrary (info : ColocatedInfo Nat) : Library Nat where
  search _ := info
  pointString := toString
  distance p q := .num ((p : Int) - q).natAbs
  eps := .num 1
  isOpposite a b := a == b.reverse
  cycle l := (List.range 9).filter l.contains

/-- four different points -/
def fourPoints : ColocatedInfo Nat := ⟨[0, 1, 2, 3], [0, 10, 20, 30]⟩

def exampleRuntime : Runtime where
  schedule := [3, 1, 1, 0, 7, 2]
  choose l := l.headD .otherException
  edgeOrder := List.reverse
  facetOrder := id

theorem exampleRuntime_ok : RuntimeOk exampleRuntime where
  choose l hl := by cases l with
    | nil => exact absurd rfl hl
    | cons a l => simp [exampleRuntime]
  edgeOrder m := List.reverse_perm m
  facetOrder m := List.Perm.refl m

/-- a curve 0-1-2-3, its points being given -/
def exampleCurveData (points : List Nat) : CurveData Nat where
  points := points
  nbEdges := 3
  edgeVertices e := (e, e + 1)
  isEdgeDegenerated _ := false
  edgeText _ := ""

/-- two triangles 0-1-2 and 2-1-3, given the points, and whether the two triangles intersect -/
def exampleSurfaceData (points : List Nat) (intersect : Bool) : SurfaceData Nat where
  nbPolygons := 2
  nbPolygonVertices _ := 3
  polygonVertex x := (([[0, 1, 2], [2, 1, 3]].getD x.1 []).getD x.2 0)
  polygonAdjacent x := if x = (0, 1) then some 1 else if x = (1, 0) then some 0 else none
  label := "square"
  points := points
  polygonsAroundVertex v := .ok ([[(0, 0)], [(1, 1), (0, 1)], [(0, 2), (1, 0)], [(1, 2)]].getD v [])
  nbEdges := 5
  edgeVertices e := [(0, 1), (0, 2), (1, 2), (1, 3), (2, 3)].getD e (0, 0)
  minimumHeight _ := .num 5
  isPolygonDegenerated _ := false
  polygonAreaSign _ := .positive
  polygonsIntersect _ _ := .ok intersect
  traverse _ := [(0, 1)]

theorem exampleSurfaceData_ok (points : List Nat) (info : ColocatedInfo Nat) (hs : SearchOk info points.length)
    (h4 : points.length = 4) (b : Bool) :
    SurfaceDataOk (exampleLibrary info) (exampleSurfaceData points b) [(0, 1)] where
  search := hs
  tree :=
    { traversal := fun _ => ⟨⟨[(0, 1)], List.Perm.refl _, List.Sublist.refl _⟩, fun _ => List.Perm.refl _⟩
      polygons := by intro x hx; rw [List.mem_singleton] at hx; subst hx
                     exact (by decide : (0 : Nat) < 2 ∧ (1 : Nat) < 2)
      complete := by
        rintro p q ⟨hp, hq, hne, hb⟩
        have hp : p < 2 := hp
        have hq : q < 2 := hq
        refine ⟨(0, 1), by simp, ?_, (by decide : (0 : Nat) < 2), (by decide : (1 : Nat) < 2), by decide, hb⟩
        obtain ⟨rfl, rfl⟩ | ⟨rfl, rfl⟩ : (p = 0 ∧ q = 1) ∨ (p = 1 ∧ q = 0) := by unfold Index at *; omega
        · exact Or.inl rfl
        · exact Or.inr rfl
      length := by decide }
  answers := fun _ _ _ h => by cases h.2
  vertices := by
    intro p k hp hk
    have hp : p < 2 := hp
    have hk : k < 3 := hk
    show _ < points.length
    rw [h4]
    show (([[0, 1, 2], [2, 1, 3]].getD p []).getD k 0) < 4
    obtain rfl | rfl : p = 0 ∨ p = 1 := by clear h4; omega
    all_goals obtain rfl | rfl | rfl : k = 0 ∨ k = 1 ∨ k = 2 := by clear h4; omega
    all_goals decide
  walks := by intro v _ f hf; cases hf
  nbEdges := (by decide : (5 : Nat) < 2 ^ 32)
  nbPolygons := (by decide : (2 : Nat) < 2 ^ 32)
  nbPolygonEdges := (by decide : (6 : Nat) < 2 ^ 32)
  uses := by
    intro e
    refine Nat.lt_of_le_of_lt (List.length_filter_le ..) ?_
    show (polygonEdges (exampleSurfaceData points b).toSurfaceMesh).length < 256
    rw [polygonEdges, pairs_length]
    exact (by decide : (6 : Nat) < 256)

/-- one tetrahedron, given its volume sign -/
def exampleSolidData (sign : Sign) : SolidData Nat where
  nbPolyhedra := 1
  nbPolyhedronFacets _ := 4
  polyhedronFacetVertices x := [[1, 2, 3], [0, 3, 2], [0, 1, 3], [0, 2, 1]].getD x.2 []
  polyhedronAdjacent _ := none
  label := "tetrahedron"
  points := [0, 10, 20, 30]
  nbPolyhedronVertices _ := 4
  polyhedronVertex x := x.2
  polyhedraAroundVertex v := .ok [(0, v)]
  polyhedronEdgesVertices _ := [(0, 1), (0, 2), (0, 3), (1, 2), (1, 3), (2, 3)]
  polyhedraAroundEdge _ p := .ok [p]
  nbEdges := 6
  edgeVertices e := [(0, 1), (0, 2), (0, 3), (1, 2), (1, 3), (2, 3)].getD e (0, 0)
  minimumHeight _ := .num 5
  isPolyhedronDegenerated _ := false
  tetrahedronVolumeSign _ _ _ _ := sign
  polyhedronVolume _ := .num 7

theorem fourPoints_ok : SearchOk fourPoints 4 := by
  refine ⟨rfl, by decide, by decide, ?_⟩
  intro u hu
  have : u < 4 := hu
  match u, this with
  | 0, _ | 1, _ | 2, _ | 3, _ => decide

theorem exampleSolidData_ok (sign : Sign) : SolidDataOk (exampleLibrary fourPoints) (exampleSolidData sign) where
  search := fourPoints_ok
  vertices := fun _ k _ hk => hk
  walks := fun _ _ => ⟨_, rfl⟩
  turns := by intro p e f _ _ h; cases h
  turnsOnce := by
    intro p e fan _ _ h
    injection h with h
    subst h
    simp
  nbEdges := (by decide : (6 : Nat) < 2 ^ 32)
  nbPolyhedra := (by decide : (1 : Nat) < 2 ^ 32)
  nbPolyhedronEdges := (by decide : (6 : Nat) < 2 ^ 32)
  nbFacets := (by decide : (4 : Nat) < 2 ^ 32)

/-! ### C79: the lists -/

/-- **C79** (point sets). -/
theorem C79_point_set {P : Type} (lib : Library P) (points : List P)
    (h : SearchOk (lib.search points) points.length) :
    ∃ r, inspectPointSetMesh lib points = .ok r ∧
      AreClasses r.colocated_points_groups.issues points.length (Colocated (lib.search points)) := by
  obtain ⟨s, h1, _, h2⟩ := meshColocated_ok lib points h
  exact ⟨⟨s⟩, by unfold inspectPointSetMesh; rw [h1], h2⟩

/-- **C79** (curves). -/
theorem C79_edged_curve {P : Type} (lib : Library P) (rt : Runtime) (hrt : RuntimeOk rt) (mesh : CurveData P)
    (h : CurveDataOk lib mesh) :
    ∃ r, inspectCurveMesh lib rt mesh = .ok r ∧ CurveReport lib mesh r := by
  obtain ⟨r, h1, h2, _⟩ := curve_whole lib rt hrt mesh h
  exact ⟨r, h1, h2⟩

/-- **C79** (surfaces). -/
theorem C79_surface {P : Type} (dimension : Nat) (lib : Library P) (rt : Runtime) (hrt : RuntimeOk rt)
    (mesh : SurfaceData P) (candidates : List ElementPair) (h : SurfaceDataOk lib mesh candidates) :
    ∃ r, inspectSurfaceMesh dimension lib rt mesh = .ok r ∧ SurfaceReport dimension lib mesh r := by
  obtain ⟨r, h1, h2, _⟩ := surface_whole dimension lib rt hrt mesh candidates h
  exact ⟨r, h1, h2⟩

/-- **C79** (solids). -/
theorem C79_solid {P : Type} (lib : Library P) (rt : Runtime) (hrt : RuntimeOk rt) (mesh : SolidData P)
    (h : SolidDataOk lib mesh) :
    ∃ r, inspectSolidMesh lib rt mesh = .ok r ∧ SolidReport lib mesh r := by
  obtain ⟨r, h1, h2, _⟩ := solid_whole lib rt hrt mesh h
  exact ⟨r, h1, h2⟩

/-- the hypotheses are met by a surface whose two triangles intersect, and by a tetrahedron of negative volume -/
example : ∃ r, inspectSurfaceMesh 3 (exampleLibrary fourPoints) exampleRuntime
      (exampleSurfaceData [0, 10, 20, 30] true) = .ok r ∧ (0, 1) ∈ r.intersecting_elements.issues := by
  obtain ⟨r, h1, h2⟩ := C79_surface 3 _ exampleRuntime exampleRuntime_ok _ _
    (exampleSurfaceData_ok [0, 10, 20, 30] fourPoints fourPoints_ok rfl true)
  refine ⟨r, h1, ?_⟩
  rcases h2.allIntersecting 0 1 ⟨by decide, by decide, by decide, rfl⟩ with h | h
  · exact h
  · have hx : inspectSurfaceMesh 3 (exampleLibrary fourPoints) exampleRuntime
      (exampleSurfaceData [0, 10, 20, 30] true) = .ok r := h1
    have : r.intersecting_elements.issues = [(0, 1)] := by
      have he : inspectSurfaceMesh 3 (exampleLibrary fourPoints) exampleRuntime
        (exampleSurfaceData [0, 10, 20, 30] true) = .ok _ := rfl
      rw [he] at hx
      injection hx with hx
      rw [← hx]
      rfl
    rw [this]
    decide

example : ∃ r, inspectSolidMesh (exampleLibrary fourPoints) exampleRuntime (exampleSolidData .negative) = .ok r ∧
    0 ∈ r.negative_polyhedra.issues := by
  obtain ⟨r, h1, h2⟩ := C79_solid _ exampleRuntime exampleRuntime_ok _ (exampleSolidData_ok .negative)
  exact ⟨r, h1, (h2.negative.2 0).2 ⟨by decide, Or.inl ⟨rfl, rfl⟩⟩⟩

/-! ### C80: the verdicts -/

/-- **C80** (point sets): valid exactly when no two points are colocated. -/
theorem C80_point_set {P : Type} (lib : Library P) (points : List P)
    (h : SearchOk (lib.search points) points.length) :
    ∃ v, isPointSetMeshValid lib points = .ok v ∧ (v.isValid = true ↔ ¬ HasColocatedVertices lib points) := by
  obtain ⟨s, h1, hl, h2⟩ := meshColocated_ok lib points h
  refine ⟨isPointsetValid ⟨s⟩, by unfold isPointSetMeshValid inspectPointSetMesh; rw [h1], ?_⟩
  rw [(C06_pointset ⟨s⟩ (by simpa [listsPointSetInspectionResult, report] using hl)).1]
  simp only [listsPointSetInspectionResult, List.forall_mem_cons, List.not_mem_nil, false_implies, implies_true,
    and_true, count_zero, classes_ne_nil lib points _ h2]

/-- **C80** (curves). -/
theorem C80_edged_curve {P : Type} (lib : Library P) (rt : Runtime) (hrt : RuntimeOk rt) (mesh : CurveData P)
    (h : CurveDataOk lib mesh) :
    ∃ v, isCurveMeshValid lib rt mesh = .ok v ∧ (v.isValid = true ↔ ¬ CurveDefect lib mesh) := by
  obtain ⟨r, h1, h2, hl⟩ := curve_whole lib rt hrt mesh h
  refine ⟨isEdgedCurveValid r, by unfold isCurveMeshValid; rw [h1], ?_⟩
  rw [(C06_edged_curve r hl).1]
  simp only [listsEdgedCurveInspectionResult, List.forall_mem_cons, List.not_mem_nil, false_implies, implies_true,
    and_true, count_zero, classes_ne_nil lib _ _ h2.colocation, exactly_nil_iff h2.edges]
  simp only [CurveDefect, not_or]

/-- **C80** (surfaces). -/
theorem C80_surface {P : Type} (dimension : Nat) (lib : Library P) (rt : Runtime) (hrt : RuntimeOk rt)
    (mesh : SurfaceData P) (candidates : List ElementPair) (h : SurfaceDataOk lib mesh candidates) :
    ∃ v, isSurfaceMeshValid dimension lib rt mesh = .ok v ∧
      (v.isValid = true ↔ ¬ SurfaceDefect dimension lib mesh) := by
  obtain ⟨r, h1, h2, hl⟩ := surface_whole dimension lib rt hrt mesh candidates h
  refine ⟨isSurfaceValid r, by unfold isSurfaceMeshValid; rw [h1], ?_⟩
  rw [(C06_surface r hl).1]
  have hx : r.intersecting_elements.issues ≠ [] ↔ ∃ p q, PolygonsIntersect mesh p q := by
    constructor
    · intro hne
      obtain ⟨x, hx⟩ := List.exists_mem_of_ne_nil _ hne
      exact ⟨_, _, h2.intersecting x hx⟩
    · rintro ⟨p, q, hpq⟩
      rcases h2.allIntersecting p q hpq with h | h <;> exact List.ne_nil_of_mem h
  simp only [listsSurfaceInspectionResult, List.forall_mem_cons, List.not_mem_nil, false_implies, implies_true,
    and_true, count_zero, classes_ne_nil lib _ _ h2.colocation, exactly_nil_iff h2.edges, exactly_nil_iff h2.adjacency,
    exactly_nil_iff h2.polygons, exactly_nil_iff h2.manifoldEdges, exactly_nil_iff h2.manifoldVertices, hx,
    exactly_nil_iff h2.negative]
  simp only [SurfaceDefect, not_or, exists_and_left]

/-- **C80** (solids). -/
theorem C80_solid {P : Type} (lib : Library P) (rt : Runtime) (hrt : RuntimeOk rt) (mesh : SolidData P)
    (h : SolidDataOk lib mesh) :
    ∃ v, isSolidMeshValid lib rt mesh = .ok v ∧ (v.isValid = true ↔ ¬ SolidDefect lib mesh) := by
  obtain ⟨r, h1, h2, hl⟩ := solid_whole lib rt hrt mesh h
  refine ⟨isSolidValid r, by unfold isSolidMeshValid; rw [h1], ?_⟩
  rw [(C06_solid r hl).1]
  simp only [listsSolidInspectionResult, List.forall_mem_cons, List.not_mem_nil, false_implies, implies_true,
    and_true, count_zero, classes_ne_nil lib _ _ h2.colocation, exactly_nil_iff h2.edges, exactly_nil_iff h2.adjacency,
    exactly_nil_iff h2.polyhedra, exactly_nil_iff h2.manifoldEdges, exactly_nil_iff h2.manifoldVertices,
    exactly_nil_iff h2.manifoldFacets, exactly_nil_iff h2.negative]
  simp only [SolidDefect, not_or]
  rw [exists_comm]

/-- a valid surface, the same with two intersecting triangles, or with colocated vertices -/
example : (∃ v, isSurfaceMeshValid 2 (exampleLibrary fourPoints) exampleRuntime
      (exampleSurfaceData [0, 10, 20, 30] false) = .ok v ∧ v.isValid = true) ∧
    (∃ v, isSurfaceMeshValid 2 (exampleLibrary fourPoints) exampleRuntime
      (exampleSurfaceData [0, 10, 20, 30] true) = .ok v ∧ v.isValid = false) ∧
    ¬ SurfaceDefect 2 (exampleLibrary fourPoints) (exampleSurfaceData [0, 10, 20, 30] false) := by
  obtain ⟨v, h1, h2⟩ := C80_surface 2 _ exampleRuntime exampleRuntime_ok _ _
    (exampleSurfaceData_ok [0, 10, 20, 30] fourPoints fourPoints_ok rfl false)
  have hv : v.isValid = true := by
    have : isSurfaceMeshValid 2 (exampleLibrary fourPoints) exampleRuntime
      (exampleSurfaceData [0, 10, 20, 30] false) = .ok {} := by rfl
    rw [this] at h1
    injection h1 with h1
    rw [← h1]
    rfl
  refine ⟨⟨v, h1, hv⟩, ?_, h2.1 hv⟩
  obtain ⟨v', h1', h2'⟩ := C80_surface 2 _ exampleRuntime exampleRuntime_ok _ _
    (exampleSurfaceData_ok [0, 10, 20, 30] fourPoints fourPoints_ok rfl true)
  refine ⟨v', h1', ?_⟩
  rw [← Bool.not_eq_true, h2', not_not]
  exact Or.inr (Or.inr (Or.inr (Or.inr (Or.inr (Or.inr (Or.inl ⟨0, 1, by decide, by decide, by decide, rfl⟩))))))

/-- a curve with two vertices closer than epsilon is not valid -/
example : ∃ v, isCurveMeshValid (exampleLibrary fourPoints) exampleRuntime (exampleCurveData [0, 10, 11, 30]) = .ok v ∧
    v.isValid = false := by
  obtain ⟨v, h1, h2⟩ := C80_edged_curve (exampleLibrary fourPoints) exampleRuntime exampleRuntime_ok
    (exampleCurveData [0, 10, 11, 30]) ⟨fourPoints_ok, by decide⟩
  refine ⟨v, h1, ?_⟩
  rw [← Bool.not_eq_true, h2, not_not]
  exact Or.inr ⟨1, by decide, 10, 11, rfl, rfl, 1, 1, rfl, rfl, by decide⟩

/-- a tetrahedron is valid, not if its volume is negative -/
example : (∃ v, isSolidMeshValid (exampleLibrary fourPoints) exampleRuntime (exampleSolidData .positive) = .ok v ∧
      v.isValid = true) ∧
    ∃ v, isSolidMeshValid (exampleLibrary fourPoints) exampleRuntime (exampleSolidData .negative) = .ok v ∧
      v.isValid = false := by
  constructor
  · exact ⟨{}, by rfl, rfl⟩
  · obtain ⟨v, h1, h2⟩ := C80_solid (exampleLibrary fourPoints) exampleRuntime exampleRuntime_ok _
      (exampleSolidData_ok .negative)
    refine ⟨v, h1, ?_⟩
    rw [← Bool.not_eq_true, h2, not_not]
    exact Or.inr (Or.inr (Or.inr (Or.inr (Or.inr (Or.inr (Or.inr ⟨0, by decide, Or.inl ⟨rfl, rfl⟩⟩))))))

end Inspector
