import Verif.Proofs.Renumber
import Verif.Props.Whole
import Mathlib.Logic.Equiv.Basic
/-
Property C109: the inspection of a mesh does not depend on the numbers of its elements.
-/
namespace Inspector
open Spec Renumber

/-- **C109** (point sets). -/
theorem C109_point_set {P : Type} (lib : Library P) (near : P → P → Prop) (points points' : List P)
    (v : Equiv.Perm Nat) (h : SearchOk (lib.search points) points.length)
    (h' : SearchOk (lib.search points') points'.length) (hm : MovedPoints points points' v)
    (hn : FindsNear lib near points) (hn' : FindsNear lib near points') :
    ∃ val val', isPointSetMeshValid lib points = .ok val ∧ isPointSetMeshValid lib points' = .ok val' ∧
      val'.isValid = val.isValid := by
  obtain ⟨val, h1, h2⟩ := C80_point_set lib points h
  obtain ⟨val', h1', h2'⟩ := C80_point_set lib points' h'
  refine ⟨val, val', h1, h1', ?_⟩
  rw [Bool.eq_iff_iff, h2, h2', colocated_moved hm hn hn']

/-- **C109** (curves). -/
theorem C109_edged_curve {P : Type} (lib : Library P) (near : P → P → Prop) (rt rt' : Runtime) (hrt : RuntimeOk rt)
    (hrt' : RuntimeOk rt') (m m' : CurveData P) (v e : Equiv.Perm Nat) (h : CurveDataOk lib m)
    (h' : CurveDataOk lib m') (hm : CurveRenumbering m m' v e) (hd : DistanceSymmetric lib)
    (hn : FindsNear lib near m.points) (hn' : FindsNear lib near m'.points) :
    ∃ r r' val val', inspectCurveMesh lib rt m = .ok r ∧ inspectCurveMesh lib rt' m' = .ok r' ∧
      RenumberedCurve e r r' ∧ isCurveMeshValid lib rt m = .ok val ∧ isCurveMeshValid lib rt' m' = .ok val' ∧
      val'.isValid = val.isValid := by
  obtain ⟨r, h1, h2, hl⟩ := curve_whole lib rt hrt m h
  obtain ⟨r', h1', h2', hl'⟩ := curve_whole lib rt' hrt' m' h'
  have hr := curve_report hm hd hn hn' h2 h2'
  refine ⟨r, r', isEdgedCurveValid r, isEdgedCurveValid r', h1, h1', hr, by unfold isCurveMeshValid; rw [h1],
    by unfold isCurveMeshValid; rw [h1'], ?_⟩
  rw [Bool.eq_iff_iff, (C06_edged_curve r hl).1, (C06_edged_curve r' hl').1]
  simp only [listsEdgedCurveInspectionResult, List.forall_mem_cons, List.not_mem_nil, false_implies, implies_true,
    and_true, count_zero, ne_eq, not_not, hr.colocation, perm_nil hr.edges]

/-- **C109** (surfaces). -/
theorem C109_surface {P : Type} (dimension : Nat) (lib : Library P) (near : P → P → Prop) (rt rt' : Runtime)
    (hrt : RuntimeOk rt) (hrt' : RuntimeOk rt') (m m' : SurfaceData P) (candidates candidates' : List ElementPair)
    (v p e : Equiv.Perm Nat) (turn : Nat → Nat) (raises raises' : Index → Prop)
    (linked linked' : Index → PolygonEdge → PolygonEdge → Prop)
    (h : SurfaceDataOk lib m candidates) (h' : SurfaceDataOk lib m' candidates')
    (hm : SurfaceRenumbering m m' v p e turn) (hd : DistanceSymmetric lib)
    (hn : FindsNear lib near m.points) (hn' : FindsNear lib near m'.points)
    (hw : WalksFans m raises linked) (hw' : WalksFans m' raises' linked')
    (hs : SameFans m v p turn raises raises' linked linked') :
    ∃ r r' val val', inspectSurfaceMesh dimension lib rt m = .ok r ∧ inspectSurfaceMesh dimension lib rt' m' = .ok r' ∧
      RenumberedSurface m.toSurfaceMesh v p e turn r r' ∧ isSurfaceMeshValid dimension lib rt m = .ok val ∧
      isSurfaceMeshValid dimension lib rt' m' = .ok val' ∧ val'.isValid = val.isValid := by
  obtain ⟨r, h1, h2, hl⟩ := surface_whole dimension lib rt hrt m candidates h
  obtain ⟨r', h1', h2', hl'⟩ := surface_whole dimension lib rt' hrt' m' candidates' h'
  have hr := surface_report hm hd hn hn' hw hw' hs h2 h2'
  refine ⟨r, r', isSurfaceValid r, isSurfaceValid r', h1, h1', hr, by unfold isSurfaceMeshValid; rw [h1],
    by unfold isSurfaceMeshValid; rw [h1'], ?_⟩
  have hi : r'.intersecting_elements.issues = [] ↔ r.intersecting_elements.issues = [] := by
    constructor
    · intro hnil
      rw [List.eq_nil_iff_forall_not_mem]
      rintro ⟨i, j⟩ hij
      have := (hr.intersecting i j).2 (Or.inl hij)
      rw [hnil] at this
      simp at this
    · intro hnil
      rw [List.eq_nil_iff_forall_not_mem]
      rintro ⟨i, j⟩ hij
      obtain ⟨a, rfl⟩ := p.surjective i
      obtain ⟨b, rfl⟩ := p.surjective j
      have := (hr.intersecting a b).1 (Or.inl hij)
      rw [hnil] at this
      simp at this
  rw [Bool.eq_iff_iff, (C06_surface r hl).1, (C06_surface r' hl').1]
  simp only [listsSurfaceInspectionResult, List.forall_mem_cons, List.not_mem_nil, false_implies, implies_true,
    and_true, count_zero, ne_eq, not_not, hr.colocation, perm_nil hr.edges, perm_nil hr.adjacency,
    perm_nil hr.polygons, perm_nil hr.manifoldEdges, perm_nil hr.manifoldVertices, perm_nil hr.negative, hi]

/-- **C109** (solids). -/
theorem C109_solid {P : Type} (lib : Library P) (near : P → P → Prop) (rt rt' : Runtime)
    (hrt : RuntimeOk rt) (hrt' : RuntimeOk rt') (m m' : SolidData P) (v p e : Equiv.Perm Nat)
    (corners corners' : Index → Nat × Nat → Nat × Nat → Prop) (raises raises' : Index × Index → Prop)
    (linked linked' : Index × Index → Index → Index → Prop)
    (h : SolidDataOk lib m) (h' : SolidDataOk lib m') (hm : SolidRenumbering lib m m' v p e)
    (hd : DistanceSymmetric lib) (hn : FindsNear lib near m.points) (hn' : FindsNear lib near m'.points)
    (hw : WalksSolidFans m corners) (hw' : WalksSolidFans m' corners')
    (ht : TurnsAround m raises linked) (ht' : TurnsAround m' raises' linked')
    (hs : SameSolidFans m v p corners corners' raises raises' linked linked') :
    ∃ r r' val val', inspectSolidMesh lib rt m = .ok r ∧ inspectSolidMesh lib rt' m' = .ok r' ∧
      RenumberedSolid lib m.toSolidMesh v p e r r' ∧ isSolidMeshValid lib rt m = .ok val ∧
      isSolidMeshValid lib rt' m' = .ok val' ∧ val'.isValid = val.isValid := by
  obtain ⟨r, h1, h2, hl⟩ := solid_whole lib rt hrt m h
  obtain ⟨r', h1', h2', hl'⟩ := solid_whole lib rt' hrt' m' h'
  have hr := solid_report hm hd hn hn' hw hw' ht ht' hs h2 h2'
  refine ⟨r, r', isSolidValid r, isSolidValid r', h1, h1', hr, by unfold isSolidMeshValid; rw [h1],
    by unfold isSolidMeshValid; rw [h1'], ?_⟩
  have hf : r'.non_manifold_facets.issues = [] ↔ r.non_manifold_facets.issues = [] := by
    constructor
    · intro hnil
      rw [List.eq_nil_iff_forall_not_mem]
      intro f hf
      obtain ⟨x, hx, rfl⟩ := facetUses_pos (lib := lib) (m := m)
        (Nat.lt_of_le_of_lt (Nat.zero_le _) ((h2.manifoldFacets.2 f).1 hf))
      have := (hr.manifoldFacets x hx).2 hf
      rw [hnil] at this
      simp at this
    · intro hnil
      rw [List.eq_nil_iff_forall_not_mem]
      intro f hf
      obtain ⟨x, hx, rfl⟩ := hr.manifoldFacetsOnly f hf
      have := (hr.manifoldFacets x hx).1 hf
      rw [hnil] at this
      simp at this
  have he : r'.non_manifold_edges.issues = [] ↔ r.non_manifold_edges.issues = [] := by
    have := perm_nil hr.manifoldEdges
    rwa [List.map_eq_nil_iff] at this
  rw [Bool.eq_iff_iff, (C06_solid r hl).1, (C06_solid r' hl').1]
  simp only [listsSolidInspectionResult, List.forall_mem_cons, List.not_mem_nil, false_implies, implies_true,
    and_true, count_zero, ne_eq, not_not, hr.colocation, perm_nil hr.edges, perm_nil hr.adjacency,
    perm_nil hr.polyhedra, he, perm_nil hr.manifoldVertices, perm_nil hr.negative, hf]

/-! ### non-vacuity -/

/-- the surface of `exampleSurfaceData` with other numbers: vertices 0 and 3, polygons 0 and 1 and edges 0 and 4 are
exchanged, polygon 0 is turned by 1 and polygon 1 by 2, edges are written in the other direction, walks begin
elsewhere -/
def renumberedSurfaceData (intersect : Bool) : SurfaceData Nat where
  nbPolygons := 2
  nbPolygonVertices _ := 3
  polygonVertex x := (([[1, 0, 2], [2, 3, 1]].getD x.1 []).getD x.2 0)
  polygonAdjacent x := if x = (1, 2) then some 0 else if x = (0, 2) then some 1 else none
  label := "renumbered square"
  points := [30, 10, 20, 0]
  polygonsAroundVertex v := .ok ([[(0, 1)], [(1, 2), (0, 0)], [(0, 2), (1, 0)], [(1, 1)]].getD v [])
  nbEdges := 5
  edgeVertices e := [(0, 2), (2, 3), (1, 2), (0, 1), (1, 3)].getD e (0, 0)
  minimumHeight _ := .num 5
  isPolygonDegenerated _ := false
  polygonAreaSign _ := .positive
  polygonsIntersect _ _ := .ok intersect
  traverse _ := [(1, 0)]

theorem renumberedSurfaceData_ok (b : Bool) :
    SurfaceDataOk (exampleLibrary fourPoints) (renumberedSurfaceData b) [(1, 0)] where
  search := fourPoints_ok
  tree :=
    { traversal := fun _ => ⟨⟨[(1, 0)], List.Perm.refl _, List.Sublist.refl _⟩, fun _ => List.Perm.refl _⟩
      polygons := by intro x hx; rw [List.mem_singleton] at hx; subst hx
                     exact (by decide : (1 : Nat) < 2 ∧ (0 : Nat) < 2)
      complete := by
        rintro p q ⟨hp, hq, hne, hb⟩
        have hp : p < 2 := hp
        have hq : q < 2 := hq
        refine ⟨(1, 0), by simp, ?_, (by decide : (1 : Nat) < 2), (by decide : (0 : Nat) < 2), by decide, hb⟩
        obtain ⟨rfl, rfl⟩ | ⟨rfl, rfl⟩ : (p = 1 ∧ q = 0) ∨ (p = 0 ∧ q = 1) := by unfold Index at *; omega
        · exact Or.inl rfl
        · exact Or.inr rfl
      length := by decide }
  answers := fun _ _ _ h => by cases h.2
  vertices := by
    intro p k hp hk
    have hp : p < 2 := hp
    have hk : k < 3 := hk
    show (([[1, 0, 2], [2, 3, 1]].getD p []).getD k 0) < 4
    obtain rfl | rfl : p = 0 ∨ p = 1 := by omega
    all_goals obtain rfl | rfl | rfl : k = 0 ∨ k = 1 ∨ k = 2 := by omega
    all_goals decide
  walks := by intro v _ f hf; cases hf
  nbEdges := (by decide : (5 : Nat) < 2 ^ 32)
  nbPolygons := (by decide : (2 : Nat) < 2 ^ 32)
  nbPolygonEdges := (by decide : (6 : Nat) < 2 ^ 32)
  uses := by
    intro e
    refine Nat.lt_of_le_of_lt (List.length_filter_le ..) ?_
    show (polygonEdges (renumberedSurfaceData b).toSurfaceMesh).length < 256
    rw [polygonEdges, pairs_length]
    exact (by decide : (6 : Nat) < 256)

/-- the polygon edges of two triangles -/
theorem six_edges {q : PolygonEdge → Prop} (h : ∀ p ∈ [0, 1], ∀ k ∈ [0, 1, 2], q (p, k)) (x : PolygonEdge)
    (h1 : x.1 < 2) (h2 : x.2 < 3) : q x := by
  obtain ⟨p, k⟩ := x
  simp only at h1 h2
  refine h p ?_ k ?_
  · obtain rfl | rfl : p = 0 ∨ p = 1 := by omega
    all_goals decide
  · obtain rfl | rfl | rfl : k = 0 ∨ k = 1 ∨ k = 2 := by omega
    all_goals decide

theorem swap_renumbers (a b n : Nat) (ha : a < n) (hb : b < n) : Renumbers (Equiv.swap a b) n := by
  intro i
  rw [Equiv.swap_apply_def]
  split
  · rename_i h; omega
  · split
    · rename_i h; omega
    · rfl

theorem movedPoints_example : MovedPoints [0, 10, 20, 30] [30, 10, 20, 0] (Equiv.swap 0 3) where
  length := rfl
  point := by
    intro i
    match i with
    | 0 | 1 | 2 | 3 => decide
    | k + 4 =>
      rw [Equiv.swap_apply_of_ne_of_ne (by omega) (by omega)]
      simp

theorem renumberedSurface_example (b : Bool) :
    SurfaceRenumbering (exampleSurfaceData [0, 10, 20, 30] b) (renumberedSurfaceData b) (Equiv.swap 0 3)
      (Equiv.swap 0 1) (Equiv.swap 0 4) (fun i => i + 1) where
  points := movedPoints_example
  nbPolygons := rfl
  polygons := swap_renumbers 0 1 2 (by decide) (by decide)
  nbPolygonVertices := fun _ _ => rfl
  polygonVertex := fun x hx => six_edges
    (q := fun x => (renumberedSurfaceData true).polygonVertex
      (movedCorner (Equiv.swap 0 1) (fun i => i + 1) (exampleSurfaceData [0, 10, 20, 30] true).toSurfaceMesh x) =
      (Equiv.swap 0 3 : Equiv.Perm Nat) ((exampleSurfaceData [0, 10, 20, 30] true).polygonVertex x)) (by decide)
    x hx.1 hx.2
  polygonAdjacent := fun x hx => six_edges
    (q := fun x => (renumberedSurfaceData true).polygonAdjacent
      (movedCorner (Equiv.swap 0 1) (fun i => i + 1) (exampleSurfaceData [0, 10, 20, 30] true).toSurfaceMesh x) =
      ((exampleSurfaceData [0, 10, 20, 30] true).polygonAdjacent x).map (Equiv.swap 0 1 : Equiv.Perm Nat)) (by decide)
    x hx.1 hx.2
  adjacentExists := by
    intro x q _ hq
    have hq : (if x = (0, 1) then some 1 else if x = (1, 0) then some 0 else none) = some q := hq
    show q < 2
    split at hq
    · injection hq with hq; subst hq; decide
    · split at hq
      · injection hq with hq; subst hq; decide
      · cases hq
  nbEdges := rfl
  edges := swap_renumbers 0 4 5 (by decide) (by decide)
  edgeVertices := by
    intro k hk
    have hk : k < 5 := hk
    match k, hk with
    | 0, _ | 1, _ | 2, _ | 3, _ | 4, _ => exact of_decide_eq_true rfl
  minimumHeight := fun _ _ => rfl
  polygonAreaSign := fun _ _ => rfl
  polygonsIntersect := fun _ _ _ _ => rfl

/-- points at different places are not near -/
theorem distinct_finds (points : List Nat) (info : ColocatedInfo Nat) (hinfo : info = fourPoints)
    (hp : points.Nodup) (hlen : points.length = 4) : FindsNear (exampleLibrary info) Eq points := by
  subst hinfo
  unfold FindsNear HasColocatedVertices
  refine iff_of_false ?_ ?_
  · rintro ⟨i, j, hij, hj, u, hi, hju⟩
    have hi : ([0, 1, 2, 3] : List Nat)[i]? = some u := hi
    have hju : ([0, 1, 2, 3] : List Nat)[j]? = some u := hju
    rw [hlen] at hj
    have hn : ([0, 1, 2, 3] : List Nat).Nodup := by decide
    have hi4 : i < ([0, 1, 2, 3] : List Nat).length := Nat.lt_trans hij hj
    have : i = j := (List.getElem?_inj hi4 hn).1 (hi.trans hju.symm)
    subst this
    exact Nat.lt_irrefl _ hij
  · rintro ⟨i, j, a, b, hne, hi, hj, rfl⟩
    have hi' : i < points.length := (List.getElem?_eq_some_iff.1 hi).1
    exact hne ((List.getElem?_inj hi' hp).1 (hi.trans hj.symm))

theorem distance_example (info : ColocatedInfo Nat) : DistanceSymmetric (exampleLibrary info) := by
  intro a b
  show Dbl.num _ = Dbl.num _
  congr 1
  omega

theorem sixCorners_walk (m : SurfaceData Nat) (hn : m.nbPolygons = 2) (hv : m.nbPolygonVertices = fun _ => 3)
    (h4 : m.points.length = 4)
    (hok : ∀ i ∈ [0, 1, 2, 3], ∃ fan, m.polygonsAroundVertex i = .ok fan ∧ fan.Nodup ∧ fan ≠ [] ∧
      (∀ x ∈ fan, x.1 < 2 ∧ x.2 < 3 ∧ m.polygonVertex x = i) ∧
      ∀ p ∈ [0, 1], ∀ k ∈ [0, 1, 2], m.polygonVertex (p, k) = i → (p, k) ∈ fan) :
    WalksFans m (fun _ => False) (fun _ _ _ => True) where
  refl := fun _ _ _ => trivial
  symm := fun _ _ _ _ => trivial
  trans := fun _ _ _ _ _ _ => trivial
  raising := fun _ _ h => h.elim
  walking := by
    intro i hi _
    rw [h4] at hi
    have hi : i < 4 := hi
    obtain ⟨fan, h1, h2, h3, h5, h6⟩ := hok i (by
      match i, hi with
      | 0, _ | 1, _ | 2, _ | 3, _ => decide)
    refine ⟨fan, h1, h2, Or.inr ?_⟩
    obtain ⟨x, hx⟩ := List.exists_mem_of_ne_nil _ h3
    have hc : ∀ y ∈ fan, CornerAt m.toSurfaceMesh i y := by
      intro y hy
      obtain ⟨a, b, c⟩ := h5 y hy
      exact ⟨⟨by rw [hn]; exact a, by rw [hv]; exact b⟩, c⟩
    refine ⟨x, hc x hx, fun y => ⟨fun hy => ⟨hc y hy, trivial⟩, fun ⟨⟨⟨ha, hb⟩, hcy⟩, _⟩ => ?_⟩⟩
    rw [hn] at ha
    rw [hv] at hb
    exact six_edges (q := fun y => m.polygonVertex y = i → y ∈ fan) h6 y ha hb hcy

theorem exampleSurface_walk (b : Bool) :
    WalksFans (exampleSurfaceData [0, 10, 20, 30] b) (fun _ => False) (fun _ _ _ => True) := by
  refine sixCorners_walk _ rfl rfl rfl ?_
  intro i hi
  refine ⟨_, rfl, ?_⟩
  revert i
  show ∀ i ∈ [0, 1, 2, 3], _
  cases b <;> decide

theorem renumberedSurface_walk (b : Bool) :
    WalksFans (renumberedSurfaceData b) (fun _ => False) (fun _ _ _ => True) := by
  refine sixCorners_walk _ rfl rfl rfl ?_
  intro i hi
  refine ⟨_, rfl, ?_⟩
  revert i
  show ∀ i ∈ [0, 1, 2, 3], _
  cases b <;> decide

/-- the hypotheses are met by two triangles and the same two triangles with other numbers, here intersecting: both
verdicts are the same -/
example : ∃ r r' val val',
    inspectSurfaceMesh 3 (exampleLibrary fourPoints) exampleRuntime (exampleSurfaceData [0, 10, 20, 30] true) = .ok r ∧
    inspectSurfaceMesh 3 (exampleLibrary fourPoints) exampleRuntime (renumberedSurfaceData true) = .ok r' ∧
    RenumberedSurface (exampleSurfaceData [0, 10, 20, 30] true).toSurfaceMesh (Equiv.swap 0 3) (Equiv.swap 0 1)
      (Equiv.swap 0 4) (fun i => i + 1) r r' ∧
    isSurfaceMeshValid 3 (exampleLibrary fourPoints) exampleRuntime (exampleSurfaceData [0, 10, 20, 30] true) = .ok val ∧
    isSurfaceMeshValid 3 (exampleLibrary fourPoints) exampleRuntime (renumberedSurfaceData true) = .ok val' ∧
    val'.isValid = val.isValid :=
  C109_surface 3 _ Eq _ _ exampleRuntime_ok exampleRuntime_ok _ _ [(0, 1)] [(1, 0)] _ _ _ _ (fun _ => False)
    (fun _ => False) (fun _ _ _ => True) (fun _ _ _ => True)
    (exampleSurfaceData_ok [0, 10, 20, 30] fourPoints fourPoints_ok rfl true) (renumberedSurfaceData_ok true)
    (renumberedSurface_example true) (distance_example _) (distinct_finds _ _ rfl (by decide) rfl)
    (distinct_finds _ _ rfl (by decide) rfl) (exampleSurface_walk true) (renumberedSurface_walk true)
    ⟨fun _ _ => Iff.rfl, fun _ _ _ _ _ => Iff.rfl⟩

/-- the hypotheses are met by four points in two orders -/
example : ∃ val val', isPointSetMeshValid (exampleLibrary fourPoints) [0, 10, 20, 30] = .ok val ∧
    isPointSetMeshValid (exampleLibrary fourPoints) [30, 10, 20, 0] = .ok val' ∧ val'.isValid = val.isValid :=
  C109_point_set _ Eq _ _ _ fourPoints_ok fourPoints_ok movedPoints_example
    (distinct_finds _ _ rfl (by decide) rfl) (distinct_finds _ _ rfl (by decide) rfl)

/-- a curve with other numbers, the edges being written in the other direction -/
def renumberedCurveData : CurveData Nat where
  points := [30, 10, 20, 0]
  nbEdges := 3
  edgeVertices e := [(2, 0), (2, 1), (1, 3)].getD e (0, 0)
  isEdgeDegenerated _ := false
  edgeText _ := ""

theorem renumberedCurve_example : CurveRenumbering (exampleCurveData [0, 10, 20, 30]) renumberedCurveData
    (Equiv.swap 0 3) (Equiv.swap 0 2) where
  points := movedPoints_example
  nbEdges := rfl
  edges := swap_renumbers 0 2 3 (by decide) (by decide)
  edgeVertices := by
    intro k hk
    have hk : k < 3 := hk
    match k, hk with
    | 0, _ | 1, _ | 2, _ => exact of_decide_eq_true rfl

/-- the hypotheses are met -/
example : ∃ r r' val val',
    inspectCurveMesh (exampleLibrary fourPoints) exampleRuntime (exampleCurveData [0, 10, 20, 30]) = .ok r ∧
    inspectCurveMesh (exampleLibrary fourPoints) exampleRuntime renumberedCurveData = .ok r' ∧
    RenumberedCurve (Equiv.swap 0 2) r r' ∧
    isCurveMeshValid (exampleLibrary fourPoints) exampleRuntime (exampleCurveData [0, 10, 20, 30]) = .ok val ∧
    isCurveMeshValid (exampleLibrary fourPoints) exampleRuntime renumberedCurveData = .ok val' ∧
    val'.isValid = val.isValid :=
  C109_edged_curve _ Eq _ _ exampleRuntime_ok exampleRuntime_ok _ _ _ _ ⟨fourPoints_ok, (by decide : (3 : Nat) < 2 ^ 32)⟩
    ⟨fourPoints_ok, (by decide : (3 : Nat) < 2 ^ 32)⟩ renumberedCurve_example (distance_example _)
    (distinct_finds _ _ rfl (by decide) rfl) (distinct_finds _ _ rfl (by decide) rfl)

/-- a tetrahedron with other numbers -/
def renumberedSolidData (sign : Sign) : SolidData Nat where
  nbPolyhedra := 1
  nbPolyhedronFacets _ := 4
  polyhedronFacetVertices x := [[1, 2, 0], [3, 0, 2], [3, 1, 0], [3, 2, 1]].getD x.2 []
  polyhedronAdjacent _ := none
  label := "renumbered tetrahedron"
  points := [30, 10, 20, 0]
  nbPolyhedronVertices _ := 4
  polyhedronVertex x := [3, 1, 2, 0].getD x.2 0
  polyhedraAroundVertex v := .ok [(0, [3, 1, 2, 0].getD v 0)]
  polyhedronEdgesVertices _ := [(3, 1), (3, 2), (3, 0), (1, 2), (1, 0), (2, 0)]
  polyhedraAroundEdge _ p := .ok [p]
  nbEdges := 6
  edgeVertices e := [(0, 2), (2, 3), (0, 3), (1, 2), (0, 1), (1, 3)].getD e (0, 0)
  minimumHeight _ := .num 5
  isPolyhedronDegenerated _ := false
  tetrahedronVolumeSign _ _ _ _ := sign
  polyhedronVolume _ := .num 7

theorem renumberedSolidData_ok (sign : Sign) : SolidDataOk (exampleLibrary fourPoints) (renumberedSolidData sign) where
  search := fourPoints_ok
  vertices := by
    intro p k _ hk
    have hk : k < 4 := hk
    show ([3, 1, 2, 0] : List Nat).getD k 0 < 4
    match k, hk with
    | 0, _ | 1, _ | 2, _ | 3, _ => decide
  walks := fun _ _ => ⟨_, rfl⟩
  turns := by intro p e f _ _ h; cases h
  turnsOnce := by
    intro p e fan _ _ h
    injection h with h
    subst h
    simp
  nbEdges := (by decide : (6 : Nat) < 2 ^ 32)
  nbPolyhedra := (by decide : (1 : Nat) < 2 ^ 32)
  nbPolyhedronEdges := (by decide : (6 : Nat) < 2 ^ 32)
  nbFacets := (by decide : (4 : Nat) < 2 ^ 32)

/-- the facets of a tetrahedron -/
theorem four_facets {q : Nat × Nat → Prop} (h : ∀ k ∈ [0, 1, 2, 3], q (0, k)) (x : Nat × Nat)
    (h1 : x.1 < 1) (h2 : x.2 < 4) : q x := by
  obtain ⟨p, k⟩ := x
  simp only at h1 h2
  obtain rfl : p = 0 := by omega
  match k, h2 with
  | 0, _ | 1, _ | 2, _ | 3, _ => exact h _ (by decide)

theorem renumberedSolid_example (sign : Sign) :
    SolidRenumbering (exampleLibrary fourPoints) (exampleSolidData sign) (renumberedSolidData sign) (Equiv.swap 0 3)
      (Equiv.refl Nat) (Equiv.swap 0 5) where
  points := movedPoints_example
  nbPolyhedra := rfl
  polyhedra := fun _ => Iff.rfl
  nbPolyhedronFacets := fun _ _ => rfl
  polyhedronFacetVertices := fun x hx => four_facets
    (q := fun x => (renumberedSolidData .zero).polyhedronFacetVertices (movedFacet (Equiv.refl Nat) x) =
      ((exampleSolidData .zero).polyhedronFacetVertices x).map (Equiv.swap 0 3 : Equiv.Perm Nat)) (by decide) x hx.1 hx.2
  polyhedronAdjacent := fun _ _ => rfl
  adjacentExists := fun _ _ _ h => (by cases h)
  nbPolyhedronVertices := fun _ _ => rfl
  polyhedronVertex := by
    intro i k _ hk
    have hk : k < 4 := hk
    match k, hk with
    | 0, _ | 1, _ | 2, _ | 3, _ => exact of_decide_eq_true rfl
  polyhedronEdgesVertices := fun _ _ => (by decide : [(3, 1), (3, 2), (3, 0), (1, 2), (1, 0), (2, 0)] =
    [(0, 1), (0, 2), (0, 3), (1, 2), (1, 3), (2, 3)].map (movedEdge (Equiv.swap 0 3)))
  nbEdges := rfl
  edges := swap_renumbers 0 5 6 (by decide) (by decide)
  edgeVertices := by
    intro k hk
    have hk : k < 6 := hk
    match k, hk with
    | 0, _ | 1, _ | 2, _ | 3, _ | 4, _ | 5, _ => exact of_decide_eq_true rfl
  minimumHeight := fun _ _ => rfl
  tetrahedronVolumeSign := fun _ _ _ _ => rfl
  polyhedronVolume := fun _ _ => rfl
  opposite := fun x y hx hy => four_facets
    (q := fun x => (exampleLibrary fourPoints).isOpposite
        (((exampleSolidData .zero).polyhedronFacetVertices x).map (Equiv.swap 0 3 : Equiv.Perm Nat))
        (((exampleSolidData .zero).polyhedronFacetVertices y).map (Equiv.swap 0 3 : Equiv.Perm Nat)) =
      (exampleLibrary fourPoints).isOpposite ((exampleSolidData .zero).polyhedronFacetVertices x)
        ((exampleSolidData .zero).polyhedronFacetVertices y))
    (fun k hk => four_facets
      (q := fun y => ∀ k ∈ [0, 1, 2, 3], (exampleLibrary fourPoints).isOpposite
          (((exampleSolidData .zero).polyhedronFacetVertices (0, k)).map (Equiv.swap 0 3 : Equiv.Perm Nat))
          (((exampleSolidData .zero).polyhedronFacetVertices y).map (Equiv.swap 0 3 : Equiv.Perm Nat)) =
        (exampleLibrary fourPoints).isOpposite ((exampleSolidData .zero).polyhedronFacetVertices (0, k))
          ((exampleSolidData .zero).polyhedronFacetVertices y)) (by decide) y hy.1 hy.2 k hk) x hx.1 hx.2
  cycle := fun x y hx hy => four_facets
    (q := fun x => (exampleLibrary fourPoints).cycle
        (((exampleSolidData .zero).polyhedronFacetVertices x).map (Equiv.swap 0 3 : Equiv.Perm Nat)) =
        (exampleLibrary fourPoints).cycle
        (((exampleSolidData .zero).polyhedronFacetVertices y).map (Equiv.swap 0 3 : Equiv.Perm Nat)) ↔
      (exampleLibrary fourPoints).cycle ((exampleSolidData .zero).polyhedronFacetVertices x) =
      (exampleLibrary fourPoints).cycle ((exampleSolidData .zero).polyhedronFacetVertices y))
    (fun k hk => four_facets
      (q := fun y => ∀ k ∈ [0, 1, 2, 3], ((exampleLibrary fourPoints).cycle
          (((exampleSolidData .zero).polyhedronFacetVertices (0, k)).map (Equiv.swap 0 3 : Equiv.Perm Nat)) =
          (exampleLibrary fourPoints).cycle
          (((exampleSolidData .zero).polyhedronFacetVertices y).map (Equiv.swap 0 3 : Equiv.Perm Nat)) ↔
        (exampleLibrary fourPoints).cycle ((exampleSolidData .zero).polyhedronFacetVertices (0, k)) =
        (exampleLibrary fourPoints).cycle ((exampleSolidData .zero).polyhedronFacetVertices y))) (by decide) y
      hy.1 hy.2 k hk) x hx.1 hx.2

theorem oneTetrahedron_walk (m : SolidData Nat) (hn : m.nbPolyhedra = 1) (hv : m.nbPolyhedronVertices = fun _ => 4)
    (h4 : m.points.length = 4)
    (hok : ∀ i ∈ [0, 1, 2, 3], ∃ fan, m.polyhedraAroundVertex i = .ok fan ∧ fan.Nodup ∧ fan ≠ [] ∧
      (∀ x ∈ fan, x.1 < 1 ∧ x.2 < 4 ∧ m.polyhedronVertex x = i) ∧
      ∀ k ∈ [0, 1, 2, 3], m.polyhedronVertex (0, k) = i → (0, k) ∈ fan) :
    WalksSolidFans m (fun _ _ _ => True) where
  refl := fun _ _ _ => trivial
  symm := fun _ _ _ _ => trivial
  trans := fun _ _ _ _ _ _ => trivial
  walking := by
    intro i hi
    rw [h4] at hi
    have hi : i < 4 := hi
    obtain ⟨fan, h1, h2, h3, h5, h6⟩ := hok i (by
      match i, hi with
      | 0, _ | 1, _ | 2, _ | 3, _ => decide)
    refine ⟨fan, h1, h2, Or.inr ?_⟩
    obtain ⟨x, hx⟩ := List.exists_mem_of_ne_nil _ h3
    have hc : ∀ y ∈ fan, SolidCornerAt m i y := by
      intro y hy
      obtain ⟨a, b, c⟩ := h5 y hy
      exact ⟨by rw [hn]; exact a, by rw [hv]; exact b, c⟩
    refine ⟨x, hc x hx, fun y => ⟨fun hy => ⟨hc y hy, trivial⟩, fun ⟨⟨ha, hb, hcy⟩, _⟩ => ?_⟩⟩
    rw [hn] at ha
    rw [hv] at hb
    exact four_facets (q := fun y => m.polyhedronVertex y = i → y ∈ fan) h6 y ha hb hcy

theorem oneTetrahedron_turn (m : SolidData Nat) (hn : m.nbPolyhedra = 1)
    (ht : m.polyhedraAroundEdge = fun _ p => .ok [p]) : TurnsAround m (fun _ => False) (fun _ _ _ => True) where
  refl := fun _ _ _ => trivial
  symm := fun _ _ _ _ => trivial
  trans := fun _ _ _ _ _ _ => trivial
  reverse := fun _ _ _ _ => ⟨Iff.rfl, Iff.rfl⟩
  raising := fun _ _ _ h => h.elim
  turning := by
    intro e q hq _
    refine ⟨[q], by rw [ht], by simp, fun y => ?_⟩
    rw [List.mem_singleton]
    constructor
    · rintro rfl; exact ⟨hq, trivial⟩
    · rintro ⟨hy, _⟩
      have h1 := hq.1
      have h2 := hy.1
      rw [hn] at h1 h2
      unfold Index at *
      omega

/-- the hypotheses are met by a tetrahedron of negative volume with two numberings -/
example : ∃ r r' val val',
    inspectSolidMesh (exampleLibrary fourPoints) exampleRuntime (exampleSolidData .negative) = .ok r ∧
    inspectSolidMesh (exampleLibrary fourPoints) exampleRuntime (renumberedSolidData .negative) = .ok r' ∧
    RenumberedSolid (exampleLibrary fourPoints) (exampleSolidData .negative).toSolidMesh (Equiv.swap 0 3)
      (Equiv.refl Nat) (Equiv.swap 0 5) r r' ∧
    isSolidMeshValid (exampleLibrary fourPoints) exampleRuntime (exampleSolidData .negative) = .ok val ∧
    isSolidMeshValid (exampleLibrary fourPoints) exampleRuntime (renumberedSolidData .negative) = .ok val' ∧
    val'.isValid = val.isValid :=
  C109_solid _ Eq _ _ exampleRuntime_ok exampleRuntime_ok _ _ _ _ _ (fun _ _ _ => True) (fun _ _ _ => True)
    (fun _ => False) (fun _ => False) (fun _ _ _ => True) (fun _ _ _ => True)
    (exampleSolidData_ok _) (renumberedSolidData_ok _)
    (renumberedSolid_example _) (distance_example _) (distinct_finds _ _ rfl (by decide) rfl)
    (distinct_finds _ _ rfl (by decide) rfl)
    (oneTetrahedron_walk _ rfl rfl rfl (by
      intro i hi
      refine ⟨_, rfl, ?_⟩
      revert i
      show ∀ i ∈ [0, 1, 2, 3], _
      decide))
    (oneTetrahedron_walk _ rfl rfl rfl (by
      intro i hi
      refine ⟨_, rfl, ?_⟩
      revert i
      show ∀ i ∈ [0, 1, 2, 3], _
      decide))
    (oneTetrahedron_turn _ rfl rfl) (oneTetrahedron_turn _ rfl rfl)
    ⟨fun _ _ _ _ _ => Iff.rfl, fun _ => Iff.rfl, fun _ _ _ _ _ => Iff.rfl⟩

end Inspector
