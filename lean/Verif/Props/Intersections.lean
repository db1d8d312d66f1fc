import Verif.Proofs.Intersections
/-
Properties C33-C37 and C57-C62: intersections.
-/
namespace Inspector
open Spec

/-- A traversal stopping just after the first pair on which the action asks to stop: used by the
examples. -/
def untilStop (candidates : List ElementPair) : Traversal := fun stop =>
  match candidates.findIdx? stop with
  | none => candidates
  | some i => candidates.take (i + 1)

theorem untilStop_isTraversal (candidates : List ElementPair) : IsTraversal (untilStop candidates) candidates := by
  intro stop
  unfold untilStop
  cases h : candidates.findIdx? stop with
  | none => exact ⟨⟨candidates, List.Perm.refl _, List.Sublist.refl _⟩, fun _ => List.Perm.refl _⟩
  | some i =>
    refine ⟨⟨_, List.Perm.refl _, List.take_sublist _ _⟩, fun hs => ?_⟩
    exfalso
    obtain ⟨hi, hst, _⟩ := List.findIdx?_eq_some_iff_getElem.1 h
    have : candidates[i] ∈ candidates.take (i + 1) := by
      rw [List.mem_take_iff_getElem]
      exact ⟨i, by omega, rfl⟩
    have := hs _ this
    rw [hst] at this
    cases this

theorem perm_nil_iff {α : Type} {l l' : List α} (h : l.Perm l') : l = [] ↔ l' = [] :=
  ⟨fun e => by subst e; exact h.symm.eq_nil, fun e => by subst e; exact h.eq_nil⟩

/-! ### C33 -/

/-- **C33.** Whatever the order in which the tree is traversed, the reported pairs are exactly the
candidate pairs of distinct intersecting polygons, and the boolean (computed by another traversal, that
may stop early) tells whether there is one. -/
theorem C33_surface_self_intersections (mesh : IntersectionSurface) (candidates : List ElementPair)
    (traverse traverse' : Traversal) (ht : IsTraversal traverse candidates) (ht' : IsTraversal traverse' candidates)
    (ha : ∀ x ∈ candidates, PolygonTestAnswers mesh x) :
    ∃ issues b, surfaceIntersectingElements traverse mesh = .ok issues ∧ meshHasSelfIntersections traverse' mesh = .ok b ∧
      issues.issues.Perm (candidates.filter fun p => decide (SelfIntersecting mesh p)) ∧
      (b = true ↔ issues.issues ≠ []) ∧ (b = true ↔ ∃ p ∈ candidates, SelfIntersecting mesh p) := by
  have hact : ∀ stop, ∀ x ∈ candidates, polygonPolygonAction mesh stop x
      = .ok (decide (SelfIntersecting mesh x), decide (SelfIntersecting mesh x) && stop) := by
    intro stop x hx
    unfold polygonPolygonAction
    by_cases h1 : x.1 = x.2
    · have : ¬ SelfIntersecting mesh x := fun h => h.1 h1
      simp [h1, this]
    · obtain ⟨b, hb⟩ := ha x hx h1
      cases b
      · have : ¬ SelfIntersecting mesh x := fun h => by rw [h.2] at hb; cases hb
        simp [h1, hb, this]
      · have : SelfIntersecting mesh x := ⟨h1, hb⟩
        simp [h1, hb, this]
  obtain ⟨l, hl, _, hp⟩ := runTraversal_ok ht (fun x => decide (SelfIntersecting mesh x)) (fun _ => false)
    (polygonPolygonAction mesh false) (fun x hx => by rw [hact _ x hx]; simp) (fun _ h => by cases h)
  have hp := hp (fun _ _ => rfl)
  obtain ⟨l', hl', hnil, _⟩ := runTraversal_ok ht' (fun x => decide (SelfIntersecting mesh x))
    (fun x => decide (SelfIntersecting mesh x)) (polygonPolygonAction mesh true) (fun x hx => by rw [hact _ x hx]; simp)
    (fun _ h => h)
  have hex : (¬ l' = []) ↔ ∃ p ∈ candidates, SelfIntersecting mesh p := by
    rw [hnil]; simp
  have hb : (!l'.isEmpty) = true ↔ l' ≠ [] := by cases l' <;> simp
  refine ⟨_, !l'.isEmpty, by unfold surfaceIntersectingElements intersectingPolygons; rw [hl], ?_, ?_, ?_, ?_⟩
  · unfold meshHasSelfIntersections intersectingPolygons
    rw [hl']
    cases l' <;> rfl
  · rw [foldl_add_pairs]
    simpa [Issues.new] using hp
  · rw [hb, ne_eq, hex, foldl_add_pairs]
    simp only [Issues.new, List.nil_append, ne_eq]
    rw [perm_nil_iff hp]
    simp
  · rw [hb, ne_eq, hex]

/-- **C33**, exceptions: if the test of a candidate pair of distinct polygons raises, the list is not returned: an
exception of the test of a candidate pair is raised, whatever the order of the traversal. -/
theorem C33_raises (mesh : IntersectionSurface) (candidates : List ElementPair) (traverse : Traversal)
    (ht : IsTraversal traverse candidates)
    (hraise : ∃ x ∈ candidates, ¬ PolygonTestAnswers mesh x) :
    ∃ f, surfaceIntersectingElements traverse mesh = .error f ∧ ∃ x ∈ candidates, x.1 ≠ x.2 ∧
      mesh.polygonsIntersect (mesh.polygonVertices x.1) (mesh.polygonVertices x.2) = .error f := by
  have hact : ∀ x f, polygonPolygonAction mesh false x = .error f ↔ x.1 ≠ x.2 ∧
      mesh.polygonsIntersect (mesh.polygonVertices x.1) (mesh.polygonVertices x.2) = .error f := by
    intro x f
    unfold polygonPolygonAction
    by_cases h1 : x.1 = x.2
    · simp [h1]
    · cases hb : mesh.polygonsIntersect (mesh.polygonVertices x.1) (mesh.polygonVertices x.2) with
      | error e => simp [h1]
      | ok b => cases b <;> simp [h1]
  have hfold : ∀ (l : List ElementPair) (acc : List ElementPair),
      (∃ f, l.foldlM (fun intersecting x =>
        match polygonPolygonAction mesh false x with
        | .error f => .error f
        | .ok r => .ok (if r.1 then intersecting ++ [x] else intersecting)) acc = (.error f : Except Failure _) ∧
        ∃ x ∈ l, polygonPolygonAction mesh false x = .error f) ∨ ∀ x ∈ l, ∃ r, polygonPolygonAction mesh false x = .ok r := by
    intro l
    induction l with
    | nil => intro acc; exact .inr (by simp)
    | cons x l ih =>
      intro acc
      rw [List.foldlM_cons]
      cases hx : polygonPolygonAction mesh false x with
      | error f => exact .inl ⟨f, rfl, x, by simp, hx⟩
      | ok r =>
        rcases ih (if r.1 then acc ++ [x] else acc) with ⟨f, h1, y, hy, h2⟩ | h
        · exact .inl ⟨f, h1, y, by simp [hy], h2⟩
        · refine .inr fun y hy => ?_
          rcases List.mem_cons.1 hy with rfl | hy
          · exact ⟨r, hx⟩
          · exact h y hy
  have hstop : ∀ x r, polygonPolygonAction mesh false x = .ok r → r.2 = false := by
    intro x r h
    unfold polygonPolygonAction at h
    split at h
    · cases h; rfl
    · split at h <;> cases h <;> rfl
  obtain ⟨⟨l, hl, hsub⟩, hall⟩ := ht fun x => match polygonPolygonAction mesh false x with
    | .ok r => r.2
    | .error _ => true
  unfold surfaceIntersectingElements intersectingPolygons
  rcases hfold (traverse fun x => match polygonPolygonAction mesh false x with
    | .ok r => r.2
    | .error _ => true) [] with ⟨f, h1, x, hx, h2⟩ | h
  · have he : runTraversal traverse (polygonPolygonAction mesh false) = .error f := h1
    refine ⟨f, by rw [he], x, hsub.subset (hl.symm.subset hx), (hact x f).1 h2⟩
  · exfalso
    have hperm := hall fun x hx => by
      obtain ⟨r, hr⟩ := h x hx
      simp only [hr]
      exact hstop x r hr
    obtain ⟨x, hx, hno⟩ := hraise
    refine hno fun hne => ?_
    obtain ⟨r, hr⟩ := h x (hperm.symm.subset hx)
    cases hb : mesh.polygonsIntersect (mesh.polygonVertices x.1) (mesh.polygonVertices x.2) with
    | ok b => exact ⟨b, rfl⟩
    | error e =>
      rw [(hact x e).2 ⟨hne, hb⟩] at hr
      cases hr

/-- A surface of three polygons; the test raises for the last two. -/
example : ∃ x ∈ [(0, 1), (0, 0), (1, 2)], ¬ PolygonTestAnswers
    ⟨fun p => [p], fun a b => if a = [1] ∧ b = [2] then .error .openGeodeException else .ok true⟩ x :=
  ⟨(1, 2), by simp, fun h => by obtain ⟨b, hb⟩ := h (by decide); cases hb⟩

example : IsTraversal (untilStop [(0, 1), (0, 0), (1, 2)]) [(0, 1), (0, 0), (1, 2)] :=
  untilStop_isTraversal _

/-! ### C34 -/

/-- the common part of **C34** -/
theorem triangle_edge_intersections (intersects : ElementPair → Bool) (candidates : List ElementPair)
    (traverse traverse' : Traversal) (ht : IsTraversal traverse candidates) (ht' : IsTraversal traverse' candidates) :
    ∃ issues b, curveIntersectingElements traverse intersects = .ok issues ∧
      meshesHaveIntersections traverse' intersects = .ok b ∧
      issues.issues.Perm (candidates.filter intersects) ∧
      (b = true ↔ issues.issues ≠ []) := by
  obtain ⟨l, hl, _, hp⟩ := runTraversal_ok ht intersects (fun _ => false)
    (allTriangleEdgeAction intersects) (fun x _ => by
      unfold allTriangleEdgeAction; cases intersects x <;> rfl) (fun _ h => by cases h)
  have hp := hp (fun _ _ => rfl)
  obtain ⟨l', hl', hnil, _⟩ := runTraversal_ok ht' intersects intersects
    (oneTriangleEdgeAction intersects) (fun x _ => by
      unfold oneTriangleEdgeAction; cases intersects x <;> rfl) (fun _ h => h)
  have hb : (!l'.isEmpty) = true ↔ l' ≠ [] := by cases l' <;> simp
  refine ⟨_, !l'.isEmpty, by unfold curveIntersectingElements; rw [hl], ?_, ?_, ?_⟩
  · unfold meshesHaveIntersections
    rw [hl']
    cases l' <;> rfl
  · rw [foldl_add_pairs]
    simpa [Issues.new] using hp
  · rw [hb, ne_eq, hnil, foldl_add_pairs]
    simp only [Issues.new, List.nil_append, ne_eq]
    rw [perm_nil_iff hp]
    simp

open Classical in
/-- **C34** (2D). -/
theorem C34_surface_curve_2d {P : Type} (m : SurfaceCurve P) (candidates : List ElementPair)
    (traverse traverse' : Traversal) (ht : IsTraversal traverse candidates) (ht' : IsTraversal traverse' candidates) :
    ∃ issues b, curveIntersectingElements traverse (edgeIntersectsTriangle2D m) = .ok issues ∧
      meshesHaveIntersections traverse' (edgeIntersectsTriangle2D m) = .ok b ∧
      issues.issues.Perm (candidates.filter fun p => decide (SegmentMeetsTriangle2D m p.1 p.2)) ∧
      (b = true ↔ issues.issues ≠ []) := by
  have : (fun p : ElementPair => decide (SegmentMeetsTriangle2D m p.1 p.2)) = edgeIntersectsTriangle2D m := by
    funext p
    rw [Bool.eq_iff_iff, decide_eq_true_iff]
    exact (edge2D_iff m p.1 p.2).symm
  rw [this]
  exact triangle_edge_intersections _ candidates traverse traverse' ht ht'

open Classical in
/-- **C34** (3D). -/
theorem C34_surface_curve_3d {P : Type} (m : SurfaceCurve P) (candidates : List ElementPair)
    (traverse traverse' : Traversal) (ht : IsTraversal traverse candidates) (ht' : IsTraversal traverse' candidates) :
    ∃ issues b, curveIntersectingElements traverse (edgeIntersectsTriangle3D m) = .ok issues ∧
      meshesHaveIntersections traverse' (edgeIntersectsTriangle3D m) = .ok b ∧
      issues.issues.Perm (candidates.filter fun p => decide (SegmentMeetsTriangle3D m p.1 p.2)) ∧
      (b = true ↔ issues.issues ≠ []) := by
  have : (fun p : ElementPair => decide (SegmentMeetsTriangle3D m p.1 p.2)) = edgeIntersectsTriangle3D m := by
    funext p
    rw [Bool.eq_iff_iff, decide_eq_true_iff]
    exact (edge3D_iff m p.1 p.2).symm
  rw [this]
  exact triangle_edge_intersections _ candidates traverse traverse' ht ht'

example : ∃ m : SurfaceCurve Nat, SegmentMeetsTriangle3D m 0 0 ∧ ¬ SegmentMeetsTriangle3D m 0 1 :=
  ⟨⟨fun _ => (0, 1, 2), fun _ k => (k, (k + 1) % 3), fun e => (e, 5), fun _ _ => .outside, fun _ _ => (.outside, .outside),
    fun s _ => if s.1 = 0 then (.inside, .other 0) else (.vertex0, .vertex1)⟩, by
    refine ⟨Or.inr ⟨by simp, by simp, Or.inl (by simp)⟩, ?_⟩
    rintro (⟨v, _, h⟩ | ⟨_, _, h | h | ⟨h, _⟩⟩)
    · simp at h
    · simp at h
    · simp at h
    · simp at h⟩

/-! ### C35 -/

/-- **C35.** A polygon of 3 to 256 vertices is cut, from any apex, in two less triangles than vertices,
all with the apex and two consecutive vertices, using each edge of the polygon. -/
theorem C35_fan_partial (polygon : List Index) (apex : Nat) (h3 : 3 ≤ polygon.length) (h256 : polygon.length ≤ 256)
    (ha : apex < polygon.length) :
    (polygonFanTriangles polygon apex).length = polygon.length - 2 ∧
    (∀ t ∈ polygonFanTriangles polygon apex, ∃ i, i < polygon.length ∧
      t = [polygon.getD apex 0, polygon.getD i 0, polygon.getD ((i + 1) % polygon.length) 0]) ∧
    (∀ i, i < polygon.length → ∃ t ∈ polygonFanTriangles polygon apex,
      EdgeOf (polygon.getD i 0) (polygon.getD ((i + 1) % polygon.length) 0) t) := by
  refine ⟨?_, ?_, fun i hi => fan_edges polygon apex h3 h256 ha i hi⟩
  · rw [fan_eq polygon apex h3 h256]; simp
  · intro t ht
    rw [fan_eq polygon apex h3 h256] at ht
    obtain ⟨e, _, rfl⟩ := List.mem_map.1 ht
    exact ⟨(apex + e) % polygon.length, Nat.mod_lt _ (by omega), by rw [Nat.mod_add_mod]⟩

/-- **C35.** The triangles have together the signed area of the polygon, wherever its vertices are. -/
theorem C35_fan_area_partial (at' : Index → Int × Int) (polygon : List Index) (h3 : 3 ≤ polygon.length)
    (h256 : polygon.length ≤ 256) :
    ((polygonFanTriangles polygon 0).map (triangleArea at')).sum = polygonArea at' polygon :=
  fan_area at' polygon h3 h256

/-- **C35.** Two polygons of at most 256 vertices intersect exactly when two of their triangles do. -/
theorem C35_polygons_intersect_partial (detect : List Index → List Index → Except Failure Bool)
    (d : List Index → List Index → Bool) (p1 p2 : List Index) (h1 : p1.length ≤ 256) (h2 : p2.length ≤ 256)
    (hd : ∀ t1 ∈ fan p1, ∀ t2 ∈ fan p2, detect t1 t2 = .ok (d t1 t2)) :
    ∃ b, polygonsIntersect detect p1 p2 = .ok b ∧
      (b = true ↔ ∃ t1 ∈ fan p1, ∃ t2 ∈ fan p2, d t1 t2 = true) := by
  have hlen : ∀ q : List Index, ∀ t ∈ fan q, 3 ≤ q.length := by
    intro q t ht
    unfold fan at ht
    obtain ⟨k, hk, _⟩ := List.mem_map.1 ht
    have := List.mem_range.1 hk
    omega
  obtain ⟨b, hb, hiff⟩ := polygonsIntersect_iff detect d p1 p2 (by rw [fan_spec p1 h1, fan_spec p2 h2]; exact hd)
  refine ⟨b, hb, hiff.trans ?_⟩
  rw [fan_spec p1 h1, fan_spec p2 h2]
  constructor
  · rintro ⟨_, _, h⟩; exact h
  · rintro ⟨t1, ht1, t2, ht2, h⟩
    exact ⟨hlen _ _ ht1, hlen _ _ ht2, t1, ht1, t2, ht2, h⟩

/-- **C35**, exactly which polygons are cut entirely: those of at most 256 vertices.  A larger one is cut in the first
triangles of the fan only, as many as the remainder of `length - 1` by 256, less one. -/
theorem C35_exact_partial (polygon : List Index) (apex : Nat) (h3 : 3 ≤ polygon.length) :
    ((polygonFanTriangles polygon apex).length = polygon.length - 2 ↔ polygon.length ≤ 256) ∧
    polygonFanTriangles polygon apex = (List.range' 1 ((polygon.length - 1) % 256 - 1)).map fun edge =>
      [polygon.getD apex 0, polygon.getD ((apex + edge) % polygon.length) 0,
        polygon.getD ((apex + edge + 1) % polygon.length) 0] := by
  constructor
  · unfold polygonFanTriangles
    rw [List.length_map, List.length_range']
    omega
  · unfold polygonFanTriangles
    apply List.map_congr_left
    intro e _
    have hpos : 0 < polygon.length := by omega
    have hlt := Nat.mod_lt (apex + e) hpos
    simp only [beq_iff_eq]
    have hnext : (if (apex + e) % polygon.length + 1 = polygon.length then 0 else (apex + e) % polygon.length + 1) =
        (apex + e + 1) % polygon.length := by
      split
      · rename_i he
        rw [← Nat.mod_add_mod, he, Nat.mod_self]
      · have := Nat.mod_add_mod (apex + e) polygon.length 1
        rw [← this]
        exact (Nat.mod_eq_of_lt (by omega)).symm
    rw [hnext]

/-- **C35** fails for larger polygons: a polygon of 257 vertices is cut in no triangle at all, and so
never intersects anything. -/
theorem C35_large_polygon_false (p1 p2 : List Index) (h : p1.length = 257)
    (detect : List Index → List Index → Except Failure Bool) :
    polygonFanTriangles p1 0 = [] ∧ polygonsIntersect detect p1 p2 = .ok false := by
  have h0 : polygonFanTriangles p1 0 = [] := by
    unfold polygonFanTriangles
    rw [h]
    rfl
  refine ⟨h0, ?_⟩
  unfold polygonsIntersect
  split
  · rfl
  · rw [if_neg (by simp [h]), h0]
    rfl

example : (3 ≤ [4, 7, 5, 9].length) ∧ polygonFanTriangles [4, 7, 5, 9] 2 = [[5, 9, 4], [5, 4, 7]] := by decide

/-! ### C36 -/

/-- The pairs of polygons inspected and found by `inspect_intersections` or
`model_has_intersecting_surfaces`. -/
theorem modelIntersections_ok {P : Type} (m : IntersectionModel P) (c : Candidates P) (ht : TreesOk m c)
    (hsmall : AllSmall m) (htests : TestsOk m c) (hne : NoEmptySurface m) :
    (∃ l, intersectingModelPolygons m oneModelAction = .ok l ∧ (l = [] ↔ meetingPolygons m c = [])) ∧
    (∃ l, intersectingModelPolygons m allModelAction = .ok l ∧ l.Perm (meetingPolygons m c)) ∧
    (∃ l, intersectingModelPolygons m autoModelAction = .ok l ∧
      l.Perm ((comparisons m c).flatMap fun x =>
        (x.2.filter fun p => decide (x.1.1.id = x.1.2.id ∧ PolygonsMeet m x.1.1 x.1.2 p)).map
          (polygonsOf x.1.1 x.1.2))) := by
  have hacts := fun x (hx : x ∈ comparisons m c) p (hp : p ∈ x.2) =>
    decide_meet m x.1.1 x.1.2 p fun hd => intersect_ok m x.1.1 x.1.2 p (comparisons_small m c hsmall x hx).1
      (comparisons_small m c hsmall x hx).2 hd (htests x hx p hp)
  refine ⟨?_, ?_, ?_⟩
  · obtain ⟨l, hl, hnil, _⟩ := modelPolygons_ok m c ht hne oneModelAction
      (fun x p => decide (PolygonsMeet m x.1 x.2 p)) (fun x p => decide (PolygonsMeet m x.1 x.2 p))
      (fun x hx p hp => (hacts x hx p hp).1) (fun _ _ h => h)
    exact ⟨l, hl, hnil⟩
  · obtain ⟨l, hl, _, hp⟩ := modelPolygons_ok m c ht hne allModelAction
      (fun x p => decide (PolygonsMeet m x.1 x.2 p)) (fun _ _ => false)
      (fun x hx p hp => (hacts x hx p hp).2.1) (fun _ _ h => by cases h)
    exact ⟨l, hl, hp (fun _ _ => rfl)⟩
  · obtain ⟨l, hl, _, hp⟩ := modelPolygons_ok m c ht hne autoModelAction
      (fun x p => decide (x.1.id = x.2.id ∧ PolygonsMeet m x.1 x.2 p)) (fun _ _ => false)
      (fun x hx p hp => (hacts x hx p hp).2.2) (fun _ _ h => by cases h)
    exact ⟨l, hl, hp (fun _ _ => rfl)⟩

theorem emptyModel_none {P : Type} (m : IntersectionModel P) (h : ¬ NoEmptySurface m) :
    modelHasIntersectingSurfaces m = .ok false ∧
    (∀ dim, ∃ r, inspectIntersections dim m = .ok r ∧ r.elements_intersections.issues = []) ∧
    ∃ r, inspectSurfacesSelfIntersections m = .ok r ∧ r.elements_intersections.issues = [] := by
  have hl : loopAny (fun surface : ModelSurface P => surface.nbPolygons == 0)
      (m.surfaces.filter fun s => s.active) = true := by
    rw [← Bool.not_eq_false]
    exact fun h' => h ((noEmpty_loop m).1 h')
  refine ⟨?_, ?_, ?_⟩
  · unfold modelHasIntersectingSurfaces
    rw [emptySurface_none m h]
    rfl
  · intro dim
    unfold inspectIntersections addIntersectingSurfacesElements
    rw [emptySurface_none m h]
    simp only [List.foldl_nil]
    have hnone : addIntersectingLinesSurfacesElements dim m (Issues.new "intersections")
        = .ok (Issues.new "intersections") := by
      unfold addIntersectingLinesSurfacesElements
      split
      · have : intersectingLinesSurfaces m = .ok [] := by
          unfold intersectingLinesSurfaces
          rw [hl]
          rfl
        rw [this]
        rfl
      · rfl
    rw [hnone]
    exact ⟨_, rfl, rfl⟩
  · unfold inspectSurfacesSelfIntersections addSurfaceAutoIntersectingElements
    rw [emptySurface_none m h]
    exact ⟨_, rfl, rfl⟩

/-- **C36.** In a Section or a BRep, the boolean is true exactly when the list of intersecting polygons
is not empty, whatever the traversals of the trees (also if some surface is empty). -/
theorem C36_boolean_agrees {P : Type} (m : IntersectionModel P) (c : Candidates P) (ht : TreesOk m c)
    (hsmall : AllSmall m) (htests : TestsOk m c) :
    ∃ b r, modelHasIntersectingSurfaces m = .ok b ∧ inspectIntersections 2 m = .ok r ∧
      (b = true ↔ r.elements_intersections.issues ≠ []) := by
  by_cases hne : NoEmptySurface m
  · obtain ⟨⟨l, hl, hnil⟩, ⟨l', hl', hp⟩, _⟩ := modelIntersections_ok m c ht hsmall htests hne
    refine ⟨!l.isEmpty, _, by unfold modelHasIntersectingSurfaces; rw [hl], by
      unfold inspectIntersections addIntersectingSurfacesElements; rw [hl']; rfl, ?_⟩
    rw [foldl_add_pairs]
    have : (!l.isEmpty) = true ↔ l ≠ [] := by cases l <;> simp
    rw [this, ne_eq, hnil]
    show _ ↔ [] ++ l' ≠ []
    rw [List.nil_append, ne_eq, perm_nil_iff hp]
  · obtain ⟨h1, h2, _⟩ := emptyModel_none m hne
    obtain ⟨r, h3, h4⟩ := h2 2
    exact ⟨false, r, h1, h3, by simp [h4]⟩

/-- **C36.** When no active surface is empty, the pairs of polygons found are exactly the candidate pairs
that intersect, in some order, and a boolean computed with other traversals of the same trees is true
exactly when there is one.  (Section: `inspect_intersections` of dimension 2.) -/
theorem C36_section_list {P : Type} (m : IntersectionModel P) (c : Candidates P) (ht : TreesOk m c)
    (hsmall : AllSmall m) (htests : TestsOk m c) (hne : NoEmptySurface m) :
    ∃ b r, modelHasIntersectingSurfaces m = .ok b ∧ inspectIntersections 2 m = .ok r ∧
      r.elements_intersections.issues.Perm (meetingPolygons m c) ∧
      (b = true ↔ meetingPolygons m c ≠ []) := by
  obtain ⟨⟨l, hl, hnil⟩, ⟨l', hl', hp⟩, _⟩ := modelIntersections_ok m c ht hsmall htests hne
  refine ⟨!l.isEmpty, _, by unfold modelHasIntersectingSurfaces; rw [hl], by
    unfold inspectIntersections addIntersectingSurfacesElements; rw [hl']; rfl, ?_, ?_⟩
  · rw [foldl_add_pairs]
    exact hp
  · have : (!l.isEmpty) = true ↔ l ≠ [] := by cases l <;> simp
    rw [this, ne_eq, hnil]

/-- **C36** and **C59** (BRep): the list holds exactly the intersecting polygons and the pairs of a
polygon and an edge of an active Line embedded in a Block that meet. -/
theorem C36_brep_list {P : Type} (m : IntersectionModel P) (c : Candidates P) (ht : TreesOk m c)
    (hsmall : AllSmall m) (htests : TestsOk m c) (hne : NoEmptySurface m) (hnl : NoEmptyLine m) :
    ∃ b r, modelHasIntersectingSurfaces m = .ok b ∧ inspectIntersections 3 m = .ok r ∧
      r.elements_intersections.issues.Perm (meetingPolygons m c ++ meetingEdges m c) ∧
      (b = true ↔ meetingPolygons m c ≠ []) := by
  obtain ⟨⟨l, hl, hnil⟩, ⟨l', hl', hp⟩, _⟩ := modelIntersections_ok m c ht hsmall htests hne
  obtain ⟨l2, hl2, hp2⟩ := linesSurfaces_ok m c ht hsmall hne hnl
  refine ⟨!l.isEmpty, _, by unfold modelHasIntersectingSurfaces; rw [hl], by
    unfold inspectIntersections addIntersectingSurfacesElements
    rw [hl']
    simp only
    unfold addIntersectingLinesSurfacesElements
    rw [hl2]
    rfl, ?_, ?_⟩
  · rw [foldl_add_pairs, foldl_add_pairs]
    exact hp.append hp2
  · have : (!l.isEmpty) = true ↔ l ≠ [] := by cases l <;> simp
    rw [this, ne_eq, hnil]

/-- **C58.** `inspect_surfaces_self_intersections` reports exactly the intersecting pairs of distinct
polygons of a same surface. -/
theorem C58_self_intersections {P : Type} (m : IntersectionModel P) (c : Candidates P) (ht : TreesOk m c)
    (hsmall : AllSmall m) (htests : TestsOk m c) (hne : NoEmptySurface m)
    (hover : ∀ ss ∈ m.overlappingSurfaces, ss.1.id ≠ ss.2.id) :
    ∃ r, inspectSurfacesSelfIntersections m = .ok r ∧
      r.elements_intersections.issues.Perm
        ((m.surfaces.filter fun s => s.active).flatMap fun s =>
          ((c.self s).filter fun p => decide (PolygonsMeet m s s p)).map (polygonsOf s s)) := by
  obtain ⟨_, _, ⟨l, hl, hp⟩⟩ := modelIntersections_ok m c ht hsmall htests hne
  refine ⟨_, by unfold inspectSurfacesSelfIntersections addSurfaceAutoIntersectingElements; rw [hl], ?_⟩
  rw [foldl_add_pairs]
  refine List.Perm.trans hp (List.Perm.of_eq ?_)
  unfold comparisons
  rw [List.flatMap_append, List.flatMap_map, List.flatMap_map]
  have h2 : (m.overlappingSurfaces.flatMap fun ss => ((c.other ss.1 ss.2).filter fun p =>
      decide (ss.1.id = ss.2.id ∧ PolygonsMeet m ss.1 ss.2 p)).map (polygonsOf ss.1 ss.2)) = [] := by
    rw [List.flatMap_eq_nil_iff]
    intro ss hss
    rw [List.map_eq_nil_iff, List.filter_eq_nil_iff]
    intro p _
    simp [hover ss hss]
  rw [h2, List.append_nil]
  congr 1
  funext s
  simp

/-! ### C37 -/

/-- a triangle of points 0, 1, 2 crossing everything; `n` is the number of polygons -/
def witnessSurface (id n : Nat) : ModelSurface Nat :=
  { id := id, active := true, nbPolygons := n, polygonVertices := fun _ => [0, 1, 2], nbVertices := 3,
    point := fun v => v, uniqueVertex := fun v => 10 * id + v }

/-- geometry where everything intersects -/
def crossingGeometry : Geometry Nat :=
  ⟨fun _ _ => (.inside, .inside), fun _ _ => .inside, fun _ _ => (.inside, .inside), fun _ => none⟩

/-- two surfaces of one triangle that cross, and a third one with `n` polygons -/
def witnessModel (n : Nat) : IntersectionModel Nat where
  surfaces := [witnessSurface 1 1, witnessSurface 2 1, witnessSurface 3 n]
  geometry := crossingGeometry
  selfTraversal := fun _ => untilStop [(0, 0)]
  otherTraversal := fun _ _ => untilStop [(0, 0)]
  lineTraversal := fun _ _ => untilStop []
  overlappingSurfaces := [(witnessSurface 1 1, witnessSurface 2 1)]
  trianglesIntersect := brepTrianglesIntersect crossingGeometry

/-- the candidates of this model -/
def witnessCandidates : Candidates Nat := ⟨fun _ => [(0, 0)], fun _ _ => [(0, 0)], fun _ _ => []⟩

theorem witness_trees (n : Nat) : TreesOk (witnessModel n) witnessCandidates :=
  ⟨fun _ => untilStop_isTraversal _, fun _ _ => untilStop_isTraversal _, fun _ _ => untilStop_isTraversal []⟩

theorem witness_small (n : Nat) : AllSmall (witnessModel n) := by
  constructor
  · intro s hs p
    simp only [witnessModel, List.mem_cons, List.not_mem_nil, or_false] at hs
    rcases hs with rfl | rfl | rfl <;> simp [witnessSurface]
  · intro ss hs
    simp only [witnessModel, List.mem_cons, List.not_mem_nil, or_false] at hs
    subst hs
    exact ⟨fun p => by simp [witnessSurface], fun p => by simp [witnessSurface]⟩

theorem fan_len3 (polygon : List Index) (t : List Index) (ht : t ∈ fan polygon) : t.length = 3 := by
  unfold fan at ht
  obtain ⟨k, _, rfl⟩ := List.mem_map.1 ht
  rfl

/-- the test of a BRep never raises -/
theorem brepTestsOk {P : Type} (m : IntersectionModel P) (c : Candidates P)
    (h : m.trianglesIntersect = brepTrianglesIntersect m.geometry) : TestsOk m c := by
  refine testsOk_of_triangles m c ?_
  intro x _ p _ t1 h1 t2 _
  unfold triangleTest
  rw [h]
  exact brepTest_ok _ _ _ _ _ (fan_len3 _ _ h1)

theorem witness_meets (n : Nat) :
    polygonsOf (witnessSurface 1 1) (witnessSurface 2 1) (0, 0) ∈ meetingPolygons (witnessModel n) witnessCandidates := by
  unfold meetingPolygons
  rw [List.mem_flatMap]
  refine ⟨((witnessSurface 1 1, witnessSurface 2 1), [(0, 0)]), ?_, ?_⟩
  · unfold comparisons
    exact List.mem_append_right _ (by simp [witnessModel, witnessCandidates])
  · refine List.mem_map_of_mem (List.mem_filter.2 ⟨by simp, ?_⟩)
    rw [decide_eq_true_iff]
    refine ⟨by simp [witnessSurface], [0, 1, 2], by decide, [0, 1, 2], by decide, ?_⟩
    rfl

/-- **C37** is false: two surfaces cross and are reported; with one more active surface without polygon,
nothing is reported any more. -/
theorem C37_empty_surface_false :
    ∃ (m : IntersectionModel Nat) (c : Candidates Nat), TreesOk m c ∧ AllSmall m ∧ TestsOk m c ∧
      meetingPolygons m c ≠ [] ∧ modelHasIntersectingSurfaces m = .ok false ∧
      ∃ r, inspectIntersections 3 m = .ok r ∧ r.elements_intersections.issues = [] := by
  have hne : ¬ NoEmptySurface (witnessModel 0) := fun h =>
    h (witnessSurface 3 0) (by simp [witnessModel]) rfl rfl
  obtain ⟨h1, h2, _⟩ := emptyModel_none _ hne
  exact ⟨witnessModel 0, witnessCandidates, witness_trees 0, witness_small 0, brepTestsOk _ _ rfl,
    List.ne_nil_of_mem (witness_meets 0), h1, h2 3⟩

/-- **C37**, what holds: the intersecting polygons are all reported exactly when no active surface is
empty or there was nothing to report. -/
theorem C37_no_empty_surface_partial {P : Type} (m : IntersectionModel P) (c : Candidates P) (ht : TreesOk m c)
    (hsmall : AllSmall m) (htests : TestsOk m c) :
    ∃ r, inspectIntersections 2 m = .ok r ∧
      ((∀ x ∈ meetingPolygons m c, x ∈ r.elements_intersections.issues) ↔
        NoEmptySurface m ∨ meetingPolygons m c = []) := by
  by_cases hne : NoEmptySurface m
  · obtain ⟨_, r, _, h2, h3, _⟩ := C36_section_list m c ht hsmall htests hne
    exact ⟨r, h2, iff_of_true (fun x hx => h3.mem_iff.2 hx) (Or.inl hne)⟩
  · obtain ⟨_, h2, _⟩ := emptyModel_none m hne
    obtain ⟨r, h3, h4⟩ := h2 2
    refine ⟨r, h3, ?_⟩
    rw [h4, or_iff_right hne, List.eq_nil_iff_forall_not_mem]
    exact forall_congr' fun x => by simp

example : NoEmptySurface (witnessModel 1) ∧ TreesOk (witnessModel 1) witnessCandidates ∧
    AllSmall (witnessModel 1) ∧ TestsOk (witnessModel 1) witnessCandidates ∧
    meetingPolygons (witnessModel 1) witnessCandidates ≠ [] :=
  ⟨by
    intro s hs _
    simp only [witnessModel, List.mem_cons, List.not_mem_nil, or_false] at hs
    rcases hs with rfl | rfl | rfl <;> simp [witnessSurface],
   witness_trees 1, witness_small 1, brepTestsOk _ _ rfl, List.ne_nil_of_mem (witness_meets 1)⟩

/-! ### C59: lines -/

/-- **C59.** The pairs (polygon, edge) found in a BRep without empty surface or line mesh are exactly the
candidate ones that meet, for the active Lines embedded in a Block. -/
theorem C59_lines_surfaces {P : Type} (m : IntersectionModel P) (c : Candidates P) (ht : TreesOk m c)
    (hsmall : AllSmall m) (hne : NoEmptySurface m) (hnl : NoEmptyLine m)
    (issues : Issues (ComponentMeshElement × ComponentMeshElement)) :
    ∃ r added, addIntersectingLinesSurfacesElements 3 m issues = .ok r ∧ r.issues = issues.issues ++ added ∧
      added.Perm (meetingEdges m c) := by
  obtain ⟨l, hl, hp⟩ := linesSurfaces_ok m c ht hsmall hne hnl
  refine ⟨_, l, by unfold addIntersectingLinesSurfacesElements; rw [hl]; rfl, foldl_add_pairs _ _ _, hp⟩

/-- **C59.** A line whose mesh has no edge hides all the intersections of the others. -/
theorem C59_empty_line_hides {P : Type} (m : IntersectionModel P) (h : ¬ NoEmptyLine m)
    (issues : Issues (ComponentMeshElement × ComponentMeshElement)) :
    addIntersectingLinesSurfacesElements 3 m issues = .ok issues := by
  have hl : loopAny (fun line : ModelLine P => line.nbEdges == 0) (m.lines.filter fun l => l.active) = true := by
    rw [← Bool.not_eq_false]
    exact fun h' => h ((noEmptyLine_loop m).1 h')
  have : intersectingLinesSurfaces m = .ok [] := by
    unfold intersectingLinesSurfaces
    rw [hl]
    split <;> rfl
  unfold addIntersectingLinesSurfacesElements
  rw [this]
  rfl

/-! ### C57: adjacent triangles of a Section -/

/-- Two triangles with a common edge `p0`-`p1` and other vertices `q1`, `q2` overlap: their free edges
cross, or the free vertex of one is not outside the other. -/
def AdjacentOverlap {P : Type} (g : Geometry P) (p0 p1 q1 q2 : P) (triangle1 triangle2 : P × P × P) : Prop :=
  (g.segmentSegment (p0, q1) (p1, q2)).1 ≠ .outside ∨ (g.segmentSegment (p1, q1) (p0, q2)).1 ≠ .outside ∨
  g.pointTriangle q1 triangle2 ≠ .outside ∨ g.pointTriangle q2 triangle1 ≠ .outside

/-- **C57**, what holds: for two triangles of a same Surface in which vertices with the same unique vertex
are at the same point (and triangles have three different valid vertices), the test is the overlap of the
two triangles. -/
theorem C57_same_surface_partial {P : Type} (g : Geometry P) (s : ModelSurface P) (t1 t2 : List Index)
    (h1 : t1.length = 3) (h2 : t2.length = 3) (hn : t2.Nodup) (hv : ∀ v ∈ t2, v < s.nbVertices)
    (hp : ∀ v w, s.uniqueVertex v = s.uniqueVertex w → s.point v = s.point w)
    (hc : (trianglesCommonVertices s s t1 t2).length = 2) :
    ∃ c0 c1 q1 q2 b, trianglesCommonVertices s s t1 t2 = [c0, c1] ∧
      q1 ∈ t1 ∧ q1 ≠ c0.1 ∧ q1 ≠ c1.1 ∧ q2 ∈ t2 ∧ q2 ≠ c0.2 ∧ q2 ≠ c1.2 ∧
      trianglesIntersectionDetection (sectionTrianglesIntersect g) s s t1 t2 = .ok b ∧
      (b = true ↔ AdjacentOverlap g (s.point c0.1) (s.point c1.1) (s.point q1) (s.point q2)
        (meshTriangle s t1) (meshTriangle s t2)) := by
  obtain ⟨c0, c1, hcc⟩ := List.length_eq_two.1 hc
  have hm := common_mem s s t1 t2
  rw [hcc] at hm
  have hm1 := hm c1 (by simp)
  have ht := third_first s s t1 t2 h1 hc
  rw [hcc] at ht
  obtain ⟨q1, hq1, hq1m, hq1a, hq1b⟩ := thirdPoint_ok t1 c0.1 c1.1 ht
  obtain ⟨q2, hq2, hq2m, hq2a, hq2b⟩ := thirdPoint_ok t2 c0.2 c1.2 (three_distinct t2 h2 hn _ _)
  have heq : s.point c1.2 = s.point c1.1 := hp _ _ hm1.2.2.symm
  have hres : trianglesIntersectionDetection (sectionTrianglesIntersect g) s s t1 t2 =
      (if ((g.segmentSegment (s.point c0.1, s.point q1) (s.point c1.1, s.point q2)).1 != .outside
            || (g.segmentSegment (s.point c1.1, s.point q1) (s.point c0.1, s.point q2)).1 != .outside) = true then .ok true
        else .ok (g.pointTriangle (s.point q1) (meshTriangle s t2) != .outside
          || g.pointTriangle (s.point q2) (meshTriangle s t1) != .outside)) := by
    unfold trianglesIntersectionDetection
    simp only
    rw [hcc]
    rw [if_neg (by simp)]
    unfold sectionTrianglesIntersect
    rw [if_pos (by simp)]
    simp only [List.getD_cons_zero, List.getD_cons_succ]
    rw [if_neg (by simpa using hv _ hm1.2.1), hq1, hq2]
    simp only [heq]
  rw [hres]
  unfold AdjacentOverlap
  by_cases hx : ((g.segmentSegment (s.point c0.1, s.point q1) (s.point c1.1, s.point q2)).1 != .outside
            || (g.segmentSegment (s.point c1.1, s.point q1) (s.point c0.1, s.point q2)).1 != .outside) = true
  · refine ⟨c0, c1, q1, q2, true, hcc, hq1m, hq1a, hq1b, hq2m, hq2a, hq2b, if_pos hx, ?_⟩
    simp only [Bool.or_eq_true, bne_iff_ne] at hx
    rw [← or_assoc]
    exact iff_of_true rfl (Or.inl hx)
  · refine ⟨c0, c1, q1, q2, _, hcc, hq1m, hq1a, hq1b, hq2m, hq2a, hq2b, if_neg hx, ?_⟩
    simp only [Bool.or_eq_true, bne_iff_ne] at hx ⊢
    rw [← or_assoc, or_iff_right hx]

/-- **C57**, the exact answer for two Surfaces of a Section: that of the overlap of the two triangles, but
with the point that the first mesh has at the index which the second common vertex has in the second mesh,
in place of this common point.  It is the overlap itself when these points are the same. -/
theorem C57_two_surfaces_partial {P : Type} (g : Geometry P) (s1 s2 : ModelSurface P) (t1 t2 : List Index)
    (h1 : t1.length = 3) (h2 : t2.length = 3) (hn : t2.Nodup)
    (hc : (trianglesCommonVertices s1 s2 t1 t2).length = 2)
    (hv : ∀ v ∈ t1, ∀ w ∈ t2, s1.uniqueVertex v = s2.uniqueVertex w → w < s1.nbVertices) :
    ∃ c0 c1 q1 q2 b, trianglesCommonVertices s1 s2 t1 t2 = [c0, c1] ∧
      q1 ∈ t1 ∧ q1 ≠ c0.1 ∧ q1 ≠ c1.1 ∧ q2 ∈ t2 ∧ q2 ≠ c0.2 ∧ q2 ≠ c1.2 ∧
      trianglesIntersectionDetection (sectionTrianglesIntersect g) s1 s2 t1 t2 = .ok b ∧
      (b = true ↔ AdjacentOverlap g (s1.point c0.1) (s1.point c1.2) (s1.point q1) (s2.point q2)
        (meshTriangle s1 t1) (meshTriangle s2 t2)) ∧
      (s1.point c1.2 = s1.point c1.1 →
        (b = true ↔ AdjacentOverlap g (s1.point c0.1) (s1.point c1.1) (s1.point q1) (s2.point q2)
          (meshTriangle s1 t1) (meshTriangle s2 t2))) := by
  obtain ⟨c0, c1, hcc⟩ := List.length_eq_two.1 hc
  have hm := common_mem s1 s2 t1 t2
  rw [hcc] at hm
  have hm1 := hm c1 (by simp)
  have ht := third_first s1 s2 t1 t2 h1 hc
  rw [hcc] at ht
  obtain ⟨q1, hq1, hq1m, hq1a, hq1b⟩ := thirdPoint_ok t1 c0.1 c1.1 ht
  obtain ⟨q2, hq2, hq2m, hq2a, hq2b⟩ := thirdPoint_ok t2 c0.2 c1.2 (three_distinct t2 h2 hn _ _)
  have hres : trianglesIntersectionDetection (sectionTrianglesIntersect g) s1 s2 t1 t2 =
      (if ((g.segmentSegment (s1.point c0.1, s1.point q1) (s1.point c1.2, s2.point q2)).1 != .outside
            || (g.segmentSegment (s1.point c1.2, s1.point q1) (s1.point c0.1, s2.point q2)).1 != .outside) = true then .ok true
        else .ok (g.pointTriangle (s1.point q1) (meshTriangle s2 t2) != .outside
          || g.pointTriangle (s2.point q2) (meshTriangle s1 t1) != .outside)) := by
    unfold trianglesIntersectionDetection
    simp only
    rw [hcc]
    rw [if_neg (by simp)]
    unfold sectionTrianglesIntersect
    rw [if_pos (by simp)]
    simp only [List.getD_cons_zero, List.getD_cons_succ]
    rw [if_neg (by simpa using hv _ hm1.1 _ hm1.2.1 hm1.2.2), hq1, hq2]
  have main : ∃ b, trianglesIntersectionDetection (sectionTrianglesIntersect g) s1 s2 t1 t2 = .ok b ∧
      (b = true ↔ AdjacentOverlap g (s1.point c0.1) (s1.point c1.2) (s1.point q1) (s2.point q2)
        (meshTriangle s1 t1) (meshTriangle s2 t2)) := by
    rw [hres]
    unfold AdjacentOverlap
    by_cases hx : ((g.segmentSegment (s1.point c0.1, s1.point q1) (s1.point c1.2, s2.point q2)).1 != .outside
            || (g.segmentSegment (s1.point c1.2, s1.point q1) (s1.point c0.1, s2.point q2)).1 != .outside) = true
    · refine ⟨true, if_pos hx, ?_⟩
      simp only [Bool.or_eq_true, bne_iff_ne] at hx
      rw [← or_assoc]
      exact iff_of_true rfl (Or.inl hx)
    · refine ⟨_, if_neg hx, ?_⟩
      simp only [Bool.or_eq_true, bne_iff_ne] at hx ⊢
      rw [← or_assoc, or_iff_right hx]
  obtain ⟨b, hb, hiff⟩ := main
  exact ⟨c0, c1, q1, q2, b, hcc, hq1m, hq1a, hq1b, hq2m, hq2a, hq2b, hb, hiff, fun h => by rw [← h]; exact hiff⟩

/-- twice the signed area of three points of the plane -/
def orient (a b c : Int × Int) : Int := (b.1 - a.1) * (c.2 - a.2) - (b.2 - a.2) * (c.1 - a.1)

/-- the plane geometry used by the witness: exact predicates on integer points -/
def planeGeometry : Geometry (Int × Int) where
  segmentSegment s1 s2 :=
    let o1 := orient s1.1 s1.2 s2.1
    let o2 := orient s1.1 s1.2 s2.2
    let o3 := orient s2.1 s2.2 s1.1
    let o4 := orient s2.1 s2.2 s1.2
    if o1 = 0 ∧ o2 = 0 then (.parallel, .parallel)
    else if 0 < o1 * o2 ∨ 0 < o3 * o4 then (.outside, .outside)
    else (if o3 = 0 then .vertex0 else if o4 = 0 then .vertex1 else .inside,
      if o1 = 0 then .vertex0 else if o2 = 0 then .vertex1 else .inside)
  pointTriangle p t :=
    let o0 := orient t.1 t.2.1 p
    let o1 := orient t.2.1 t.2.2 p
    let o2 := orient t.2.2 t.1 p
    if (0 < o0 ∧ 0 < o1 ∧ 0 < o2) ∨ (o0 < 0 ∧ o1 < 0 ∧ o2 < 0) then .inside
    else if (0 ≤ o0 ∧ 0 ≤ o1 ∧ 0 ≤ o2) ∨ (o0 ≤ 0 ∧ o1 ≤ 0 ∧ o2 ≤ 0) then .other 0
    else .outside
  segmentTriangle _ _ := (.outside, .outside)
  positionToIndex
    | .vertex0 => some 0 | .vertex1 => some 1 | .vertex2 => some 2
    | .edge0 => some 0 | .edge1 => some 1 | .edge2 => some 2
    | _ => none

/-- the triangle (0,0), (4,0), (2,4), of unique vertices 0, 1, 2 -/
def upperTriangle : ModelSurface (Int × Int) :=
  { id := 1, active := true, nbPolygons := 1, polygonVertices := fun _ => [0, 1, 2], nbVertices := 3,
    point := fun v => if v = 0 then (0, 0) else if v = 1 then (4, 0) else (2, 4),
    uniqueVertex := fun v => v }

/-- the triangle (4,0), (0,0), (2,-4), of unique vertices 1, 0, 3, below the edge (0,0)-(4,0) -/
def lowerTriangle : ModelSurface (Int × Int) :=
  { id := 2, active := true, nbPolygons := 1, polygonVertices := fun _ => [0, 1, 2], nbVertices := 3,
    point := fun v => if v = 0 then (4, 0) else if v = 1 then (0, 0) else (2, -4),
    uniqueVertex := fun v => if v = 0 then 1 else if v = 1 then 0 else if v = 2 then 3 else v + 100 }

/-- the same with ten vertices, the triangle being that of vertices 7, 8, 9 -/
def lowerTriangleHigh : ModelSurface (Int × Int) :=
  { id := 2, active := true, nbPolygons := 1, polygonVertices := fun _ => [7, 8, 9], nbVertices := 10,
    point := fun v => if v = 7 then (4, 0) else if v = 8 then (0, 0) else (2, -4),
    uniqueVertex := fun v => if v = 7 then 1 else if v = 8 then 0 else if v = 9 then 3 else v + 100 }

/-- **C57** is false: two triangles of two Surfaces of a Section on the two sides of a common edge, that
do not overlap, are reported as intersecting. -/
theorem C57_adjacent_triangles_false :
    ∃ (g : Geometry (Int × Int)) (s1 s2 : ModelSurface (Int × Int)) (t1 t2 : List Index),
      t1.Nodup ∧ t2.Nodup ∧ (∀ v ∈ t1, ∀ w ∈ t2, s1.uniqueVertex v = s2.uniqueVertex w → s1.point v = s2.point w) ∧
      trianglesCommonVertices s1 s2 t1 t2 = [(0, 1), (1, 0)] ∧
      ¬ AdjacentOverlap g (s1.point 0) (s1.point 1) (s1.point 2) (s2.point 2) (meshTriangle s1 t1) (meshTriangle s2 t2) ∧
      trianglesIntersectionDetection (sectionTrianglesIntersect g) s1 s2 t1 t2 = .ok true :=
  ⟨planeGeometry, upperTriangle, lowerTriangle, [0, 1, 2], [0, 1, 2], by decide, by decide, by decide, by decide,
    by unfold AdjacentOverlap; decide, by decide⟩

/-- **C57** is false: the test of two adjacent triangles of two Surfaces may read a point beyond the last
vertex of a mesh. -/
theorem C57_out_of_range_false :
    ∃ (g : Geometry (Int × Int)) (s1 s2 : ModelSurface (Int × Int)) (t1 t2 : List Index),
      t1.Nodup ∧ t2.Nodup ∧ (∀ v ∈ t1, v < s1.nbVertices) ∧ (∀ v ∈ t2, v < s2.nbVertices) ∧
      (∀ v ∈ t1, ∀ w ∈ t2, s1.uniqueVertex v = s2.uniqueVertex w → s1.point v = s2.point w) ∧
      trianglesIntersectionDetection (sectionTrianglesIntersect g) s1 s2 t1 t2 = .error .undefinedBehaviour :=
  ⟨planeGeometry, upperTriangle, lowerTriangleHigh, [0, 1, 2], [7, 8, 9], by decide, by decide, by decide, by decide,
    by decide, by decide⟩

example : ∃ (s : ModelSurface (Int × Int)) (t1 t2 : List Index), t1.length = 3 ∧ t2.length = 3 ∧ t2.Nodup ∧
    (∀ v ∈ t2, v < s.nbVertices) ∧ (trianglesCommonVertices s s t1 t2).length = 2 ∧
    (∀ v w, s.uniqueVertex v = s.uniqueVertex w → s.point v = s.point w) :=
  ⟨{ upperTriangle with nbVertices := 4, point := fun v => (v, v * v) }, [0, 1, 2], [1, 0, 3], by decide, by decide,
    by decide, by decide, by decide, fun v w (h : v = w) => by rw [h]⟩

example : upperTriangle.id ≠ lowerTriangle.id ∧ [0, 1, 2].Nodup ∧
    (trianglesCommonVertices upperTriangle lowerTriangle [0, 1, 2] [0, 1, 2]).length = 2 ∧
    ∀ v ∈ [0, 1, 2], ∀ w ∈ [0, 1, 2], upperTriangle.uniqueVertex v = lowerTriangle.uniqueVertex w →
      w < upperTriangle.nbVertices := by decide

/-! ### C60, C61: unique vertices decide -/

/-- **C60.** Two triangles with the same three unique vertices are always said to intersect, and raise
nothing, in a Section and a BRep. -/
theorem C60_same_unique_vertices {P : Type}
    (test : ModelSurface P → ModelSurface P → List Index → List Index → List (Index × Index) → Except Failure Bool)
    (s1 s2 : ModelSurface P) (t1 t2 : List Index) (h3 : t1.length = 3)
    (h : ∀ v ∈ t1, ∃ w ∈ t2, s1.uniqueVertex v = s2.uniqueVertex w) :
    trianglesIntersectionDetection test s1 s2 t1 t2 = .ok true := by
  have hc : (trianglesCommonVertices s1 s2 t1 t2).length = 3 := by
    rw [← h3]
    unfold trianglesCommonVertices
    clear h3
    induction t1 with
    | nil => rfl
    | cons v t1 ih =>
      obtain ⟨w, hw, he⟩ := h v (by simp)
      have : ∃ w', t2.find? (fun v2_id => s1.uniqueVertex v == s2.uniqueVertex v2_id) = some w' := by
        cases hf : t2.find? (fun v2_id => s1.uniqueVertex v == s2.uniqueVertex v2_id) with
        | some w' => exact ⟨w', rfl⟩
        | none =>
          have := List.find?_eq_none.1 hf w hw
          simp [he] at this
      obtain ⟨w', hw'⟩ := this
      rw [List.filterMap_cons_some (b := (v, w')) (by rw [hw']; rfl), List.length_cons,
        ih (fun x hx => h x (List.mem_cons_of_mem _ hx)), List.length_cons]
  unfold trianglesIntersectionDetection
  simp only
  rw [if_pos (by simpa using hc)]

/-- **C61** is false: vertices without unique vertex all have the same one, `NO_ID`, so that any two
triangles of such vertices are said to intersect, wherever they are. -/
theorem C61_unlinked_vertices_false {P : Type}
    (test : ModelSurface P → ModelSurface P → List Index → List Index → List (Index × Index) → Except Failure Bool)
    (s1 s2 : ModelSurface P) (t1 t2 : List Index) (h3 : t1.length = 3) (h3' : t2.length = 3)
    (h1 : ∀ v ∈ t1, s1.uniqueVertex v = 4294967295) (h2 : ∀ v ∈ t2, s2.uniqueVertex v = 4294967295) :
    trianglesIntersectionDetection test s1 s2 t1 t2 = .ok true := by
  apply C60_same_unique_vertices test s1 s2 t1 t2 h3
  intro v hv
  match t2, h3' with
  | w :: t2, _ => exact ⟨w, by simp, by rw [h1 v hv, h2 w (by simp)]⟩

/-- **C61**, what holds: two triangles without common unique vertex are judged by the geometric test
alone. -/
theorem C61_no_common_vertex_partial {P : Type}
    (test : ModelSurface P → ModelSurface P → List Index → List Index → List (Index × Index) → Except Failure Bool)
    (s1 s2 : ModelSurface P) (t1 t2 : List Index)
    (h : ∀ v ∈ t1, ∀ w ∈ t2, s1.uniqueVertex v ≠ s2.uniqueVertex w) :
    trianglesIntersectionDetection test s1 s2 t1 t2 = test s1 s2 t1 t2 [] := by
  have hc : trianglesCommonVertices s1 s2 t1 t2 = [] := by
    rw [List.eq_nil_iff_forall_not_mem]
    intro c hc
    obtain ⟨h1, h2, h3⟩ := common_mem s1 s2 t1 t2 c hc
    exact h _ h1 _ h2 h3
  unfold trianglesIntersectionDetection
  simp only
  rw [hc]
  rfl

example : (∀ v ∈ [0, 1, 2], ∀ w ∈ [0, 1, 2], (witnessSurface 1 1).uniqueVertex v ≠ (witnessSurface 2 1).uniqueVertex w) := by
  decide

/-! ### C62: no exception -/

/-- **C62** (BRep). Whatever the meshes and the unique vertices, the intersection inspections of a BRep
raise nothing. -/
theorem C62_brep_no_exception {P : Type} (m : IntersectionModel P) (c : Candidates P) (ht : TreesOk m c)
    (hsmall : AllSmall m) (h : m.trianglesIntersect = brepTrianglesIntersect m.geometry) :
    (∃ b, modelHasIntersectingSurfaces m = .ok b) ∧ (∃ r, inspectIntersections 3 m = .ok r) ∧
    ∃ r, inspectSurfacesSelfIntersections m = .ok r := by
  have htests := brepTestsOk m c h
  by_cases hne : NoEmptySurface m
  · obtain ⟨⟨l, hl, _⟩, ⟨l', hl', _⟩, ⟨l'', hl'', _⟩⟩ := modelIntersections_ok m c ht hsmall htests hne
    refine ⟨⟨_, by unfold modelHasIntersectingSurfaces; rw [hl]⟩, ?_,
      ⟨_, by unfold inspectSurfacesSelfIntersections addSurfaceAutoIntersectingElements; rw [hl'']⟩⟩
    by_cases hnl : NoEmptyLine m
    · obtain ⟨_, r, _, hr, _⟩ := C36_brep_list m c ht hsmall htests hne hnl
      exact ⟨r, hr⟩
    · refine ⟨_, by
        unfold inspectIntersections addIntersectingSurfacesElements
        rw [hl']
        simp only
        rw [C59_empty_line_hides m hnl]⟩
  · obtain ⟨h1, h2, ⟨r, h3, _⟩⟩ := emptyModel_none m hne
    obtain ⟨r', h4, _⟩ := h2 3
    exact ⟨⟨_, h1⟩, ⟨r', h4⟩, ⟨r, h3⟩⟩

/-- **C62** (Section), the exact failures: the test of two triangles fails only when they have exactly two
common vertices, and either the index of the second one in the second mesh is not valid in the first one
(undefined behaviour), or the second triangle has no third vertex (exception). -/
theorem C62_section_test_exact {P : Type} (g : Geometry P) (s1 s2 : ModelSurface P) (t1 t2 : List Index)
    (h3 : t1.length = 3) (f : Failure) :
    trianglesIntersectionDetection (sectionTrianglesIntersect g) s1 s2 t1 t2 = .error f ↔
      ∃ c0 c1, trianglesCommonVertices s1 s2 t1 t2 = [c0, c1] ∧
        ((f = .undefinedBehaviour ∧ s1.nbVertices ≤ c1.2) ∨
          (f = .openGeodeException ∧ c1.2 < s1.nbVertices ∧ ∀ v ∈ t2, v = c0.2 ∨ v = c1.2)) := by
  by_cases hc : (trianglesCommonVertices s1 s2 t1 t2).length = 2
  · obtain ⟨c0, c1, hcc⟩ := List.length_eq_two.1 hc
    have ht := third_first s1 s2 t1 t2 h3 hc
    rw [hcc] at ht
    obtain ⟨q1, hq1, _⟩ := thirdPoint_ok t1 c0.1 c1.1 ht
    have hL : trianglesIntersectionDetection (sectionTrianglesIntersect g) s1 s2 t1 t2 =
        sectionTrianglesIntersect g s1 s2 t1 t2 [c0, c1] := by
      unfold trianglesIntersectionDetection
      simp only
      rw [hcc, if_neg (by simp)]
    have hR : (∃ d0 d1, trianglesCommonVertices s1 s2 t1 t2 = [d0, d1] ∧
        ((f = .undefinedBehaviour ∧ s1.nbVertices ≤ d1.2) ∨
          (f = .openGeodeException ∧ d1.2 < s1.nbVertices ∧ ∀ v ∈ t2, v = d0.2 ∨ v = d1.2))) ↔
        ((f = .undefinedBehaviour ∧ s1.nbVertices ≤ c1.2) ∨
          (f = .openGeodeException ∧ c1.2 < s1.nbVertices ∧ ∀ v ∈ t2, v = c0.2 ∨ v = c1.2)) := by
      constructor
      · rintro ⟨d0, d1, hd, h⟩
        rw [hcc] at hd
        injection hd with e0 e1
        injection e1 with e1 _
        rw [e0, e1]
        exact h
      · exact fun h => ⟨c0, c1, hcc, h⟩
    rw [hL, hR]
    unfold sectionTrianglesIntersect
    rw [if_pos (by simp)]
    simp only [List.getD_cons_zero, List.getD_cons_succ]
    by_cases hb : c1.2 < s1.nbVertices
    · rw [if_neg (by simpa using hb), hq1]
      simp only
      by_cases hall : ∀ v ∈ t2, v = c0.2 ∨ v = c1.2
      · have : thirdPointIndex t2 c0.2 c1.2 = .error .openGeodeException := by
          unfold thirdPointIndex
          rw [List.find?_eq_none.2 (fun v hv => by rcases hall v hv with h | h <;> simp [h])]
        rw [this]
        simp only [Except.error.injEq]
        constructor
        · rintro rfl
          exact Or.inr ⟨rfl, hb, hall⟩
        · rintro (⟨_, h⟩ | ⟨rfl, _⟩)
          · exact absurd hb (Nat.not_lt.2 h)
          · rfl
      · push Not at hall
        obtain ⟨q2, hq2, _⟩ := thirdPoint_ok t2 c0.2 c1.2 hall
        rw [hq2]
        simp only
        constructor
        · intro h
          split at h <;> cases h
        · rintro (⟨_, h⟩ | ⟨_, _, h⟩)
          · exact absurd hb (Nat.not_lt.2 h)
          · obtain ⟨v, hv, h1, h2⟩ := hall
            rcases h v hv with h | h
            · exact absurd h h1
            · exact absurd h h2
    · rw [if_pos (by simpa using hb)]
      simp only [Except.error.injEq]
      constructor
      · rintro rfl
        exact Or.inl ⟨rfl, Nat.not_lt.1 hb⟩
      · rintro (⟨rfl, _⟩ | ⟨_, h, _⟩)
        · rfl
        · exact absurd h hb
  · have hno : ¬ ∃ c0 c1, trianglesCommonVertices s1 s2 t1 t2 = [c0, c1] ∧
        ((f = .undefinedBehaviour ∧ s1.nbVertices ≤ c1.2) ∨
          (f = .openGeodeException ∧ c1.2 < s1.nbVertices ∧ ∀ v ∈ t2, v = c0.2 ∨ v = c1.2)) := by
      rintro ⟨c0, c1, h, _⟩
      rw [h] at hc
      exact hc rfl
    refine iff_of_false ?_ hno
    unfold trianglesIntersectionDetection
    simp only
    intro h
    split at h
    · cases h
    · unfold sectionTrianglesIntersect at h
      rw [if_neg (by simpa using hc)] at h
      cases h

/-- The polygons to compare in a Section: the vertices of the second polygon are different, and those with
the unique vertex of a vertex of the first polygon have an index that is also valid in the first mesh. -/
def ComparablePolygons {P : Type} (m : IntersectionModel P) (c : Candidates P) : Prop :=
  ∀ x ∈ comparisons m c, ∀ p ∈ x.2, (x.1.2.polygonVertices p.2).Nodup ∧
    ∀ v ∈ x.1.1.polygonVertices p.1, ∀ w ∈ x.1.2.polygonVertices p.2,
      x.1.1.uniqueVertex v = x.1.2.uniqueVertex w → w < x.1.1.nbVertices

theorem fan_mem (polygon t : List Index) (ht : t ∈ fan polygon) : ∀ v ∈ t, v ∈ polygon := by
  unfold fan at ht
  obtain ⟨k, hk, rfl⟩ := List.mem_map.1 ht
  have hk := List.mem_range.1 hk
  have hmem : ∀ i, i < polygon.length → polygon.getD i 0 ∈ polygon := by
    intro i hi
    rw [List.getD_eq_getElem?_getD, List.getElem?_eq_getElem hi]
    exact List.getElem_mem hi
  intro v hv
  simp only [List.mem_cons, List.not_mem_nil, or_false] at hv
  rcases hv with rfl | rfl | rfl
  · exact hmem _ (by omega)
  · exact hmem _ (by omega)
  · exact hmem _ (by omega)

theorem fan_distinct (polygon t : List Index) (hn : polygon.Nodup) (ht : t ∈ fan polygon) : t.Nodup := by
  unfold fan at ht
  obtain ⟨k, hk, rfl⟩ := List.mem_map.1 ht
  have hk := List.mem_range.1 hk
  have hinj : ∀ i j, i < polygon.length → j < polygon.length → i ≠ j → polygon.getD i 0 ≠ polygon.getD j 0 := by
    intro i j hi hj hij heq
    rw [List.getD_eq_getElem?_getD, List.getElem?_eq_getElem hi, List.getD_eq_getElem?_getD,
      List.getElem?_eq_getElem hj] at heq
    exact hij ((hn.getElem_inj_iff).1 heq)
  simp only [List.nodup_cons, List.mem_cons, List.not_mem_nil, or_false, not_or, not_false_eq_true,
    List.nodup_nil, and_true]
  exact ⟨⟨hinj _ _ (by omega) (by omega) (by omega), hinj _ _ (by omega) (by omega) (by omega)⟩,
    hinj _ _ (by omega) (by omega) (by omega)⟩

/-- the test of a Section raises nothing on comparable polygons -/
theorem sectionTestsOk {P : Type} (m : IntersectionModel P) (c : Candidates P)
    (h : m.trianglesIntersect = sectionTrianglesIntersect m.geometry) (hc : ComparablePolygons m c) :
    TestsOk m c := by
  refine testsOk_of_triangles m c ?_
  intro x hx p hp t1 h1 t2 h2
  unfold triangleTest
  rw [h]
  obtain ⟨hn, hv⟩ := hc x hx p hp
  cases hr : trianglesIntersectionDetection (sectionTrianglesIntersect m.geometry) x.1.1 x.1.2 t1 t2 with
  | ok b => exact ⟨b, rfl⟩
  | error f =>
    obtain ⟨c0, c1, hcc, hf⟩ := (C62_section_test_exact m.geometry _ _ t1 t2 (fan_len3 _ _ h1) f).1 hr
    rcases hf with ⟨_, hf⟩ | ⟨_, _, hf⟩
    · obtain ⟨ha, hb, hu⟩ := common_mem _ _ t1 t2 c1 (by rw [hcc]; simp)
      exact absurd (hv _ (fan_mem _ _ h1 _ ha) _ (fan_mem _ _ h2 _ hb) hu) (Nat.not_lt.2 hf)
    · obtain ⟨v, hv, hne1, hne2⟩ := three_distinct t2 (fan_len3 _ _ h2) (fan_distinct _ _ hn h2) c0.2 c1.2
      rcases hf v hv with h | h
      · exact absurd h hne1
      · exact absurd h hne2

/-- **C62** (Section), what holds: the intersection inspections of a Section of comparable polygons raise
nothing. -/
theorem C62_section_no_exception_partial {P : Type} (m : IntersectionModel P) (c : Candidates P) (ht : TreesOk m c)
    (hsmall : AllSmall m) (h : m.trianglesIntersect = sectionTrianglesIntersect m.geometry)
    (hc : ComparablePolygons m c) :
    (∃ b, modelHasIntersectingSurfaces m = .ok b) ∧ (∃ r, inspectIntersections 2 m = .ok r) ∧
    ∃ r, inspectSurfacesSelfIntersections m = .ok r := by
  have htests := sectionTestsOk m c h hc
  by_cases hne : NoEmptySurface m
  · obtain ⟨⟨l, hl, _⟩, _, ⟨l'', hl'', _⟩⟩ := modelIntersections_ok m c ht hsmall htests hne
    refine ⟨⟨_, by unfold modelHasIntersectingSurfaces; rw [hl]⟩, ?_,
      ⟨_, by unfold inspectSurfacesSelfIntersections addSurfaceAutoIntersectingElements; rw [hl'']⟩⟩
    obtain ⟨_, r, _, hr, _⟩ := C36_section_list m c ht hsmall htests hne
    exact ⟨r, hr⟩
  · obtain ⟨h1, h2, ⟨r, h3, _⟩⟩ := emptyModel_none m hne
    obtain ⟨r', h4, _⟩ := h2 2
    exact ⟨⟨_, h1⟩, ⟨r', h4⟩, ⟨r, h3⟩⟩

/-- Two adjacent triangles of a same Surface. -/
def adjacentSurface : ModelSurface (Int × Int) := { upperTriangle with
    nbPolygons := 2
    nbVertices := 4
    polygonVertices := fun p => if p = 0 then [0, 1, 2] else [1, 0, 3]
    point := fun v => if v = 0 then (0, 0) else if v = 1 then (4, 0) else if v = 2 then (2, 4) else (2, -4) }

/-- The Section of this Surface. -/
def adjacentSection : IntersectionModel (Int × Int) where
  surfaces := [adjacentSurface]
  geometry := planeGeometry
  selfTraversal := fun _ => untilStop [(0, 1)]
  otherTraversal := fun _ _ => untilStop []
  lineTraversal := fun _ _ => untilStop []
  overlappingSurfaces := []
  trianglesIntersect := sectionTrianglesIntersect planeGeometry

example : ∃ c, TreesOk adjacentSection c ∧ AllSmall adjacentSection ∧ ComparablePolygons adjacentSection c ∧
    comparisons adjacentSection c = [((adjacentSurface, adjacentSurface), [(0, 1)])] := by
  refine ⟨⟨fun _ => [(0, 1)], fun _ _ => [], fun _ _ => []⟩,
    ⟨fun _ => untilStop_isTraversal _, fun _ _ => untilStop_isTraversal [], fun _ _ => untilStop_isTraversal []⟩,
    ⟨?_, fun _ h => (by cases h)⟩, ?_, rfl⟩
  · intro s hs p
    simp only [adjacentSection, List.mem_cons, List.not_mem_nil, or_false] at hs
    subst hs
    simp only [adjacentSurface]
    split <;> simp
  · intro x hx p hp
    have hx : x ∈ [((adjacentSurface, adjacentSurface), [((0 : Index), (1 : Index))])] := hx
    simp only [List.mem_cons, List.not_mem_nil, or_false] at hx
    subst hx
    simp only [List.mem_cons, List.not_mem_nil, or_false] at hp
    subst hp
    decide

example : trianglesIntersectionDetection (sectionTrianglesIntersect planeGeometry) upperTriangle upperTriangle
    [0, 1, 2] [0, 1, 1] = .error .openGeodeException := by decide

/-- **C62** (Section), what holds: the test of two triangles raises nothing when the second one has three
different vertices whose indices are also valid in the mesh of the first one. -/
theorem C62_section_test_partial {P : Type} (g : Geometry P) (s1 s2 : ModelSurface P) (t1 t2 : List Index)
    (h3 : t1.length = 3) (h3' : t2.length = 3) (hn : t2.Nodup) (hv : ∀ v ∈ t2, v < s1.nbVertices) :
    ∃ b, trianglesIntersectionDetection (sectionTrianglesIntersect g) s1 s2 t1 t2 = .ok b :=
  sectionTest_ok g s1 s2 t1 t2 h3 h3' hn hv

/-- **C62** is false for a Section: a degenerated triangle next to another one raises an exception. -/
theorem C62_section_false :
    ∃ (g : Geometry (Int × Int)) (s1 s2 : ModelSurface (Int × Int)) (t1 t2 : List Index),
      t1.length = 3 ∧ t2.length = 3 ∧ t1.Nodup ∧ (∀ v ∈ t1, v < s1.nbVertices) ∧ (∀ v ∈ t2, v < s2.nbVertices) ∧
      trianglesIntersectionDetection (sectionTrianglesIntersect g) s1 s2 t1 t2 = .error .openGeodeException :=
  ⟨planeGeometry, upperTriangle, upperTriangle, [0, 1, 2], [0, 1, 1], by decide, by decide, by decide, by decide,
    by decide, by decide⟩

example : (witnessModel 1).trianglesIntersect = brepTrianglesIntersect (witnessModel 1).geometry := rfl

end Inspector
