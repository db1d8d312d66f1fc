import Verif.Proofs.Concurrency
/-
Property C53: independence of the schedule.

Each inspector which runs its criteria with `async::parallel_invoke` gives, for every schedule, the result whose
fields are those of the criteria; the executions of `emplace` protected by a mutex give the same elements for every
schedule; those which are not protected do not.
-/
namespace Inspector

/-- **C53** (edged curve): for every schedule, the inspection returns exactly when no criterion fails, and each field of
its result is then the one of the criterion; an exception is the one of a criterion. -/
theorem C53_edged_curve_partial (choose : List Failure → Failure) (hc : ∀ l, l ≠ [] → choose l ∈ l) (schedule : List Nat)
    (c : EdgedCurveCriteria) :
    (∀ r, inspectEdgedCurve choose schedule c = .ok r ↔
      c.colocated_points_groups = .ok r.colocated_points_groups ∧ c.degenerated_edges = .ok r.degenerated_edges) ∧
    (∀ f, inspectEdgedCurve choose schedule c = .error f →
      c.colocated_points_groups = .error f ∨ c.degenerated_edges = .error f) := by
  constructor
  · intro r
    unfold inspectEdgedCurve
    rw [invokeAndReturn_ok (by independent_assigns)]
    rcases c with ⟨c0, c1⟩
    simp only [List.forall_mem_cons, assign_failure_none, List.not_mem_nil, false_implies, implies_true, and_true]
    constructor
    · rintro ⟨⟨⟨x0, rfl⟩, ⟨x1, rfl⟩⟩, rfl⟩
      exact ⟨rfl, rfl⟩
    · rintro ⟨rfl, rfl⟩
      exact ⟨⟨⟨_, rfl⟩, ⟨_, rfl⟩⟩, rfl⟩
  · intro f h
    obtain ⟨t, ht, hf⟩ := invokeAndReturn_error hc h
    simp only [List.mem_cons, List.not_mem_nil, or_false] at ht
    rcases ht with rfl | rfl <;> rw [assign_failure_some] at hf <;> simp [hf]

/-- **C53** (surface mesh): for every schedule, the inspection returns exactly when no criterion fails, and each field of
its result is then the one of the criterion; an exception is the one of a criterion. -/
theorem C53_surface_partial (choose : List Failure → Failure) (hc : ∀ l, l ≠ [] → choose l ∈ l) (schedule : List Nat)
    (c : SurfaceCriteria) :
    (∀ r, inspectSurface choose schedule c = .ok r ↔
      c.polygon_edges_with_wrong_adjacency = .ok r.polygon_edges_with_wrong_adjacency ∧
      c.colocated_points_groups = .ok r.colocated_points_groups ∧ c.degenerated_edges = .ok r.degenerated_edges ∧
      c.degenerated_polygons = .ok r.degenerated_polygons ∧ c.non_manifold_edges = .ok r.non_manifold_edges ∧
      c.non_manifold_vertices = .ok r.non_manifold_vertices ∧
      c.intersecting_elements = .ok r.intersecting_elements ∧ c.negative_polygons = .ok r.negative_polygons) ∧
    (∀ f, inspectSurface choose schedule c = .error f →
      c.polygon_edges_with_wrong_adjacency = .error f ∨ c.colocated_points_groups = .error f ∨
      c.degenerated_edges = .error f ∨ c.degenerated_polygons = .error f ∨ c.non_manifold_edges = .error f ∨
      c.non_manifold_vertices = .error f ∨ c.intersecting_elements = .error f ∨ c.negative_polygons = .error f) := by
  constructor
  · intro r
    unfold inspectSurface
    rw [invokeAndReturn_ok (by independent_assigns)]
    rcases c with ⟨c0, c1, c2, c3, c4, c5, c6, c7⟩
    simp only [List.forall_mem_cons, assign_failure_none, List.not_mem_nil, false_implies, implies_true, and_true]
    constructor
    · rintro ⟨⟨⟨x0, rfl⟩, ⟨x1, rfl⟩, ⟨x2, rfl⟩, ⟨x3, rfl⟩, ⟨x4, rfl⟩, ⟨x5, rfl⟩, ⟨x6, rfl⟩, ⟨x7, rfl⟩⟩, rfl⟩
      exact ⟨rfl, rfl, rfl, rfl, rfl, rfl, rfl, rfl⟩
    · rintro ⟨rfl, rfl, rfl, rfl, rfl, rfl, rfl, rfl⟩
      exact ⟨⟨⟨_, rfl⟩, ⟨_, rfl⟩, ⟨_, rfl⟩, ⟨_, rfl⟩, ⟨_, rfl⟩, ⟨_, rfl⟩, ⟨_, rfl⟩, ⟨_, rfl⟩⟩, rfl⟩
  · intro f h
    obtain ⟨t, ht, hf⟩ := invokeAndReturn_error hc h
    simp only [List.mem_cons, List.not_mem_nil, or_false] at ht
    rcases ht with rfl | rfl | rfl | rfl | rfl | rfl | rfl | rfl <;> rw [assign_failure_some] at hf <;> simp [hf]

/-- **C53** (solid mesh): for every schedule, the inspection returns exactly when no criterion fails, and each field of
its result is then the one of the criterion; an exception is the one of a criterion. -/
theorem C53_solid_partial (choose : List Failure → Failure) (hc : ∀ l, l ≠ [] → choose l ∈ l) (schedule : List Nat)
    (c : SolidCriteria) :
    (∀ r, inspectSolid choose schedule c = .ok r ↔
      c.polyhedron_facets_with_wrong_adjacency = .ok r.polyhedron_facets_with_wrong_adjacency ∧
      c.colocated_points_groups = .ok r.colocated_points_groups ∧ c.degenerated_edges = .ok r.degenerated_edges ∧
      c.degenerated_polyhedra = .ok r.degenerated_polyhedra ∧
      c.non_manifold_vertices = .ok r.non_manifold_vertices ∧ c.non_manifold_edges = .ok r.non_manifold_edges ∧
      c.non_manifold_facets = .ok r.non_manifold_facets ∧ c.negative_polyhedra = .ok r.negative_polyhedra) ∧
    (∀ f, inspectSolid choose schedule c = .error f →
      c.polyhedron_facets_with_wrong_adjacency = .error f ∨ c.colocated_points_groups = .error f ∨
      c.degenerated_edges = .error f ∨ c.degenerated_polyhedra = .error f ∨ c.non_manifold_vertices = .error f ∨
      c.non_manifold_edges = .error f ∨ c.non_manifold_facets = .error f ∨ c.negative_polyhedra = .error f) := by
  constructor
  · intro r
    unfold inspectSolid
    rw [invokeAndReturn_ok (by independent_assigns)]
    rcases c with ⟨c0, c1, c2, c3, c4, c5, c6, c7⟩
    simp only [List.forall_mem_cons, assign_failure_none, List.not_mem_nil, false_implies, implies_true, and_true]
    constructor
    · rintro ⟨⟨⟨x0, rfl⟩, ⟨x1, rfl⟩, ⟨x2, rfl⟩, ⟨x3, rfl⟩, ⟨x4, rfl⟩, ⟨x5, rfl⟩, ⟨x6, rfl⟩, ⟨x7, rfl⟩⟩, rfl⟩
      exact ⟨rfl, rfl, rfl, rfl, rfl, rfl, rfl, rfl⟩
    · rintro ⟨rfl, rfl, rfl, rfl, rfl, rfl, rfl, rfl⟩
      exact ⟨⟨⟨_, rfl⟩, ⟨_, rfl⟩, ⟨_, rfl⟩, ⟨_, rfl⟩, ⟨_, rfl⟩, ⟨_, rfl⟩, ⟨_, rfl⟩, ⟨_, rfl⟩⟩, rfl⟩
  · intro f h
    obtain ⟨t, ht, hf⟩ := invokeAndReturn_error hc h
    simp only [List.mem_cons, List.not_mem_nil, or_false] at ht
    rcases ht with rfl | rfl | rfl | rfl | rfl | rfl | rfl | rfl <;> rw [assign_failure_some] at hf <;> simp [hf]

/-- **C53** (meshes of a Section): for every schedule, the inspection returns exactly when no criterion fails, and each field of
its result is then the one of the criterion; an exception is the one of a criterion. -/
theorem C53_section_meshes_partial (choose : List Failure → Failure) (hc : ∀ l, l ≠ [] → choose l ∈ l) (schedule : List Nat)
    (c : SectionMeshesCriteria) :
    (∀ r, inspectSectionMeshes choose schedule c = .ok r ↔
      c.unique_vertices_colocation = .ok r.unique_vertices_colocation ∧
      c.meshes_colocation = .ok r.meshes_colocation ∧ c.meshes_adjacencies = .ok r.meshes_adjacencies ∧
      c.meshes_degenerations = .ok r.meshes_degenerations ∧ c.meshes_intersections = .ok r.meshes_intersections ∧
      c.meshes_non_manifolds = .ok r.meshes_non_manifolds ∧
      c.meshes_negative_elements = .ok r.meshes_negative_elements) ∧
    (∀ f, inspectSectionMeshes choose schedule c = .error f →
      c.unique_vertices_colocation = .error f ∨ c.meshes_colocation = .error f ∨ c.meshes_adjacencies = .error f ∨
      c.meshes_degenerations = .error f ∨ c.meshes_intersections = .error f ∨ c.meshes_non_manifolds = .error f ∨
      c.meshes_negative_elements = .error f) := by
  constructor
  · intro r
    unfold inspectSectionMeshes
    rw [invokeAndReturn_ok (by independent_assigns)]
    rcases c with ⟨c0, c1, c2, c3, c4, c5, c6⟩
    simp only [List.forall_mem_cons, assign_failure_none, List.not_mem_nil, false_implies, implies_true, and_true]
    constructor
    · rintro ⟨⟨⟨x0, rfl⟩, ⟨x1, rfl⟩, ⟨x2, rfl⟩, ⟨x3, rfl⟩, ⟨x4, rfl⟩, ⟨x5, rfl⟩, ⟨x6, rfl⟩⟩, rfl⟩
      exact ⟨rfl, rfl, rfl, rfl, rfl, rfl, rfl⟩
    · rintro ⟨rfl, rfl, rfl, rfl, rfl, rfl, rfl⟩
      exact ⟨⟨⟨_, rfl⟩, ⟨_, rfl⟩, ⟨_, rfl⟩, ⟨_, rfl⟩, ⟨_, rfl⟩, ⟨_, rfl⟩, ⟨_, rfl⟩⟩, rfl⟩
  · intro f h
    obtain ⟨t, ht, hf⟩ := invokeAndReturn_error hc h
    simp only [List.mem_cons, List.not_mem_nil, or_false] at ht
    rcases ht with rfl | rfl | rfl | rfl | rfl | rfl | rfl <;> rw [assign_failure_some] at hf <;> simp [hf]

/-- **C53** (meshes of a BRep): for every schedule, the inspection returns exactly when no criterion fails, and each field of
its result is then the one of the criterion; an exception is the one of a criterion. -/
theorem C53_brep_meshes_partial (choose : List Failure → Failure) (hc : ∀ l, l ≠ [] → choose l ∈ l) (schedule : List Nat)
    (c : BRepMeshesCriteria) :
    (∀ r, inspectBRepMeshes choose schedule c = .ok r ↔
      c.unique_vertices_colocation = .ok r.unique_vertices_colocation ∧
      c.meshes_colocation = .ok r.meshes_colocation ∧ c.meshes_adjacencies = .ok r.meshes_adjacencies ∧
      c.meshes_degenerations = .ok r.meshes_degenerations ∧ c.meshes_intersections = .ok r.meshes_intersections ∧
      c.meshes_non_manifolds = .ok r.meshes_non_manifolds ∧
      c.meshes_negative_elements = .ok r.meshes_negative_elements) ∧
    (∀ f, inspectBRepMeshes choose schedule c = .error f →
      c.unique_vertices_colocation = .error f ∨ c.meshes_colocation = .error f ∨ c.meshes_adjacencies = .error f ∨
      c.meshes_degenerations = .error f ∨ c.meshes_intersections = .error f ∨ c.meshes_non_manifolds = .error f ∨
      c.meshes_negative_elements = .error f) := by
  constructor
  · intro r
    unfold inspectBRepMeshes
    rw [invokeAndReturn_ok (by independent_assigns)]
    rcases c with ⟨c0, c1, c2, c3, c4, c5, c6⟩
    simp only [List.forall_mem_cons, assign_failure_none, List.not_mem_nil, false_implies, implies_true, and_true]
    constructor
    · rintro ⟨⟨⟨x0, rfl⟩, ⟨x1, rfl⟩, ⟨x2, rfl⟩, ⟨x3, rfl⟩, ⟨x4, rfl⟩, ⟨x5, rfl⟩, ⟨x6, rfl⟩⟩, rfl⟩
      exact ⟨rfl, rfl, rfl, rfl, rfl, rfl, rfl⟩
    · rintro ⟨rfl, rfl, rfl, rfl, rfl, rfl, rfl⟩
      exact ⟨⟨⟨_, rfl⟩, ⟨_, rfl⟩, ⟨_, rfl⟩, ⟨_, rfl⟩, ⟨_, rfl⟩, ⟨_, rfl⟩, ⟨_, rfl⟩⟩, rfl⟩
  · intro f h
    obtain ⟨t, ht, hf⟩ := invokeAndReturn_error hc h
    simp only [List.mem_cons, List.not_mem_nil, or_false] at ht
    rcases ht with rfl | rfl | rfl | rfl | rfl | rfl | rfl <;> rw [assign_failure_some] at hf <;> simp [hf]

/-- **C53** (Section). -/
theorem C53_section_partial (choose : List Failure → Failure) (hc : ∀ l, l ≠ [] → choose l ∈ l) (schedule : List Nat)
    (meshes : Except Failure SectionMeshesInspectionResult) (topology : Except Failure SectionTopologyInspectionResult) :
    (∀ r, inspectSection choose schedule meshes topology = .ok r ↔
      meshes = .ok r.meshes ∧ topology = .ok r.topology) ∧
    (∀ f, inspectSection choose schedule meshes topology = .error f →
      meshes = .error f ∨ topology = .error f) := by
  constructor
  · intro r
    unfold inspectSection
    rw [invokeAndReturn_ok (by independent_assigns)]
    simp only [List.forall_mem_cons, assign_failure_none, List.not_mem_nil, false_implies, implies_true, and_true]
    constructor
    · rintro ⟨⟨⟨x0, rfl⟩, ⟨x1, rfl⟩⟩, rfl⟩
      exact ⟨rfl, rfl⟩
    · rintro ⟨rfl, rfl⟩
      exact ⟨⟨⟨_, rfl⟩, ⟨_, rfl⟩⟩, rfl⟩
  · intro f h
    obtain ⟨t, ht, hf⟩ := invokeAndReturn_error hc h
    simp only [List.mem_cons, List.not_mem_nil, or_false] at ht
    rcases ht with rfl | rfl <;> rw [assign_failure_some] at hf <;> simp [hf]

/-- **C53** (BRep). -/
theorem C53_brep_partial (choose : List Failure → Failure) (hc : ∀ l, l ≠ [] → choose l ∈ l) (schedule : List Nat)
    (meshes : Except Failure BRepMeshesInspectionResult) (topology : Except Failure BRepTopologyInspectionResult) :
    (∀ r, inspectBRep choose schedule meshes topology = .ok r ↔
      meshes = .ok r.meshes ∧ topology = .ok r.topology) ∧
    (∀ f, inspectBRep choose schedule meshes topology = .error f →
      meshes = .error f ∨ topology = .error f) := by
  constructor
  · intro r
    unfold inspectBRep
    rw [invokeAndReturn_ok (by independent_assigns)]
    simp only [List.forall_mem_cons, assign_failure_none, List.not_mem_nil, false_implies, implies_true, and_true]
    constructor
    · rintro ⟨⟨⟨x0, rfl⟩, ⟨x1, rfl⟩⟩, rfl⟩
      exact ⟨rfl, rfl⟩
    · rintro ⟨rfl, rfl⟩
      exact ⟨⟨⟨_, rfl⟩, ⟨_, rfl⟩⟩, rfl⟩
  · intro f h
    obtain ⟨t, ht, hf⟩ := invokeAndReturn_error hc h
    simp only [List.mem_cons, List.not_mem_nil, or_false] at ht
    rcases ht with rfl | rfl <;> rw [assign_failure_some] at hf <;> simp [hf]

/-- the hypothesis on `choose` is satisfiable -/
example : ∃ choose : List Failure → Failure, ∀ l, l ≠ [] → choose l ∈ l :=
  ⟨fun l => l.headD .otherException, fun l h => by cases l with
    | nil => exact absurd rfl h
    | cons a l => simp⟩

/-- a schedule where the second task comes first, on criteria which find an issue; then a failing criterion -/
example :
    ((inspectEdgedCurve (fun l => l.headD .otherException) [1, 1, 0]
      { colocated_points_groups := .ok ((Issues.new "").add [0, 1] ""),
        degenerated_edges := .ok ((Issues.new "").add 3 "") }).toOption.map
        fun r => (r.colocated_points_groups.issues, r.degenerated_edges.issues)) = some ([[0, 1]], [3]) ∧
    (match inspectEdgedCurve (fun l => l.headD .otherException) [1, 0]
      { colocated_points_groups := .error .openGeodeException,
        degenerated_edges := .ok ((Issues.new "").add 3 "") } with
     | .error .openGeodeException => true
     | _ => false) = true := by decide

/-- **C53** (adjacencies of a BRep): the two tasks, which write the result component by component, give for every
interleaving the result of the sequential execution (described by C17 and C18). -/
theorem C53_brep_adjacencies_partial (choose : List Failure → Failure) (schedule : List Nat)
    (opposite : List Index → List Index → Bool) (model : AdjacencyModel) :
    interleavedBRepMeshesAdjacencies choose schedule opposite model =
      .ok (inspectBRepMeshesAdjacencies opposite model) := by
  unfold interleavedBRepMeshesAdjacencies
  rw [invokeAndReturn_ok]
  · refine ⟨by simp, ?_⟩
    simp only [List.map_cons, List.map_nil, List.flatten_cons, List.flatten_nil, List.append_nil, List.foldl_append,
      List.foldl_map]
    have h1 : ∀ (l : List SurfaceComponent) (s : BRepMeshesAdjacencyInspectionResult),
        l.foldl (fun (result : BRepMeshesAdjacencyInspectionResult) surface =>
          { result with
            surfaces_edges_with_wrong_adjacencies :=
              result.surfaces_edges_with_wrong_adjacencies.addIssues surface.id
                (surfaceAdjacencyIssues model surface) }) s =
        { s with
          surfaces_edges_with_wrong_adjacencies := l.foldl (fun map surface =>
            map.addIssues surface.id (surfaceAdjacencyIssues model surface)) s.surfaces_edges_with_wrong_adjacencies } := by
      intro l
      induction l with
      | nil => intro s; rfl
      | cons a l ih => intro s; rw [List.foldl_cons, ih]; rfl
    have h2 : ∀ (l : List BlockComponent) (s : BRepMeshesAdjacencyInspectionResult),
        l.foldl (fun (result : BRepMeshesAdjacencyInspectionResult) block =>
          { result with
            blocks_facets_with_wrong_adjacencies :=
              result.blocks_facets_with_wrong_adjacencies.addIssues block.id
                (blockAdjacencyIssues opposite model block) }) s =
        { s with
          blocks_facets_with_wrong_adjacencies := l.foldl (fun map block =>
            map.addIssues block.id (blockAdjacencyIssues opposite model block)) s.blocks_facets_with_wrong_adjacencies } := by
      intro l
      induction l with
      | nil => intro s; rfl
      | cons a l ih => intro s; rw [List.foldl_cons, ih]; rfl
    rw [h1, h2]
    rfl
  · simp only [Independent, List.map_cons, List.map_nil, List.pairwise_cons, List.forall_mem_cons, List.Pairwise.nil,
      List.not_mem_nil, false_implies, implies_true, and_true]
    intro w hw w' hw' s
    obtain ⟨a, _, rfl⟩ := List.mem_map.1 hw
    obtain ⟨b, _, rfl⟩ := List.mem_map.1 hw'
    rfl

/-- **C53** (intersections of one mesh): with a mutex, when all the threads are over the vector holds exactly the
elements given to `emplace`, for every schedule; and every execution can be completed (no deadlock). -/
theorem C53_emplace_with_mutex_partial {α : Type} (threads : List (List α)) (schedule : List Nat) :
    ((runEmplace true threads schedule).finished →
      (runEmplace true threads schedule).contents.Perm (threads.flatten.map some)) ∧
    ∃ rest, (runEmplace true threads (schedule ++ rest)).finished := by
  have h := runEmplace_inv threads schedule
  constructor
  · intro hf
    have hp := h.perm
    have he : (runEmplace true threads schedule).threads.flatMap EmplaceThread.todo = [] := by
      rw [List.flatMap_eq_nil_iff]
      exact hf
    rw [he] at hp
    simpa using hp
  · obtain ⟨rest, hr⟩ := emplace_completes _ _ h (Nat.le_refl _)
    refine ⟨rest, ?_⟩
    unfold runEmplace at hr ⊢
    rw [List.foldl_append]
    exact hr

/-- two threads, with an interleaving where the second one waits for the mutex -/
example : (runEmplace true [[5], [7]] [0, 1, 0, 1, 0, 0, 1, 1, 1, 1]).finished ∧
    (runEmplace true [[5], [7]] [0, 1, 0, 1, 0, 0, 1, 1, 1, 1]).contents = [some 5, some 7] := by
  constructor
  · intro t ht; revert t; decide
  · decide

/-- **C53 is false**: the actions of the intersections between components emplace without a mutex, so that two
executions which run the same tests give different lists: an intersection can be lost. -/
theorem C53_false :
    ∃ (threads : List (List (Index × Index))) (schedule schedule' : List Nat),
      (runEmplace false threads schedule).finished ∧ (runEmplace false threads schedule').finished ∧
      (runEmplace false threads schedule).contents = [some (0, 1), some (2, 3)] ∧
      (runEmplace false threads schedule').contents = [some (2, 3)] := by
  refine ⟨[[(0, 1)], [(2, 3)]], [0, 0, 0, 0, 1, 1, 1, 1], [0, 1, 0, 1, 0, 1, 0, 1], ?_, ?_, ?_, ?_⟩
  · intro t ht; revert t; decide
  · intro t ht; revert t; decide
  · decide
  · decide

end Inspector
