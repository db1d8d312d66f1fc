import Verif.Proofs.Lifetimes
/-
Property C106: the tasks of the criteria read only living variables.
-/
namespace Inspector

/-- **C106**: tasks that capture only parameters of the function that spawns and waits for them never read one out of its
lifetime, whatever the number of tasks and the schedule. -/
theorem C106_parameters (captured : Nat → List CapturedVariable) (hc : ∀ i, ∀ v ∈ captured i, v = .parameter) (n : Nat)
    (schedule : List (Option Nat)) : (runSpawner captured n schedule).undefined = false :=
  (Lifetimes.run_safe captured hc n schedule).defined

/-- **C106**: so are the tasks on the edges of the Lines, on the height of the polygons, and on the intersections. -/
theorem C106_lines_polygons_intersections (n : Nat) (schedule : List (Option Nat)) :
    (runSpawner thresholdTask n schedule).undefined = false ∧ (runSpawner intersectionTask n schedule).undefined = false :=
  ⟨C106_parameters _ (fun _ _ h => List.mem_singleton.1 h) n schedule,
    C106_parameters _ (fun _ _ h => List.mem_singleton.1 h) n schedule⟩

/-- two tasks, one of which runs before the spawner goes on and one after: both have read their variable -/
example : (runSpawner thresholdTask 2 [none, none, some 0, none, none, none, some 1, none, none, none]).tasks =
    [(0, []), (1, [])] := by decide

/-- **C106 is false** for the edges of the Surfaces: whatever the number of active Surfaces and the one considered, the
execution in which its task starts once the loop is over reads `enable_edges` out of its lifetime (undefined behaviour). -/
theorem C106_surface_edges_false (n i : Nat) (hi : i < n) :
    ∃ schedule, (runSpawner surfaceEdgesTask n schedule).undefined = true := by
  refine ⟨List.replicate (3 * n) none ++ [some i], ?_⟩
  have h := Lifetimes.run_late surfaceEdgesTask (List.range n) []
  rw [List.length_range] at h
  rw [Lifetimes.run_eq, List.foldl_append, h]
  show (SpawnState.task i _).undefined = true
  have hf : (List.map (fun i => (i, surfaceEdgesTask i)) (List.range n)).find? (fun t => t.1 == i) =
      some (i, [.iteration i, .parameter]) := by
    rw [List.find?_map]
    have : (List.range n).find? ((fun t => t.1 == i) ∘ fun i => (i, surfaceEdgesTask i)) = some i := by
      rw [List.find?_range_eq_some]
      refine ⟨by simp, by simpa using hi, ?_⟩
      intro j hj
      simp
      omega
    rw [this]
    rfl
  unfold SpawnState.task
  simp only [List.nil_append, hf]
  simp

/-- **C106**, what holds for the edges of the Surfaces: if each task ends before the thread that spawned it goes on, no
variable is read out of its lifetime.  Missing: the other schedules. -/
theorem C106_surface_edges_partial (n : Nat) (schedule : List (Option Nat))
    (hw : ∀ k, schedule[k]? = some none →
      ∀ t ∈ (runSpawner surfaceEdgesTask n (schedule.take k)).tasks, t.2 = []) :
    (runSpawner surfaceEdgesTask n schedule).undefined = false := by
  refine (Lifetimes.run_prompt surfaceEdgesTask ?_ n schedule hw).defined
  intro i v hv
  simp only [surfaceEdgesTask, List.mem_cons, List.not_mem_nil, or_false] at hv
  exact hv.symm

/-- such a schedule for two Surfaces, to the end -/
example : let schedule := [none, none, some 0, some 0, none, none, none, some 1, some 1, none, none, none]
    (∀ k, schedule[k]? = some none → ∀ t ∈ (runSpawner surfaceEdgesTask 2 (schedule.take k)).tasks, t.2 = []) ∧
    (runSpawner surfaceEdgesTask 2 schedule).todo = [] := by
  intro schedule
  constructor
  · intro k hk
    have : k < 12 := by
      obtain ⟨h, _⟩ := List.getElem?_eq_some_iff.1 hk
      exact h
    have key : ∀ k < 12, schedule[k]? = some none →
        ∀ t ∈ (runSpawner surfaceEdgesTask 2 (schedule.take k)).tasks, t.2 = [] := by decide
    exact key k this hk
  · decide

end Inspector
