import Verif.Model.Lifetimes
/-
Proofs for C106.
-/
namespace Inspector.Lifetimes

/-- the steps for the iterations `l` -/
def steps (l : List Nat) : List SpawnerStep :=
  (l.flatMap fun i => [.enter i, .spawn i, .leave i]) ++ [.waitAll, .return]

theorem steps_cons (i : Nat) (l : List Nat) : steps (i :: l) = .enter i :: .spawn i :: .leave i :: steps l := rfl

/-- where the spawner is, and what is alive then -/
def Phase (todo : List SpawnerStep) (alive : List CapturedVariable) : Prop :=
  (∃ l, todo = steps l ∧ alive = [.parameter]) ∨
  (∃ i l, todo = .spawn i :: .leave i :: steps l ∧ alive = [.iteration i, .parameter]) ∨
  (∃ i l, todo = .leave i :: steps l ∧ alive = [.iteration i, .parameter]) ∨
  (todo = [.return] ∧ alive = [.parameter]) ∨ (todo = [] ∧ alive = [])

def stepOf (captured : Nat → List CapturedVariable) (s : SpawnState) (who : Option Nat) : SpawnState :=
  match who with
  | none => s.spawner captured
  | some i => s.task i

theorem task_tasks {i : Nat} {s : SpawnState} {t : Nat × List CapturedVariable} (ht : t ∈ (s.task i).tasks) :
    ∃ t' ∈ s.tasks, ∀ v ∈ t.2, v ∈ t'.2 := by
  unfold SpawnState.task at ht
  split at ht
  · next j v rest hf =>
    obtain ⟨t', ht', rfl⟩ := List.mem_map.1 ht
    by_cases hi : (t'.1 == i) = true
    · have hm := List.mem_of_find?_eq_some hf
      refine ⟨_, hm, ?_⟩
      rw [if_pos hi]
      intro w hw
      exact List.mem_cons_of_mem _ hw
    · refine ⟨t', ht', ?_⟩
      rw [if_neg hi]
      exact fun _ h => h
  · exact ⟨t, ht, fun _ h => h⟩

theorem task_undefined {i : Nat} {s : SpawnState} (h : s.undefined = false)
    (ha : ∀ t ∈ s.tasks, ∀ v ∈ t.2, v ∈ s.alive) : (s.task i).undefined = false := by
  unfold SpawnState.task
  split
  · next j v rest hf =>
    have hm := List.mem_of_find?_eq_some hf
    have := ha _ hm v (by simp)
    simp only [h, Bool.false_or, Bool.not_eq_false']
    exact List.contains_iff_mem.2 this
  · exact h

theorem task_other {i : Nat} {s : SpawnState} : (s.task i).todo = s.todo ∧ (s.task i).alive = s.alive := by
  unfold SpawnState.task
  split <;> exact ⟨rfl, rfl⟩

theorem phase_spawner (captured : Nat → List CapturedVariable) {s : SpawnState} (h : Phase s.todo s.alive) :
    Phase (s.spawner captured).todo (s.spawner captured).alive := by
  obtain ⟨todo, alive, tasks, u⟩ := s
  simp only at h
  rcases h with ⟨l, rfl, rfl⟩ | ⟨i, l, rfl, rfl⟩ | ⟨i, l, rfl, rfl⟩ | ⟨rfl, rfl⟩ | ⟨rfl, rfl⟩
  · cases l with
    | nil =>
      unfold SpawnState.spawner
      simp only [steps, List.flatMap_nil, List.nil_append]
      split
      · exact .inr (.inr (.inr (.inl ⟨rfl, rfl⟩)))
      · exact .inl ⟨[], rfl, rfl⟩
    | cons i l => exact .inr (.inl ⟨i, l, rfl, rfl⟩)
  · exact .inr (.inr (.inl ⟨i, l, rfl, rfl⟩))
  · refine .inl ⟨l, rfl, ?_⟩
    simp [SpawnState.spawner]
  · exact .inr (.inr (.inr (.inr ⟨rfl, rfl⟩)))
  · exact .inr (.inr (.inr (.inr ⟨rfl, rfl⟩)))

theorem phase_step (captured : Nat → List CapturedVariable) {s : SpawnState} (h : Phase s.todo s.alive) (who : Option Nat) :
    Phase (stepOf captured s who).todo (stepOf captured s who).alive := by
  cases who with
  | none => exact phase_spawner captured h
  | some i =>
    show Phase (s.task i).todo (s.task i).alive
    rw [task_other.1, task_other.2]
    exact h

/-! ### tasks that read only parameters -/

structure Safe (s : SpawnState) : Prop where
  phase : Phase s.todo s.alive
  reads : ∀ t ∈ s.tasks, ∀ v ∈ t.2, v = .parameter
  ended : s.todo = [.return] ∨ s.todo = [] → ∀ t ∈ s.tasks, t.2 = []
  defined : s.undefined = false

theorem safe_alive {s : SpawnState} (h : Safe s) : ∀ t ∈ s.tasks, ∀ v ∈ t.2, v ∈ s.alive := by
  intro t ht v hv
  rw [h.reads t ht v hv]
  rcases h.phase with ⟨l, _, e⟩ | ⟨i, l, _, e⟩ | ⟨i, l, _, e⟩ | ⟨_, e⟩ | ⟨e, _⟩
  · rw [e]; simp
  · rw [e]; simp
  · rw [e]; simp
  · rw [e]; simp
  · rw [h.ended (.inr e) t ht] at hv
    cases hv

theorem steps_ne (l : List Nat) : steps l ≠ [.return] ∧ steps l ≠ [] := by
  cases l with
  | nil => exact ⟨by decide, by decide⟩
  | cons i l => exact ⟨by rw [steps_cons]; simp, by rw [steps_cons]; simp⟩

theorem safe_step (captured : Nat → List CapturedVariable) (hc : ∀ i, ∀ v ∈ captured i, v = .parameter) {s : SpawnState}
    (h : Safe s) (who : Option Nat) : Safe (stepOf captured s who) := by
  refine ⟨phase_step captured h.phase who, ?_, ?_, ?_⟩
  · cases who with
    | some i =>
      intro t ht v hv
      obtain ⟨t', ht', hs⟩ := task_tasks ht
      exact h.reads t' ht' v (hs v hv)
    | none =>
      show ∀ t ∈ (s.spawner captured).tasks, _
      intro t ht v hv
      unfold SpawnState.spawner at ht
      split at ht
      · exact h.reads t ht v hv
      · exact h.reads t ht v hv
      · rcases List.mem_append.1 ht with ht | ht
        · exact h.reads t ht v hv
        · rw [List.mem_singleton.1 ht] at hv
          exact hc _ v hv
      · exact h.reads t ht v hv
      · split at ht <;> exact h.reads t ht v hv
      · exact h.reads t ht v hv
  · cases who with
    | some i =>
      show (s.task i).todo = _ ∨ (s.task i).todo = _ → _
      rw [task_other.1]
      intro he t ht
      obtain ⟨t', ht', hs⟩ := task_tasks ht
      rw [List.eq_nil_iff_forall_not_mem]
      intro v hv
      have := hs v hv
      rw [h.ended he t' ht'] at this
      cases this
    | none =>
      show (s.spawner captured).todo = _ ∨ (s.spawner captured).todo = _ → ∀ t ∈ (s.spawner captured).tasks, _
      obtain ⟨hp, hr, he, hu⟩ := h
      obtain ⟨todo, alive, tasks, u⟩ := s
      simp only at hp hr he hu
      rcases hp with ⟨l, rfl, rfl⟩ | ⟨i, l, rfl, rfl⟩ | ⟨i, l, rfl, rfl⟩ | ⟨rfl, rfl⟩ | ⟨rfl, rfl⟩
      · cases l with
        | nil =>
          unfold SpawnState.spawner
          simp only [steps, List.flatMap_nil, List.nil_append]
          split
          · next hall =>
            intro _ t ht
            exact List.isEmpty_iff.1 (List.all_eq_true.1 hall t ht)
          · intro hx
            rcases hx with hx | hx <;> cases hx
        | cons i l =>
          intro hx
          rcases hx with hx | hx <;> cases hx
      · intro hx
        rcases hx with hx | hx
        · cases hx
        · cases hx
      · intro hx
        rcases hx with hx | hx
        · exact absurd hx (steps_ne l).1
        · exact absurd hx (steps_ne l).2
      · exact fun _ => he (.inl rfl)
      · exact fun _ => he (.inr rfl)
  · cases who with
    | some i => exact task_undefined h.defined (safe_alive h)
    | none =>
      show (s.spawner captured).undefined = false
      unfold SpawnState.spawner
      split
      all_goals first | exact h.defined | (split <;> exact h.defined)

theorem run_eq (captured : Nat → List CapturedVariable) (n : Nat) (schedule : List (Option Nat)) :
    runSpawner captured n schedule = schedule.foldl (stepOf captured)
      { todo := steps (List.range n), alive := [.parameter], tasks := [], undefined := false } := rfl

theorem run_safe (captured : Nat → List CapturedVariable) (hc : ∀ i, ∀ v ∈ captured i, v = .parameter) (n : Nat)
    (schedule : List (Option Nat)) : Safe (runSpawner captured n schedule) := by
  rw [run_eq]
  have h0 : Safe { todo := steps (List.range n), alive := [.parameter], tasks := [], undefined := false } :=
    ⟨.inl ⟨_, rfl, rfl⟩, fun _ h => (by cases h), fun _ _ h => (by cases h), rfl⟩
  generalize ({ todo := steps (List.range n), alive := [.parameter], tasks := [], undefined := false } : SpawnState) = s at h0
  induction schedule generalizing s with
  | nil => exact h0
  | cons who rest ih => exact ih _ (safe_step captured hc h0 who)

/-! ### tasks that run as soon as they are spawned -/

structure Prompt (s : SpawnState) : Prop where
  phase : Phase s.todo s.alive
  reads : ∀ t ∈ s.tasks, ∀ v ∈ t.2, v ∈ s.alive
  defined : s.undefined = false

theorem prompt_step (captured : Nat → List CapturedVariable)
    (hc : ∀ i, ∀ v ∈ captured i, v = .parameter ∨ v = .iteration i) {s : SpawnState}
    (h : Prompt s) (who : Option Nat) (hw : who = none → ∀ t ∈ s.tasks, t.2 = []) : Prompt (stepOf captured s who) := by
  refine ⟨phase_step captured h.phase who, ?_, ?_⟩
  · cases who with
    | some i =>
      show ∀ t ∈ (s.task i).tasks, ∀ v ∈ t.2, v ∈ (s.task i).alive
      rw [task_other.2]
      intro t ht v hv
      obtain ⟨t', ht', hs⟩ := task_tasks ht
      exact h.reads t' ht' v (hs v hv)
    | none =>
      have hw := hw rfl
      show ∀ t ∈ (s.spawner captured).tasks, ∀ v ∈ t.2, v ∈ (s.spawner captured).alive
      obtain ⟨hp, hr, hu⟩ := h
      obtain ⟨todo, alive, tasks, u⟩ := s
      simp only at hp hr hu hw
      have old : ∀ t ∈ tasks, ∀ v ∈ t.2, ∀ p : Prop, p := by
        intro t ht v hv
        rw [hw t ht] at hv
        cases hv
      rcases hp with ⟨l, rfl, rfl⟩ | ⟨i, l, rfl, rfl⟩ | ⟨i, l, rfl, rfl⟩ | ⟨rfl, rfl⟩ | ⟨rfl, rfl⟩
      · cases l with
        | nil =>
          unfold SpawnState.spawner
          simp only [steps, List.flatMap_nil, List.nil_append]
          split
          · exact fun t ht v hv => old t ht v hv _
          · exact fun t ht v hv => old t ht v hv _
        | cons i l => exact fun t ht v hv => old t ht v hv _
      · intro t ht v hv
        rcases List.mem_append.1 ht with ht | ht
        · exact old t ht v hv _
        · rw [List.mem_singleton.1 ht] at hv
          show v ∈ [CapturedVariable.iteration i, .parameter]
          rcases hc i v hv with e | e <;> simp [e]
      · exact fun t ht v hv => old t ht v hv _
      · exact fun t ht v hv => old t ht v hv _
      · exact fun t ht v hv => old t ht v hv _
  · cases who with
    | some i => exact task_undefined h.defined h.reads
    | none =>
      show (s.spawner captured).undefined = false
      unfold SpawnState.spawner
      split
      all_goals first | exact h.defined | (split <;> exact h.defined)

theorem run_take (captured : Nat → List CapturedVariable) (n : Nat) (schedule : List (Option Nat)) (k : Nat)
    (hk : k < schedule.length) :
    runSpawner captured n (schedule.take (k + 1)) = stepOf captured (runSpawner captured n (schedule.take k)) schedule[k] := by
  rw [run_eq, run_eq, List.take_succ_eq_append_getElem hk, List.foldl_append]
  rfl

theorem run_prompt (captured : Nat → List CapturedVariable)
    (hc : ∀ i, ∀ v ∈ captured i, v = .parameter ∨ v = .iteration i) (n : Nat) (schedule : List (Option Nat))
    (hw : ∀ k, schedule[k]? = some none → ∀ t ∈ (runSpawner captured n (schedule.take k)).tasks, t.2 = []) :
    Prompt (runSpawner captured n schedule) := by
  have h : ∀ k, k ≤ schedule.length → Prompt (runSpawner captured n (schedule.take k)) := by
    intro k
    induction k with
    | zero => exact fun _ => ⟨.inl ⟨_, rfl, rfl⟩, fun _ h => (by cases h), rfl⟩
    | succ k ih =>
      intro hk
      rw [run_take captured n schedule k hk]
      exact prompt_step captured hc (ih (by omega)) _ fun e => hw k (by rw [List.getElem?_eq_getElem hk, e])
  have := h schedule.length (Nat.le_refl _)
  rwa [List.take_length] at this

/-! ### tasks that run late -/

theorem run_late (captured : Nat → List CapturedVariable) (l : List Nat) (tasks : List (Nat × List CapturedVariable)) :
    (List.replicate (3 * l.length) none).foldl (stepOf captured)
        { todo := steps l, alive := [.parameter], tasks := tasks, undefined := false } =
      { todo := [.waitAll, .return], alive := [.parameter], tasks := tasks ++ l.map fun i => (i, captured i)
        undefined := false } := by
  induction l generalizing tasks with
  | nil => simp [steps]
  | cons i l ih =>
    rw [List.length_cons, Nat.mul_add, Nat.mul_one, Nat.add_comm, show List.replicate (3 + 3 * l.length) (none : Option Nat) =
      none :: none :: none :: List.replicate (3 * l.length) none from by
        rw [Nat.add_comm]; rfl]
    have : [none, none, none].foldl (stepOf captured)
        { todo := steps (i :: l), alive := [.parameter], tasks := tasks, undefined := false } =
        { todo := steps l, alive := [.parameter], tasks := tasks ++ [(i, captured i)], undefined := false } := by
      rw [steps_cons]
      simp [stepOf, SpawnState.spawner]
    simp only [List.foldl_cons, List.foldl_nil] at this ⊢
    rw [this, ih]
    simp

end Inspector.Lifetimes
