import Mathlib.Data.List.Perm.Basic
import Mathlib.Tactic.Tauto
import Verif.Model.Inspectors
/-! Proofs on the concurrent parts: independence of the schedule. -/
namespace Inspector

/-! ### parallel_invoke -/

/-- Writes of different tasks commute. -/
def Independent {σ : Type} (tasks : List (List (σ → σ))) : Prop :=
  tasks.Pairwise fun t t' => ∀ w ∈ t, ∀ w' ∈ t', ∀ s, w (w' s) = w' (w s)

theorem foldl_commute {σ : Type} (w : σ → σ) : ∀ (l : List (σ → σ)), (∀ w' ∈ l, ∀ s, w (w' s) = w' (w s)) →
    ∀ s, l.foldl (fun s write => write s) (w s) = w (l.foldl (fun s write => write s) s)
  | [], _, _ => rfl
  | w' :: l, h, s => by
    rw [List.foldl_cons, List.foldl_cons, ← h w' (by simp) s]
    exact foldl_commute w l (fun x hx => h x (by simp [hx])) (w' s)

/-- Whatever the schedule, the state is the one of the sequential execution. -/
theorem runTasks_eq {σ : Type} : ∀ (schedule : List Nat) (tasks : List (List (σ → σ))) (s : σ), Independent tasks →
    runTasks schedule tasks s = tasks.flatten.foldl (fun s write => write s) s
  | [], _, _, _ => rfl
  | i :: schedule, tasks, s, h => by
    rw [runTasks]
    split
    · rename_i write writes hi
      obtain ⟨hlt, he⟩ := List.getElem?_eq_some_iff.1 hi
      have hsplit : tasks = tasks.take i ++ (write :: writes) :: tasks.drop (i + 1) := by
        rw [← he, List.getElem_cons_drop, List.take_append_drop]
      have hset : tasks.set i writes = tasks.take i ++ writes :: tasks.drop (i + 1) := by
        rw [List.set_eq_take_append_cons_drop, if_pos hlt]
      rw [Independent, hsplit, List.pairwise_append, List.pairwise_cons] at h
      obtain ⟨h1, ⟨h2, h3⟩, h4⟩ := h
      rw [runTasks_eq schedule _ _ ?_, hset]
      · conv_rhs => rw [hsplit]
        simp only [List.flatten_append, List.flatten_cons, List.foldl_append, List.foldl_cons, List.cons_append]
        congr 2
        refine foldl_commute write _ ?_ s
        intro w' hw' s
        obtain ⟨t, ht, hw'⟩ := List.mem_flatten.1 hw'
        exact (h4 t ht (write :: writes) (by simp) w' hw' write (by simp) s).symm
      · rw [hset, Independent, List.pairwise_append, List.pairwise_cons]
        refine ⟨h1, ⟨fun t ht w hw => h2 t ht w (by simp [hw]), h3⟩, ?_⟩
        intro t ht t' ht'
        rcases List.mem_cons.1 ht' with rfl | ht'
        · exact fun w hw w' hw' => h4 t ht (write :: t') (by simp) w hw w' (by simp [hw'])
        · exact h4 t ht t' (by simp [ht'])
    · exact runTasks_eq schedule tasks s h

theorem assign_commute {σ α β : Type} {v : Except Failure α} {v' : Except Failure β} {set : α → σ → σ}
    {set' : β → σ → σ} (h : ∀ x y s, set x (set' y s) = set' y (set x s)) :
    ∀ w ∈ (Task.assign v set).writes, ∀ w' ∈ (Task.assign v' set').writes, ∀ s, w (w' s) = w' (w s) := by
  intro w hw w' hw' s
  cases v <;> cases v' <;> simp [Task.assign] at hw hw'
  subst hw hw'
  exact h _ _ s

theorem thrownBy_none {choose : List Failure → Failure} {l : List Failure} : thrownBy choose l = none ↔ l = [] := by
  unfold thrownBy
  cases l with
  | nil => simp
  | cons a l => split_ifs <;> simp_all

theorem thrownBy_mem {choose : List Failure → Failure} (hc : ∀ l, l ≠ [] → choose l ∈ l) {l : List Failure}
    {f : Failure} (h : thrownBy choose l = some f) : f ∈ l := by
  unfold thrownBy at h
  split_ifs at h with h1 h2 h3
  · cases h; simpa using h1
  · cases h; simpa using h2
  · cases h
    exact hc l (by simpa using h3)

theorem invokeAndReturn_ok {σ : Type} {choose : List Failure → Failure} {schedule : List Nat} {tasks : List (Task σ)}
    {s r : σ} (h : Independent (tasks.map Task.writes)) :
    invokeAndReturn choose schedule tasks s = .ok r ↔
      (∀ t ∈ tasks, t.failure = none) ∧ (tasks.map Task.writes).flatten.foldl (fun s write => write s) s = r := by
  unfold invokeAndReturn parallelInvoke
  rw [runTasks_eq schedule _ s h]
  have hf : tasks.filterMap Task.failure = [] ↔ ∀ t ∈ tasks, t.failure = none := List.filterMap_eq_nil_iff
  cases ht : thrownBy choose (tasks.filterMap Task.failure) with
  | none =>
    rw [thrownBy_none, hf] at ht
    simp only [Except.ok.injEq]
    exact ⟨fun e => ⟨ht, e⟩, fun e => e.2⟩
  | some f =>
    have : ¬ ∀ t ∈ tasks, t.failure = none := by
      rw [← hf, ← thrownBy_none (choose := choose), ht]; simp
    simp only [reduceCtorEq, false_iff]
    exact fun e => this e.1

theorem invokeAndReturn_error {σ : Type} {choose : List Failure → Failure} (hc : ∀ l, l ≠ [] → choose l ∈ l)
    {schedule : List Nat} {tasks : List (Task σ)} {s : σ} {f : Failure}
    (h : invokeAndReturn choose schedule tasks s = .error f) : ∃ t ∈ tasks, t.failure = some f := by
  unfold invokeAndReturn parallelInvoke at h
  cases ht : thrownBy choose (tasks.filterMap Task.failure) with
  | none => rw [ht] at h; cases h
  | some g =>
    rw [ht] at h
    cases h
    exact List.mem_filterMap.1 (thrownBy_mem hc ht)

theorem assign_failure_none {σ α : Type} {v : Except Failure α} {set : α → σ → σ} :
    (Task.assign v set).failure = none ↔ ∃ x, v = .ok x := by
  cases v <;> simp [Task.assign]

theorem assign_failure_some {σ α : Type} {v : Except Failure α} {set : α → σ → σ} {f : Failure} :
    (Task.assign v set).failure = some f ↔ v = .error f := by
  cases v <;> simp [Task.assign]

/-- Independence of tasks which assign different fields. -/
macro "independent_assigns" : tactic => `(tactic| (
  simp only [Independent, List.map_cons, List.map_nil, List.pairwise_cons, List.forall_mem_cons, List.Pairwise.nil,
    List.not_mem_nil, false_implies, implies_true, and_true]
  repeat' apply And.intro
  all_goals exact assign_commute fun _ _ _ => rfl))

/-! ### emplace -/

section emplace
variable {α : Type}

theorem storeAt_get (b : List (Option α)) (i : Nat) (x : α) (j : Nat) :
    (storeAt b i x)[j]?.join = if j = i then some x else b[j]?.join := by
  unfold storeAt
  split
  · rename_i h
    rw [List.getElem?_set]
    by_cases hj : j = i
    · subst hj; simp [h]
    · rw [if_neg (Ne.symm hj), if_neg hj]
  · rename_i h
    by_cases hj : j = i
    · subst hj
      rw [if_pos rfl, List.append_assoc, List.getElem?_append_right (by omega),
        List.getElem?_append_right (by rw [List.length_replicate]; omega), List.length_replicate, Nat.sub_self]
      rfl
    · rw [if_neg hj, List.append_assoc]
      by_cases h1 : j < b.length
      · rw [List.getElem?_append_left h1]
      · have hb : b[j]? = none := List.getElem?_eq_none (by omega)
        rw [hb, List.getElem?_append_right (by omega)]
        by_cases h2 : j < i
        · rw [List.getElem?_append_left (by rw [List.length_replicate]; omega), List.getElem?_replicate]
          split <;> rfl
        · rw [List.getElem?_append_right (by rw [List.length_replicate]; omega), List.length_replicate,
            List.getElem?_eq_none (by simp only [List.length_cons, List.length_nil]; omega)]

/-- What holds in every state when a mutex is used. -/
structure EmplaceInv (total : List α) (s : EmplaceState α) : Prop where
  own : ∀ (j : Nat) (t : EmplaceThread α), s.threads[j]? = some t → t.point ≠ .outside → s.owner = some j
  held : ∀ j, s.owner = some j → ∃ t : EmplaceThread α, s.threads[j]? = some t ∧ t.todo ≠ [] ∧ t.point ≠ .outside
  read : ∀ (j : Nat) (t : EmplaceThread α) (n : Nat), s.threads[j]? = some t → t.point = .sizeRead n → n = s.size
  stored : ∀ (j : Nat) (t : EmplaceThread α) (n : Nat), s.threads[j]? = some t → t.point = .stored n →
    n = s.size ∧ ∃ x rest, t.todo = x :: rest ∧ s.buffer[n]?.join = some x
  perm : (s.contents ++ (s.threads.flatMap EmplaceThread.todo).map some).Perm (total.map some)

theorem flatMap_set_same {l : List (EmplaceThread α)} {i : Nat} {t t' : EmplaceThread α} (h : l[i]? = some t)
    (ht : t'.todo = t.todo) : (l.set i t').flatMap EmplaceThread.todo = l.flatMap EmplaceThread.todo := by
  obtain ⟨hlt, he⟩ := List.getElem?_eq_some_iff.1 h
  rw [List.set_eq_take_append_cons_drop, if_pos hlt]
  conv_rhs => rw [← List.take_append_drop i l, ← List.getElem_cons_drop hlt, he]
  simp [List.flatMap_append, ht]

theorem flatMap_set_tail {l : List (EmplaceThread α)} {i : Nat} {t t' : EmplaceThread α} {x : α} (h : l[i]? = some t)
    (ht : t.todo = x :: t'.todo) :
    (x :: (l.set i t').flatMap EmplaceThread.todo).Perm (l.flatMap EmplaceThread.todo) := by
  obtain ⟨hlt, he⟩ := List.getElem?_eq_some_iff.1 h
  rw [List.set_eq_take_append_cons_drop, if_pos hlt]
  conv_rhs => rw [← List.take_append_drop i l, ← List.getElem_cons_drop hlt, he]
  simp only [List.flatMap_append, List.flatMap_cons, ht, List.cons_append]
  exact List.perm_middle.symm

theorem step_inv {total : List α} {s : EmplaceState α} (h : EmplaceInv total s) (i : Nat) :
    EmplaceInv total (s.step true i) := by
  unfold EmplaceState.step
  split
  · exact h
  · rename_i thread hi
    have hlt := (List.getElem?_eq_some_iff.1 hi).1
    have hget : ∀ (t' : EmplaceThread α) j t, (s.threads.set i t')[j]? = some t →
        (j = i ∧ t = t') ∨ (j ≠ i ∧ s.threads[j]? = some t) := by
      intro t' j t ht
      by_cases hj : j = i
      · subst hj
        rw [List.getElem?_set_self hlt] at ht
        exact Or.inl ⟨rfl, (Option.some.inj ht).symm⟩
      · rw [List.getElem?_set_ne (Ne.symm hj)] at ht
        exact Or.inr ⟨hj, ht⟩
    -- when the thread owns the mutex, the other ones are outside
    have hothers : thread.point ≠ .outside → ∀ j t, j ≠ i → s.threads[j]? = some t → t.point = .outside := by
      intro hp j t hj ht
      by_contra hc
      have h1 := h.own j t ht hc
      rw [h.own i thread hi hp] at h1
      exact hj (Option.some.inj h1).symm
    split
    · exact h
    · rename_i x rest htodo hpoint
      rw [if_pos rfl]
      split
      · rename_i hown
        refine ⟨?_, ?_, ?_, ?_, ?_⟩
        · intro j t ht hp
          rcases hget _ j t ht with ⟨rfl, _⟩ | ⟨hj, ht⟩
          · rfl
          · have := h.own j t ht hp
            rw [hown] at this; cases this
        · intro j hj
          cases hj
          exact ⟨_, List.getElem?_set_self hlt, by simp [htodo], by simp⟩
        · intro j t n ht hp
          rcases hget _ j t ht with ⟨rfl, rfl⟩ | ⟨_, ht⟩
          · cases hp
          · exact h.read j t n ht hp
        · intro j t n ht hp
          rcases hget _ j t ht with ⟨rfl, rfl⟩ | ⟨_, ht⟩
          · cases hp
          · exact h.stored j t n ht hp
        · show List.Perm (_ ++ List.map some (List.flatMap EmplaceThread.todo (s.threads.set i { thread with point := .entered }))) _
          rw [flatMap_set_same (t' := { thread with point := .entered }) hi rfl]; exact h.perm
      · exact h
    · rename_i x rest htodo hpoint
      have hp : thread.point ≠ .outside := by rw [hpoint]; simp
      have hown := h.own i thread hi hp
      refine ⟨?_, ?_, ?_, ?_, ?_⟩
      · intro j t ht hp'
        rcases hget _ j t ht with ⟨rfl, _⟩ | ⟨hj, ht⟩
        · exact hown
        · exact h.own j t ht hp'
      · intro j hj
        have hji : j = i := (Option.some.inj (hown.symm.trans hj)).symm
        subst hji
        exact ⟨_, List.getElem?_set_self hlt, by simp [htodo], by simp⟩
      · intro j t n ht hp'
        rcases hget _ j t ht with ⟨rfl, rfl⟩ | ⟨_, ht⟩
        · injection hp' with hp'; exact hp'.symm
        · exact h.read j t n ht hp'
      · intro j t n ht hp'
        rcases hget _ j t ht with ⟨rfl, rfl⟩ | ⟨_, ht⟩
        · cases hp'
        · exact h.stored j t n ht hp'
      · show List.Perm (_ ++ List.map some (List.flatMap EmplaceThread.todo (s.threads.set i { thread with point := .sizeRead s.size }))) _
        rw [flatMap_set_same (t' := { thread with point := .sizeRead s.size }) hi rfl]; exact h.perm
    · rename_i x rest n htodo hpoint
      have hp : thread.point ≠ .outside := by rw [hpoint]; simp
      have hown := h.own i thread hi hp
      have hn := h.read i thread n hi hpoint
      refine ⟨?_, ?_, ?_, ?_, ?_⟩
      · intro j t ht hp'
        rcases hget _ j t ht with ⟨rfl, _⟩ | ⟨hj, ht⟩
        · exact hown
        · exact h.own j t ht hp'
      · intro j hj
        have hji : j = i := (Option.some.inj (hown.symm.trans hj)).symm
        subst hji
        exact ⟨_, List.getElem?_set_self hlt, by simp [htodo], by simp⟩
      · intro j t k ht hp'
        rcases hget _ j t ht with ⟨rfl, rfl⟩ | ⟨hj, ht⟩
        · cases hp'
        · rw [hothers hp j t hj ht] at hp'; cases hp'
      · intro j t k ht hp'
        rcases hget _ j t ht with ⟨rfl, rfl⟩ | ⟨hj, ht⟩
        · injection hp' with hp'
          subst hp'
          exact ⟨hn, x, rest, htodo, by rw [storeAt_get, if_pos rfl]⟩
        · rw [hothers hp j t hj ht] at hp'; cases hp'
      · show List.Perm (_ ++ List.map some (List.flatMap EmplaceThread.todo (s.threads.set i { thread with point := .stored n }))) _
        rw [flatMap_set_same (t' := { thread with point := .stored n }) hi rfl]
        have : EmplaceState.contents
            { s with
              buffer := storeAt s.buffer n x
              threads := s.threads.set i { thread with point := .stored n } } = s.contents := by
          unfold EmplaceState.contents
          apply List.map_congr_left
          intro j hj
          rw [storeAt_get, if_neg]
          have hj : j < s.size := List.mem_range.1 hj
          omega
        rw [this]; exact h.perm
    · rename_i x rest n htodo hpoint
      have hp : thread.point ≠ .outside := by rw [hpoint]; simp
      obtain ⟨hn, y, rest', hy, hbuf⟩ := h.stored i thread n hi hpoint
      rw [htodo] at hy
      obtain ⟨rfl, rfl⟩ := List.cons.inj hy
      refine ⟨?_, ?_, ?_, ?_, ?_⟩
      · intro j t ht hp'
        rcases hget _ j t ht with ⟨rfl, rfl⟩ | ⟨hj, ht⟩
        · exact absurd rfl hp'
        · exact absurd (hothers hp j t hj ht) hp'
      · intro j hj; cases hj
      · intro j t k ht hp'
        rcases hget _ j t ht with ⟨rfl, rfl⟩ | ⟨hj, ht⟩
        · cases hp'
        · rw [hothers hp j t hj ht] at hp'; cases hp'
      · intro j t k ht hp'
        rcases hget _ j t ht with ⟨rfl, rfl⟩ | ⟨hj, ht⟩
        · cases hp'
        · rw [hothers hp j t hj ht] at hp'; cases hp'
      · have hc : EmplaceState.contents
            { s with
              size := n + 1
              owner := if true then none else s.owner
              threads := s.threads.set i { todo := rest, point := .outside } } = s.contents ++ [some x] := by
          unfold EmplaceState.contents
          simp only [List.range_succ, List.map_append, List.map_cons, List.map_nil, hn]
          rw [← hn, hbuf]
        rw [hc]
        refine List.Perm.trans ?_ h.perm
        rw [List.append_assoc]
        refine List.Perm.append_left _ ?_
        have := (flatMap_set_tail (t' := { todo := rest, point := .outside }) hi htodo).map some
        simpa using this

theorem runEmplace_inv (threads : List (List α)) (schedule : List Nat) :
    EmplaceInv threads.flatten (runEmplace true threads schedule) := by
  have h0 : EmplaceInv threads.flatten
      ({ threads := threads.map fun todo => { todo := todo } } : EmplaceState α) := by
    have hp : ∀ (j : Nat) (t : EmplaceThread α), (threads.map fun todo => ({ todo := todo } : EmplaceThread α))[j]? =
        some t → t.point = .outside := by
      intro j t ht
      rw [List.getElem?_map] at ht
      cases hj : threads[j]? with
      | none => rw [hj] at ht; cases ht
      | some a => rw [hj] at ht; cases ht; rfl
    refine ⟨fun j t ht h => absurd (hp j t ht) h, (fun j hj => by cases hj), ?_, ?_, ?_⟩
    · intro j t n ht h; rw [hp j t ht] at h; cases h
    · intro j t n ht h; rw [hp j t ht] at h; cases h
    · have : ((threads.map fun todo => ({ todo := todo } : EmplaceThread α)).flatMap EmplaceThread.todo) =
          threads.flatten := by
        rw [List.flatMap_map]
        simp [List.flatMap]
      rw [this]
      rfl
  have : ∀ (schedule : List Nat) (s : EmplaceState α), EmplaceInv threads.flatten s →
      EmplaceInv threads.flatten (schedule.foldl (EmplaceState.step true) s) := by
    intro schedule
    induction schedule with
    | nil => intro s h; exact h
    | cons i l ih => intro s h; exact ih _ (step_inv h i)
  exact this schedule _ h0

/-- Steps remaining in a thread. -/
def threadMeasure (t : EmplaceThread α) : Nat :=
  4 * t.todo.length - (match t.point with
    | .outside => 0
    | .entered => 1
    | .sizeRead _ => 2
    | .stored _ => 3)

theorem measure_set {l : List (EmplaceThread α)} {i : Nat} {t t' : EmplaceThread α} (h : l[i]? = some t)
    (ht : threadMeasure t' < threadMeasure t) :
    ((l.set i t').map threadMeasure).sum < (l.map threadMeasure).sum := by
  obtain ⟨hlt, he⟩ := List.getElem?_eq_some_iff.1 h
  rw [List.set_eq_take_append_cons_drop, if_pos hlt]
  conv_rhs => rw [← List.take_append_drop i l, ← List.getElem_cons_drop hlt, he]
  simp only [List.map_append, List.map_cons, List.sum_append, List.sum_cons]
  omega

theorem step_progress {total : List α} {s : EmplaceState α} (h : EmplaceInv total s) (hf : ¬ s.finished) :
    ∃ i, ((s.step true i).threads.map threadMeasure).sum < (s.threads.map threadMeasure).sum := by
  cases hown : s.owner with
  | some i =>
    obtain ⟨t, ht, htodo, hp⟩ := h.held i hown
    refine ⟨i, ?_⟩
    unfold EmplaceState.step
    rw [ht]
    obtain ⟨x, rest, hx⟩ := List.exists_cons_of_ne_nil htodo
    rcases t with ⟨todo, point⟩
    simp only at hx hp
    subst hx
    cases point with
    | outside => exact absurd rfl hp
    | entered => exact measure_set ht (by simp only [threadMeasure, List.length_cons]; omega)
    | sizeRead n => exact measure_set ht (by simp only [threadMeasure, List.length_cons]; omega)
    | stored n => exact measure_set ht (by simp only [threadMeasure, List.length_cons]; omega)
  | none =>
    unfold EmplaceState.finished at hf
    push Not at hf
    obtain ⟨t, hmem, htodo⟩ := hf
    obtain ⟨i, ht⟩ := List.getElem?_of_mem hmem
    have hp : t.point = .outside := by
      by_contra hc
      have := h.own i t ht hc
      rw [hown] at this; cases this
    refine ⟨i, ?_⟩
    unfold EmplaceState.step
    rw [ht]
    obtain ⟨x, rest, hx⟩ := List.exists_cons_of_ne_nil htodo
    rcases t with ⟨todo, point⟩
    simp only at hx hp
    subst hx hp
    simp only [hown, if_true]
    exact measure_set ht (by simp only [threadMeasure, List.length_cons]; omega)

/-- With the mutex, every execution can be completed. -/
theorem emplace_completes {total : List α} : ∀ (n : Nat) (s : EmplaceState α), EmplaceInv total s →
    (s.threads.map threadMeasure).sum ≤ n → ∃ schedule : List Nat, (schedule.foldl (EmplaceState.step true) s).finished := by
  intro n
  induction n with
  | zero =>
    intro s h hn
    by_cases hf : s.finished
    · exact ⟨[], hf⟩
    · obtain ⟨i, hi⟩ := step_progress h hf
      omega
  | succ n ih =>
    intro s h hn
    by_cases hf : s.finished
    · exact ⟨[], hf⟩
    · obtain ⟨i, hi⟩ := step_progress h hf
      obtain ⟨l, hl⟩ := ih (s.step true i) (step_inv h i) (by omega)
      exact ⟨i :: l, hl⟩

end emplace

end Inspector
