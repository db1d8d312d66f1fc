import Mathlib.Data.List.Induction
import Verif.Spec.PythonObjects
/-
Lifetimes of the inspected objects in a Python program: lemmas for C108.
-/
namespace Inspector.PythonObjects
open Inspector.Spec

theorem lookup_mem {l : List (Nat × Nat)} {x o : Nat} (h : l.lookup x = some o) : (x, o) ∈ l := by
  induction l with
  | nil => cases h
  | cons e l ih =>
    rw [List.lookup] at h
    split at h
    · rename_i hb
      injection h with h
      rw [eq_of_beq hb, ← h]
      exact List.mem_cons_self
    · exact List.mem_cons_of_mem _ (ih h)

theorem alive_false {s : PyState} {o : Nat} : s.alive false o = true ↔ Named s o := by
  unfold PyState.alive Named
  rw [List.any_eq_true]
  constructor
  · rintro ⟨e, he, h⟩
    rw [Bool.false_and, Bool.or_false, beq_iff_eq] at h
    exact ⟨e.1, by rw [← h]; exact he⟩
  · rintro ⟨x, hx⟩
    exact ⟨_, hx, by simp⟩

theorem alive_of_named {k : Bool} {s : PyState} {o : Nat} (h : Named s o) : s.alive k o = true := by
  obtain ⟨x, hx⟩ := h
  unfold PyState.alive
  rw [List.any_eq_true]
  exact ⟨_, hx, by simp⟩

/-- What a statement can do to the flag. -/
theorem step_undefined (k : Bool) (s : PyState) (a : PyStatement) :
    (s.step k a).undefined = true ↔ s.undefined = true ∨
      ∃ x o, a = .inspect x ∧ NamesInspectorOf s x o ∧ s.alive k o = false := by
  cases a with
  | newMesh x => exact ⟨Or.inl, fun h => h.elim id fun ⟨_, _, h, _⟩ => (by cases h)⟩
  | del x => exact ⟨Or.inl, fun h => h.elim id fun ⟨_, _, h, _⟩ => (by cases h)⟩
  | newInspector x y =>
    have : (s.step k (.newInspector x y)).undefined = s.undefined := by
      unfold PyState.step
      simp only []
      split
      · rfl
      · split <;> rfl
    rw [this]
    exact ⟨Or.inl, fun h => h.elim id fun ⟨_, _, h, _⟩ => (by cases h)⟩
  | assign x y =>
    have : (s.step k (.assign x y)).undefined = s.undefined := by
      unfold PyState.step
      simp only []
      split <;> rfl
    rw [this]
    exact ⟨Or.inl, fun h => h.elim id fun ⟨_, _, h, _⟩ => (by cases h)⟩
  | inspect x =>
    unfold PyState.step
    simp only []
    split
    · rename_i h
      refine ⟨Or.inl, fun h' => h'.elim id ?_⟩
      rintro ⟨_, _, hx, ⟨i, hi, _⟩, _⟩
      injection hx with hx
      subst hx
      rw [h] at hi
      cases hi
    · rename_i o h
      split
      · rename_i mesh hm
        simp only []
        rw [Bool.or_eq_true, Bool.not_eq_true']
        refine or_congr_right ⟨fun ha => ⟨x, mesh, rfl, ⟨o, h, hm⟩, ha⟩, ?_⟩
        rintro ⟨_, _, hx, ⟨i, hi, hq⟩, ha⟩
        injection hx with hx
        subst hx
        rw [h] at hi
        injection hi with hi
        subst hi
        rw [hm] at hq
        injection hq with hq
        injection hq with hq
        rw [hq]
        exact ha
      · rename_i hne
        refine ⟨Or.inl, fun h' => h'.elim id ?_⟩
        rintro ⟨_, _, hx, ⟨i, hi, hq⟩, _⟩
        injection hx with hx
        subst hx
        rw [h] at hi
        injection hi with hi
        subst hi
        exact absurd hq (hne _)
  | inspectOnce y =>
    have : (s.step k (.inspectOnce y)).undefined = s.undefined := by
      unfold PyState.step
      simp only []
      split
      · rfl
      · rename_i o h
        split
        · simp only []
          rw [alive_of_named ⟨y, lookup_mem h⟩]
          simp
        · rfl
    rw [this]
    exact ⟨Or.inl, fun h => h.elim id fun ⟨_, _, h, _⟩ => (by cases h)⟩

theorem run_snoc (k : Bool) (program : List PyStatement) (a : PyStatement) :
    runPython k (program ++ [a]) = (runPython k program).step k a := by
  unfold runPython
  rw [List.foldl_append]
  rfl

/-- A program reads a destroyed object exactly when one of its statements does. -/
theorem run_undefined (k : Bool) (program : List PyStatement) :
    (runPython k program).undefined = true ↔ ∃ before x after o, program = before ++ .inspect x :: after ∧
      NamesInspectorOf (runPython k before) x o ∧ (runPython k before).alive k o = false := by
  induction program using List.reverseRecOn with
  | nil =>
    refine ⟨fun h => (by cases h), ?_⟩
    rintro ⟨before, x, after, _, h, _⟩
    cases before <;> cases h
  | append_singleton program a ih =>
    rw [run_snoc, step_undefined, ih]
    constructor
    · rintro (⟨before, x, after, o, h, hn⟩ | ⟨x, o, h, hn⟩)
      · exact ⟨before, x, after ++ [a], o, by rw [h]; simp, hn⟩
      · exact ⟨program, x, [], o, by rw [h], hn⟩
    · rintro ⟨before, x, after, o, h, hn⟩
      induction after using List.reverseRecOn with
      | nil =>
        obtain ⟨h1, h2⟩ := List.append_inj' h rfl
        injection h2 with h2
        subst h1
        exact Or.inr ⟨x, o, h2, hn⟩
      | append_singleton after b _ =>
        have h' : program ++ [a] = (before ++ .inspect x :: after) ++ [b] := by rw [h]; simp
        obtain ⟨h1, _⟩ := List.append_inj' h' rfl
        exact Or.inl ⟨before, x, after, o, h1, hn⟩

theorem mem_bind {s : PyState} {x o : Nat} {e : Nat × Nat} : e ∈ s.bind x o ↔ e = (x, o) ∨ e ∈ s.names ∧ e.1 ≠ x := by
  unfold PyState.bind
  rw [List.mem_cons, List.mem_filter, bne_iff_ne]

/-- Variables not written keep their object. -/
theorem step_keeps (k : Bool) {s : PyState} {a : PyStatement} {e : Nat × Nat} (he : e ∈ s.names)
    (hd : ∀ x, a ≠ .del x) (hw : ¬ Writes a e.1) : e ∈ (s.step k a).names := by
  cases a with
  | newMesh x => exact mem_bind.2 (Or.inr ⟨he, fun h => hw h.symm⟩)
  | newInspector x y =>
    unfold PyState.step
    simp only []
    split
    · exact he
    · split
      · exact mem_bind.2 (Or.inr ⟨he, fun h => hw h.symm⟩)
      · exact he
  | assign x y =>
    unfold PyState.step
    simp only []
    split
    · exact he
    · exact mem_bind.2 (Or.inr ⟨he, fun h => hw h.symm⟩)
  | del x => exact absurd rfl (hd x)
  | inspect x =>
    unfold PyState.step
    simp only []
    split
    · exact he
    · split <;> exact he
  | inspectOnce x =>
    unfold PyState.step
    simp only []
    split
    · exact he
    · split <;> exact he

/-- Variables with a value have been written. -/
theorem written (k : Bool) : ∀ {program : List PyStatement} {e : Nat × Nat}, e ∈ (runPython k program).names →
    ∃ a ∈ program, Writes a e.1 := by
  intro program
  induction program using List.reverseRecOn with
  | nil => intro e he; cases he
  | append_singleton program a ih =>
    intro e he
    rw [run_snoc] at he
    have key : e ∈ (runPython k program).names ∨ Writes a e.1 := by
      cases a with
      | newMesh x =>
        rcases mem_bind.1 he with rfl | h
        · exact Or.inr rfl
        · exact Or.inl h.1
      | newInspector x y =>
        unfold PyState.step at he
        simp only [] at he
        split at he
        · exact Or.inl he
        · split at he
          · rcases mem_bind.1 he with rfl | h
            · exact Or.inr rfl
            · exact Or.inl h.1
          · exact Or.inl he
      | assign x y =>
        unfold PyState.step at he
        simp only [] at he
        split at he
        · exact Or.inl he
        · rcases mem_bind.1 he with rfl | h
          · exact Or.inr rfl
          · exact Or.inl h.1
      | del x => exact Or.inl (List.mem_filter.1 he).1
      | inspect x =>
        unfold PyState.step at he
        simp only [] at he
        split at he
        · exact Or.inl he
        · split at he <;> exact Or.inl he
      | inspectOnce x =>
        unfold PyState.step at he
        simp only [] at he
        split at he
        · exact Or.inl he
        · split at he <;> exact Or.inl he
    rcases key with h | h
    · obtain ⟨b, hb, hw⟩ := ih h
      exact ⟨b, List.mem_append_left _ hb, hw⟩
    · exact ⟨a, by simp, h⟩

/-- The objects of a state, after a statement: those there were, and perhaps a new one. -/
theorem step_objects (k : Bool) (s : PyState) (a : PyStatement) :
    (s.step k a).objects = s.objects ∨ (s.step k a).objects = s.objects ++ [.mesh] ∨
      ∃ x y o, a = .newInspector x y ∧ (y, o) ∈ s.names ∧ s.objects[o]? = some .mesh ∧
        (s.step k a).objects = s.objects ++ [.inspector o] := by
  cases a with
  | newMesh x => exact Or.inr (Or.inl rfl)
  | newInspector x y =>
    unfold PyState.step
    simp only []
    split
    · exact Or.inl rfl
    · rename_i o h
      split
      · rename_i hm
        exact Or.inr (Or.inr ⟨x, y, o, rfl, lookup_mem h, hm, rfl⟩)
      · exact Or.inl rfl
  | assign x y =>
    unfold PyState.step
    simp only []
    split <;> exact Or.inl rfl
  | del x => exact Or.inl rfl
  | inspect x =>
    unfold PyState.step
    simp only []
    split
    · exact Or.inl rfl
    · split <;> exact Or.inl rfl
  | inspectOnce x =>
    unfold PyState.step
    simp only []
    split
    · exact Or.inl rfl
    · split <;> exact Or.inl rfl

theorem writesOnce_snoc {program : List PyStatement} {a : PyStatement} (h : WritesOnce (program ++ [a])) :
    WritesOnce program ∧ (∀ x, a ≠ .del x) ∧ ∀ b ∈ program, ∀ x, Writes b x → ¬ Writes a x := by
  obtain ⟨hd, hp⟩ := h
  rw [List.pairwise_append] at hp
  exact ⟨⟨fun x hx => hd x (List.mem_append_left _ hx), hp.1⟩, fun x hx => hd x (by rw [hx]; simp),
    fun b hb x hw => hp.2.2 b hb a (by simp) x hw⟩

/-- In a program that writes each variable once, the object of every inspector has a name. -/
theorem inspected_named (k : Bool) {program : List PyStatement} (h : WritesOnce program) :
    ∀ i o : Nat, (runPython k program).objects[i]? = some (PyObject.inspector o) → Named (runPython k program) o := by
  induction program using List.reverseRecOn with
  | nil => intro i o hi; simp [runPython] at hi
  | append_singleton program a ih =>
    obtain ⟨h1, h2, h3⟩ := writesOnce_snoc h
    intro i o hi
    rw [run_snoc] at hi ⊢
    have keep : ∀ e ∈ (runPython k program).names, e ∈ ((runPython k program).step k a).names := by
      intro e he
      obtain ⟨b, hb, hw⟩ := written k he
      exact step_keeps k he h2 (h3 b hb _ hw)
    have old : (runPython k program).objects[i]? = some (.inspector o) → Named ((runPython k program).step k a) o := by
      intro hq
      obtain ⟨x, hx⟩ := ih h1 i o hq
      exact ⟨x, keep _ hx⟩
    rcases step_objects k (runPython k program) a with he | he | ⟨x, y, p, ha, hy, _, he⟩
    · rw [he] at hi
      exact old hi
    · rw [he, List.getElem?_append] at hi
      split at hi
      · exact old hi
      · rw [List.getElem?_singleton] at hi
        split at hi <;> cases hi
    · rw [he, List.getElem?_append] at hi
      split at hi
      · exact old hi
      · rw [List.getElem?_singleton] at hi
        split at hi
        · injection hi with hi
          injection hi with hi
          rw [← hi]
          exact ⟨y, keep _ hy⟩
        · cases hi

end Inspector.PythonObjects
