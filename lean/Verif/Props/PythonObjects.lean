import Verif.Proofs.PythonObjects
/-
Property C108: the inspectors of a Python program read only living objects.
-/
namespace Inspector
open Spec

/-- **C108** is false: an inspector outlives the mesh it inspects, e.g. when a function builds a mesh and returns an inspector
of it. -/
theorem C108_false : ∃ program : List PyStatement, (runPython bindingsKeepAlive program).undefined = true :=
  ⟨[.newMesh 0, .newInspector 1 0, .del 0, .inspect 1], by decide⟩

/-- **C108**, exactly: a program reads a destroyed object when, and only when, it uses an inspector whose object has no name
any more.  In particular the functions that inspect an object given as argument are always safe. -/
theorem C108_exact_partial (program : List PyStatement) :
    (runPython bindingsKeepAlive program).undefined = true ↔
      ∃ before x after o, program = before ++ .inspect x :: after ∧
        NamesInspectorOf (runPython bindingsKeepAlive before) x o ∧ ¬ Named (runPython bindingsKeepAlive before) o := by
  rw [PythonObjects.run_undefined]
  refine exists_congr fun before => exists_congr fun x => exists_congr fun after => exists_congr fun o =>
    and_congr_right fun _ => and_congr_right fun _ => ?_
  rw [← Bool.not_eq_true]
  exact not_congr PythonObjects.alive_false

/-- **C108**, the functions that inspect an object given as argument: safe in every program. -/
theorem C108_functions_partial (program : List PyStatement) (h : ∀ x, PyStatement.inspect x ∉ program) :
    (runPython bindingsKeepAlive program).undefined = false := by
  rw [← Bool.not_eq_true, C108_exact_partial]
  rintro ⟨before, x, after, _, rfl, _⟩
  exact h x (by simp)

/-- a program that inspects a mesh by the function, after having named it otherwise -/
example : (runPython bindingsKeepAlive [.newMesh 0, .assign 1 0, .del 0, .inspectOnce 1]).inspected = some 0 ∧
    (runPython bindingsKeepAlive [.newMesh 0, .assign 1 0, .del 0, .inspectOnce 1]).undefined = false := by decide

/-- **C108**, programs that delete no variable and give each variable one value: always safe. -/
theorem C108_single_assignment_partial (program : List PyStatement) (h : WritesOnce program) :
    (runPython bindingsKeepAlive program).undefined = false := by
  rw [← Bool.not_eq_true, C108_exact_partial]
  rintro ⟨before, x, after, o, rfl, ⟨i, _, hi⟩, hn⟩
  have hb : WritesOnce before := ⟨fun y hy => h.1 y (List.mem_append_left _ hy), (List.pairwise_append.1 h.2).1⟩
  exact hn (PythonObjects.inspected_named _ hb i o hi)

/-- two meshes, two inspectors, both used -/
example : WritesOnce [.newMesh 0, .newInspector 1 0, .newMesh 2, .newInspector 3 2, .inspect 1, .inspect 3] ∧
    (runPython bindingsKeepAlive
      [.newMesh 0, .newInspector 1 0, .newMesh 2, .newInspector 3 2, .inspect 1, .inspect 3]).inspected = some 2 := by
  refine ⟨⟨fun x hx => ?_, ?_⟩, by decide⟩
  · simp at hx
  · simp [Writes]

/-- **C108**, the missing `keep_alive`: with `keep_alive< 1, 2 >` on the constructors, every program would be safe. -/
theorem C108_keep_alive_partial (program : List PyStatement) : (runPython true program).undefined = false := by
  rw [← Bool.not_eq_true, PythonObjects.run_undefined]
  rintro ⟨before, x, after, o, _, ⟨i, hx, hi⟩, ha⟩
  rw [← Bool.not_eq_true] at ha
  refine ha ?_
  unfold PyState.alive
  rw [List.any_eq_true]
  exact ⟨_, PythonObjects.lookup_mem hx, by simp [hi]⟩

/-- with `keep_alive`, the program of `C108_false` inspects its mesh -/
example : (runPython true [.newMesh 0, .newInspector 1 0, .del 0, .inspect 1]).inspected = some 0 := by decide

end Inspector
