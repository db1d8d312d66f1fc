import Verif.Proofs.Plain
import Verif.Props.WholeModel
/-
C99: the verdict on a model, in terms of the model alone.
C100: the verdict does not depend on the execution.
-/
namespace Inspector
open Spec

/-- **C99** (Sections): a Section is declared valid when, and only when, its components, meshes, unique vertices and
relationships have no defect. -/
theorem C99_section {P : Type} (lib : ModelLibrary P) (rt : ModelRuntime) (hrt : ModelRuntimeOk rt) (m : ModelData P)
    (c : Candidates P) (h : SectionOk lib rt m c) :
    ∃ v, isSectionOfValid lib rt m = .ok v ∧ (v.isValid = true ↔ ¬ PlainSectionDefect lib m) := by
  obtain ⟨v, h1, h2⟩ := C82_section lib rt hrt m c h
  exact ⟨v, h1, by rw [h2, Plain.sectionDefect_iff h.meshes h.types]⟩

/-- the triangle has no defect; with a negative area, it has one -/
example : ¬ PlainSectionDefect modelLibrary (exampleModel triangleSection (10 * ·) .positive) ∧
    ∃ v, isSectionOfValid modelLibrary modelRuntime (exampleModel triangleSection (10 * ·) .negative) = .ok v ∧
      v.isValid = false := by
  constructor
  · obtain ⟨v, h1, h2⟩ := C99_section modelLibrary modelRuntime modelRuntime_ok _ _ (triangleSection_ok .positive)
    have he : isSectionOfValid modelLibrary modelRuntime (exampleModel triangleSection (10 * ·) .positive) = .ok {} :=
      by rfl
    rw [he] at h1
    injection h1 with h1
    exact h2.1 (by rw [← h1]; rfl)
  · obtain ⟨v, h1, h2⟩ := C99_section modelLibrary modelRuntime modelRuntime_ok _ _ (triangleSection_ok .negative)
    refine ⟨v, h1, ?_⟩
    rw [← Bool.not_eq_true, h2, not_not]
    exact Or.inr (Or.inr (Or.inr (Or.inl ⟨_, List.mem_cons_self, rfl, Or.inr ⟨0, by decide, rfl⟩⟩)))

set_option maxRecDepth 20000 in
/-- **C99 is false** for BReps: a Line embedded in a Block is at a vertex where the Block is not, and the BRep is
declared valid. -/
theorem C99_brep_false : ∃ (lib : ModelLibrary Nat) (rt : ModelRuntime) (m : ModelData Nat) (c : Candidates Nat),
    ModelRuntimeOk rt ∧ BRepOk lib rt m c ∧ PlainBRepDefect lib m ∧
    ∀ fuel ≥ 20, ∃ v, isBRepOfValid lib rt fuel m = .ok v ∧ v.isValid = true := by
  refine ⟨modelLibrary, modelRuntime, exampleModel lineInTetrahedron (10 * ·) .positive, _, modelRuntime_ok,
    lineInTetrahedron_ok .positive, ?_, ?_⟩
  · refine Or.inr (Or.inr ⟨_, Plain.given_topology (lineInTetrahedron_ok .positive).meshes modelRuntime, ?_⟩)
    refine Or.inr (Or.inr (Or.inr (Or.inl ⟨4, by decide, ?_⟩)))
    refine Or.inr (Or.inr (Or.inr (Or.inr (Or.inl ⟨17, ⟨⟨⟨⟨.line, 17⟩, 0⟩, ?_, ?_⟩, ⟨17, true, 2, 1⟩, ?_, rfl, rfl⟩,
      ⟨.block, 31⟩, ?_, .inr ⟨?_, ?_⟩⟩))))
    · decide
    · rfl
    · decide
    · decide
    · intro _ c hc
      have : c = ⟨31, true, 4, 1⟩ := List.mem_singleton.1 hc
      subst this
      simp
    · rintro ⟨cmv, hc, hid⟩
      have : cmv = ⟨⟨.line, 17⟩, 0⟩ := List.mem_singleton.1 hc
      subst this
      cases hid
  · intro fuel hf
    obtain ⟨k, rfl⟩ := Nat.exists_eq_add_of_le' hf
    exact ⟨_, rfl, rfl⟩

/-- **C99** (BReps): a BRep is declared valid when, and only when, it has no defect, unless the first wrong embedding of
the Lines at a unique vertex is in a Block: then the defects of the topology of the Lines are not seen.  Missing: these
defects in that case (see `C99_brep_false`). -/
theorem C99_brep_partial {P : Type} (lib : ModelLibrary P) (rt : ModelRuntime) (hrt : ModelRuntimeOk rt)
    (m : ModelData P) (c : Candidates P) (h : BRepOk lib rt m c) :
    ∃ v N, (∀ fuel ≥ N, isBRepOfValid lib rt fuel m = .ok v) ∧
      (¬ PlainUnreadable m → (v.isValid = true ↔ ¬ PlainBRepDefect lib m)) ∧
      (PlainUnreadable m → PlainBRepDefect lib m ∧ (v.isValid = true ↔ ¬ PlainBRepDefectBesideLines lib m)) ∧
      (v.isValid = false → PlainBRepDefect lib m) := by
  obtain ⟨v, N, h1, h2, h3, h4⟩ := C82_brep_partial lib rt hrt m c h
  rw [Plain.unreadable_iff h.meshes, Plain.brepDefect_iff h.meshes h.types] at h2 h3
  rw [Plain.brepDefectBesideLines_iff h.meshes h.types] at h3
  rw [Plain.brepDefect_iff h.meshes h.types] at h4
  exact ⟨v, N, h1, h2, h3, h4⟩

set_option maxRecDepth 20000 in
/-- the tetrahedron has no defect; with a negative volume, it has one -/
example : ¬ PlainBRepDefect modelLibrary (exampleModel tetrahedronBRep (10 * ·) .positive) ∧
    ∃ v N, (∀ fuel ≥ N, isBRepOfValid modelLibrary modelRuntime fuel
      (exampleModel tetrahedronBRep (10 * ·) .negative) = .ok v) ∧ v.isValid = false := by
  have hr : ∀ sign, ¬ PlainUnreadable (exampleModel tetrahedronBRep (10 * ·) sign) := fun sign => by
    rw [← Plain.unreadable_iff (tetrahedronBRep_ok sign).meshes modelRuntime]
    exact tetrahedronBRep_readable sign
  constructor
  · obtain ⟨v, N, h1, h2⟩ := C99_brep_partial modelLibrary modelRuntime modelRuntime_ok _ _
      (tetrahedronBRep_ok .positive)
    have he : isBRepOfValid modelLibrary modelRuntime (N + 20) (exampleModel tetrahedronBRep (10 * ·) .positive) =
      .ok {} := by rfl
    have h1 := h1 (N + 20) (by omega)
    rw [he] at h1
    injection h1 with h1
    exact (h2.1 (hr .positive)).1 (by rw [← h1]; rfl)
  · obtain ⟨v, N, h1, h2⟩ := C99_brep_partial modelLibrary modelRuntime modelRuntime_ok _ _
      (tetrahedronBRep_ok .negative)
    refine ⟨v, N, h1, ?_⟩
    rw [← Bool.not_eq_true, h2.1 (hr .negative), not_not]
    refine Or.inl (Or.inr (Or.inr (Or.inr (Or.inr (Or.inl ⟨_, List.mem_cons_self, rfl, Or.inr (Or.inr (Or.inr (Or.inr
      (Or.inr (Or.inr (Or.inr (Or.inr ⟨0, by decide, ?_⟩)))))))⟩)))))
    rw [if_pos (by rfl)]
    rfl

/-! ### C100: the verdict does not depend on the execution -/

/-- **C100** (Sections): whatever the schedules of the tasks and the iteration orders, the verdict is the same. -/
theorem C100_section {P : Type} (lib : ModelLibrary P) (rt rt' : ModelRuntime) (hrt : ModelRuntimeOk rt)
    (hrt' : ModelRuntimeOk rt') (m : ModelData P) (c : Candidates P) (h : SectionOk lib rt m c) :
    ∃ v v', isSectionOfValid lib rt m = .ok v ∧ isSectionOfValid lib rt' m = .ok v' ∧ v.isValid = v'.isValid := by
  obtain ⟨v, h1, h2⟩ := C99_section lib rt hrt m c h
  obtain ⟨v', h1', h2'⟩ := C99_section lib rt' hrt' m c (Plain.sectionOk_any rt' h)
  exact ⟨v, v', h1, h1', Bool.eq_iff_iff.2 (h2.trans h2'.symm)⟩

/-- **C100** (BReps): the same. -/
theorem C100_brep {P : Type} (lib : ModelLibrary P) (rt rt' : ModelRuntime) (hrt : ModelRuntimeOk rt)
    (hrt' : ModelRuntimeOk rt') (ho : ∀ map, (rt'.aroundOrder map).Perm map) (m : ModelData P) (c : Candidates P)
    (h : BRepOk lib rt m c) :
    ∃ v v' N, (∀ fuel ≥ N, isBRepOfValid lib rt fuel m = .ok v ∧ isBRepOfValid lib rt' fuel m = .ok v') ∧
      v.isValid = v'.isValid := by
  obtain ⟨v, N, h1, h2, h3, _⟩ := C99_brep_partial lib rt hrt m c h
  obtain ⟨v', N', h1', h2', h3', _⟩ := C99_brep_partial lib rt' hrt' m c (Plain.brepOk_any rt' ho h)
  refine ⟨v, v', max N N', fun fuel hf => ⟨h1 fuel (le_trans (le_max_left _ _) hf),
    h1' fuel (le_trans (le_max_right _ _) hf)⟩, Bool.eq_iff_iff.2 ?_⟩
  by_cases hu : PlainUnreadable m
  · exact (h3 hu).2.trans (h3' hu).2.symm
  · exact (h2 hu).trans (h2' hu).symm

/-- another execution: other schedules, other orders -/
def otherRuntime : ModelRuntime where
  choose l := (l.getLast?).getD .openGeodeException
  schedule := [0, 3, 1]
  meshesSchedule := [0, 2]
  topologySchedule := []
  orders := ⟨fun _ => id, fun _ => List.reverse, id⟩
  aroundOrder := id

theorem otherRuntime_ok : ModelRuntimeOk otherRuntime where
  choose l hl := by
    show (l.getLast?).getD _ ∈ l
    rw [List.getLast?_eq_some_getLast hl]
    exact List.getLast_mem hl
  surfaceEdges _ _ := List.Perm.refl _
  facets _ _ := List.reverse_perm _
  modelEdges _ := List.Perm.refl _

/-- the hypotheses are met by the triangle and by the tetrahedron of the negative sign: neither is valid in either
execution -/
example : (∃ v v', isSectionOfValid modelLibrary modelRuntime (exampleModel triangleSection (10 * ·) .negative) = .ok v ∧
      isSectionOfValid modelLibrary otherRuntime (exampleModel triangleSection (10 * ·) .negative) = .ok v' ∧
      v.isValid = v'.isValid) ∧
    ∃ v v' N, (∀ fuel ≥ N, isBRepOfValid modelLibrary modelRuntime fuel
        (exampleModel tetrahedronBRep (10 * ·) .negative) = .ok v ∧
      isBRepOfValid modelLibrary otherRuntime fuel (exampleModel tetrahedronBRep (10 * ·) .negative) = .ok v') ∧
      v.isValid = v'.isValid :=
  ⟨C100_section _ _ _ modelRuntime_ok otherRuntime_ok _ _ (triangleSection_ok .negative),
   C100_brep _ _ _ modelRuntime_ok otherRuntime_ok (fun _ => List.Perm.refl _) _ _ (tetrahedronBRep_ok .negative)⟩

end Inspector
