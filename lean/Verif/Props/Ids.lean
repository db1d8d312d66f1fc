import Verif.Proofs.IdsOk
import Verif.Props.Plain
import Verif.Props.Numbers
/-
C131: the verdict on a model does not depend on the uuids of its components.
-/
namespace Inspector
open Spec

/-- **C131** (Sections): a Section whose components have other uuids - a clone - gets the same verdict, in any other
execution. -/
theorem C131_section {P : Type} (lib : ModelLibrary P) (rt rt' : ModelRuntime) (hrt : ModelRuntimeOk rt)
    (hrt' : ModelRuntimeOk rt') (m : ModelData P) (ρ : Equiv.Perm Uuid) (c : Candidates P)
    (h : SectionOk lib rt m c) :
    ∃ v v', isSectionOfValid lib rt m = .ok v ∧ isSectionOfValid lib rt' (withIds ρ m) = .ok v' ∧
      v.isValid = v'.isValid := by
  have h' := Ids.sectionOk (ρ := ρ) rt' h
  obtain ⟨v, h1, h2⟩ := C99_section lib rt hrt m c h
  obtain ⟨v', h1', h2'⟩ := C99_section lib rt' hrt' _ _ h'
  refine ⟨v, v', h1, h1', ?_⟩
  rw [Bool.eq_iff_iff, h2, h2', not_iff_not]
  have ht := Plain.topology_iff h.meshes rt SectionTopologyDefect (fun _ _ _ _ _ _ _ hd => hd)
  have ht' := Plain.topology_iff h'.meshes rt' SectionTopologyDefect (fun _ _ _ _ _ _ _ hd => hd)
  unfold PlainSectionDefect
  rw [← ht, ← ht', Ids.sectionTopology (Ids.renamed rt rt')]
  simp only [Ids.ex_line, Ids.ex_face, Ids.colocatedUvs, Ids.differentPoints, Ids.lineDefect, Ids.surfaceDefect,
    Ids.polygonsMeet (Ids.sectionMeet lib.geometry)]
  exact Iff.rfl

/-- **C131** (BReps): the same for BReps. -/
theorem C131_brep {P : Type} (lib : ModelLibrary P) (rt rt' : ModelRuntime) (hrt : ModelRuntimeOk rt)
    (hrt' : ModelRuntimeOk rt') (ho : ∀ map, (rt'.aroundOrder map).Perm map) (m : ModelData P) (ρ : Equiv.Perm Uuid) (c : Candidates P)
    (h : BRepOk lib rt m c) :
    ∃ v v' N, (∀ fuel ≥ N, isBRepOfValid lib rt fuel m = .ok v ∧
      isBRepOfValid lib rt' fuel (withIds ρ m) = .ok v') ∧ v.isValid = v'.isValid := by
  have h' := Ids.brepOk (ρ := ρ) rt' ho h
  obtain ⟨v, N, h1, h2, h3, _⟩ := C82_brep_partial lib rt hrt m c h
  obtain ⟨v', N', h1', h2', h3', _⟩ := C82_brep_partial lib rt' hrt' _ _ h'
  refine ⟨v, v', max N N', fun fuel hf => ⟨h1 fuel (by omega), h1' fuel (by omega)⟩, ?_⟩
  rw [Bool.eq_iff_iff]
  have mv := Ids.renamed (m := m) (ρ := ρ) rt rt'
  have hu := Ids.unreadable mv
  by_cases hr : LinesUnreadable (m.topology rt)
  · rw [(h3 hr).2, (h3' (hu.2 hr)).2, not_iff_not, Plain.brepDefectBesideLines_iff h.meshes h.types,
      Plain.brepDefectBesideLines_iff h'.meshes h'.types]
    unfold PlainBRepDefectBesideLines
    rw [Ids.meshDefect, Ids.lineMeets]
    rw [← Plain.topology_iff h.meshes rt (fun t => OtherTopologyDefect t m.blocksOracle) (Numbers.otherTexts _),
      ← Plain.topology_iff h'.meshes rt' (fun t => OtherTopologyDefect t (withIds ρ m).blocksOracle) (Numbers.otherTexts _),
      show (withIds ρ m).blocksOracle = oracleOf ρ m.blocksOracle from rfl, Ids.otherTopology mv, Ids.nonEmptyLines]
  · rw [h2 hr, h2' (fun x => hr (hu.1 x)), not_iff_not, Plain.brepDefect_iff h.meshes h.types,
      Plain.brepDefect_iff h'.meshes h'.types]
    unfold PlainBRepDefect
    rw [Ids.meshDefect, Ids.lineMeets]
    rw [← Plain.topology_iff h.meshes rt (fun t => BRepTopologyDefect t m.blocksOracle) (Numbers.brepTexts _),
      ← Plain.topology_iff h'.meshes rt' (fun t => BRepTopologyDefect t (withIds ρ m).blocksOracle) (Numbers.brepTexts _),
      show (withIds ρ m).blocksOracle = oracleOf ρ m.blocksOracle from rfl, Ids.brepTopology mv]

/-- a triangle whose components have other uuids is as valid -/
example : ∃ v, isSectionOfValid modelLibrary modelRuntime
    (withIds (Equiv.swap 0 2) (exampleModel triangleSection (10 * ·) .positive)) = .ok v ∧ v.isValid = true := by
  obtain ⟨v, v', h1, h2, h3⟩ := C131_section modelLibrary modelRuntime modelRuntime modelRuntime_ok modelRuntime_ok
    (exampleModel triangleSection (10 * ·) .positive) (Equiv.swap 0 2) noCandidate (triangleSection_ok _)
  have he : isSectionOfValid modelLibrary modelRuntime (exampleModel triangleSection (10 * ·) .positive) = .ok {} := by rfl
  rw [he] at h1
  injection h1 with h1
  subst h1
  exact ⟨v', h2, h3.symm⟩

set_option maxRecDepth 20000 in
/-- and a tetrahedron -/
example : ∃ v N, ∀ fuel ≥ N, isBRepOfValid modelLibrary modelRuntime fuel
    (withIds (Equiv.swap 0 2) (exampleModel tetrahedronBRep (10 * ·) .positive)) = .ok v ∧ v.isValid = true := by
  obtain ⟨v, v', N, h1, h3⟩ := C131_brep modelLibrary modelRuntime modelRuntime modelRuntime_ok modelRuntime_ok
    (fun _ => List.reverse_perm _)
    (exampleModel tetrahedronBRep (10 * ·) .positive) (Equiv.swap 0 2) noCandidate (tetrahedronBRep_ok _)
  refine ⟨v', N, fun fuel hf => ⟨(h1 fuel hf).2, ?_⟩⟩
  rw [← h3]
  have he : isBRepOfValid modelLibrary modelRuntime (N + 20) (exampleModel tetrahedronBRep (10 * ·) .positive) = .ok {} := by
    rfl
  have h1 := (h1 (N + 20) (by omega)).1
  rw [he] at h1
  injection h1 with h1
  subst h1
  rfl

end Inspector
