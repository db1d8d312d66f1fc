import Verif.Proofs.SameLists
import Verif.Props.Whole
import Verif.Props.Plain
/-
C101: two executions of the inspection of a mesh tell the same issues.
C102: two executions of the inspection of a model tell the same issues.
-/
namespace Inspector
open Spec

/-- **C101** (curves). -/
theorem C101_edged_curve {P : Type} (lib : Library P) (rt rt' : Runtime) (hrt : RuntimeOk rt) (hrt' : RuntimeOk rt')
    (mesh : CurveData P) (h : CurveDataOk lib mesh) :
    ∃ r r', inspectCurveMesh lib rt mesh = .ok r ∧ inspectCurveMesh lib rt' mesh = .ok r' ∧ SameCurveLists r r' := by
  obtain ⟨r, h1, h2⟩ := C79_edged_curve lib rt hrt mesh h
  obtain ⟨r', h1', h2'⟩ := C79_edged_curve lib rt' hrt' mesh h
  exact ⟨r, r', h1, h1', Plain.same_curve h2 h2'⟩

/-- **C101** (surfaces): whatever the order in which the pairs of polygons are visited. -/
theorem C101_surface {P : Type} (dimension : Nat) (lib : Library P) (rt rt' : Runtime) (hrt : RuntimeOk rt)
    (hrt' : RuntimeOk rt') (mesh : SurfaceData P) (candidates : List ElementPair)
    (h : SurfaceDataOk lib mesh candidates) (traverse : Traversal) (ht : IsTraversal traverse candidates) :
    ∃ r r', inspectSurfaceMesh dimension lib rt mesh = .ok r ∧
      inspectSurfaceMesh dimension lib rt' { mesh with
        traverse := traverse } = .ok r' ∧ SameSurfaceLists r r' := by
  obtain ⟨r, h1, h2⟩ := C79_surface dimension lib rt hrt mesh candidates h
  have hm : SurfaceDataOk lib { mesh with
      traverse := traverse } candidates :=
    { search := h.search
      tree := { traversal := ht, polygons := h.tree.polygons, complete := h.tree.complete,
                length := h.tree.length }
      vertices := h.vertices
      walks := h.walks
      nbEdges := h.nbEdges
      nbPolygons := h.nbPolygons
      nbPolygonEdges := h.nbPolygonEdges
      uses := h.uses
      answers := h.answers }
  obtain ⟨r', h1', h2'⟩ := C79_surface dimension lib rt' hrt' _ candidates hm
  exact ⟨r, r', h1, h1', Plain.same_surface h2 h2'⟩

/-- **C101** (solids). -/
theorem C101_solid {P : Type} (lib : Library P) (rt rt' : Runtime) (hrt : RuntimeOk rt) (hrt' : RuntimeOk rt')
    (mesh : SolidData P) (h : SolidDataOk lib mesh) :
    ∃ r r', inspectSolidMesh lib rt mesh = .ok r ∧ inspectSolidMesh lib rt' mesh = .ok r' ∧ SameSolidLists r r' := by
  obtain ⟨r, h1, h2⟩ := C79_solid lib rt hrt mesh h
  obtain ⟨r', h1', h2'⟩ := C79_solid lib rt' hrt' mesh h
  exact ⟨r, r', h1, h1', Plain.same_solid h2 h2'⟩

/-- another execution: another schedule, other orders -/
def otherMeshRuntime : Runtime where
  schedule := [0]
  choose l := (l.getLast?).getD .openGeodeException
  edgeOrder := id
  facetOrder := List.reverse

theorem otherMeshRuntime_ok : RuntimeOk otherMeshRuntime where
  choose l hl := by
    show (l.getLast?).getD _ ∈ l
    rw [List.getLast?_eq_some_getLast hl]
    exact List.getLast_mem hl
  edgeOrder m := List.Perm.refl m
  facetOrder m := List.reverse_perm m

/-- the hypotheses are met by a surface whose two triangles intersect and by a tetrahedron of negative volume: in both
executions, the intersection and the tetrahedron are told -/
example : (∃ r r', inspectSurfaceMesh 3 (exampleLibrary fourPoints) exampleRuntime
      (exampleSurfaceData [0, 10, 20, 30] true) = .ok r ∧
    inspectSurfaceMesh 3 (exampleLibrary fourPoints) otherMeshRuntime { exampleSurfaceData [0, 10, 20, 30] true with
      traverse := (exampleSurfaceData [0, 10, 20, 30] true).traverse } = .ok r' ∧ SameSurfaceLists r r') ∧
    ∃ r r', inspectSolidMesh (exampleLibrary fourPoints) exampleRuntime (exampleSolidData .negative) = .ok r ∧
      inspectSolidMesh (exampleLibrary fourPoints) otherMeshRuntime (exampleSolidData .negative) = .ok r' ∧
      SameSolidLists r r' :=
  ⟨C101_surface 3 _ exampleRuntime otherMeshRuntime exampleRuntime_ok otherMeshRuntime_ok _ _
      (exampleSurfaceData_ok [0, 10, 20, 30] fourPoints fourPoints_ok rfl true) _
      (exampleSurfaceData_ok [0, 10, 20, 30] fourPoints fourPoints_ok rfl true).tree.traversal,
   C101_solid _ _ _ exampleRuntime_ok otherMeshRuntime_ok _ (exampleSolidData_ok .negative)⟩

/-- **C102** (Sections). -/
theorem C102_section {P : Type} (lib : ModelLibrary P) (rt rt' : ModelRuntime) (hrt : ModelRuntimeOk rt)
    (hrt' : ModelRuntimeOk rt') (m : ModelData P) (c : Candidates P) (h : SectionOk lib rt m c) :
    ∃ r r', inspectSectionOf lib rt m = .ok r ∧ inspectSectionOf lib rt' m = .ok r' ∧
      SameSectionMeshesLists r.meshes r'.meshes ∧ SameSectionTopologyLists r.topology r'.topology := by
  obtain ⟨r, h1, h2, h3⟩ := C81_section lib rt hrt m c h
  obtain ⟨r', h1', h2', h3'⟩ := C81_section lib rt' hrt' m c (Plain.sectionOk_any rt' h)
  exact ⟨r, r', h1, h1', Plain.same_section_meshes h.meshes h2 h2', Plain.same_section_topology h.meshes rt rt' h3 h3'⟩

/-- **C102** (BReps). -/
theorem C102_brep {P : Type} (lib : ModelLibrary P) (rt rt' : ModelRuntime) (hrt : ModelRuntimeOk rt)
    (hrt' : ModelRuntimeOk rt') (ho : ∀ map, (rt'.aroundOrder map).Perm map) (m : ModelData P) (c : Candidates P)
    (h : BRepOk lib rt m c) :
    ∃ r r' N, (∀ fuel ≥ N, inspectBRepOf lib rt fuel m = .ok r ∧ inspectBRepOf lib rt' fuel m = .ok r') ∧
      SameBRepMeshesLists r.meshes r'.meshes ∧ SameBRepTopologyLists r.topology r'.topology := by
  obtain ⟨r, N, h1, h2, h3⟩ := C81_brep_partial lib rt hrt m c h
  obtain ⟨r', N', h1', h2', h3'⟩ := C81_brep_partial lib rt' hrt' m c (Plain.brepOk_any rt' ho h)
  exact ⟨r, r', max N N', fun fuel hf => ⟨h1 fuel (le_trans (le_max_left _ _) hf),
    h1' fuel (le_trans (le_max_right _ _) hf)⟩, Plain.same_brep_meshes h.meshes h2 h2',
    Plain.same_brep_topology h.meshes rt rt' h3 h3'⟩

/-- the hypotheses are met by the triangle and by the tetrahedron of negative sign -/
example : (∃ r r', inspectSectionOf modelLibrary modelRuntime (exampleModel triangleSection (10 * ·) .negative) = .ok r ∧
      inspectSectionOf modelLibrary otherRuntime (exampleModel triangleSection (10 * ·) .negative) = .ok r' ∧
      SameSectionMeshesLists r.meshes r'.meshes ∧ SameSectionTopologyLists r.topology r'.topology) ∧
    ∃ r r' N, (∀ fuel ≥ N, inspectBRepOf modelLibrary modelRuntime fuel
        (exampleModel tetrahedronBRep (10 * ·) .negative) = .ok r ∧
      inspectBRepOf modelLibrary otherRuntime fuel (exampleModel tetrahedronBRep (10 * ·) .negative) = .ok r') ∧
      SameBRepMeshesLists r.meshes r'.meshes ∧ SameBRepTopologyLists r.topology r'.topology :=
  ⟨C102_section _ _ _ modelRuntime_ok otherRuntime_ok _ _ (triangleSection_ok .negative),
   C102_brep _ _ _ modelRuntime_ok otherRuntime_ok (fun _ => List.Perm.refl _) _ _ (tetrahedronBRep_ok .negative)⟩

end Inspector
