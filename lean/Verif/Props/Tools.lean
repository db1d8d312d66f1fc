import Verif.Proofs.Tools
import Verif.Props.WholeModel
/-
Properties C86 to C91: command line tools.
-/
namespace Inspector
open Spec
variable {P2 P3 : Type}

/-! ### C86: tools of meshes -/

/-- **C86** (point sets): the tool exits with code zero and prints once the text of the inspection of the file, read as the
first kind of point set its extension is registered for; or it exits with the code of the first exception and prints
nothing.) -/
theorem C86_point_set (pf : Platform P2 P3) (arguments : List String) :
    Contract pf [⟨"input", "/path/my/pointset.og_pts3d"⟩] arguments
      (fun flag => PointSetResult pf (flag "input")) (pointSetTool pf arguments) := by
  apply contract_of
  · intro flag
    by_cases h0 : Registered pf .pointSet3 (pf.extension (flag "input"))
    · obtain ⟨res, h⟩ := loadedThen_exists _ _ _
      exact ⟨res, .d3 res (by simp [pointSetKinds, readAs_cons, h0]) h⟩
    by_cases h1 : Registered pf .pointSet2 (pf.extension (flag "input"))
    · obtain ⟨res, h⟩ := loadedThen_exists _ _ _
      exact ⟨res, .d2 res (by simp [pointSetKinds, readAs_cons, h0, h1]) h⟩
    exact ⟨_, .unknown (by simp [pointSetKinds, h0, h1])⟩
  · intro flag res h
    show Shows pf res (finish pf
      ((do if ← hasCreator pf .pointSet3 _ then _ else _ : Tool Unit).run ⟨meshLibraries, []⟩))
    cases h with
    | unknown h =>
      simp only [pointSetKinds, notRegistered_cons] at h
      rw [run_no h.1, run_no h.2.1]
      exact shows_error pf _ _ rfl
    | d3 _ h hl =>
      simp only [pointSetKinds, readAs_cons, readAs_nil, reduceCtorEq, and_false, or_false, and_true] at h
      rw [run_yes h]
      exact shows_load pf _ _ _ _ _ _ hl
    | d2 _ h hl =>
      simp only [pointSetKinds, readAs_cons, readAs_nil, reduceCtorEq, and_false, or_false, false_or, and_true] at h
      rw [run_no h.1, run_yes h.2]
      exact shows_load pf _ _ _ _ _ _ hl

/-- **C86** (curves).) -/
theorem C86_edged_curve (pf : Platform P2 P3) (rt : ToolRuntime) (arguments : List String) :
    Contract pf [⟨"input", "/path/my/curve.og_edc3d"⟩] arguments
      (fun flag => EdgedCurveResult pf rt.mesh (flag "input")) (edgedCurveTool pf rt arguments) := by
  apply contract_of
  · intro flag
    by_cases h0 : Registered pf .edgedCurve3 (pf.extension (flag "input"))
    · obtain ⟨res, h⟩ := loadedThen_exists _ _ _
      exact ⟨res, .d3 res (by simp [edgedCurveKinds, readAs_cons, h0]) h⟩
    by_cases h1 : Registered pf .edgedCurve2 (pf.extension (flag "input"))
    · obtain ⟨res, h⟩ := loadedThen_exists _ _ _
      exact ⟨res, .d2 res (by simp [edgedCurveKinds, readAs_cons, h0, h1]) h⟩
    exact ⟨_, .unknown (by simp [edgedCurveKinds, h0, h1])⟩
  · intro flag res h
    show Shows pf res (finish pf
      ((do if ← hasCreator pf .edgedCurve3 _ then _ else _ : Tool Unit).run ⟨meshLibraries, []⟩))
    cases h with
    | unknown h =>
      simp only [edgedCurveKinds, notRegistered_cons] at h
      rw [run_no h.1, run_no h.2.1]
      exact shows_error pf _ _ rfl
    | d3 _ h hl =>
      simp only [edgedCurveKinds, readAs_cons, readAs_nil, reduceCtorEq, and_false, or_false, and_true] at h
      rw [run_yes h]
      exact shows_load pf _ _ _ _ _ _ hl
    | d2 _ h hl =>
      simp only [edgedCurveKinds, readAs_cons, readAs_nil, reduceCtorEq, and_false, or_false, false_or, and_true] at h
      rw [run_no h.1, run_yes h.2]
      exact shows_load pf _ _ _ _ _ _ hl

/-- **C86** (surfaces).) -/
theorem C86_surface (pf : Platform P2 P3) (rt : ToolRuntime) (arguments : List String) :
    Contract pf [⟨"input", "/path/my/surface.og_tsf3d"⟩] arguments
      (fun flag => SurfaceResult pf rt.mesh (flag "input")) (surfaceTool pf rt arguments) := by
  apply contract_of
  · intro flag
    by_cases h0 : Registered pf .triangulatedSurface3 (pf.extension (flag "input"))
    · obtain ⟨res, h⟩ := loadedThen_exists _ _ _
      exact ⟨res, .d3 _ res (.triangulated (by simp [surfaceKinds, readAs_cons, h0])) h⟩
    by_cases h1 : Registered pf .polygonalSurface3 (pf.extension (flag "input"))
    · obtain ⟨res, h⟩ := loadedThen_exists _ _ _
      exact ⟨res, .d3 _ res (.polygonal (by simp [surfaceKinds, readAs_cons, h0, h1])) h⟩
    by_cases h2 : Registered pf .triangulatedSurface2 (pf.extension (flag "input"))
    · obtain ⟨res, h⟩ := loadedThen_exists _ _ _
      exact ⟨res, .d2 _ res (.triangulated (by simp [surfaceKinds, readAs_cons, h0, h1, h2])) h⟩
    by_cases h3 : Registered pf .polygonalSurface2 (pf.extension (flag "input"))
    · obtain ⟨res, h⟩ := loadedThen_exists _ _ _
      exact ⟨res, .d2 _ res (.polygonal (by simp [surfaceKinds, readAs_cons, h0, h1, h2, h3])) h⟩
    by_cases h4 : Registered pf .regularGrid2 (pf.extension (flag "input"))
    · obtain ⟨res, h⟩ := loadedThen_exists _ _ _
      exact ⟨res, .d2 _ res (.grid (by simp [surfaceKinds, readAs_cons, h0, h1, h2, h3, h4])) h⟩
    exact ⟨_, .unknown (by simp [surfaceKinds, h0, h1, h2, h3, h4])⟩
  · intro flag res h
    show Shows pf res (finish pf
      ((do if ← hasCreator pf .triangulatedSurface3 _ then _ else _ : Tool Unit).run ⟨meshLibraries, []⟩))
    cases h with
    | unknown h =>
      simp only [surfaceKinds, notRegistered_cons] at h
      rw [run_no h.1, run_no h.2.1, run_no h.2.2.1, run_no h.2.2.2.1, run_no h.2.2.2.2.1]
      exact shows_error pf _ _ rfl
    | d3 _ _ hf hl =>
      cases hf with
      | triangulated h =>
        simp only [surfaceKinds, readAs_cons, readAs_nil, reduceCtorEq, and_false, or_false, and_true] at h
        rw [run_yes h]
        exact shows_load pf _ _ _ _ _ _ hl
      | polygonal h =>
        simp only [surfaceKinds, readAs_cons, readAs_nil, reduceCtorEq, and_false, or_false, false_or, and_true] at h
        rw [run_no h.1, run_yes h.2]
        exact shows_load pf _ _ _ _ _ _ hl
    | d2 _ _ hf hl =>
      cases hf with
      | triangulated h =>
        simp only [surfaceKinds, readAs_cons, readAs_nil, reduceCtorEq, and_false, or_false, false_or, and_true] at h
        rw [run_no h.1, run_no h.2.1, run_yes h.2.2]
        exact shows_load pf _ _ _ _ _ _ hl
      | polygonal h =>
        simp only [surfaceKinds, readAs_cons, readAs_nil, reduceCtorEq, and_false, or_false, false_or, and_true] at h
        rw [run_no h.1, run_no h.2.1, run_no h.2.2.1, run_yes h.2.2.2]
        exact shows_load pf _ _ _ _ _ _ hl
      | grid h =>
        simp only [surfaceKinds, readAs_cons, readAs_nil, reduceCtorEq, and_false, or_false, false_or, and_true] at h
        rw [run_no h.1, run_no h.2.1, run_no h.2.2.1, run_no h.2.2.2.1, run_yes h.2.2.2.2]
        exact shows_load pf _ _ _ _ _ _ hl

/-- **C86** (solids).) -/
theorem C86_solid (pf : Platform P2 P3) (rt : ToolRuntime) (arguments : List String) :
    Contract pf [⟨"input", "/path/my/solid.og_tso3d"⟩] arguments
      (fun flag => SolidResult pf rt.mesh (flag "input")) (solidTool pf rt arguments) := by
  apply contract_of
  · intro flag
    by_cases h0 : Registered pf .tetrahedralSolid3 (pf.extension (flag "input"))
    · obtain ⟨res, h⟩ := loadedThen_exists _ _ _
      exact ⟨res, .solid _ res (.tetrahedral (by simp [solidKinds, readAs_cons, h0])) h⟩
    by_cases h1 : Registered pf .polyhedralSolid3 (pf.extension (flag "input"))
    · obtain ⟨res, h⟩ := loadedThen_exists _ _ _
      exact ⟨res, .solid _ res (.polyhedral (by simp [solidKinds, readAs_cons, h0, h1])) h⟩
    by_cases h2 : Registered pf .hybridSolid3 (pf.extension (flag "input"))
    · obtain ⟨res, h⟩ := loadedThen_exists _ _ _
      exact ⟨res, .solid _ res (.hybrid (by simp [solidKinds, readAs_cons, h0, h1, h2])) h⟩
    by_cases h3 : Registered pf .regularGrid3 (pf.extension (flag "input"))
    · obtain ⟨res, h⟩ := loadedThen_exists _ _ _
      exact ⟨res, .solid _ res (.grid (by simp [solidKinds, readAs_cons, h0, h1, h2, h3])) h⟩
    exact ⟨_, .unknown (by simp [solidKinds, h0, h1, h2, h3])⟩
  · intro flag res h
    show Shows pf res (finish pf
      ((do if ← hasCreator pf .tetrahedralSolid3 _ then _ else _ : Tool Unit).run ⟨meshLibraries, []⟩))
    cases h with
    | unknown h =>
      simp only [solidKinds, notRegistered_cons] at h
      rw [run_no h.1, run_no h.2.1, run_no h.2.2.1, run_no h.2.2.2.1]
      exact shows_error pf _ _ rfl
    | solid _ _ hf hl =>
      cases hf with
      | tetrahedral h =>
        simp only [solidKinds, readAs_cons, readAs_nil, reduceCtorEq, and_false, or_false, and_true] at h
        rw [run_yes h]
        exact shows_load pf _ _ _ _ _ _ hl
      | polyhedral h =>
        simp only [solidKinds, readAs_cons, readAs_nil, reduceCtorEq, and_false, or_false, false_or, and_true] at h
        rw [run_no h.1, run_yes h.2]
        exact shows_load pf _ _ _ _ _ _ hl
      | hybrid h =>
        simp only [solidKinds, readAs_cons, readAs_nil, reduceCtorEq, and_false, or_false, false_or, and_true] at h
        rw [run_no h.1, run_no h.2.1, run_yes h.2.2]
        exact shows_load pf _ _ _ _ _ _ hl
      | grid h =>
        simp only [solidKinds, readAs_cons, readAs_nil, reduceCtorEq, and_false, or_false, false_or, and_true] at h
        rw [run_no h.1, run_no h.2.1, run_no h.2.2.1, run_yes h.2.2.2]
        exact shows_load pf _ _ _ _ _ _ hl

/-- **C86** (surface and curve): the extension of the surface file tells the dimension of both; the two files are
read in any order. -/
theorem C86_surface_curve (pf : Platform P2 P3) (rt : ToolRuntime) (arguments : List String) :
    Contract pf [⟨"surface", "/path/my/surface.og_tsf3d"⟩, ⟨"curve", "/path/my/curve.og_edc3d"⟩] arguments
      (fun flag => SurfaceCurveResult pf rt (flag "surface") (flag "curve")) (surfaceCurveTool pf rt arguments) := by
  apply contract_of
  · intro flag
    by_cases h0 : Registered pf .triangulatedSurface3 (pf.extension (flag "surface"))
    · obtain ⟨loaded, hb⟩ := both_exists rt.lastArgumentFirst _ _
      obtain ⟨res, h⟩ := loadedThen_exists _ _ _
      exact ⟨res, .d3 loaded res (by simp [surfaceCurveKinds, readAs_cons, h0]) hb h⟩
    by_cases h1 : Registered pf .triangulatedSurface2 (pf.extension (flag "surface"))
    · obtain ⟨loaded, hb⟩ := both_exists rt.lastArgumentFirst _ _
      obtain ⟨res, h⟩ := loadedThen_exists _ _ _
      exact ⟨res, .d2 loaded res (by simp [surfaceCurveKinds, readAs_cons, h0, h1]) hb h⟩
    exact ⟨_, .unknown (by simp [surfaceCurveKinds, h0, h1])⟩
  · intro flag res h
    show Shows pf res (finish pf
      ((do if ← hasCreator pf .triangulatedSurface3 _ then _ else _ : Tool Unit).run ⟨meshLibraries, []⟩))
    cases h with
    | unknown h =>
      simp only [surfaceCurveKinds, notRegistered_cons] at h
      rw [run_no h.1, run_no h.2.1]
      exact shows_error pf _ _ rfl
    | d3 _ _ h hb hl =>
      simp only [surfaceCurveKinds, readAs_cons, readAs_nil, reduceCtorEq, and_false, or_false, and_true] at h
      rw [run_yes h]
      have hs := shows_load_both pf _ _ _ _ _ _ _ _ _ hb hl
      exact hs
    | d2 _ _ h hb hl =>
      simp only [surfaceCurveKinds, readAs_cons, readAs_nil, reduceCtorEq, and_false, or_false, false_or, and_true] at h
      rw [run_no h.1, run_yes h.2]
      have hs := shows_load_both pf _ _ _ _ _ _ _ _ _ hb hl
      exact hs

/-! ### C87: tools of models -/

/-- **C87** (Section): the tool exits with code zero and prints once the text of the inspection of the model of the file;
or it exits with the code of the first exception and prints nothing. -/
theorem C87_section (pf : Platform P2 P3) (rt : ToolRuntime) (arguments : List String) :
    Contract pf [⟨"input", "/path/my/model.og_sctn"⟩] arguments
      (fun flag => LoadedThen (pf.loadSection [.ioModel] (flag "input")) (inspectSectionOf pf.library2 rt.model)
        SectionInspectionResult.string) (sectionTool pf rt arguments) :=
  contract_of _ _ _ _ _ (fun _ => loadedThen_exists _ _ _) fun _ _ h => shows_load pf _ _ _ _ _ _ h

/-- **C87** (CrossSection). -/
theorem C87_cross_section (pf : Platform P2 P3) (rt : ToolRuntime) (arguments : List String) :
    Contract pf [⟨"input", "/path/my/model.og_xsctn"⟩] arguments
      (fun flag => LoadedThen (pf.loadCrossSection [.geosciencesIoModel] (flag "input")) (inspectSectionOf pf.library2 rt.model)
        SectionInspectionResult.string) (crossSectionTool pf rt arguments) :=
  contract_of _ _ _ _ _ (fun _ => loadedThen_exists _ _ _) fun _ _ h => shows_load pf _ _ _ _ _ _ h

/-- **C87** (ImplicitCrossSection). -/
theorem C87_implicit_cross_section (pf : Platform P2 P3) (rt : ToolRuntime) (arguments : List String) :
    Contract pf [⟨"input", "/path/my/model.og_ixsctn"⟩] arguments
      (fun flag => LoadedThen (pf.loadImplicitCrossSection [.geosciencesIoModel] (flag "input")) (inspectSectionOf pf.library2 rt.model)
        SectionInspectionResult.string) (implicitCrossSectionTool pf rt arguments) :=
  contract_of _ _ _ _ _ (fun _ => loadedThen_exists _ _ _) fun _ _ h => shows_load pf _ _ _ _ _ _ h

/-- **C87** (BRep). -/
theorem C87_brep (pf : Platform P2 P3) (rt : ToolRuntime) (arguments : List String) :
    Contract pf [⟨"input", "/path/my/model.og_brep"⟩] arguments
      (fun flag => LoadedThen (pf.loadBRep [.ioModel] (flag "input")) (inspectBRepOf pf.library3 rt.model rt.fuel)
        BRepInspectionResult.string) (brepTool pf rt arguments) :=
  contract_of _ _ _ _ _ (fun _ => loadedThen_exists _ _ _) fun _ _ h => shows_load pf _ _ _ _ _ _ h

/-- **C87** (StructuralModel). -/
theorem C87_structural_model (pf : Platform P2 P3) (rt : ToolRuntime) (arguments : List String) :
    Contract pf [⟨"input", "/path/my/model.og_strm"⟩] arguments
      (fun flag => LoadedThen (pf.loadStructuralModel [.geosciencesIoModel] (flag "input")) (inspectBRepOf pf.library3 rt.model rt.fuel)
        BRepInspectionResult.string) (structuralModelTool pf rt arguments) :=
  contract_of _ _ _ _ _ (fun _ => loadedThen_exists _ _ _) fun _ _ h => shows_load pf _ _ _ _ _ _ h

/-- **C87** (ImplicitStructuralModel). -/
theorem C87_implicit_structural_model (pf : Platform P2 P3) (rt : ToolRuntime) (arguments : List String) :
    Contract pf [⟨"input", "/path/my/model.og_istrm"⟩] arguments
      (fun flag => LoadedThen (pf.loadImplicitStructuralModel [.geosciencesIoModel] (flag "input")) (inspectBRepOf pf.library3 rt.model rt.fuel)
        BRepInspectionResult.string) (implicitStructuralModelTool pf rt arguments) :=
  contract_of _ _ _ _ _ (fun _ => loadedThen_exists _ _ _) fun _ _ h => shows_load pf _ _ _ _ _ _ h

/-! ### C88: what is printed about a well formed file -/

/-- **C88** (point sets in 3D): the tool succeeds and prints the text of a result that lists the groups of colocated
vertices of the file. -/
theorem C88_point_set_3d (pf : Platform P2 P3) (arguments : List String) (flag : String → String)
    (hp : pf.parse [⟨"input", "/path/my/pointset.og_pts3d"⟩] arguments = .values flag) (points : List P3)
    (hr : ReadAs pf pointSetKinds (pf.extension (flag "input")) .pointSet3)
    (hf : pf.loadPointSet3 meshLibraries (flag "input") = .ok points)
    (h : SearchOk (pf.library3.search points) points.length) :
    ∃ r : PointSetInspectionResult, pointSetTool pf arguments = .exit 0 [r.string] ∧
      AreClasses r.colocated_points_groups.issues points.length (Colocated (pf.library3.search points)) := by
  obtain ⟨r, h1, h2⟩ := C79_point_set _ points h
  exact ⟨r, contract_ok (C86_point_set pf arguments) hp (.d3 _ hr (.inspected _ r hf h1)), h2⟩

/-- **C88** (point sets in 2D). -/
theorem C88_point_set_2d (pf : Platform P2 P3) (arguments : List String) (flag : String → String)
    (hp : pf.parse [⟨"input", "/path/my/pointset.og_pts3d"⟩] arguments = .values flag) (points : List P2)
    (hr : ReadAs pf pointSetKinds (pf.extension (flag "input")) .pointSet2)
    (hf : pf.loadPointSet2 meshLibraries (flag "input") = .ok points)
    (h : SearchOk (pf.library2.search points) points.length) :
    ∃ r : PointSetInspectionResult, pointSetTool pf arguments = .exit 0 [r.string] ∧
      AreClasses r.colocated_points_groups.issues points.length (Colocated (pf.library2.search points)) := by
  obtain ⟨r, h1, h2⟩ := C79_point_set _ points h
  exact ⟨r, contract_ok (C86_point_set pf arguments) hp (.d2 _ hr (.inspected _ r hf h1)), h2⟩

/-- **C88** (curves in 3D). -/
theorem C88_edged_curve_3d (pf : Platform P2 P3) (rt : ToolRuntime) (hrt : RuntimeOk rt.mesh) (arguments : List String)
    (flag : String → String) (hp : pf.parse [⟨"input", "/path/my/curve.og_edc3d"⟩] arguments = .values flag)
    (mesh : CurveData P3) (hr : ReadAs pf edgedCurveKinds (pf.extension (flag "input")) .edgedCurve3)
    (hf : pf.loadEdgedCurve3 meshLibraries (flag "input") = .ok mesh) (h : CurveDataOk pf.library3.toLibrary mesh) :
    ∃ r : EdgedCurveInspectionResult, edgedCurveTool pf rt arguments = .exit 0 [r.string] ∧ CurveReport pf.library3.toLibrary mesh r := by
  obtain ⟨r, h1, h2⟩ := C79_edged_curve _ rt.mesh hrt mesh h
  exact ⟨r, contract_ok (C86_edged_curve pf rt arguments) hp (.d3 _ hr (.inspected _ r hf h1)), h2⟩

/-- **C88** (curves in 2D). -/
theorem C88_edged_curve_2d (pf : Platform P2 P3) (rt : ToolRuntime) (hrt : RuntimeOk rt.mesh) (arguments : List String)
    (flag : String → String) (hp : pf.parse [⟨"input", "/path/my/curve.og_edc3d"⟩] arguments = .values flag)
    (mesh : CurveData P2) (hr : ReadAs pf edgedCurveKinds (pf.extension (flag "input")) .edgedCurve2)
    (hf : pf.loadEdgedCurve2 meshLibraries (flag "input") = .ok mesh) (h : CurveDataOk pf.library2.toLibrary mesh) :
    ∃ r : EdgedCurveInspectionResult, edgedCurveTool pf rt arguments = .exit 0 [r.string] ∧ CurveReport pf.library2.toLibrary mesh r := by
  obtain ⟨r, h1, h2⟩ := C79_edged_curve _ rt.mesh hrt mesh h
  exact ⟨r, contract_ok (C86_edged_curve pf rt arguments) hp (.d2 _ hr (.inspected _ r hf h1)), h2⟩

/-- **C88** (surfaces in 3D): the tool succeeds and prints the text of a result that lists all defects of the surface
of the file and nothing else. -/
theorem C88_surface_3d (pf : Platform P2 P3) (rt : ToolRuntime) (hrt : RuntimeOk rt.mesh) (arguments : List String)
    (flag : String → String) (hp : pf.parse [⟨"input", "/path/my/surface.og_tsf3d"⟩] arguments = .values flag)
    (mesh : SurfaceData P3) (hf : Surface3File pf (flag "input") (.ok mesh)) (candidates : List ElementPair)
    (h : SurfaceDataOk pf.library3.toLibrary mesh candidates) :
    ∃ r : SurfaceInspectionResult, surfaceTool pf rt arguments = .exit 0 [r.string] ∧ SurfaceReport 3 pf.library3.toLibrary mesh r := by
  obtain ⟨r, h1, h2⟩ := C79_surface 3 _ rt.mesh hrt mesh candidates h
  exact ⟨r, contract_ok (C86_surface pf rt arguments) hp (.d3 _ _ hf (.inspected _ r rfl h1)), h2⟩

/-- **C88** (surfaces in 2D). -/
theorem C88_surface_2d (pf : Platform P2 P3) (rt : ToolRuntime) (hrt : RuntimeOk rt.mesh) (arguments : List String)
    (flag : String → String) (hp : pf.parse [⟨"input", "/path/my/surface.og_tsf3d"⟩] arguments = .values flag)
    (mesh : SurfaceData P2) (hf : Surface2File pf (flag "input") (.ok mesh)) (candidates : List ElementPair)
    (h : SurfaceDataOk pf.library2.toLibrary mesh candidates) :
    ∃ r : SurfaceInspectionResult, surfaceTool pf rt arguments = .exit 0 [r.string] ∧ SurfaceReport 2 pf.library2.toLibrary mesh r := by
  obtain ⟨r, h1, h2⟩ := C79_surface 2 _ rt.mesh hrt mesh candidates h
  exact ⟨r, contract_ok (C86_surface pf rt arguments) hp (.d2 _ _ hf (.inspected _ r rfl h1)), h2⟩

/-- **C88** (solids). -/
theorem C88_solid (pf : Platform P2 P3) (rt : ToolRuntime) (hrt : RuntimeOk rt.mesh) (arguments : List String)
    (flag : String → String) (hp : pf.parse [⟨"input", "/path/my/solid.og_tso3d"⟩] arguments = .values flag)
    (mesh : SolidData P3) (hf : SolidFile pf (flag "input") (.ok mesh)) (h : SolidDataOk pf.library3.toLibrary mesh) :
    ∃ r : SolidInspectionResult, solidTool pf rt arguments = .exit 0 [r.string] ∧ SolidReport pf.library3.toLibrary mesh r := by
  obtain ⟨r, h1, h2⟩ := C79_solid _ rt.mesh hrt mesh h
  exact ⟨r, contract_ok (C86_solid pf rt arguments) hp (.solid _ _ hf (.inspected _ r rfl h1)), h2⟩

open Classical in
/-- **C88** (surface and curve in 3D): all the triangles and edges that meet are listed. -/
theorem C88_surface_curve_3d (pf : Platform P2 P3) (rt : ToolRuntime) (arguments : List String) (flag : String → String)
    (hp : pf.parse [⟨"surface", "/path/my/surface.og_tsf3d"⟩, ⟨"curve", "/path/my/curve.og_edc3d"⟩] arguments =
      .values flag)
    (surface : SurfaceData P3) (curve : CurveData P3)
    (hr : ReadAs pf surfaceCurveKinds (pf.extension (flag "surface")) .triangulatedSurface3)
    (hs : pf.loadTriangulatedSurface3 meshLibraries (flag "surface") = .ok surface)
    (hc : pf.loadEdgedCurve3 meshLibraries (flag "curve") = .ok curve) (candidates : List ElementPair)
    (ht : IsTraversal (pf.surfaceCurveTree3 surface curve) candidates) :
    ∃ r : Issues ElementPair, surfaceCurveTool pf rt arguments = .exit 0 [r.string] ∧
      r.issues.Perm (candidates.filter fun p => decide (SegmentMeetsTriangle3D (pf.surfaceCurve3 surface curve) p.1 p.2)) := by
  obtain ⟨r, _, h1, _, h2, _⟩ := C34_surface_curve_3d (pf.surfaceCurve3 surface curve) candidates _ _ ht ht
  exact ⟨r, contract_ok (C86_surface_curve pf rt arguments) hp
    (.d3 (.ok (surface, curve)) _ hr (Or.inr (Or.inr ⟨_, _, hs, hc, rfl⟩)) (.inspected _ r rfl h1)), h2⟩

open Classical in
/-- **C88** (surface and curve in 2D). -/
theorem C88_surface_curve_2d (pf : Platform P2 P3) (rt : ToolRuntime) (arguments : List String) (flag : String → String)
    (hp : pf.parse [⟨"surface", "/path/my/surface.og_tsf3d"⟩, ⟨"curve", "/path/my/curve.og_edc3d"⟩] arguments =
      .values flag)
    (surface : SurfaceData P2) (curve : CurveData P2)
    (hr : ReadAs pf surfaceCurveKinds (pf.extension (flag "surface")) .triangulatedSurface2)
    (hs : pf.loadTriangulatedSurface2 meshLibraries (flag "surface") = .ok surface)
    (hc : pf.loadEdgedCurve2 meshLibraries (flag "curve") = .ok curve) (candidates : List ElementPair)
    (ht : IsTraversal (pf.surfaceCurveTree2 surface curve) candidates) :
    ∃ r : Issues ElementPair, surfaceCurveTool pf rt arguments = .exit 0 [r.string] ∧
      r.issues.Perm (candidates.filter fun p => decide (SegmentMeetsTriangle2D (pf.surfaceCurve2 surface curve) p.1 p.2)) := by
  obtain ⟨r, _, h1, _, h2, _⟩ := C34_surface_curve_2d (pf.surfaceCurve2 surface curve) candidates _ _ ht ht
  exact ⟨r, contract_ok (C86_surface_curve pf rt arguments) hp
    (.d2 (.ok (surface, curve)) _ hr (Or.inr (Or.inr ⟨_, _, hs, hc, rfl⟩)) (.inspected _ r rfl h1)), h2⟩

/-- **C88** (Sections): the tool succeeds and prints the text of a result that lists all defects of the Section of the
file and nothing else. -/
theorem C88_section (pf : Platform P2 P3) (rt : ToolRuntime) (hrt : ModelRuntimeOk rt.model) (arguments : List String)
    (flag : String → String) (hp : pf.parse [⟨"input", "/path/my/model.og_sctn"⟩] arguments = .values flag)
    (m : ModelData P2) (hf : pf.loadSection [.ioModel] (flag "input") = .ok m) (c : Candidates P2)
    (h : SectionOk pf.library2 rt.model m c) :
    ∃ r : SectionInspectionResult, sectionTool pf rt arguments = .exit 0 [r.string] ∧ SectionMeshesReport pf.library2 m c r.meshes ∧
      SectionTopologyReport (m.topology rt.model) r.topology := by
  obtain ⟨r, h1, h2⟩ := C81_section _ rt.model hrt m c h
  exact ⟨r, contract_ok (C87_section pf rt arguments) hp (.inspected m r hf h1), h2⟩

/-- **C88** (BReps): the same for a BRep.  Missing: see `C81_brep_partial` and `C88_brep_false`. -/
theorem C88_brep_partial (pf : Platform P2 P3) (rt : ToolRuntime) (hrt : ModelRuntimeOk rt.model)
    (arguments : List String) (flag : String → String)
    (hp : pf.parse [⟨"input", "/path/my/model.og_brep"⟩] arguments = .values flag) (m : ModelData P3)
    (hf : pf.loadBRep [.ioModel] (flag "input") = .ok m) (c : Candidates P3) (h : BRepOk pf.library3 rt.model m c) :
    ∃ (r : BRepInspectionResult) (N : Nat), (∀ fuel ≥ N, brepTool pf { rt with fuel := fuel } arguments = .exit 0 [r.string]) ∧
      BRepMeshesReport pf.library3 m c r.meshes ∧ BRepTopologyReport (m.topology rt.model) m.blocksOracle r.topology := by
  obtain ⟨r, N, h1, h2⟩ := C81_brep_partial _ rt.model hrt m c h
  exact ⟨r, N, fun fuel hfu => contract_ok (C87_brep pf { rt with fuel := fuel } arguments) hp
    (.inspected m r hf (h1 fuel hfu)), h2⟩

/-- **C88** (CrossSections). -/
theorem C88_cross_section (pf : Platform P2 P3) (rt : ToolRuntime) (hrt : ModelRuntimeOk rt.model) (arguments : List String)
    (flag : String → String) (hp : pf.parse [⟨"input", "/path/my/model.og_xsctn"⟩] arguments = .values flag)
    (m : ModelData P2) (hf : pf.loadCrossSection [.geosciencesIoModel] (flag "input") = .ok m) (c : Candidates P2)
    (h : SectionOk pf.library2 rt.model m c) :
    ∃ r : SectionInspectionResult, crossSectionTool pf rt arguments = .exit 0 [r.string] ∧ SectionMeshesReport pf.library2 m c r.meshes ∧
      SectionTopologyReport (m.topology rt.model) r.topology := by
  obtain ⟨r, h1, h2⟩ := C81_section _ rt.model hrt m c h
  exact ⟨r, contract_ok (C87_cross_section pf rt arguments) hp (.inspected m r hf h1), h2⟩

/-- **C88** (ImplicitCrossSections). -/
theorem C88_implicit_cross_section (pf : Platform P2 P3) (rt : ToolRuntime) (hrt : ModelRuntimeOk rt.model) (arguments : List String)
    (flag : String → String) (hp : pf.parse [⟨"input", "/path/my/model.og_ixsctn"⟩] arguments = .values flag)
    (m : ModelData P2) (hf : pf.loadImplicitCrossSection [.geosciencesIoModel] (flag "input") = .ok m) (c : Candidates P2)
    (h : SectionOk pf.library2 rt.model m c) :
    ∃ r : SectionInspectionResult, implicitCrossSectionTool pf rt arguments = .exit 0 [r.string] ∧ SectionMeshesReport pf.library2 m c r.meshes ∧
      SectionTopologyReport (m.topology rt.model) r.topology := by
  obtain ⟨r, h1, h2⟩ := C81_section _ rt.model hrt m c h
  exact ⟨r, contract_ok (C87_implicit_cross_section pf rt arguments) hp (.inspected m r hf h1), h2⟩

/-- **C88** (StructuralModels): the same.  Missing: see `C81_brep_partial`. -/
theorem C88_structural_model_partial (pf : Platform P2 P3) (rt : ToolRuntime) (hrt : ModelRuntimeOk rt.model)
    (arguments : List String) (flag : String → String)
    (hp : pf.parse [⟨"input", "/path/my/model.og_strm"⟩] arguments = .values flag) (m : ModelData P3)
    (hf : pf.loadStructuralModel [.geosciencesIoModel] (flag "input") = .ok m) (c : Candidates P3) (h : BRepOk pf.library3 rt.model m c) :
    ∃ (r : BRepInspectionResult) (N : Nat), (∀ fuel ≥ N, structuralModelTool pf { rt with fuel := fuel } arguments = .exit 0 [r.string]) ∧
      BRepMeshesReport pf.library3 m c r.meshes ∧ BRepTopologyReport (m.topology rt.model) m.blocksOracle r.topology := by
  obtain ⟨r, N, h1, h2⟩ := C81_brep_partial _ rt.model hrt m c h
  exact ⟨r, N, fun fuel hfu => contract_ok (C87_structural_model pf { rt with fuel := fuel } arguments) hp
    (.inspected m r hf (h1 fuel hfu)), h2⟩

/-- **C88** (ImplicitStructuralModels): the same.  Missing: see `C81_brep_partial`. -/
theorem C88_implicit_structural_model_partial (pf : Platform P2 P3) (rt : ToolRuntime) (hrt : ModelRuntimeOk rt.model)
    (arguments : List String) (flag : String → String)
    (hp : pf.parse [⟨"input", "/path/my/model.og_istrm"⟩] arguments = .values flag) (m : ModelData P3)
    (hf : pf.loadImplicitStructuralModel [.geosciencesIoModel] (flag "input") = .ok m) (c : Candidates P3) (h : BRepOk pf.library3 rt.model m c) :
    ∃ (r : BRepInspectionResult) (N : Nat), (∀ fuel ≥ N, implicitStructuralModelTool pf { rt with fuel := fuel } arguments = .exit 0 [r.string]) ∧
      BRepMeshesReport pf.library3 m c r.meshes ∧ BRepTopologyReport (m.topology rt.model) m.blocksOracle r.topology := by
  obtain ⟨r, N, h1, h2⟩ := C81_brep_partial _ rt.model hrt m c h
  exact ⟨r, N, fun fuel hfu => contract_ok (C87_implicit_structural_model pf { rt with fuel := fuel } arguments) hp
    (.inspected m r hf (h1 fuel hfu)), h2⟩

/-! ### examples -/

/-- `--name value` for the declared flags, anything else stops the program -/
def exampleParse (flags : List Flag) : List String → Parsed
  | [] => .values fun name => ((flags.find? fun f => f.name == name).map Flag.value).getD ""
  | [_] => .stop 1
  | option :: value :: rest =>
    if flags.any fun f => "--" ++ f.name == option then
      match exampleParse flags rest with
      | .stop code => .stop code
      | .values get => .values fun name => if "--" ++ name == option then value else get name
    else .stop 1

/-- the extension is the whole name; "tsurf" is a file of triangulated surface, "obj" is registered for triangulated and for
polygonal surfaces, and holds a polygonal surface; other files cannot be read -/
def examplePlatform : Platform Nat Nat where
  parse := exampleParse
  provides l k ext := l == .geosciencesIoMesh && ((k == .triangulatedSurface3 && (ext == "tsurf" || ext == "obj")) ||
    (k == .polygonalSurface3 && ext == "obj"))
  extension file := file
  lippincott f := if f = .openGeodeException then 1 else 2
  loadPointSet3 _ _ := .error .openGeodeException
  loadPointSet2 _ _ := .error .openGeodeException
  loadEdgedCurve3 _ _ := .error .openGeodeException
  loadEdgedCurve2 _ _ := .error .openGeodeException
  loadTriangulatedSurface3 _ file :=
    if file = "tsurf" then .ok (exampleSurfaceData [0, 10, 20, 30] true) else .error .openGeodeException
  loadPolygonalSurface3 _ file :=
    if file = "obj" then .ok (exampleSurfaceData [0, 10, 20, 30] false) else .error .openGeodeException
  loadTriangulatedSurface2 _ _ := .error .openGeodeException
  loadPolygonalSurface2 _ _ := .error .openGeodeException
  loadRegularGrid2 _ _ := .error .openGeodeException
  loadTetrahedralSolid3 _ _ := .error .openGeodeException
  loadPolyhedralSolid3 _ _ := .error .openGeodeException
  loadHybridSolid3 _ _ := .error .openGeodeException
  loadRegularGrid3 _ _ := .error .openGeodeException
  loadSection _ _ := .ok (exampleModel triangleSection (10 * ·) .negative)
  loadCrossSection _ _ := .error .openGeodeException
  loadImplicitCrossSection _ _ := .error .openGeodeException
  loadBRep _ _ := .ok (exampleModel tetrahedronBRep (10 * ·) .positive)
  loadStructuralModel _ _ := .error .openGeodeException
  loadImplicitStructuralModel _ _ := .error .openGeodeException
  library2 := modelLibrary
  library3 := modelLibrary
  surfaceCurve3 _ _ := ⟨fun _ => (0, 1, 2), fun _ k => (k, (k + 1) % 3), fun e => (e, 5), fun _ _ => .outside,
    fun _ _ => (.outside, .outside), fun _ _ => (.outside, .outside)⟩
  surfaceCurve2 _ _ := ⟨fun _ => (0, 1, 2), fun _ k => (k, (k + 1) % 3), fun e => (e, 5), fun _ _ => .outside,
    fun _ _ => (.outside, .outside), fun _ _ => (.outside, .outside)⟩
  surfaceCurveTree3 _ _ := untilStop []
  surfaceCurveTree2 _ _ := untilStop []

def exampleToolRuntime : ToolRuntime := ⟨exampleRuntime, modelRuntime, 50, true⟩

theorem exampleParse_input (flags : List Flag) (file : String) (h : ∃ f ∈ flags, f.name = "input") :
    exampleParse flags ["--input", file] = .values fun name => if "--" ++ name == "--input" then file else
      ((flags.find? fun f => f.name == name).map Flag.value).getD "" := by
  obtain ⟨f, hf, hn⟩ := h
  have : (flags.any fun f => "--" ++ f.name == "--input") = true :=
    List.any_eq_true.2 ⟨f, hf, by rw [hn]; decide⟩
  unfold exampleParse
  rw [if_pos this]
  rfl

theorem examplePlatform_accepts : AcceptsInput examplePlatform :=
  fun flags file h => ⟨_, exampleParse_input flags file h, rfl⟩

theorem examplePlatform_rejects : RejectsUndeclared examplePlatform := by
  rintro flags file option ⟨f, hf, hn⟩ _ _
  have : (flags.any fun f => "--" ++ f.name == "--input") = true :=
    List.any_eq_true.2 ⟨f, hf, by rw [hn]; decide⟩
  show exampleParse flags ["--input", file, option] = _
  unfold exampleParse
  rw [if_pos this]
  rfl

theorem examplePlatform_tsurf : Surface3File examplePlatform "tsurf" (.ok (exampleSurfaceData [0, 10, 20, 30] true)) := by
  refine .triangulated ⟨[], _, rfl, ⟨.geosciencesIoMesh, by decide, by decide⟩, by simp⟩

/-- C86, C88 on a file: the two triangles of the surface intersect, the report says so; other extensions are rejected -/
example : (∃ r : SurfaceInspectionResult,
      surfaceTool examplePlatform exampleToolRuntime ["--input", "tsurf"] = .exit 0 [r.string] ∧
      r.intersecting_elements.issues ≠ []) ∧
    surfaceTool examplePlatform exampleToolRuntime ["--input", "txt"] = .exit 1 [] ∧
    pointSetTool examplePlatform ["--input", "tsurf"] = .exit 1 [] := by
  refine ⟨?_, ?_, ?_⟩
  · have ok := exampleSurfaceData_ok [0, 10, 20, 30] fourPoints fourPoints_ok rfl true
    obtain ⟨flag, hp, hi⟩ := examplePlatform_accepts surfaceToolFlags "tsurf" ⟨_, List.mem_singleton.2 rfl, rfl⟩
    obtain ⟨r, h1, h2⟩ := C88_surface_3d examplePlatform exampleToolRuntime exampleRuntime_ok ["--input", "tsurf"] flag
      hp _ (hi.symm ▸ examplePlatform_tsurf) [(0, 1)]
      ⟨⟨identity_search _ (by decide), ok.tree, ok.vertices, ok.walks, ok.nbEdges, ok.nbPolygons, ok.nbPolygonEdges,
        ok.uses⟩, ok.answers⟩
    refine ⟨r, h1, ?_⟩
    rcases h2.allIntersecting 0 1 ⟨by decide, by decide, by decide, rfl⟩ with h | h <;> exact List.ne_nil_of_mem h
  · decide +kernel
  · decide +kernel

/-- C87, C88 on a file: the triangle of the Section has a negative area, the tetrahedron is valid -/
example : (∃ r : SectionInspectionResult,
      sectionTool examplePlatform exampleToolRuntime ["--input", "section"] = .exit 0 [r.string] ∧
      r.meshes.meshes_negative_elements.negative_polygons.entries.map (fun e => (e.1, e.2.issues)) = [(21, [0])]) ∧
    (∃ (r : BRepInspectionResult) (N : Nat), (∀ fuel ≥ N, brepTool examplePlatform { exampleToolRuntime with fuel := fuel }
      ["--input", "brep"] = .exit 0 [r.string]) ∧
      BRepTopologyReport ((exampleModel tetrahedronBRep (10 * ·) .positive).topology modelRuntime)
        (exampleModel tetrahedronBRep (10 * ·) .positive).blocksOracle r.topology) := by
  constructor
  · obtain ⟨flag, hp, hi⟩ := examplePlatform_accepts sectionToolFlags "section" ⟨_, List.mem_singleton.2 rfl, rfl⟩
    have he : inspectSectionOf modelLibrary modelRuntime (exampleModel triangleSection (10 * ·) .negative) = .ok _ := rfl
    exact ⟨_, contract_ok (C87_section examplePlatform exampleToolRuntime ["--input", "section"]) hp
      (.inspected _ _ rfl he), by decide⟩
  · obtain ⟨flag, hp, hi⟩ := examplePlatform_accepts brepToolFlags "brep" ⟨_, List.mem_singleton.2 rfl, rfl⟩
    obtain ⟨r, N, h1, _, h2⟩ := C88_brep_partial examplePlatform exampleToolRuntime modelRuntime_ok ["--input", "brep"]
      flag hp _ rfl _ (tetrahedronBRep_ok .positive)
    exact ⟨r, N, h1, h2⟩

/-- `examplePlatform` with the file of a BRep whose Line is embedded in a Block -/
def linePlatform : Platform Nat Nat :=
  { examplePlatform with
    loadBRep := fun _ _ => .ok (exampleModel lineInTetrahedron (10 * ·) .positive) }

set_option maxRecDepth 20000 in
theorem lineInTetrahedron_silent : ∀ fuel ≥ 20, ∃ r, inspectBRepOf modelLibrary modelRuntime fuel
    (exampleModel lineInTetrahedron (10 * ·) .positive) = .ok r ∧ r.nbIssues = 0 ∧
      r.topology.lines.unique_vertices_linked_to_a_line_with_invalid_embeddings.issues = [] := by
  intro fuel hf
  obtain ⟨k, rfl⟩ := Nat.exists_eq_add_of_le' hf
  exact ⟨_, rfl, by rfl, by rfl⟩

/-- **C88 is false** for BReps: the file has a Line embedded in a Block at a vertex where the Block is not, and the text
printed is that of a result without any issue. -/
theorem C88_brep_false : ∃ (pf : Platform Nat Nat) (rt : ToolRuntime) (m : ModelData Nat) (c : Candidates Nat),
    AcceptsInput pf ∧ ModelRuntimeOk rt.model ∧ pf.loadBRep [.ioModel] "brep" = .ok m ∧ BRepOk pf.library3 rt.model m c ∧
    (4 < (m.topology rt.model).nbUniqueVertices ∧ BRepInvalidEmbeddedLine (m.topology rt.model) 4) ∧
    ∀ fuel ≥ 20, ∃ r : BRepInspectionResult, brepTool pf { rt with fuel := fuel } ["--input", "brep"] =
      .exit 0 [r.string] ∧ r.nbIssues = 0 ∧
      r.topology.lines.unique_vertices_linked_to_a_line_with_invalid_embeddings.issues = [] := by
  refine ⟨linePlatform, exampleToolRuntime, exampleModel lineInTetrahedron (10 * ·) .positive, _, examplePlatform_accepts,
    modelRuntime_ok, rfl, lineInTetrahedron_ok .positive, ⟨by decide, lineInTetrahedron_wrong⟩, ?_⟩
  intro fuel hf
  obtain ⟨r, he, hr⟩ := lineInTetrahedron_silent fuel hf
  obtain ⟨flag, hp, _⟩ := examplePlatform_accepts brepToolFlags "brep" ⟨_, List.mem_singleton.2 rfl, rfl⟩
  exact ⟨r, contract_ok (C87_brep linePlatform { exampleToolRuntime with fuel := fuel } ["--input", "brep"]) hp
    (.inspected _ _ rfl he), hr⟩

/-! ### C89: the exit code -/

/-- **C89 is false**: the tool exits with code zero for a surface that has a defect. -/
theorem C89_exit_code_false : ∃ (pf : Platform Nat Nat) (rt : ToolRuntime) (mesh : SurfaceData Nat) (r : String),
    AcceptsInput pf ∧ (∀ f, pf.lippincott f ≠ 0) ∧ Surface3File pf "tsurf" (.ok mesh) ∧
    SurfaceDefect 3 pf.library3.toLibrary mesh ∧ surfaceTool pf rt ["--input", "tsurf"] = .exit 0 [r] := by
  refine ⟨examplePlatform, exampleToolRuntime, _, _, examplePlatform_accepts, ?_, examplePlatform_tsurf, ?_, rfl⟩
  · intro f
    show (if f = .openGeodeException then 1 else 2) ≠ 0
    split <;> decide
  · exact Or.inr (Or.inr (Or.inr (Or.inr (Or.inr (Or.inr (Or.inl ⟨0, 1, by decide, by decide, by decide, rfl⟩))))))

/-- **C89**, what holds: a tool that is not stopped by its command line and exits with code zero has printed exactly one
report, and one that exits with another code has printed none.  Missing: a code that tells valid from invalid
objects. -/
theorem C89_exit_code_partial (pf : Platform P2 P3) (hl : ∀ f, pf.lippincott f ≠ 0) (rt : ToolRuntime)
    (arguments : List String) (flags : List Flag) (outcome : Outcome)
    (ht : (flags, outcome) ∈ toolOutcomes pf rt arguments) (flag : String → String)
    (hp : pf.parse flags arguments = .values flag) (code : Nat) (printed : List String)
    (ho : outcome = .exit code printed) :
    (code = 0 ∧ ∃ text, printed = [text]) ∨ (code ≠ 0 ∧ printed = []) := by
  have key (result : (String → String) → Except Failure String → Prop) (h : Contract pf flags arguments result outcome) :
      (code = 0 ∧ ∃ text, printed = [text]) ∨ (code ≠ 0 ∧ printed = []) := by
    rcases contract_printed h hp hl ho with ⟨h1, t, _, h2⟩ | h
    · exact Or.inl ⟨h1, t, h2⟩
    · exact Or.inr h
  simp only [toolOutcomes, List.mem_cons, Prod.mk.injEq, List.not_mem_nil, or_false] at ht
  rcases ht with ⟨rfl, rfl⟩ | ⟨rfl, rfl⟩ | ⟨rfl, rfl⟩ | ⟨rfl, rfl⟩ | ⟨rfl, rfl⟩ | ⟨rfl, rfl⟩ | ⟨rfl, rfl⟩ | ⟨rfl, rfl⟩ |
    ⟨rfl, rfl⟩ | ⟨rfl, rfl⟩ | ⟨rfl, rfl⟩
  · exact key _ (C86_point_set pf arguments)
  · exact key _ (C86_edged_curve pf rt arguments)
  · exact key _ (C86_surface pf rt arguments)
  · exact key _ (C86_solid pf rt arguments)
  · exact key _ (C86_surface_curve pf rt arguments)
  · exact key _ (C87_section pf rt arguments)
  · exact key _ (C87_cross_section pf rt arguments)
  · exact key _ (C87_implicit_cross_section pf rt arguments)
  · exact key _ (C87_brep pf rt arguments)
  · exact key _ (C87_structural_model pf rt arguments)
  · exact key _ (C87_implicit_structural_model pf rt arguments)

/-- the hypotheses are met, with both exit codes -/
example : (∃ t, surfaceTool examplePlatform exampleToolRuntime ["--input", "tsurf"] = .exit 0 [t]) ∧
    surfaceTool examplePlatform exampleToolRuntime ["--input", "obj"] = .exit 1 [] :=
  ⟨⟨_, rfl⟩, by decide +kernel⟩

/-! ### C90: the documented options -/

/-- **C90 is false**: the option that every usage message gives as an example for disabling a criterion stops the tool
with code 1 and no report. -/
theorem C90_disable_option_false (pf : Platform P2 P3) (h : RejectsUndeclared pf) (rt : ToolRuntime) (file : String) :
    edgedCurveTool pf rt ["--input", file, "--nocolocation"] = .exit 1 [] ∧
    surfaceTool pf rt ["--input", file, "--noadjacency"] = .exit 1 [] ∧
    solidTool pf rt ["--input", file, "--noadjacency"] = .exit 1 [] ∧
    sectionTool pf rt ["--input", file, "--nocomponent_linking"] = .exit 1 [] ∧
    crossSectionTool pf rt ["--input", file, "--nocomponent_linking"] = .exit 1 [] ∧
    implicitCrossSectionTool pf rt ["--input", file, "--nocomponent_linking"] = .exit 1 [] ∧
    brepTool pf rt ["--input", file, "--nocomponent_linking"] = .exit 1 [] ∧
    structuralModelTool pf rt ["--input", file, "--nocomponent_linking"] = .exit 1 [] ∧
    implicitStructuralModelTool pf rt ["--input", file, "--nocomponent_linking"] = .exit 1 [] := by
  have key : ∀ flags option, (flags, option) ∈ documentedOption →
      pf.parse flags ["--input", file, option] = .stop 1 := by
    intro flags option hd
    refine h flags file option ?_ ?_ ?_ <;> revert hd
    · simp only [documentedOption, List.mem_cons, Prod.mk.injEq, List.not_mem_nil, or_false]
      rintro (⟨rfl, rfl⟩ | ⟨rfl, rfl⟩ | ⟨rfl, rfl⟩ | ⟨rfl, rfl⟩ | ⟨rfl, rfl⟩ | ⟨rfl, rfl⟩ | ⟨rfl, rfl⟩ | ⟨rfl, rfl⟩ |
        ⟨rfl, rfl⟩) <;> exact ⟨_, List.mem_singleton.2 rfl, rfl⟩
    · simp only [documentedOption, List.mem_cons, Prod.mk.injEq, List.not_mem_nil, or_false]
      rintro (⟨rfl, rfl⟩ | ⟨rfl, rfl⟩ | ⟨rfl, rfl⟩ | ⟨rfl, rfl⟩ | ⟨rfl, rfl⟩ | ⟨rfl, rfl⟩ | ⟨rfl, rfl⟩ | ⟨rfl, rfl⟩ |
        ⟨rfl, rfl⟩) <;> simp
    · simp only [documentedOption, List.mem_cons, Prod.mk.injEq, List.not_mem_nil, or_false]
      rintro (⟨rfl, rfl⟩ | ⟨rfl, rfl⟩ | ⟨rfl, rfl⟩ | ⟨rfl, rfl⟩ | ⟨rfl, rfl⟩ | ⟨rfl, rfl⟩ | ⟨rfl, rfl⟩ | ⟨rfl, rfl⟩ |
        ⟨rfl, rfl⟩) f hf <;> (rw [List.mem_singleton.1 hf]; decide)
  exact ⟨contract_stop (C86_edged_curve pf rt _) (key edgedCurveToolFlags _ (by simp [documentedOption])),
    contract_stop (C86_surface pf rt _) (key surfaceToolFlags _ (by simp [documentedOption])),
    contract_stop (C86_solid pf rt _) (key solidToolFlags _ (by simp [documentedOption])),
    contract_stop (C87_section pf rt _) (key sectionToolFlags _ (by simp [documentedOption])),
    contract_stop (C87_cross_section pf rt _) (key crossSectionToolFlags _ (by simp [documentedOption])),
    contract_stop (C87_implicit_cross_section pf rt _) (key implicitCrossSectionToolFlags _ (by simp [documentedOption])),
    contract_stop (C87_brep pf rt _) (key brepToolFlags _ (by simp [documentedOption])),
    contract_stop (C87_structural_model pf rt _) (key structuralModelToolFlags _ (by simp [documentedOption])),
    contract_stop (C87_implicit_structural_model pf rt _)
      (key implicitStructuralModelToolFlags _ (by simp [documentedOption]))⟩

example : RejectsUndeclared examplePlatform ∧ AcceptsInput examplePlatform :=
  ⟨examplePlatform_rejects, examplePlatform_accepts⟩

/-- **C90**, what holds: the other documented command line, `--input file` alone, inspects that file.  Missing: the
options that disable criteria. -/
theorem C90_input_option_partial (pf : Platform P2 P3) (h : AcceptsInput pf) (rt : ToolRuntime) (file : String) :
    (∃ res, PointSetResult pf file res ∧ Shows pf res (pointSetTool pf ["--input", file])) ∧
    (∃ res, EdgedCurveResult pf rt.mesh file res ∧ Shows pf res (edgedCurveTool pf rt ["--input", file])) ∧
    (∃ res, SurfaceResult pf rt.mesh file res ∧ Shows pf res (surfaceTool pf rt ["--input", file])) ∧
    (∃ res, SolidResult pf rt.mesh file res ∧ Shows pf res (solidTool pf rt ["--input", file])) ∧
    (∃ res, LoadedThen (pf.loadSection [.ioModel] file) (inspectSectionOf pf.library2 rt.model)
      SectionInspectionResult.string res ∧ Shows pf res (sectionTool pf rt ["--input", file])) ∧
    (∃ res, LoadedThen (pf.loadBRep [.ioModel] file) (inspectBRepOf pf.library3 rt.model rt.fuel)
      BRepInspectionResult.string res ∧ Shows pf res (brepTool pf rt ["--input", file])) := by
  have key {flags : List Flag} {result : String → Except Failure String → Prop} {outcome : Outcome}
      (hf : ∃ f ∈ flags, f.name = "input")
      (hc : Contract pf flags ["--input", file] (fun flag => result (flag "input")) outcome) :
      ∃ res, result file res ∧ Shows pf res outcome := by
    obtain ⟨flag, hp, hi⟩ := h flags file hf
    rcases hc with ⟨c, h1, _⟩ | ⟨flag', h1, ⟨res, hr, hs⟩, _⟩
    · rw [hp] at h1; cases h1
    · rw [hp] at h1
      injection h1 with h1
      subst h1
      exact ⟨res, hi ▸ hr, hs⟩
  refine ⟨?_, ?_, ?_, ?_, ?_, ?_⟩
  · exact key (result := PointSetResult pf) ⟨_, List.mem_singleton.2 rfl, rfl⟩ (C86_point_set pf _)
  · exact key (result := EdgedCurveResult pf rt.mesh) ⟨_, List.mem_singleton.2 rfl, rfl⟩ (C86_edged_curve pf rt _)
  · exact key (result := SurfaceResult pf rt.mesh) ⟨_, List.mem_singleton.2 rfl, rfl⟩ (C86_surface pf rt _)
  · exact key (result := SolidResult pf rt.mesh) ⟨_, List.mem_singleton.2 rfl, rfl⟩ (C86_solid pf rt _)
  · exact key (result := fun file => LoadedThen (pf.loadSection [.ioModel] file) _ _)
      ⟨_, List.mem_singleton.2 rfl, rfl⟩ (C87_section pf rt _)
  · exact key (result := fun file => LoadedThen (pf.loadBRep [.ioModel] file) _ _)
      ⟨_, List.mem_singleton.2 rfl, rfl⟩ (C87_brep pf rt _)

/-! ### C91: files that two factories can read -/

/-- **C91 is false**: a file whose extension is registered for polygonal surfaces, and that loads as such, is refused
because the extension is also registered for triangulated surfaces. -/
theorem C91_shared_extension_false : ∃ (pf : Platform Nat Nat) (rt : ToolRuntime) (mesh : SurfaceData Nat),
    AcceptsInput pf ∧ Registered pf .polygonalSurface3 (pf.extension "obj") ∧
    pf.loadPolygonalSurface3 meshLibraries "obj" = .ok mesh ∧
    (∃ r, inspectSurfaceMesh 3 pf.library3.toLibrary rt.mesh mesh = .ok r) ∧
    surfaceTool pf rt ["--input", "obj"] = .exit 1 [] :=
  ⟨examplePlatform, exampleToolRuntime, _, examplePlatform_accepts, ⟨.geosciencesIoMesh, by decide, by decide⟩, rfl,
    ⟨_, rfl⟩, by decide +kernel⟩

/-- **C91**, what holds: a surface file whose extension is registered for one kind of surface only is inspected as soon
as it loads.  Missing: extensions shared by several kinds. -/
theorem C91_own_extension_partial (pf : Platform P2 P3) (h : AcceptsInput pf) (rt : ToolRuntime) (file : String)
    (kind : InputKind) (hk : kind ∈ surfaceKinds) (hr : Registered pf kind (pf.extension file))
    (ho : ∀ k ∈ surfaceKinds, Registered pf k (pf.extension file) → k = kind) :
    ((kind = .triangulatedSurface3 ∧ ∀ mesh r, pf.loadTriangulatedSurface3 meshLibraries file = .ok mesh →
        inspectSurfaceMesh 3 pf.library3.toLibrary rt.mesh mesh = .ok r →
        surfaceTool pf rt ["--input", file] = .exit 0 [r.string]) ∨
      (kind = .polygonalSurface3 ∧ ∀ mesh r, pf.loadPolygonalSurface3 meshLibraries file = .ok mesh →
        inspectSurfaceMesh 3 pf.library3.toLibrary rt.mesh mesh = .ok r →
        surfaceTool pf rt ["--input", file] = .exit 0 [r.string]) ∨
      (kind = .triangulatedSurface2 ∧ ∀ mesh r, pf.loadTriangulatedSurface2 meshLibraries file = .ok mesh →
        inspectSurfaceMesh 2 pf.library2.toLibrary rt.mesh mesh = .ok r →
        surfaceTool pf rt ["--input", file] = .exit 0 [r.string]) ∨
      (kind = .polygonalSurface2 ∧ ∀ mesh r, pf.loadPolygonalSurface2 meshLibraries file = .ok mesh →
        inspectSurfaceMesh 2 pf.library2.toLibrary rt.mesh mesh = .ok r →
        surfaceTool pf rt ["--input", file] = .exit 0 [r.string]) ∨
      (kind = .regularGrid2 ∧ ∀ mesh r, pf.loadRegularGrid2 meshLibraries file = .ok mesh →
        inspectSurfaceMesh 2 pf.library2.toLibrary rt.mesh mesh = .ok r →
        surfaceTool pf rt ["--input", file] = .exit 0 [r.string])) := by
  obtain ⟨flag, hp, rfl⟩ := h surfaceToolFlags file ⟨_, List.mem_singleton.2 rfl, rfl⟩
  have hread : ReadAs pf surfaceKinds (pf.extension (flag "input")) kind := by
    obtain ⟨b, a, he⟩ := List.append_of_mem hk
    refine ⟨b, a, he, hr, fun k hkb hreg => ?_⟩
    have := ho k (by rw [he]; simp [hkb]) hreg
    subst this
    have hn : surfaceKinds.Nodup := by decide
    rw [he, List.nodup_append] at hn
    exact hn.2.2 k hkb k (by simp) rfl
  simp only [surfaceKinds, List.mem_cons, List.not_mem_nil, or_false] at hk
  rcases hk with rfl | rfl | rfl | rfl | rfl
  · exact Or.inl ⟨rfl, fun mesh r hl hi => contract_ok (C86_surface pf rt _) hp
      (.d3 _ _ (hl ▸ .triangulated hread) (.inspected _ r rfl hi))⟩
  · exact Or.inr (Or.inl ⟨rfl, fun mesh r hl hi => contract_ok (C86_surface pf rt _) hp
      (.d3 _ _ (hl ▸ .polygonal hread) (.inspected _ r rfl hi))⟩)
  · exact Or.inr (Or.inr (Or.inl ⟨rfl, fun mesh r hl hi => contract_ok (C86_surface pf rt _) hp
      (.d2 _ _ (hl ▸ .triangulated hread) (.inspected _ r rfl hi))⟩))
  · exact Or.inr (Or.inr (Or.inr (Or.inl ⟨rfl, fun mesh r hl hi => contract_ok (C86_surface pf rt _) hp
      (.d2 _ _ (hl ▸ .polygonal hread) (.inspected _ r rfl hi))⟩)))
  · exact Or.inr (Or.inr (Or.inr (Or.inr ⟨rfl, fun mesh r hl hi => contract_ok (C86_surface pf rt _) hp
      (.d2 _ _ (hl ▸ .grid hread) (.inspected _ r rfl hi))⟩)))

/-- "tsurf" is registered for triangulated surfaces in 3D only -/
example : ∀ k ∈ surfaceKinds, Registered examplePlatform k (examplePlatform.extension "tsurf") →
    k = .triangulatedSurface3 := by
  simp only [surfaceKinds, List.mem_cons, List.not_mem_nil, or_false]
  rintro k (rfl | rfl | rfl | rfl | rfl) ⟨l, hl, h⟩
  · rfl
  all_goals
    simp only [meshLibraries, List.mem_cons, List.not_mem_nil, or_false] at hl
    rcases hl with rfl | rfl <;> exact absurd h (by decide)

end Inspector
