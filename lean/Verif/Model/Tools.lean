import Verif.Model.WholeModel
/-
The command line tools, src/bin/geode-inspector-*.cpp: they read the command line, initialize the input libraries, load
one object, inspect it and print the text of the result.
Citations are relative to src/bin/.
-/
namespace Inspector

/-- The input libraries initialized by the tools (external). -/
inductive InputLibrary where
  | ioMesh | geosciencesIoMesh | ioModel | geosciencesIoModel
  deriving DecidableEq, Repr

/-- The input factories of OpenGeode the tools ask for an extension (external). -/
inductive InputKind where
  | pointSet3 | pointSet2 | edgedCurve3 | edgedCurve2
  | triangulatedSurface3 | polygonalSurface3 | triangulatedSurface2 | polygonalSurface2 | regularGrid2
  | tetrahedralSolid3 | polyhedralSolid3 | hybridSolid3 | regularGrid3
  deriving DecidableEq, Repr

/-- `ABSL_FLAG`: name and default value of an option; all options of the tools are texts. -/
structure Flag where
  name : String
  value : String
  deriving DecidableEq, Repr

/-- What `absl::ParseCommandLine` does (external): it stops the program, or it gives values to the declared flags. -/
inductive Parsed where
  | stop (code : Nat)
  | values (get : String → String)

/-- What the tools use of Abseil and OpenGeode (external).  `P2` and `P3` are the types of points.  Loading an object
depends on the libraries that have been initialized. -/
structure Platform (P2 P3 : Type) where
  parse : List Flag → List String → Parsed
  provides : InputLibrary → InputKind → String → Bool
  /-- `to_string( extension_from_filename( filename ) )` -/
  extension : String → String
  /-- `geode_lippincott`: code of an exception -/
  lippincott : Failure → Nat
  loadPointSet3 : List InputLibrary → String → Except Failure (List P3)
  loadPointSet2 : List InputLibrary → String → Except Failure (List P2)
  loadEdgedCurve3 : List InputLibrary → String → Except Failure (CurveData P3)
  loadEdgedCurve2 : List InputLibrary → String → Except Failure (CurveData P2)
  loadTriangulatedSurface3 : List InputLibrary → String → Except Failure (SurfaceData P3)
  loadPolygonalSurface3 : List InputLibrary → String → Except Failure (SurfaceData P3)
  loadTriangulatedSurface2 : List InputLibrary → String → Except Failure (SurfaceData P2)
  loadPolygonalSurface2 : List InputLibrary → String → Except Failure (SurfaceData P2)
  loadRegularGrid2 : List InputLibrary → String → Except Failure (SurfaceData P2)
  loadTetrahedralSolid3 : List InputLibrary → String → Except Failure (SolidData P3)
  loadPolyhedralSolid3 : List InputLibrary → String → Except Failure (SolidData P3)
  loadHybridSolid3 : List InputLibrary → String → Except Failure (SolidData P3)
  loadRegularGrid3 : List InputLibrary → String → Except Failure (SolidData P3)
  loadSection : List InputLibrary → String → Except Failure (ModelData P2)
  loadCrossSection : List InputLibrary → String → Except Failure (ModelData P2)
  loadImplicitCrossSection : List InputLibrary → String → Except Failure (ModelData P2)
  loadBRep : List InputLibrary → String → Except Failure (ModelData P3)
  loadStructuralModel : List InputLibrary → String → Except Failure (ModelData P3)
  loadImplicitStructuralModel : List InputLibrary → String → Except Failure (ModelData P3)
  library2 : ModelLibrary P2
  library3 : ModelLibrary P3
  /-- geometry of a surface with a curve, and search in their trees -/
  surfaceCurve3 : SurfaceData P3 → CurveData P3 → SurfaceCurve P3
  surfaceCurve2 : SurfaceData P2 → CurveData P2 → SurfaceCurve P2
  surfaceCurveTree3 : SurfaceData P3 → CurveData P3 → Traversal
  surfaceCurveTree2 : SurfaceData P2 → CurveData P2 → Traversal

/-- What differs from an execution to another. -/
structure ToolRuntime where
  mesh : Runtime
  model : ModelRuntime
  fuel : Nat
  /-- the arguments of a call are evaluated in an order that the language leaves open -/
  lastArgumentFirst : Bool := false

/-- State of a running tool: libraries already initialized, texts already printed. -/
structure World where
  libraries : List InputLibrary := []
  printed : List String := []
  deriving DecidableEq, Repr

/-- A piece of a tool: it changes the state, and may throw. -/
abbrev Tool (α : Type) := ExceptT Failure (StateM World) α

/-- `*Library::initialize()` (external). -/
def initializeLibrary (library : InputLibrary) : Tool Unit :=
  modify fun w => { w with libraries := w.libraries ++ [library] }

/-- `Logger::info` (external). -/
def info (text : String) : Tool Unit :=
  modify fun w => { w with printed := w.printed ++ [text] }

/-- An expression of the inspector, that may throw. -/
def evaluate {α : Type} : Except Failure α → Tool α
  | .ok x => pure x
  | .error f => throw f

/-- `*Factory::has_creator( ext )` (external): a library initialized before has registered the extension. -/
def hasCreator {P2 P3 : Type} (pf : Platform P2 P3) (kind : InputKind) (ext : String) : Tool Bool := do
  let w ← get
  return w.libraries.any fun l => pf.provides l kind ext

/-- `inspect( *geode::load_*( filename ) )` (`load_*` is external). -/
def load.{u} {α : Type u} (loader : List InputLibrary → String → Except Failure α) (filename : String)
    (inspect : α → Tool Unit) : Tool Unit := do
  let w ← get
  match loader w.libraries filename with
  | .ok x => inspect x
  | .error f => throw f

/-- `inspect( *geode::load_*( filename ), *geode::load_*( filename2 ) )`, the arguments being evaluated in one order or the
other. -/
def loadTwo {α β : Type} (lastArgumentFirst : Bool) (loader : List InputLibrary → String → Except Failure α)
    (filename : String) (loader2 : List InputLibrary → String → Except Failure β) (filename2 : String)
    (inspect : α → β → Tool Unit) : Tool Unit :=
  if lastArgumentFirst then
    load loader2 filename2 fun y => load loader filename fun x => inspect x y
  else
    load loader filename fun x => load loader2 filename2 fun y => inspect x y

/-- What can be seen of an execution. -/
inductive Outcome where
  | exit (code : Nat) (printed : List String)
  /-- undefined behaviour -/
  | undefined
  /-- not a behaviour of the code: see `Failure.outOfFuel` -/
  | unfinished
  deriving DecidableEq, Repr

/-- The frame shared by the functions `main`: `try { ParseCommandLine; ...; return 0; } catch( ... ) { return
geode_lippincott(); }`, geode-inspector-surface.cpp:60-109, geode-inspector-solid.cpp:62-105,
geode-inspector-pointset.cpp:57-90, geode-inspector-edgedcurve.cpp:57-92,
geode-inspector-surface-curve-intersections.cpp:69-109, geode-inspector-section.cpp:53-72,
geode-inspector-cross-section.cpp:53-72, geode-inspector-implicit-cross-section.cpp:54-74,
geode-inspector-brep.cpp:53-72, geode-inspector-structural-model.cpp:52-72,
geode-inspector-implicit-structural-model.cpp:53-74. -/
def runMain {P2 P3 : Type} (pf : Platform P2 P3) (flags : List Flag) (arguments : List String)
    (body : (String → String) → Tool Unit) : Outcome :=
  match pf.parse flags arguments with
  | .stop code => .exit code []
  | .values get =>
    match (body get).run {} with
    | (.ok _, w) => .exit 0 w.printed
    | (.error .undefinedBehaviour, _) => .undefined
    | (.error .outOfFuel, _) => .unfinished
    | (.error f, w) => .exit (pf.lippincott f) w.printed

section
variable {P2 P3 : Type} (pf : Platform P2 P3) (rt : ToolRuntime)

/-! ### meshes -/

/-- `inspect_point_set`, geode-inspector-pointset.cpp:46-53. -/
def toolInspectPointSet {P : Type} (lib : Library P) (pointset : List P) : Tool Unit := do
  let result ← evaluate (inspectPointSetMesh lib pointset)
  info result.string

/-- `ABSL_FLAG` of geode-inspector-pointset.cpp:44. -/
def pointSetToolFlags : List Flag := [⟨"input", "/path/my/pointset.og_pts3d"⟩]

/-- `main` of geode-inspector-pointset.cpp:55-91. -/
def pointSetTool (arguments : List String) : Outcome :=
  runMain pf pointSetToolFlags arguments fun flag => do
    initializeLibrary .ioMesh
    initializeLibrary .geosciencesIoMesh
    let filename := flag "input"
    let ext := pf.extension filename
    if ← hasCreator pf .pointSet3 ext then
      load pf.loadPointSet3 filename (toolInspectPointSet pf.library3.toLibrary)
    else if ← hasCreator pf .pointSet2 ext then
      load pf.loadPointSet2 filename (toolInspectPointSet pf.library2.toLibrary)
    else
      throw .openGeodeException

/-- `inspect_edged_curve`, geode-inspector-edgedcurve.cpp:46-53. -/
def toolInspectEdgedCurve {P : Type} (lib : Library P) (edged_curve : CurveData P) : Tool Unit := do
  let result ← evaluate (inspectCurveMesh lib rt.mesh edged_curve)
  info result.string

/-- `ABSL_FLAG` of geode-inspector-edgedcurve.cpp:44. -/
def edgedCurveToolFlags : List Flag := [⟨"input", "/path/my/curve.og_edc3d"⟩]

/-- `main` of geode-inspector-edgedcurve.cpp:55-93. -/
def edgedCurveTool (arguments : List String) : Outcome :=
  runMain pf edgedCurveToolFlags arguments fun flag => do
    initializeLibrary .ioMesh
    initializeLibrary .geosciencesIoMesh
    let filename := flag "input"
    let ext := pf.extension filename
    if ← hasCreator pf .edgedCurve3 ext then
      load pf.loadEdgedCurve3 filename (toolInspectEdgedCurve rt pf.library3.toLibrary)
    else if ← hasCreator pf .edgedCurve2 ext then
      load pf.loadEdgedCurve2 filename (toolInspectEdgedCurve rt pf.library2.toLibrary)
    else
      throw .openGeodeException

/-- `inspect_surface`, geode-inspector-surface.cpp:50-56. -/
def toolInspectSurface {P : Type} (dimension : Nat) (lib : Library P) (surface : SurfaceData P) : Tool Unit := do
  let result ← evaluate (inspectSurfaceMesh dimension lib rt.mesh surface)
  info result.string

/-- `ABSL_FLAG` of geode-inspector-surface.cpp:48. -/
def surfaceToolFlags : List Flag := [⟨"input", "/path/my/surface.og_tsf3d"⟩]

/-- `main` of geode-inspector-surface.cpp:58-110. -/
def surfaceTool (arguments : List String) : Outcome :=
  runMain pf surfaceToolFlags arguments fun flag => do
    initializeLibrary .ioMesh
    initializeLibrary .geosciencesIoMesh
    let filename := flag "input"
    let ext := pf.extension filename
    if ← hasCreator pf .triangulatedSurface3 ext then
      load pf.loadTriangulatedSurface3 filename (toolInspectSurface rt 3 pf.library3.toLibrary)
    else if ← hasCreator pf .polygonalSurface3 ext then
      load pf.loadPolygonalSurface3 filename (toolInspectSurface rt 3 pf.library3.toLibrary)
    else if ← hasCreator pf .triangulatedSurface2 ext then
      load pf.loadTriangulatedSurface2 filename (toolInspectSurface rt 2 pf.library2.toLibrary)
    else if ← hasCreator pf .polygonalSurface2 ext then
      load pf.loadPolygonalSurface2 filename (toolInspectSurface rt 2 pf.library2.toLibrary)
    else if ← hasCreator pf .regularGrid2 ext then
      load pf.loadRegularGrid2 filename (toolInspectSurface rt 2 pf.library2.toLibrary)
    else
      throw .openGeodeException

/-- `inspect_solid`, geode-inspector-solid.cpp:52-58. -/
def toolInspectSolid {P : Type} (lib : Library P) (solid : SolidData P) : Tool Unit := do
  let result ← evaluate (inspectSolidMesh lib rt.mesh solid)
  info result.string

/-- `ABSL_FLAG` of geode-inspector-solid.cpp:50. -/
def solidToolFlags : List Flag := [⟨"input", "/path/my/solid.og_tso3d"⟩]

/-- `main` of geode-inspector-solid.cpp:60-106. -/
def solidTool (arguments : List String) : Outcome :=
  runMain pf solidToolFlags arguments fun flag => do
    initializeLibrary .ioMesh
    initializeLibrary .geosciencesIoMesh
    let filename := flag "input"
    let ext := pf.extension filename
    if ← hasCreator pf .tetrahedralSolid3 ext then
      load pf.loadTetrahedralSolid3 filename (toolInspectSolid rt pf.library3.toLibrary)
    else if ← hasCreator pf .polyhedralSolid3 ext then
      load pf.loadPolyhedralSolid3 filename (toolInspectSolid rt pf.library3.toLibrary)
    else if ← hasCreator pf .hybridSolid3 ext then
      load pf.loadHybridSolid3 filename (toolInspectSolid rt pf.library3.toLibrary)
    else if ← hasCreator pf .regularGrid3 ext then
      load pf.loadRegularGrid3 filename (toolInspectSolid rt pf.library3.toLibrary)
    else
      throw .openGeodeException

/-- `inspect_surface_curve`, geode-inspector-surface-curve-intersections.cpp:56-65. -/
def toolInspectSurfaceCurve (traverse : Traversal) (intersects : ElementPair → Bool) : Tool Unit := do
  let result ← evaluate (curveIntersectingElements traverse intersects)
  info result.string

/-- `ABSL_FLAG` of geode-inspector-surface-curve-intersections.cpp:50-54. -/
def surfaceCurveToolFlags : List Flag :=
  [⟨"surface", "/path/my/surface.og_tsf3d"⟩, ⟨"curve", "/path/my/curve.og_edc3d"⟩]

/-- `main` of geode-inspector-surface-curve-intersections.cpp:67-110. -/
def surfaceCurveTool (arguments : List String) : Outcome :=
  runMain pf surfaceCurveToolFlags arguments fun flag => do
    initializeLibrary .ioMesh
    initializeLibrary .geosciencesIoMesh
    let filename_surf := flag "surface"
    let filename_curv := flag "curve"
    let ext_surf := pf.extension filename_surf
    if ← hasCreator pf .triangulatedSurface3 ext_surf then
      loadTwo rt.lastArgumentFirst pf.loadTriangulatedSurface3 filename_surf pf.loadEdgedCurve3 filename_curv
        fun surface curve => toolInspectSurfaceCurve (pf.surfaceCurveTree3 surface curve)
          (edgeIntersectsTriangle3D (pf.surfaceCurve3 surface curve))
    else if ← hasCreator pf .triangulatedSurface2 ext_surf then
      loadTwo rt.lastArgumentFirst pf.loadTriangulatedSurface2 filename_surf pf.loadEdgedCurve2 filename_curv
        fun surface curve => toolInspectSurfaceCurve (pf.surfaceCurveTree2 surface curve)
          (edgeIntersectsTriangle2D (pf.surfaceCurve2 surface curve))
    else
      throw .openGeodeException

/-! ### models -/

/-- `ABSL_FLAG` of geode-inspector-section.cpp:41. -/
def sectionToolFlags : List Flag := [⟨"input", "/path/my/model.og_sctn"⟩]

/-- `inspect_section` and `main`, geode-inspector-section.cpp:43-73. -/
def sectionTool (arguments : List String) : Outcome :=
  runMain pf sectionToolFlags arguments fun flag => do
    initializeLibrary .ioModel
    let filename := flag "input"
    load pf.loadSection filename fun section_ => do
      let result ← evaluate (inspectSectionOf pf.library2 rt.model section_)
      info result.string

/-- `ABSL_FLAG` of geode-inspector-cross-section.cpp:41. -/
def crossSectionToolFlags : List Flag := [⟨"input", "/path/my/model.og_xsctn"⟩]

/-- `inspect_cross_section` and `main`, geode-inspector-cross-section.cpp:43-73. -/
def crossSectionTool (arguments : List String) : Outcome :=
  runMain pf crossSectionToolFlags arguments fun flag => do
    initializeLibrary .geosciencesIoModel
    let filename := flag "input"
    load pf.loadCrossSection filename fun cross_section => do
      let result ← evaluate (inspectSectionOf pf.library2 rt.model cross_section)
      info result.string

/-- `ABSL_FLAG` of geode-inspector-implicit-cross-section.cpp:41. -/
def implicitCrossSectionToolFlags : List Flag := [⟨"input", "/path/my/model.og_ixsctn"⟩]

/-- `inspect_implicit_cross_section` and `main`, geode-inspector-implicit-cross-section.cpp:43-75. -/
def implicitCrossSectionTool (arguments : List String) : Outcome :=
  runMain pf implicitCrossSectionToolFlags arguments fun flag => do
    initializeLibrary .geosciencesIoModel
    let filename := flag "input"
    load pf.loadImplicitCrossSection filename fun cross_section => do
      let result ← evaluate (inspectSectionOf pf.library2 rt.model cross_section)
      info result.string

/-- `ABSL_FLAG` of geode-inspector-brep.cpp:42. -/
def brepToolFlags : List Flag := [⟨"input", "/path/my/model.og_brep"⟩]

/-- `inspect_brep` and `main`, geode-inspector-brep.cpp:44-73. -/
def brepTool (arguments : List String) : Outcome :=
  runMain pf brepToolFlags arguments fun flag => do
    initializeLibrary .ioModel
    let filename := flag "input"
    load pf.loadBRep filename fun brep => do
      let result ← evaluate (inspectBRepOf pf.library3 rt.model rt.fuel brep)
      info result.string

/-- `ABSL_FLAG` of geode-inspector-structural-model.cpp:41. -/
def structuralModelToolFlags : List Flag := [⟨"input", "/path/my/model.og_strm"⟩]

/-- `inspect_model` and `main`, geode-inspector-structural-model.cpp:43-73. -/
def structuralModelTool (arguments : List String) : Outcome :=
  runMain pf structuralModelToolFlags arguments fun flag => do
    initializeLibrary .geosciencesIoModel
    let filename := flag "input"
    load pf.loadStructuralModel filename fun model => do
      let result ← evaluate (inspectBRepOf pf.library3 rt.model rt.fuel model)
      info result.string

/-- `ABSL_FLAG` of geode-inspector-implicit-structural-model.cpp:41. -/
def implicitStructuralModelToolFlags : List Flag := [⟨"input", "/path/my/model.og_istrm"⟩]

/-- `inspect_implicit_structural_model` and `main`, geode-inspector-implicit-structural-model.cpp:43-75. -/
def implicitStructuralModelTool (arguments : List String) : Outcome :=
  runMain pf implicitStructuralModelToolFlags arguments fun flag => do
    initializeLibrary .geosciencesIoModel
    let filename := flag "input"
    load pf.loadImplicitStructuralModel filename fun model => do
      let result ← evaluate (inspectBRepOf pf.library3 rt.model rt.fuel model)
      info result.string

end

/-! ### usage messages -/

/-- The option given as an example by the usage messages ("to disable one use --noXXX, e.g. ..."), with the flags that
the tool declares: geode-inspector-edgedcurve.cpp:60-63, geode-inspector-surface.cpp:63-66,
geode-inspector-solid.cpp:65-68, geode-inspector-section.cpp:56-59, geode-inspector-cross-section.cpp:56-59,
geode-inspector-implicit-cross-section.cpp:57-60, geode-inspector-brep.cpp:56-59,
geode-inspector-structural-model.cpp:55-59 and geode-inspector-implicit-structural-model.cpp:56-60. -/
def documentedOption : List (List Flag × String) :=
  [(edgedCurveToolFlags, "--nocolocation"), (surfaceToolFlags, "--noadjacency"), (solidToolFlags, "--noadjacency"),
   (sectionToolFlags, "--nocomponent_linking"), (crossSectionToolFlags, "--nocomponent_linking"),
   (implicitCrossSectionToolFlags, "--nocomponent_linking"), (brepToolFlags, "--nocomponent_linking"),
   (structuralModelToolFlags, "--nocomponent_linking"), (implicitStructuralModelToolFlags, "--nocomponent_linking")]

end Inspector
