import Verif.Model.Tools
import Verif.Spec.WholeModel
/-
Specification side of C86 to C91: what a command line tool must do with a file.
-/
namespace Inspector.Spec
variable {P2 P3 : Type}

/-- the libraries a user of the mesh tools can count on -/
def meshLibraries : List InputLibrary := [.ioMesh, .geosciencesIoMesh]

/-- one of these libraries reads files of this extension as objects of this kind -/
def Registered (pf : Platform P2 P3) (kind : InputKind) (ext : String) : Prop :=
  ∃ l ∈ meshLibraries, pf.provides l kind ext = true

/-- the kinds of object a tool looks for, by decreasing preference -/
def pointSetKinds : List InputKind := [.pointSet3, .pointSet2]
@[inherit_doc pointSetKinds]
def edgedCurveKinds : List InputKind := [.edgedCurve3, .edgedCurve2]
@[inherit_doc pointSetKinds]
def surfaceKinds : List InputKind :=
  [.triangulatedSurface3, .polygonalSurface3, .triangulatedSurface2, .polygonalSurface2, .regularGrid2]
@[inherit_doc pointSetKinds]
def solidKinds : List InputKind := [.tetrahedralSolid3, .polyhedralSolid3, .hybridSolid3, .regularGrid3]
@[inherit_doc pointSetKinds]
def surfaceCurveKinds : List InputKind := [.triangulatedSurface3, .triangulatedSurface2]

/-- `kind` is the first kind of the list that is registered for the extension. -/
def ReadAs (pf : Platform P2 P3) (kinds : List InputKind) (ext : String) (kind : InputKind) : Prop :=
  ∃ before after, kinds = before ++ kind :: after ∧ Registered pf kind ext ∧ ∀ k ∈ before, ¬ Registered pf k ext

/-- Result of loading then inspecting then writing the text: the first exception, or the text. -/
inductive LoadedThen.{u} {α : Type u} {β : Type} (loaded : Except Failure α) (inspect : α → Except Failure β)
    (text : β → String) : Except Failure String → Prop
  | notLoaded (f : Failure) : loaded = .error f → LoadedThen loaded inspect text (.error f)
  | notInspected (x : α) (f : Failure) : loaded = .ok x → inspect x = .error f →
      LoadedThen loaded inspect text (.error f)
  | inspected (x : α) (r : β) : loaded = .ok x → inspect x = .ok r → LoadedThen loaded inspect text (.ok (text r))

/-- What must be seen of a tool: exit code zero and the text printed once, or the code of the exception and nothing
printed. -/
inductive Shows (pf : Platform P2 P3) : Except Failure String → Outcome → Prop
  | report (text : String) : Shows pf (.ok text) (.exit 0 [text])
  | exception (f : Failure) : f = .openGeodeException ∨ f = .otherException →
      Shows pf (.error f) (.exit (pf.lippincott f) [])
  | undefined : Shows pf (.error .undefinedBehaviour) .undefined
  | unfinished : Shows pf (.error .outOfFuel) .unfinished

/-- A tool, run on a command line: stopped by it, or it shows the result its options have. -/
def Contract (pf : Platform P2 P3) (flags : List Flag) (arguments : List String)
    (result : (String → String) → Except Failure String → Prop) (outcome : Outcome) : Prop :=
  (∃ code, pf.parse flags arguments = .stop code ∧ outcome = .exit code []) ∨
  (∃ flag, pf.parse flags arguments = .values flag ∧ (∃ res, result flag res ∧ Shows pf res outcome) ∧
    ∀ res, result flag res → Shows pf res outcome)

/-- Result of the inspection of a point set file. -/
inductive PointSetResult (pf : Platform P2 P3) (file : String) : Except Failure String → Prop
  | unknown : (∀ k ∈ pointSetKinds, ¬ Registered pf k (pf.extension file)) →
      PointSetResult pf file (.error .openGeodeException)
  | d3 (res) : ReadAs pf pointSetKinds (pf.extension file) .pointSet3 →
      LoadedThen (pf.loadPointSet3 meshLibraries file) (inspectPointSetMesh pf.library3.toLibrary)
        PointSetInspectionResult.string res → PointSetResult pf file res
  | d2 (res) : ReadAs pf pointSetKinds (pf.extension file) .pointSet2 →
      LoadedThen (pf.loadPointSet2 meshLibraries file) (inspectPointSetMesh pf.library2.toLibrary)
        PointSetInspectionResult.string res → PointSetResult pf file res

/-- Result of the inspection of a curve file. -/
inductive EdgedCurveResult (pf : Platform P2 P3) (rt : Runtime) (file : String) : Except Failure String → Prop
  | unknown : (∀ k ∈ edgedCurveKinds, ¬ Registered pf k (pf.extension file)) →
      EdgedCurveResult pf rt file (.error .openGeodeException)
  | d3 (res) : ReadAs pf edgedCurveKinds (pf.extension file) .edgedCurve3 →
      LoadedThen (pf.loadEdgedCurve3 meshLibraries file) (inspectCurveMesh pf.library3.toLibrary rt)
        EdgedCurveInspectionResult.string res → EdgedCurveResult pf rt file res
  | d2 (res) : ReadAs pf edgedCurveKinds (pf.extension file) .edgedCurve2 →
      LoadedThen (pf.loadEdgedCurve2 meshLibraries file) (inspectCurveMesh pf.library2.toLibrary rt)
        EdgedCurveInspectionResult.string res → EdgedCurveResult pf rt file res

/-- A file is a 3D surface: how it is loaded. -/
inductive Surface3File (pf : Platform P2 P3) (file : String) : Except Failure (SurfaceData P3) → Prop
  | triangulated : ReadAs pf surfaceKinds (pf.extension file) .triangulatedSurface3 →
      Surface3File pf file (pf.loadTriangulatedSurface3 meshLibraries file)
  | polygonal : ReadAs pf surfaceKinds (pf.extension file) .polygonalSurface3 →
      Surface3File pf file (pf.loadPolygonalSurface3 meshLibraries file)

/-- A file is a 2D surface: how it is loaded. -/
inductive Surface2File (pf : Platform P2 P3) (file : String) : Except Failure (SurfaceData P2) → Prop
  | triangulated : ReadAs pf surfaceKinds (pf.extension file) .triangulatedSurface2 →
      Surface2File pf file (pf.loadTriangulatedSurface2 meshLibraries file)
  | polygonal : ReadAs pf surfaceKinds (pf.extension file) .polygonalSurface2 →
      Surface2File pf file (pf.loadPolygonalSurface2 meshLibraries file)
  | grid : ReadAs pf surfaceKinds (pf.extension file) .regularGrid2 →
      Surface2File pf file (pf.loadRegularGrid2 meshLibraries file)

/-- Result of the inspection of a surface file. -/
inductive SurfaceResult (pf : Platform P2 P3) (rt : Runtime) (file : String) : Except Failure String → Prop
  | unknown : (∀ k ∈ surfaceKinds, ¬ Registered pf k (pf.extension file)) →
      SurfaceResult pf rt file (.error .openGeodeException)
  | d3 (loaded res) : Surface3File pf file loaded →
      LoadedThen loaded (inspectSurfaceMesh 3 pf.library3.toLibrary rt) SurfaceInspectionResult.string res →
      SurfaceResult pf rt file res
  | d2 (loaded res) : Surface2File pf file loaded →
      LoadedThen loaded (inspectSurfaceMesh 2 pf.library2.toLibrary rt) SurfaceInspectionResult.string res →
      SurfaceResult pf rt file res

/-- A file is a solid: how it is loaded. -/
inductive SolidFile (pf : Platform P2 P3) (file : String) : Except Failure (SolidData P3) → Prop
  | tetrahedral : ReadAs pf solidKinds (pf.extension file) .tetrahedralSolid3 →
      SolidFile pf file (pf.loadTetrahedralSolid3 meshLibraries file)
  | polyhedral : ReadAs pf solidKinds (pf.extension file) .polyhedralSolid3 →
      SolidFile pf file (pf.loadPolyhedralSolid3 meshLibraries file)
  | hybrid : ReadAs pf solidKinds (pf.extension file) .hybridSolid3 →
      SolidFile pf file (pf.loadHybridSolid3 meshLibraries file)
  | grid : ReadAs pf solidKinds (pf.extension file) .regularGrid3 →
      SolidFile pf file (pf.loadRegularGrid3 meshLibraries file)

/-- Result of the inspection of a solid file. -/
inductive SolidResult (pf : Platform P2 P3) (rt : Runtime) (file : String) : Except Failure String → Prop
  | unknown : (∀ k ∈ solidKinds, ¬ Registered pf k (pf.extension file)) →
      SolidResult pf rt file (.error .openGeodeException)
  | solid (loaded res) : SolidFile pf file loaded →
      LoadedThen loaded (inspectSolidMesh pf.library3.toLibrary rt) SolidInspectionResult.string res →
      SolidResult pf rt file res

/-- two objects are loaded, in one order or the other; the first exception wins -/
def Both {α β : Type} (lastFirst : Bool) (a : Except Failure α) (b : Except Failure β) (both : Except Failure (α × β)) :
    Prop :=
  (∃ f, a = .error f ∧ (lastFirst = false ∨ ∃ y, b = .ok y) ∧ both = .error f) ∨
  (∃ f, b = .error f ∧ (lastFirst = true ∨ ∃ x, a = .ok x) ∧ both = .error f) ∨
  (∃ x y, a = .ok x ∧ b = .ok y ∧ both = .ok (x, y))

/-- Result of the search of the intersections between a surface and a curve: the extension of the surface tells the
dimension of both. -/
inductive SurfaceCurveResult (pf : Platform P2 P3) (rt : ToolRuntime) (surface curve : String) : Except Failure String → Prop
  | unknown : (∀ k ∈ surfaceCurveKinds, ¬ Registered pf k (pf.extension surface)) →
      SurfaceCurveResult pf rt surface curve (.error .openGeodeException)
  | d3 (loaded res) : ReadAs pf surfaceCurveKinds (pf.extension surface) .triangulatedSurface3 →
      Both rt.lastArgumentFirst (pf.loadTriangulatedSurface3 meshLibraries surface) (pf.loadEdgedCurve3 meshLibraries curve) loaded →
      LoadedThen loaded (fun x => curveIntersectingElements (pf.surfaceCurveTree3 x.1 x.2)
        (edgeIntersectsTriangle3D (pf.surfaceCurve3 x.1 x.2))) Issues.string res →
      SurfaceCurveResult pf rt surface curve res
  | d2 (loaded res) : ReadAs pf surfaceCurveKinds (pf.extension surface) .triangulatedSurface2 →
      Both rt.lastArgumentFirst (pf.loadTriangulatedSurface2 meshLibraries surface) (pf.loadEdgedCurve2 meshLibraries curve) loaded →
      LoadedThen loaded (fun x => curveIntersectingElements (pf.surfaceCurveTree2 x.1 x.2)
        (edgeIntersectsTriangle2D (pf.surfaceCurve2 x.1 x.2))) Issues.string res →
      SurfaceCurveResult pf rt surface curve res

/-- What Abseil does with the options of the usage messages: an option that is not a declared flag, nor the negation
`--noX` of a declared flag `X`, stops the program with code 1. -/
def RejectsUndeclared (pf : Platform P2 P3) : Prop :=
  ∀ flags file option, (∃ f ∈ flags, f.name = "input") →
    option ∈ ["--noadjacency", "--nocolocation", "--nocomponent_linking"] →
    (∀ f ∈ flags, option ≠ "--" ++ f.name ∧ option ≠ "--no" ++ f.name) →
    pf.parse flags ["--input", file, option] = .stop 1

/-- What Abseil does with a declared option alone: it takes its value. -/
def AcceptsInput (pf : Platform P2 P3) : Prop :=
  ∀ flags file, (∃ f ∈ flags, f.name = "input") →
    ∃ flag, pf.parse flags ["--input", file] = .values flag ∧ flag "input" = file

/-- The outcomes of the eleven tools, with the flags they declare. -/
def toolOutcomes (pf : Platform P2 P3) (rt : ToolRuntime) (arguments : List String) : List (List Flag × Outcome) :=
  [(pointSetToolFlags, pointSetTool pf arguments), (edgedCurveToolFlags, edgedCurveTool pf rt arguments),
   (surfaceToolFlags, surfaceTool pf rt arguments), (solidToolFlags, solidTool pf rt arguments),
   (surfaceCurveToolFlags, surfaceCurveTool pf rt arguments), (sectionToolFlags, sectionTool pf rt arguments),
   (crossSectionToolFlags, crossSectionTool pf rt arguments),
   (implicitCrossSectionToolFlags, implicitCrossSectionTool pf rt arguments), (brepToolFlags, brepTool pf rt arguments),
   (structuralModelToolFlags, structuralModelTool pf rt arguments),
   (implicitStructuralModelToolFlags, implicitStructuralModelTool pf rt arguments)]

end Inspector.Spec
