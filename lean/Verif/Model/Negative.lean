import Verif.Model.Results
import Verif.Model.Degeneration
/-
Model of the negative elements criteria (paths relative to src/geode/inspector/inspection/criterion/):
negative_elements/{surface,solid,section_meshes,brep_meshes}_negative_elements.cpp.
-/
namespace Inspector

/-- `geode::Sign` (external). -/
inductive Sign where
  | negative | zero | positive
  deriving DecidableEq, Repr

/-- What the criterion reads of a `SurfaceMesh` (external): sign of the area of its polygons. -/
structure SignedSurface where
  nbPolygons : Nat
  polygonAreaSign : Index → Sign

/-- What the criterion reads of a `SolidMesh` (external): vertices of the polyhedra, sign of the volume
of the tetrahedron made of four vertices, volume of a polyhedron. -/
structure SignedSolid where
  nbPolyhedra : Nat
  nbPolyhedronVertices : Index → Nat
  polyhedronVertex : Nat × Nat → Index
  tetrahedronVolumeSign : Index → Index → Index → Index → Sign
  polyhedronVolume : Index → Dbl

/-- `SurfaceMeshNegativeElements::Impl::mesh_has_negative_elements`,
negative_elements/surface_negative_elements.cpp:45-59. -/
def surfaceHasNegativeElements (dimension : Nat) (mesh : SignedSurface) : Bool :=
  if dimension == 2 then
    loopAny (fun polygon_id => mesh.polygonAreaSign polygon_id == .negative) (List.range mesh.nbPolygons)
  else false

/-- `SurfaceMeshNegativeElements::Impl::negative_polygons`,
negative_elements/surface_negative_elements.cpp:61-79. -/
def negativePolygons (dimension : Nat) (mesh : SignedSurface) : Issues Index :=
  if dimension == 2 then
    collect "negative area polygons" (List.range mesh.nbPolygons)
      (fun polygon_id => mesh.polygonAreaSign polygon_id == .negative)
      (fun polygon_id => "negative polygon " ++ toString polygon_id)
  else Issues.new "negative area polygons"

/-- `SolidMeshNegativeElements::Impl::polyhedron_has_negative_volume`,
negative_elements/solid_negative_elements.cpp:73-88. -/
def polyhedronHasNegativeVolume (mesh : SignedSolid) (polyhedron_id : Index) : Bool :=
  if mesh.nbPolyhedronVertices polyhedron_id == 4 then
    mesh.tetrahedronVolumeSign (mesh.polyhedronVertex (polyhedron_id, 0))
      (mesh.polyhedronVertex (polyhedron_id, 1)) (mesh.polyhedronVertex (polyhedron_id, 2))
      (mesh.polyhedronVertex (polyhedron_id, 3)) == .negative
  else (mesh.polyhedronVolume polyhedron_id).lt (.num 0)

/-- `SolidMeshNegativeElements::Impl::mesh_has_negative_elements`,
negative_elements/solid_negative_elements.cpp:44-54. -/
def solidHasNegativeElements (mesh : SignedSolid) : Bool :=
  loopAny (fun polyhedron_id => polyhedronHasNegativeVolume mesh polyhedron_id)
    (List.range mesh.nbPolyhedra)

/-- `SolidMeshNegativeElements::Impl::negative_polyhedra`,
negative_elements/solid_negative_elements.cpp:56-70. -/
def negativePolyhedra (mesh : SignedSolid) : Issues Index :=
  collect "negative volume polyhedra" (List.range mesh.nbPolyhedra)
    (fun polyhedron_id => polyhedronHasNegativeVolume mesh polyhedron_id)
    (fun polyhedron_id => "negative polyhedron " ++ toString polyhedron_id)

/-- `SectionComponentMeshesNegativeElements::Impl::surface_negative_elements`,
negative_elements/section_meshes_negative_elements.cpp:63-80 (returned by `inspect_negative_elements`). -/
def inspectSectionNegativeElements (surfaces : List (MeasuredComponent SignedSurface)) :
    SectionMeshesNegativeElementsInspectionResult :=
  let result : SectionMeshesNegativeElementsInspectionResult := {}
  { negative_polygons := (surfaces.filter fun s => s.active).foldl (fun map surface =>
      map.addIssues surface.id ((negativePolygons 2 surface.mesh).setDescription
        ("Surface " ++ surface.label ++ " negative polygons"))) result.negative_polygons }

/-- `BRepComponentMeshesNegativeElements::Impl::block_negative_elements`,
negative_elements/brep_meshes_negative_elements.cpp:61-78 (returned by `inspect_negative_elements`). -/
def inspectBRepNegativeElements (blocks : List (MeasuredComponent SignedSolid)) :
    BRepMeshesNegativeElementsInspectionResult :=
  let result : BRepMeshesNegativeElementsInspectionResult := {}
  { negative_polyhedra := (blocks.filter fun b => b.active).foldl (fun map block =>
      map.addIssues block.id ((negativePolyhedra block.mesh).setDescription
        ("Block " ++ block.label ++ " negative polyhedra"))) result.negative_polyhedra }

end Inspector
