import Verif.Model.Results
/-
Model of the degeneration criteria (paths relative to src/geode/inspector/inspection/criterion/):
internal/degeneration_impl.cpp, degeneration/{edgedcurve,surface,solid}_degeneration.cpp,
internal/component_meshes_degeneration.cpp, degeneration/{section,brep}_meshes_degeneration.cpp.
-/
namespace Inspector

/-- What the criterion reads of an `EdgedCurve` (external): lengths and degeneration of its edges. -/
structure CurveMeasures where
  nbEdges : Nat
  edgeLength : Index → Dbl
  isEdgeDegenerated : Index → Bool
  edgeText : Index → String := fun _ => ""

/-- What the criterion reads of a `SurfaceMesh` / `SolidMesh` (external) whose edges are enabled:
edge vertices, distance between two vertices (`point_point_distance` of their points), minimum
height and degeneration of its polygons / polyhedra. -/
structure ElementMeasures where
  nbEdges : Nat
  edgeVertices : Index → Index × Index
  distance : Index → Index → Dbl
  nbElements : Nat
  minimumHeight : Index → Dbl
  isElementDegenerated : Index → Bool
  pointText : Index → String := fun _ => ""

/-- `EdgedCurveDegeneration::Impl::is_mesh_degenerated`, degeneration/edgedcurve_degeneration.cpp:42-52. -/
def curveIsMeshDegenerated (mesh : CurveMeasures) : Bool :=
  loopAny (fun edge_id => mesh.isEdgeDegenerated edge_id) (List.range mesh.nbEdges)

/-- `EdgedCurveDegeneration::Impl::small_edges`, degeneration/edgedcurve_degeneration.cpp:54-70. -/
def curveSmallEdges (mesh : CurveMeasures) (threshold : Dbl) : Issues Index :=
  collect "degenerated edges." (List.range mesh.nbEdges)
    (fun edge_id => (mesh.edgeLength edge_id).le threshold)
    (fun edge_id => "degenerated edge " ++ toString edge_id ++ ", at position [" ++
      mesh.edgeText edge_id ++ "]")

/-- `EdgedCurveDegeneration::Impl::degenerated_edges`, degeneration/edgedcurve_degeneration.cpp:72-75.
`eps` is `GLOBAL_EPSILON`. -/
def curveDegeneratedEdges (eps : Dbl) (mesh : CurveMeasures) : Issues Index :=
  curveSmallEdges mesh eps

/-- `edge_is_smaller_than_threshold`, internal/degeneration_impl.cpp:100-109. -/
def edgeIsSmallerThanThreshold (mesh : ElementMeasures) (edge_index : Index) (threshold : Dbl) : Bool :=
  let edge_vertices := mesh.edgeVertices edge_index
  (mesh.distance edge_vertices.1 edge_vertices.2).lt threshold

/-- `edge_is_degenerated`, internal/degeneration_impl.cpp:121-126. -/
def edgeIsDegenerated (eps : Dbl) (mesh : ElementMeasures) (edge_index : Index) : Bool :=
  edgeIsSmallerThanThreshold mesh edge_index eps

/-- `DegenerationImpl::is_mesh_degenerated`, internal/degeneration_impl.cpp:55-67 (the enabling of
the edges is modelled by `enableEdgesOnMesh` below). -/
def edgesAreDegenerated (eps : Dbl) (mesh : ElementMeasures) : Bool :=
  loopAny (fun edge_index => edgeIsDegenerated eps mesh edge_index) (List.range mesh.nbEdges)

/-- `DegenerationImpl::small_edges`, internal/degeneration_impl.cpp:69-91. -/
def smallEdges (mesh : ElementMeasures) (threshold : Dbl) : Issues Index :=
  collect "degenerated edges" (List.range mesh.nbEdges)
    (fun edge_index => edgeIsSmallerThanThreshold mesh edge_index threshold)
    (fun edge_index => "degenerated edge between vertices " ++
      toString (mesh.edgeVertices edge_index).1 ++ " and " ++
      toString (mesh.edgeVertices edge_index).2 ++ ", at position [" ++
      mesh.pointText (mesh.edgeVertices edge_index).1 ++ "]")

/-- `DegenerationImpl::degenerated_edges`, internal/degeneration_impl.cpp:93-98. -/
def degeneratedEdges (eps : Dbl) (mesh : ElementMeasures) : Issues Index := smallEdges mesh eps

/-- `SurfaceMeshDegeneration::Impl::is_mesh_degenerated`, degeneration/surface_degeneration.cpp:49-64. -/
def surfaceIsMeshDegenerated (eps : Dbl) (mesh : ElementMeasures) : Bool :=
  if edgesAreDegenerated eps mesh then true
  else loopAny (fun polygon_id => mesh.isElementDegenerated polygon_id) (List.range mesh.nbElements)

/-- `SolidMeshDegeneration::Impl::is_mesh_degenerated`, degeneration/solid_degeneration.cpp:49-65. -/
def solidIsMeshDegenerated (eps : Dbl) (mesh : ElementMeasures) : Bool :=
  if edgesAreDegenerated eps mesh then true
  else loopAny (fun polyhedron_id => mesh.isElementDegenerated polyhedron_id) (List.range mesh.nbElements)

/-- `SurfaceMeshDegeneration::Impl::small_height_polygons`, degeneration/surface_degeneration.cpp:66-82. -/
def smallHeightPolygons (mesh : ElementMeasures) (threshold : Dbl) : Issues Index :=
  collect "Degenerated Polygons." (List.range mesh.nbElements)
    (fun polygon_id => (mesh.minimumHeight polygon_id).le threshold)
    (fun polygon_id => "degenerated polygons " ++ toString polygon_id)

/-- `SurfaceMeshDegeneration::Impl::degenerated_polygons`, degeneration/surface_degeneration.cpp:84-87. -/
def degeneratedPolygons (eps : Dbl) (mesh : ElementMeasures) : Issues Index :=
  smallHeightPolygons mesh eps

/-- `SolidMeshDegeneration::Impl::small_height_polyhedra`, degeneration/solid_degeneration.cpp:67-85. -/
def smallHeightPolyhedra (mesh : ElementMeasures) (threshold : Dbl) : Issues Index :=
  collect "Degenerated Polyhedra." (List.range mesh.nbElements)
    (fun polyhedron_id => (mesh.minimumHeight polyhedron_id).le threshold)
    (fun polyhedron_id => "degenerated polyhedra " ++ toString polyhedron_id)

/-- `SolidMeshDegeneration::Impl::degenerated_polyhedra`, degeneration/solid_degeneration.cpp:87-90. -/
def degeneratedPolyhedra (eps : Dbl) (mesh : ElementMeasures) : Issues Index :=
  smallHeightPolyhedra mesh eps

/-! ### models -/

/-- A component of a model with the measures of its mesh. -/
structure MeasuredComponent (M : Type) where
  id : Uuid
  active : Bool
  label : String
  mesh : M

/-- Components read by the degeneration criterion of a model (no block for a Section). -/
structure DegenerationModel where
  lines : List (MeasuredComponent CurveMeasures)
  surfaces : List (MeasuredComponent ElementMeasures)
  blocks : List (MeasuredComponent ElementMeasures) := []

/-- `add_small_edges`, internal/component_meshes_degeneration.cpp:59-122: the results of the tasks are
added in the order of the components (`when_all` keeps the order of the tasks). -/
def addSmallEdges (model : DegenerationModel) (threshold : Dbl) (map : IssuesMap Index) : IssuesMap Index :=
  let map := (model.lines.filter fun l => l.active).foldl (fun map line =>
    map.addIssues line.id ((curveSmallEdges line.mesh threshold).setDescription
      ("Line " ++ line.label ++ " small edges"))) map
  (model.surfaces.filter fun s => s.active).foldl (fun map surface =>
    map.addIssues surface.id ((smallEdges surface.mesh threshold).setDescription
      ("Surface " ++ surface.label ++ " small facet edges"))) map

/-- `add_small_height_polygons`, internal/component_meshes_degeneration.cpp:131-159. -/
def addSmallHeightPolygons (model : DegenerationModel) (threshold : Dbl) (map : IssuesMap Index) :
    IssuesMap Index :=
  (model.surfaces.filter fun s => s.active).foldl (fun map surface =>
    map.addIssues surface.id ((smallHeightPolygons surface.mesh threshold).setDescription
      ("Surface " ++ surface.label ++ " small height polygons"))) map

/-- `add_solid_small_elements`, degeneration/brep_meshes_degeneration.cpp:89-117: both maps. -/
def addSolidSmallElements (model : DegenerationModel) (threshold : Dbl)
    (maps : IssuesMap Index × IssuesMap Index) : IssuesMap Index × IssuesMap Index :=
  (model.blocks.filter fun b => b.active).foldl (fun maps block =>
    let small_edges := (smallEdges block.mesh threshold).setDescription
      ("Block " ++ block.label ++ " small edges polyhedra")
    let small_polyhedra := (smallHeightPolyhedra block.mesh threshold).setDescription
      ("Block " ++ block.label ++ " small height polyhedra")
    (maps.1.addIssues block.id small_edges, maps.2.addIssues block.id small_polyhedra)) maps

/-- `SectionComponentMeshesDegeneration::inspect_elements_degeneration`,
degeneration/section_meshes_degeneration.cpp:83-91. -/
def inspectSectionDegeneration (eps : Dbl) (model : DegenerationModel) :
    SectionMeshesDegenerationInspectionResult :=
  let result : SectionMeshesDegenerationInspectionResult := {}
  { degenerated_edges := addSmallEdges model eps result.degenerated_edges,
    degenerated_polygons := addSmallHeightPolygons model eps result.degenerated_polygons }

/-- `BRepComponentMeshesDegeneration::inspect_elements_degeneration`,
degeneration/brep_meshes_degeneration.cpp:140-149. -/
def inspectBRepDegeneration (eps : Dbl) (model : DegenerationModel) :
    BRepMeshesDegenerationInspectionResult :=
  let result : BRepMeshesDegenerationInspectionResult := {}
  let edges := addSmallEdges model eps result.degenerated_edges
  let polygons := addSmallHeightPolygons model eps result.degenerated_polygons
  let solids := addSolidSmallElements model eps (edges, result.degenerated_polyhedra)
  { degenerated_edges := solids.1, degenerated_polygons := polygons,
    degenerated_polyhedra := solids.2 }

/-- `BRepComponentMeshesDegeneration::inspect_edges_degeneration`,
degeneration/brep_meshes_degeneration.cpp:151-158. -/
def inspectBRepEdgesDegeneration (model : DegenerationModel) (threshold : Dbl) :
    BRepMeshesDegenerationInspectionResult :=
  let result : BRepMeshesDegenerationInspectionResult := {}
  { result with degenerated_edges := addSmallEdges model threshold result.degenerated_edges }

/-- `BRepComponentMeshesDegeneration::inspect_polygons_degeneration`,
degeneration/brep_meshes_degeneration.cpp:160-168. -/
def inspectBRepPolygonsDegeneration (model : DegenerationModel) (threshold : Dbl) :
    BRepMeshesDegenerationInspectionResult :=
  let result : BRepMeshesDegenerationInspectionResult := {}
  { result with degenerated_polygons := addSmallHeightPolygons model threshold result.degenerated_polygons }

/-- `BRepComponentMeshesDegeneration::inspect_polyhedra_degeneration`,
degeneration/brep_meshes_degeneration.cpp:170-178. -/
def inspectBRepPolyhedraDegeneration (model : DegenerationModel) (threshold : Dbl) :
    BRepMeshesDegenerationInspectionResult :=
  let result : BRepMeshesDegenerationInspectionResult := {}
  let solids := addSolidSmallElements model threshold (result.degenerated_edges, result.degenerated_polyhedra)
  { result with degenerated_edges := solids.1, degenerated_polyhedra := solids.2 }

/-! ### enabling and disabling the edges of the meshes -/

/-- A mesh on which edges can be enabled (`SurfaceMesh`, `SolidMesh`, or the mesh of a Surface or
Block). -/
abbrev MeshKey := Nat

/-- A live degeneration inspection object: on a mesh (`DegenerationImpl`, with its flag
`enabled_edges_`) or on a model (`ComponentMeshesDegeneration`, with `enabled_edges_surfaces_` and
`enabled_edges_blocks_`). -/
inductive DegenerationInspector where
  | mesh (key : MeshKey) (enabled_edges : Bool)
  | model (enabled_edges_surfaces : List MeshKey) (enabled_edges_blocks : List MeshKey)

/-- State of the program: which meshes have their edges enabled, the live inspectors by handle, and
the value of `are_edges_enabled()` seen at each loop over the edges of a mesh. -/
structure EdgesWorld where
  enabled : MeshKey → Bool
  alive : Nat → Option DegenerationInspector
  seen : List Bool := []

/-- `mesh.enable_edges()` (external): does nothing if already enabled. -/
def EdgesWorld.enable (w : EdgesWorld) (key : MeshKey) : EdgesWorld :=
  { w with enabled := fun k => if k = key then true else w.enabled k }

/-- `mesh.disable_edges()` (external): does nothing if already disabled. -/
def EdgesWorld.disable (w : EdgesWorld) (key : MeshKey) : EdgesWorld :=
  { w with enabled := fun k => if k = key then false else w.enabled k }

/-- The loop over `mesh_.edges()` of `is_mesh_degenerated` / `small_edges`, seen from the edges. -/
def EdgesWorld.loopOnEdges (w : EdgesWorld) (key : MeshKey) : EdgesWorld :=
  { w with seen := w.seen ++ [w.enabled key] }

/-- `enable_edges_on_mesh`, internal/degeneration_impl.cpp:111-119: new state and flag. -/
def EdgesWorld.enableEdgesOnMesh (w : EdgesWorld) (key : MeshKey) (flag : Bool) : EdgesWorld × Bool :=
  if !w.enabled key then (w.enable key, true) else (w, flag)

/-- `is_mesh_degenerated` or `small_edges` of a mesh inspector, internal/degeneration_impl.cpp:56-67:
new state and flag. -/
def EdgesWorld.queryMesh (w : EdgesWorld) (key : MeshKey) (flag : Bool) : EdgesWorld × Bool :=
  let r := w.enableEdgesOnMesh key flag
  (r.1.loopOnEdges key, r.2)

/-- `~DegenerationImpl`, internal/degeneration_impl.cpp:46-53. -/
def EdgesWorld.destroyMesh (w : EdgesWorld) (key : MeshKey) (flag : Bool) : EdgesWorld :=
  if flag then w.disable key else w

/-- `surfaces_on_which_enable_edges`, internal/component_meshes_degeneration.cpp:175-192: the surfaces
to enable and the new set. -/
def surfacesOnWhichEnableEdges (w : EdgesWorld) : List MeshKey → List MeshKey →
    List MeshKey × List MeshKey
  | [], set => ([], set)
  | surface :: rest, set =>
    if !w.enabled surface && !set.contains surface then
      let r := surfacesOnWhichEnableEdges w rest (set ++ [surface])
      (surface :: r.1, r.2)
    else surfacesOnWhichEnableEdges w rest set

/-- Body of a surface task, internal/component_meshes_degeneration.cpp:98-112: the inspector of the
task is created, queried and destroyed. -/
def EdgesWorld.surfaceTask (w : EdgesWorld) (enable_edges : Bool) (surface : MeshKey) : EdgesWorld :=
  let w := if enable_edges then w.enable surface else w
  let r := w.queryMesh surface false
  r.1.destroyMesh surface r.2

/-- `add_small_edges`, internal/component_meshes_degeneration.cpp:88-121, seen from the edges: new
state and set.  `schedule` is the order in which the tasks of the active surfaces run.  The tasks
capture by reference a variable of the loop body, whose lifetime may be over when they run: `read` is
what they find instead of the intended value. -/
def EdgesWorld.modelSmallEdges (w : EdgesWorld) (read : MeshKey → Bool → Bool)
    (active_surfaces schedule : List MeshKey) (set : List MeshKey) : EdgesWorld × List MeshKey :=
  let r := surfacesOnWhichEnableEdges w active_surfaces set
  (schedule.foldl (fun w surface => w.surfaceTask (read surface (r.1.contains surface)) surface) w, r.2)

/-- `add_solid_small_elements`, degeneration/brep_meshes_degeneration.cpp:89-117, seen from the
edges: new state and set. -/
def EdgesWorld.modelSolids (w : EdgesWorld) : List MeshKey → List MeshKey → EdgesWorld × List MeshKey
  | [], set => (w, set)
  | block :: rest, set =>
    let w1 := if !w.enabled block then w.enable block else w
    let set1 := if !w.enabled block then set ++ [block] else set
    let r := w1.queryMesh block false
    EdgesWorld.modelSolids (r.1.destroyMesh block r.2) rest set1

/-- `~Impl` and `~ComponentMeshesDegeneration`, degeneration/brep_meshes_degeneration.cpp:81-87 then
internal/component_meshes_degeneration.cpp:50-57. -/
def EdgesWorld.destroyModel (w : EdgesWorld) (surfaces blocks : List MeshKey) : EdgesWorld :=
  let w := blocks.foldl (fun w block => w.disable block) w
  surfaces.foldl (fun w surface => w.disable surface) w

/-- One action of a program using degeneration inspectors (handles are arbitrary numbers). -/
inductive DegenerationCall where
  /-- creation of an inspector on a mesh, internal/degeneration_impl.cpp:40-44 -/
  | createOnMesh (handle : Nat) (key : MeshKey)
  /-- creation of an inspector on a model, internal/component_meshes_degeneration.cpp:44-49 -/
  | createOnModel (handle : Nat)
  /-- `is_mesh_degenerated`, `small_edges` or `degenerated_edges` of an inspector on a mesh -/
  | query (handle : Nat)
  /-- `add_small_edges` of an inspector on a model -/
  | querySurfaces (handle : Nat) (read : MeshKey → Bool → Bool) (active_surfaces schedule : List MeshKey)
  /-- `add_solid_small_elements` of an inspector on a model -/
  | queryBlocks (handle : Nat) (active_blocks : List MeshKey)
  /-- destruction of an inspector -/
  | destroy (handle : Nat)

/-- Set the inspector of a handle. -/
def EdgesWorld.setAlive (w : EdgesWorld) (handle : Nat) (i : Option DegenerationInspector) : EdgesWorld :=
  { w with alive := fun h => if h = handle then i else w.alive h }

/-- Effect of one action on the state (actions on handles that are not live, and creations on live
ones, are not programs: they have no effect here). -/
def EdgesWorld.call (w : EdgesWorld) : DegenerationCall → EdgesWorld
  | .createOnMesh h key =>
    match w.alive h with
    | none => w.setAlive h (some (.mesh key false))
    | some _ => w
  | .createOnModel h =>
    match w.alive h with
    | none => w.setAlive h (some (.model [] []))
    | some _ => w
  | .query h =>
    match w.alive h with
    | some (.mesh key flag) =>
      let r := w.queryMesh key flag
      r.1.setAlive h (some (.mesh key r.2))
    | _ => w
  | .querySurfaces h read active_surfaces schedule =>
    match w.alive h with
    | some (.model surfaces blocks) =>
      let r := w.modelSmallEdges read active_surfaces schedule surfaces
      r.1.setAlive h (some (.model r.2 blocks))
    | _ => w
  | .queryBlocks h active_blocks =>
    match w.alive h with
    | some (.model surfaces blocks) =>
      let r := w.modelSolids active_blocks blocks
      r.1.setAlive h (some (.model surfaces r.2))
    | _ => w
  | .destroy h =>
    match w.alive h with
    | some (.mesh key flag) => (w.destroyMesh key flag).setAlive h none
    | some (.model surfaces blocks) => (w.destroyModel surfaces blocks).setAlive h none
    | none => w

/-- A whole history. -/
def EdgesWorld.run (w : EdgesWorld) (calls : List DegenerationCall) : EdgesWorld :=
  calls.foldl EdgesWorld.call w

end Inspector
