import Verif.Model.Results
/-
Model of the colocation criteria (paths relative to src/geode/inspector/inspection/criterion/):
internal/colocation_impl.cpp, colocation/component_meshes_colocation.cpp,
colocation/unique_vertices_colocation.cpp (and the thin wrappers
colocation/{pointset,edgedcurve,surface,solid}_colocation.cpp which only forward).
-/
namespace Inspector

/-- `NNSearch::ColocatedInfo` (external): for each point the index of its unique point, and the
unique points. -/
structure ColocatedInfo (P : Type) where
  colocated_mapping : List Index
  unique_points : List P

/-- `ColocatedInfo::nb_unique_points` (external). -/
def ColocatedInfo.nbUniquePoints {P : Type} (i : ColocatedInfo P) : Nat := i.unique_points.length

/-- `ColocatedInfo::nb_colocated_points` (external): `index_t` subtraction of two sizes. -/
def ColocatedInfo.nbColocatedPoints {P : Type} (i : ColocatedInfo P) : UInt32 :=
  UInt32.ofNat i.colocated_mapping.length - UInt32.ofNat i.nbUniquePoints

/-- What the colocation criteria see of a mesh: the positions of its vertices (`nb_vertices` is the
length of the list). -/
structure PointMesh (P : Type) where
  points : List P

/-- `mesh_points_colocated_info`, internal/colocation_impl.cpp:37-50 (the loop copies all the points
in order).  `search` is the external
`NNSearch{ points }.colocated_index_mapping( GLOBAL_EPSILON )`. -/
def meshPointsColocatedInfo {P : Type} (search : List P → ColocatedInfo P) (mesh : PointMesh P) :
    ColocatedInfo P :=
  search mesh.points

/-- `vector[i].push_back( x )`: `none` (undefined behaviour) if `i` is out of bounds. -/
def pushAt (v : List (List Index)) (i : Index) (x : Index) : Option (List (List Index)) :=
  if i < v.length then some (v.modify i fun group => group ++ [x]) else none

/-- The bucket filling loop, internal/colocation_impl.cpp:60-68: for each index of the mapping, in
order. -/
def fillBuckets : (mapping : List Index) → (point_index : Nat) → List (List Index) →
    Option (List (List Index))
  | [], _, buckets => some buckets
  | u :: rest, point_index, buckets =>
    match pushAt buckets u point_index with
    | none => none
    | some buckets => fillBuckets rest (point_index + 1) buckets

/-- text of a group of vertex indices, internal/colocation_impl.cpp:81-85. -/
def groupString (group : List Index) : String :=
  group.foldl (fun s i => s ++ " " ++ toString i) ""

/-- `colocated_points_groups`, internal/colocation_impl.cpp:54-95 (`remove_if` + `erase` is a
filter).  `none` is undefined behaviour (a mapping value out of bounds).  `pointString` is the
external `Point::string`; a missing unique point prints as an empty text (never happens when the
result is not `none`). -/
def colocatedPointsGroups {P : Type} (search : List P → ColocatedInfo P) (pointString : P → String)
    (mesh : PointMesh P) : Option (Issues (List Index)) :=
  let info := meshPointsColocatedInfo search mesh
  match fillBuckets info.colocated_mapping 0 (List.replicate info.nbUniquePoints []) with
  | none => none
  | some buckets =>
    let groups := buckets.filter fun group => !(group.length < 2)
    some (groups.foldl (fun issues group => issues.add group
      ("vertices " ++ groupString group ++ " are colocated at the position ["
        ++ ((info.unique_points[(info.colocated_mapping[group.headD 0]?).getD 0]?).elim "" pointString)
        ++ "]")) (Issues.new "groups of colocated points"))

/-- `mesh_has_colocated_points`, internal/colocation_impl.cpp:110-116. -/
def meshHasColocatedPoints {P : Type} (search : List P → ColocatedInfo P) (mesh : PointMesh P) : Bool :=
  (meshPointsColocatedInfo search mesh).nbColocatedPoints > 0

/-! ### component_meshes_colocation.cpp -/

/-- The inner loop over `second_id`, component_meshes_colocation.cpp:69-78.  `uv v` is
`model.unique_vertex( { component_id, v } )`, `NO_ID` being a value as any other.  `getD` never uses
its default: the indices are in range. -/
def markSame (uv : Index → Index) (point_group : List Index) (first_id : Nat) (flags : List Bool) :
    List Bool :=
  (List.range' (first_id + 1) (point_group.length - (first_id + 1))).foldl (fun flags second_id =>
    if uv (point_group.getD first_id 0) == uv (point_group.getD second_id 0)
    then flags.set (second_id - 1) false else flags) flags

/-- The outer loop over `first_id`, component_meshes_colocation.cpp:61-79. -/
def filterFlags (uv : Index → Index) (point_group : List Index) : List Bool :=
  (List.range (point_group.length - 1)).foldl (fun flags first_id =>
    if !(flags.getD first_id true) then flags else markSame uv point_group first_id flags)
    (List.replicate (point_group.length - 1) true)

/-- One group, component_meshes_colocation.cpp:57-94: `none` when nothing is kept.  (For an empty
group `point_group.size() - 1` would wrap around; colocated groups have at least two points, see
C09.) -/
def filterGroup (uv : Index → Index) (point_group : List Index) : Option (List Index) :=
  let flags := filterFlags uv point_group
  let colocated_points := ((List.range flags.length).filter fun pt_id => flags.getD pt_id false).map
    fun pt_id => point_group.getD (pt_id + 1) 0
  if colocated_points.isEmpty then none else some (colocated_points ++ [point_group.getD 0 0])

/-- `filter_colocated_points_with_same_unique_vertex`, component_meshes_colocation.cpp:47-96. -/
def filterColocatedPoints (uv : Index → Index) (groups : List (List Index)) : List (List Index) :=
  groups.foldl (fun acc point_group =>
    match filterGroup uv point_group with
    | none => acc
    | some g => acc ++ [g]) []

/-- A component with a mesh, as seen by the colocation criterion: id, activity, mesh, unique vertex
of each mesh vertex.  `label` is its name followed by its id in the messages. -/
structure PointComponent (P : Type) where
  id : Uuid
  active : Bool
  label : String
  mesh : PointMesh P
  uniqueVertex : Index → Index

/-- Body of the loop over active lines / surfaces / blocks,
component_meshes_colocation.cpp:103-139, 140-176, 194-228 (the three are the same up to the word
`Line`/`Surface`/`Block` in the texts, given by `kind`). -/
def addComponentColocation {P : Type} (search : List P → ColocatedInfo P)
    (pointString : P → String) (kind : String) (c : PointComponent P)
    (map : IssuesMap (List Index)) : Option (IssuesMap (List Index)) :=
  match colocatedPointsGroups search pointString c.mesh with
  | none => none
  | some groups =>
    let colocated_pts := filterColocatedPoints c.uniqueVertex groups.issues
    if colocated_pts.isEmpty then some map
    else
      some (map.addIssues c.id (colocated_pts.foldl (fun issues group => issues.add group
        (kind ++ c.label ++ " has vertices " ++ groupString group ++ " colocated at position ["
          ++ ((c.mesh.points[group.headD 0]?).elim "" pointString) ++ "]"))
        (Issues.new (kind ++ c.label ++ " colocated vertices"))))

/-- Loop over the active components of one kind. -/
def addComponentsColocation {P : Type} (search : List P → ColocatedInfo P)
    (pointString : P → String) (kind : String) (cs : List (PointComponent P))
    (map : Option (IssuesMap (List Index))) : Option (IssuesMap (List Index)) :=
  (cs.filter fun c => c.active).foldl (fun map c => map.bind fun map =>
    addComponentColocation search pointString kind c map) map

/-- `inspect_meshes_point_colocations` of a Section, component_meshes_colocation.cpp:98-186,
282-289. -/
def inspectMeshesPointColocationsSection {P : Type} (search : List P → ColocatedInfo P)
    (pointString : P → String) (lines surfaces : List (PointComponent P)) :
    Option (IssuesMap (List Index)) :=
  let map := addComponentsColocation search pointString "Line " lines
    (some (IssuesMap.new "colocated points"))
  addComponentsColocation search pointString "Surface " surfaces map

/-- `inspect_meshes_point_colocations` of a BRep, component_meshes_colocation.cpp:98-177, 188-229,
282-289. -/
def inspectMeshesPointColocationsBRep {P : Type} (search : List P → ColocatedInfo P)
    (pointString : P → String) (lines surfaces blocks : List (PointComponent P)) :
    Option (IssuesMap (List Index)) :=
  let map := addComponentsColocation search pointString "Line " lines
    (some (IssuesMap.new "colocated points"))
  let map := addComponentsColocation search pointString "Surface " surfaces map
  addComponentsColocation search pointString "Block " blocks map

/-! ### unique_vertices_colocation.cpp -/

/-- The part of a Section / BRep (external) read by `UniqueVerticesColocation`. -/
structure UVModel (P : Type) where
  nbUniqueVertices : Nat
  componentMeshVertices : Index → List ComponentMeshVertex
  isActive : Uuid → Bool
  cornerPoint : Uuid → Index → P
  linePoint : Uuid → Index → P
  surfacePoint : Uuid → Index → P
  blockPoint : Uuid → Index → P

/-- `model_cmv_is_colocated_on_point_base`, unique_vertices_colocation.cpp:51-71. -/
def cmvIsColocatedBase {P : Type} (inexactEqual : P → P → Bool) (m : UVModel P)
    (cmv : ComponentMeshVertex) (point : P) : Bool :=
  if cmv.component_id.type == .line then inexactEqual point (m.linePoint cmv.component_id.id cmv.vertex)
  else if cmv.component_id.type == .surface then
    inexactEqual point (m.surfacePoint cmv.component_id.id cmv.vertex)
  else inexactEqual point (m.cornerPoint cmv.component_id.id cmv.vertex)

/-- `model_cmv_is_colocated_on_point`, unique_vertices_colocation.cpp:73-94: Section (`brep` false)
or BRep (`brep` true). -/
def cmvIsColocated {P : Type} (brep : Bool) (inexactEqual : P → P → Bool) (m : UVModel P)
    (cmv : ComponentMeshVertex) (point : P) : Bool :=
  if brep && cmv.component_id.type == .block then
    inexactEqual point (m.blockPoint cmv.component_id.id cmv.vertex)
  else cmvIsColocatedBase inexactEqual m cmv point

/-- `model_cmvs_are_colocated_on_point`, unique_vertices_colocation.cpp:96-112. -/
def cmvsAreColocated {P : Type} (brep : Bool) (inexactEqual : P → P → Bool) (m : UVModel P) :
    List ComponentMeshVertex → P → Bool
  | [], _ => true
  | cmv :: cmvs, point =>
    if !(m.isActive cmv.component_id.id) then cmvsAreColocated brep inexactEqual m cmvs point
    else if !(cmvIsColocated brep inexactEqual m cmv point) then false
    else cmvsAreColocated brep inexactEqual m cmvs point

/-- `model_cmv_point`, unique_vertices_colocation.cpp:115-133. -/
def modelCmvPoint {P : Type} (m : UVModel P) (cmv : ComponentMeshVertex) : P :=
  if cmv.component_id.type == .line then m.linePoint cmv.component_id.id cmv.vertex
  else if cmv.component_id.type == .surface then m.surfacePoint cmv.component_id.id cmv.vertex
  else m.cornerPoint cmv.component_id.id cmv.vertex

/-- `model_unique_vertex_point`, unique_vertices_colocation.cpp:135-170. -/
def modelUniqueVertexPoint {P : Type} (brep : Bool) (m : UVModel P) :
    List ComponentMeshVertex → Option P
  | [] => none
  | cmv :: cmvs =>
    if !(m.isActive cmv.component_id.id) then modelUniqueVertexPoint brep m cmvs
    else if brep && cmv.component_id.type == .block then
      some (m.blockPoint cmv.component_id.id cmv.vertex)
    else some (modelCmvPoint m cmv)

/-- `builder->delete_vertices( to_delete )` (external) on a point set: the remaining points in the
same order, and the new index of each vertex (`none` is `NO_ID`). -/
def deleteVertices {P : Type} : List (Bool × P) → (next : Nat) → List P × List (Option Index)
  | [], _ => ([], [])
  | (true, _) :: rest, next =>
    let r := deleteVertices rest next
    (r.1, none :: r.2)
  | (false, p) :: rest, next =>
    let r := deleteVertices rest (next + 1)
    (p :: r.1, some next :: r.2)

/-- State of `UniqueVerticesColocation::Impl`: the point set of active unique vertices and the
mapping `uv_to_active_uv_` (pairs in the order of the `map` calls). -/
structure UVColocation (P : Type) where
  activeUvPointset : List P
  uvToActiveUv : List (Index × Option Index)

/-- Constructor, unique_vertices_colocation.cpp:195-220.  `origin` is the position given by
`create_vertices` to vertices that are not assigned. -/
def UVColocation.create {P : Type} (brep : Bool) (origin : P) (m : UVModel P) : UVColocation P :=
  let vertices := (List.range m.nbUniqueVertices).map fun unique_vertex_id =>
    match modelUniqueVertexPoint brep m (m.componentMeshVertices unique_vertex_id) with
    | some point => (false, point)
    | none => (true, origin)
  let deleted := deleteVertices vertices 0
  { activeUvPointset := deleted.1,
    uvToActiveUv := (List.range deleted.2.length).map fun i => (i, (deleted.2[i]?).getD none) }

/-- `uv_to_active_uv_.in2out( uv ).at( 0 )` (external `GenericMapping`): outer `none` is an
exception. -/
def UVColocation.in2out {P : Type} (s : UVColocation P) (uv : Index) : Option (Option Index) :=
  (s.uvToActiveUv.find? fun p => p.1 == uv).map Prod.snd

/-- `uv_to_active_uv_.out2in( active_uv ).at( 0 )`: `none` is an exception. -/
def UVColocation.out2in {P : Type} (s : UVColocation P) (active : Index) : Option Index :=
  (s.uvToActiveUv.find? fun p => p.2 == some active).map Prod.fst

/-- The test of one unique vertex shared by the two loops below,
unique_vertices_colocation.cpp:227-238 / 259-265: `none` is an exception or undefined behaviour. -/
def uvTest {P : Type} (brep : Bool) (inexactEqual : P → P → Bool) (m : UVModel P)
    (s : UVColocation P) (uv : Index) : Option Bool :=
  match s.in2out uv with
  | none => none
  | some none => some false
  | some (some active) =>
    match s.activeUvPointset[active]? with
    | none => none
    | some point =>
      some (!(cmvsAreColocated brep inexactEqual m (m.componentMeshVertices uv) point))

/-- `model_has_unique_vertices_linked_to_different_points`,
unique_vertices_colocation.cpp:222-241. -/
def hasUvsLinkedToDifferentPoints {P : Type} (brep : Bool) (inexactEqual : P → P → Bool)
    (m : UVModel P) (s : UVColocation P) : List Index → Option Bool
  | [] => some false
  | uv :: uvs =>
    match uvTest brep inexactEqual m s uv with
    | none => none
    | some true => some true
    | some false => hasUvsLinkedToDifferentPoints brep inexactEqual m s uvs

/-- `add_unique_vertices_linked_to_different_points`, unique_vertices_colocation.cpp:253-275. -/
def addUvsLinkedToDifferentPoints {P : Type} (brep : Bool) (inexactEqual : P → P → Bool)
    (m : UVModel P) (s : UVColocation P) : List Index → Issues Index → Option (Issues Index)
  | [], issues => some issues
  | uv :: uvs, issues =>
    match uvTest brep inexactEqual m s uv with
    | none => none
    | some true => addUvsLinkedToDifferentPoints brep inexactEqual m s uvs
        (issues.add uv ("unique vertex " ++ toString uv ++
          " is linked to several mesh vertices on different positions"))
    | some false => addUvsLinkedToDifferentPoints brep inexactEqual m s uvs issues

/-- The inner loop mapping a group back to the model, unique_vertices_colocation.cpp:289-295: `none`
is an exception of `at( 0 )`. -/
def fixPointGroup {P : Type} (s : UVColocation P) : List Index → Option (List Index)
  | [] => some []
  | active_uv_index :: rest =>
    match s.out2in active_uv_index, fixPointGroup s rest with
    | some model_uv_index, some fixed => some (model_uv_index :: fixed)
    | _, _ => none

/-- The loop over the groups, unique_vertices_colocation.cpp:285-301. -/
def addFixedGroups {P : Type} (pointString : P → String) (s : UVColocation P) :
    List (List Index) → Issues (List Index) → Option (Issues (List Index))
  | [], issues => some issues
  | point_group :: rest, issues =>
    match fixPointGroup s point_group with
    | none => none
    | some fixed => addFixedGroups pointString s rest (issues.add fixed
        ("unique vertices " ++ groupString fixed ++ " are colocated at the position ["
          ++ ((s.activeUvPointset[point_group.headD 0]?).elim "" pointString) ++ "]"))

/-- `add_colocated_unique_vertices_groups`, unique_vertices_colocation.cpp:277-302. -/
def addColocatedUvGroups {P : Type} (search : List P → ColocatedInfo P) (pointString : P → String)
    (s : UVColocation P) (issues : Issues (List Index)) : Option (Issues (List Index)) :=
  match colocatedPointsGroups search pointString ⟨s.activeUvPointset⟩ with
  | none => none
  | some groups => addFixedGroups pointString s groups.issues issues

/-- `model_has_colocated_unique_vertices`, unique_vertices_colocation.cpp:243-251. -/
def hasColocatedUvs {P : Type} (search : List P → ColocatedInfo P) (s : UVColocation P) : Bool :=
  meshHasColocatedPoints search ⟨s.activeUvPointset⟩

/-- `inspect_unique_vertices`, unique_vertices_colocation.cpp:336-350 (two tasks writing different
lists; scheduling is the subject of C53).  `none` is an exception or undefined behaviour. -/
def inspectUniqueVertices {P : Type} (brep : Bool) (origin : P) (inexactEqual : P → P → Bool)
    (search : List P → ColocatedInfo P) (pointString : P → String) (m : UVModel P) :
    Option UniqueVerticesInspectionResult :=
  let s := UVColocation.create brep origin m
  let result : UniqueVerticesInspectionResult := {}
  match addColocatedUvGroups search pointString s result.colocated_unique_vertices_groups,
    addUvsLinkedToDifferentPoints brep inexactEqual m s (List.range m.nbUniqueVertices)
      result.unique_vertices_linked_to_different_points with
  | some groups, some different => some { colocated_unique_vertices_groups := groups,
                                          unique_vertices_linked_to_different_points := different }
  | _, _ => none

end Inspector
