import Mathlib.Data.List.Dedup
import Mathlib.Data.List.Sort
import Verif.Model.Results
import Verif.Model.HashMap
/-
Model of topology/internal/topology_helpers.{hpp,cpp}, topology/section_corners_topology.cpp and
topology/brep_corners_topology.cpp.
-/
namespace Inspector

/-- A component of a model (external): Corner, Line, Surface or Block, with the sizes of its mesh.
`nbElements` is the number of edges, polygons or polyhedra. -/
structure TopologyComponent where
  id : Uuid
  active : Bool
  nbVertices : Nat
  nbElements : Nat
  deriving DecidableEq, Repr

/-- A Section or a BRep as read by the topology inspectors (external).  `uniqueVertex` is `none` for
`NO_ID`. -/
structure TopologyModel where
  components : ComponentType → List TopologyComponent
  nbUniqueVertices : Nat
  componentMeshVertices : Index → List ComponentMeshVertex
  uniqueVertex : ComponentMeshVertex → Option Index
  /-- `Relationships::is_boundary( boundary, incidence )` -/
  isBoundary : Uuid → Uuid → Bool
  /-- `Relationships::is_internal( internal, embedding )` -/
  isInternal : Uuid → Uuid → Bool
  embeddings : Uuid → List ComponentID
  incidences : Uuid → List ComponentID
  boundaries : Uuid → List ComponentID
  /-- `surface( id ).mesh().is_vertex_on_border( vertex )` -/
  isVertexOnBorder : Uuid → Index → Bool := fun _ _ => true
  /-- `component_mesh_edges( brep, line, edge ).surface_edges`: surfaces and numbers of edges -/
  surfaceEdges : Uuid → Index → HMap Uuid Nat := fun _ _ => []
  /-- `component_mesh_edges( brep, line, edge ).block_edges` -/
  blockEdges : Uuid → Index → HMap Uuid Nat := fun _ _ => []
  /-- `component_mesh_polygons( brep, surface, facet ).block_polygons` -/
  blockPolygons : Uuid → Index → HMap Uuid Nat := fun _ _ => []
  /-- `line.mesh().edge_vertices( edge )` -/
  lineEdgeVertices : Uuid → Index → List Index := fun _ edge => [edge, edge + 1]
  /-- `surface.mesh().polygon_vertices( polygon )` -/
  polygonVertices : Uuid → Index → List Index := fun _ _ => []
  /-- iteration order of a hash map -/
  iterate : HMap Uuid Nat → HMap Uuid Nat := id
  /-- `id.string()` -/
  uuidString : Uuid → String := toString
  /-- `component_id.string()` -/
  componentString : ComponentID → String := fun c => toString c.id
  /-- `corner( id ).name()`, `line( id ).name()`, ... -/
  nameOf : ComponentType → Uuid → Option String := fun _ _ => none
  /-- `corner( id ).mesh().point( vertex ).string()`, `block( id ).mesh().point( vertex ).string()` -/
  pointString : ComponentMeshVertex → String := fun _ => ""
  /-- `cmv.string()` -/
  cmvString : ComponentMeshVertex → String := fun cmv => toString cmv.vertex

namespace TopologyModel
variable (m : TopologyModel)

/-- `section.corner( id )`, `brep.block( id )`, ... (external): an exception for an unknown uuid. -/
def component (kind : ComponentType) (id : Uuid) : Except Failure TopologyComponent :=
  match (m.components kind).find? fun c => c.id == id with
  | some c => .ok c
  | none => .error .openGeodeException

/-- `section.active_corners()`, `brep.active_blocks()`, ... (external). -/
def activeComponents (kind : ComponentType) : List TopologyComponent :=
  (m.components kind).filter fun c => c.active

/-- `component.name().value_or( id.string() ), " (", id.string(), ")"`, how the messages name a component,
for instance section_corners_topology.cpp:224-228. -/
def label (kind : ComponentType) (id : Uuid) : String :=
  (m.nameOf kind id).getD (m.uuidString id) ++ " (" ++ m.uuidString id ++ ")"

/-- `nb_embeddings( id )` (external). -/
def nbEmbeddings (id : Uuid) : Nat := (m.embeddings id).length

/-- `nb_incidences( id )` (external). -/
def nbIncidences (id : Uuid) : Nat := (m.incidences id).length

/-- `incidences( line )`, `embedding_surfaces( line )`, `boundaries( block )`, ... (external): the related
components of a kind. -/
def related (_model : TopologyModel) (relation : List ComponentID) (kind : ComponentType) : List Uuid :=
  (relation.filter fun c => c.type == kind).map ComponentID.id

/-- `component_mesh_edges( brep, line, edge )` (external): surface and block edges around an edge of a line.
Undefined behaviour if a vertex of the edge has no unique vertex, see the comment of
brep_lines_topology.cpp:587-588. -/
def componentMeshEdges (line : Uuid) (edge : Index) :
    Except Failure (HMap Uuid Nat × HMap Uuid Nat) :=
  if (m.lineEdgeVertices line edge).any fun v => m.uniqueVertex ⟨⟨.line, line⟩, v⟩ == none then
    .error .undefinedBehaviour
  else .ok (m.surfaceEdges line edge, m.blockEdges line edge)

/-- `component_mesh_polygons( brep, surface, facet ).block_polygons` (external).  Undefined behaviour if a
vertex of the facet has no unique vertex, see the comment of brep_surfaces_topology.cpp:439-440. -/
def componentMeshPolygons (surface : Uuid) (facet : Index) : Except Failure (HMap Uuid Nat) :=
  if (m.polygonVertices surface facet).any fun v => m.uniqueVertex ⟨⟨.surface, surface⟩, v⟩ == none then
    .error .undefinedBehaviour
  else .ok (m.blockPolygons surface facet)

end TopologyModel

/-- The loop `for( x : range ) { ... return message; ... } return std::nullopt;`. -/
def findSomeM {α : Type} (f : α → Except Failure (Option String)) : List α → Except Failure (Option String)
  | [] => .ok none
  | x :: xs =>
    match f x with
    | .error e => .error e
    | .ok (some message) => .ok (some message)
    | .ok none => findSomeM f xs

/-- `if( cmv.component_id.type() != Kind || !model.kind( cmv.component_id.id() ).is_active() ) continue;`
followed by `body`, the pattern of the loops of the topology criteria. -/
def ifActive {β : Type} (m : TopologyModel) (kind : ComponentType) (cmv : ComponentMeshVertex)
    (skip : Except Failure β) (body : Except Failure β) : Except Failure β :=
  if cmv.component_id.type != kind then skip
  else
    match m.component kind cmv.component_id.id with
    | .error f => .error f
    | .ok c => if !c.active then skip else body

/-- `if( const auto message = check( v ) ) { issues.add_issue( v, message.value() ); }`. -/
def addOptional (issues : Issues Index) (v : Index) (message : Option String) : Issues Index :=
  match message with
  | some text => issues.add v text
  | none => issues

/-! ### topology_helpers -/

/-- `brep_blocks_are_meshed`, internal/topology_helpers.cpp:39-49. -/
def brepBlocksAreMeshed (m : TopologyModel) : Bool :=
  !loopAny (fun block => block.nbElements == 0) (m.components .block)

/-- `section_surfaces_are_meshed`, internal/topology_helpers.cpp:51-61. -/
def sectionSurfacesAreMeshed (m : TopologyModel) : Bool :=
  !loopAny (fun surface => surface.nbElements == 0) (m.components .surface)

/-- `components_uuids`, internal/topology_helpers.hpp:54-69 (`sort_unique` is external). -/
def componentsUuids (m : TopologyModel) (v : Index) (kind : ComponentType) : List Uuid :=
  ((((m.componentMeshVertices v).filter fun cmv => cmv.component_id.type == kind).map
    fun cmv => cmv.component_id.id).insertionSort (· ≤ ·)).dedup

/-- `model_component_vertices_are_associated_to_unique_vertices`,
internal/topology_helpers.hpp:72-87. -/
def verticesAreAssociated (m : TopologyModel) (kind : ComponentType) (c : TopologyComponent) : Bool :=
  !loopAny (fun v => m.uniqueVertex ⟨⟨kind, c.id⟩, v⟩ == none) (List.range c.nbVertices)

/-- `model_component_vertices_not_associated_to_unique_vertices`,
internal/topology_helpers.hpp:91-109. -/
def verticesNotAssociated (m : TopologyModel) (kind : ComponentType) (c : TopologyComponent) : Issues Index :=
  collect Issues.defaultDescription (List.range c.nbVertices)
    (fun v => m.uniqueVertex ⟨⟨kind, c.id⟩, v⟩ == none)
    (fun v => "vertex '" ++ toString v ++ " is not linked to a unique vertex.")

/-- The test of a component of an `inspect_...` loop:
`result = ...not_associated...; if( result.nb_issues() != 0 ) { set_description; add_issues_to_map; }`. -/
def addNotAssociated (m : TopologyModel) (kind : ComponentType) (label : String) (map : IssuesMap Index)
    (c : TopologyComponent) : IssuesMap Index :=
  let result := verticesNotAssociated m kind c
  if result.nbIssues != 0 then map.addIssues c.id (result.setDescription (label ++ m.label kind c.id)) else map

/-! ### section_corners_topology.cpp -/

/-- `SectionCornersTopology::corner_is_meshed`, section_corners_topology.cpp:153-157. -/
def cornerIsMeshed (c : TopologyComponent) : Bool := c.nbVertices != 0

/-- Loop of `section_corner_topology_is_valid`, section_corners_topology.cpp:105-150. -/
def sectionCornerLoop (m : TopologyModel) (cmvs : List ComponentMeshVertex) :
    List ComponentMeshVertex → Bool → Except Failure Bool
  | [], _ => .ok true
  | cmv :: rest, corner_found =>
    let corner_uuid := cmv.component_id.id
    ifActive m .corner cmv (sectionCornerLoop m cmvs rest corner_found)
      (if corner_found then .ok false
      else if m.nbEmbeddings corner_uuid > 1 then .ok false
      else if m.nbEmbeddings corner_uuid != 1 && m.nbIncidences corner_uuid < 1 then .ok false
      else if m.nbEmbeddings corner_uuid == 1 && m.nbIncidences corner_uuid > 1 then .ok false
      else if loopAny (fun line => line.component_id.type == .line &&
          !m.isBoundary corner_uuid line.component_id.id) cmvs then .ok false
      else sectionCornerLoop m cmvs rest true)

/-- `SectionCornersTopology::section_corner_topology_is_valid`, section_corners_topology.cpp:102-151. -/
def sectionCornerTopologyIsValid (m : TopologyModel) (v : Index) : Except Failure Bool :=
  sectionCornerLoop m (m.componentMeshVertices v) (m.componentMeshVertices v) false

/-- Loop of `unique_vertex_has_multiple_corners`, section_corners_topology.cpp:174-189. -/
def multipleCornersLoop (m : TopologyModel) (v : Index) :
    List ComponentMeshVertex → Bool → Except Failure (Option String)
  | [], _ => .ok none
  | cmv :: rest, corner_found =>
    ifActive m .corner cmv (multipleCornersLoop m v rest corner_found)
      (if corner_found then .ok (some ("unique vertex " ++ toString v ++ " is part of several Corners."))
      else multipleCornersLoop m v rest true)

/-- `SectionCornersTopology::unique_vertex_has_multiple_corners`, section_corners_topology.cpp:169-189. -/
def sectionUniqueVertexHasMultipleCorners (m : TopologyModel) (v : Index) : Except Failure (Option String) :=
  multipleCornersLoop m v (m.componentMeshVertices v) false

/-- `SectionCornersTopology::corner_has_multiple_embeddings`, section_corners_topology.cpp:192-212. -/
def sectionCornerHasMultipleEmbeddings (m : TopologyModel) (v : Index) : Except Failure (Option String) :=
  findSomeM (fun cmv => ifActive m .corner cmv (.ok none)
    (if m.nbEmbeddings cmv.component_id.id > 1 then
      .ok (some ("unique vertex " ++ toString v ++ " is associated to Corner" ++
        m.label .corner cmv.component_id.id ++ ", which has several embeddings."))
    else .ok none)) (m.componentMeshVertices v)

/-- `SectionCornersTopology::corner_is_not_internal_nor_boundary`,
section_corners_topology.cpp:215-236. -/
def sectionCornerIsNotInternalNorBoundary (m : TopologyModel) (v : Index) : Except Failure (Option String) :=
  findSomeM (fun cmv => ifActive m .corner cmv (.ok none)
    (if m.nbEmbeddings cmv.component_id.id < 1 && m.nbIncidences cmv.component_id.id < 1 then
      .ok (some ("unique vertex " ++ toString v ++ " is associated to Corner " ++
        m.label .corner cmv.component_id.id ++ ", which is neither internal nor boundary."))
    else .ok none)) (m.componentMeshVertices v)

/-- `SectionCornersTopology::corner_is_part_of_line_but_not_boundary`,
section_corners_topology.cpp:239-277. -/
def sectionCornerIsPartOfLineButNotBoundary (m : TopologyModel) (v : Index) : Except Failure (Option String) :=
  findSomeM (fun cmv => ifActive m .corner cmv (.ok none)
    (findSomeM (fun line =>
      if line.component_id.type != .line then .ok none
      else if !m.isBoundary cmv.component_id.id line.component_id.id then
        match m.component .line line.component_id.id with
        | .error f => .error f
        | .ok _ => .ok (some ("unique vertex " ++ toString v ++
            " is associated with Corner " ++ m.label .corner cmv.component_id.id ++ ", part of Line " ++
            m.label .line line.component_id.id ++ ", but is not a boundary of the Line."))
      else .ok none) (m.componentMeshVertices v))) (m.componentMeshVertices v)

/-- Body of the loop over active corners, section_corners_topology.cpp:291-313; the same in
brep_corners_topology.cpp:308-329, except the end of the message. -/
def addCorner (m : TopologyModel) (ending : String) (not_meshed : Issues Uuid) (not_linked : IssuesMap Index)
    (corner : TopologyComponent) : Issues Uuid × IssuesMap Index :=
  if !cornerIsMeshed corner then
    (not_meshed.add corner.id ("Corner " ++ m.label .corner corner.id ++ ending), not_linked)
  else (not_meshed, addNotAssociated m .corner "Corner " not_linked corner)

/-- Body of the loop over unique vertices, section_corners_topology.cpp:316-345. -/
def sectionCornersVertex (m : TopologyModel) (result : SectionCornersTopologyInspectionResult) (v : Index) :
    Except Failure SectionCornersTopologyInspectionResult := do
  let multiple ← sectionUniqueVertexHasMultipleCorners m v
  let result := { result with
    unique_vertices_linked_to_multiple_corners :=
      addOptional result.unique_vertices_linked_to_multiple_corners v multiple }
  let embeddings ← sectionCornerHasMultipleEmbeddings m v
  let result := { result with
    unique_vertices_linked_to_multiple_internals_corner :=
      addOptional result.unique_vertices_linked_to_multiple_internals_corner v embeddings }
  let alone ← sectionCornerIsNotInternalNorBoundary m v
  let result := { result with
    unique_vertices_linked_to_not_internal_nor_boundary_corner :=
      addOptional result.unique_vertices_linked_to_not_internal_nor_boundary_corner v alone }
  let line ← sectionCornerIsPartOfLineButNotBoundary m v
  return { result with
    unique_vertices_linked_to_not_boundary_line_corner :=
      addOptional result.unique_vertices_linked_to_not_boundary_line_corner v line }

/-- `SectionCornersTopology::inspect_corners_topology`, section_corners_topology.cpp:287-335. -/
def sectionInspectCorners (m : TopologyModel) : Except Failure SectionCornersTopologyInspectionResult :=
  let result : SectionCornersTopologyInspectionResult := {}
  let result := (m.activeComponents .corner).foldl (fun result corner =>
    let r := addCorner m " is not meshed" result.corners_not_meshed result.corners_not_linked_to_a_unique_vertex corner
    { result with corners_not_meshed := r.1, corners_not_linked_to_a_unique_vertex := r.2 }) result
  (List.range m.nbUniqueVertices).foldlM (sectionCornersVertex m) result

/-! ### brep_corners_topology.cpp -/

/-- Loop of `brep_corner_topology_is_valid`, brep_corners_topology.cpp:106-132. -/
def brepCornerLoop (m : TopologyModel) : List ComponentMeshVertex → Bool → Except Failure Bool
  | [], _ => .ok true
  | cmv :: rest, corner_found =>
    let corner_uuid := cmv.component_id.id
    ifActive m .corner cmv (brepCornerLoop m rest corner_found)
      (if corner_found then .ok false
      else if m.nbEmbeddings corner_uuid == 0 && m.nbIncidences corner_uuid == 0 then .ok false
      else if m.nbEmbeddings corner_uuid != 0 && m.nbIncidences corner_uuid > 1 then .ok false
      else brepCornerLoop m rest true)

/-- `BRepCornersTopology::unique_vertex_has_multiple_corners`, brep_corners_topology.cpp:157-177. -/
def brepUniqueVertexHasMultipleCorners (m : TopologyModel) (v : Index) : Except Failure (Option String) :=
  multipleCornersLoop m v (m.componentMeshVertices v) false

/-- `BRepCornersTopology::corner_is_multiply_embedded`, brep_corners_topology.cpp:180-209. -/
def brepCornerIsMultiplyEmbedded (m : TopologyModel) (v : Index) : Except Failure (Option String) :=
  findSomeM (fun cmv => ifActive m .corner cmv (.ok none)
    (if m.nbEmbeddings cmv.component_id.id > 1 then
      findSomeM (fun embedding =>
        if embedding.type != .block then .ok none
        else
          match m.component .block embedding.id with
          | .error f => .error f
          | .ok block =>
            if block.active then .ok (some ("unique vertex " ++ toString v ++
              " is associated to Corner " ++ m.label .corner cmv.component_id.id ++
              ", which is embedded in several components including a Block."))
            else .ok none) (m.embeddings cmv.component_id.id)
    else .ok none)) (m.componentMeshVertices v)

/-- `BRepCornersTopology::corner_is_not_internal_nor_boundary`, brep_corners_topology.cpp:212-233. -/
def brepCornerIsNotInternalNorBoundary (m : TopologyModel) (v : Index) : Except Failure (Option String) :=
  findSomeM (fun cmv => ifActive m .corner cmv (.ok none)
    (if m.nbEmbeddings cmv.component_id.id < 1 && m.nbIncidences cmv.component_id.id < 1 then
      .ok (some ("unique vertex " ++ toString v ++ " is associated to Corner " ++
        m.label .corner cmv.component_id.id ++ ", which is neither internal nor boundary."))
    else .ok none)) (m.componentMeshVertices v)

/-- `BRepCornersTopology::corner_is_part_of_line_but_not_boundary`, brep_corners_topology.cpp:240-303.
Lines 267-275 count the vertices of the Corner, not those of the Line. -/
def brepCornerIsPartOfLineButNotBoundary (m : TopologyModel) (v : Index) : Except Failure (Option String) :=
  findSomeM (fun cmv => ifActive m .corner cmv (.ok none)
    (findSomeM (fun cmv_line => ifActive m .line cmv_line (.ok none)
      (if m.isBoundary cmv.component_id.id cmv_line.component_id.id then .ok none
      else if m.isInternal cmv.component_id.id cmv_line.component_id.id then
        let line_vertex_count := ((m.componentMeshVertices v).filter fun cmv2 =>
          cmv2.component_id.id == cmv.component_id.id).length
        if line_vertex_count != 2 then .ok (some ("unique vertex with index " ++ toString v ++
          " is associated with Corner " ++ m.label .corner cmv.component_id.id ++ ", which is internal to Line " ++
          m.label .line cmv_line.component_id.id ++
          ", so Line should be closed and have two different vertices on unique vertex, but has " ++
          toString line_vertex_count ++ " vertices on it instead."))
        else .ok none
      else .ok (some ("unique vertex " ++ toString v ++
        " is associated with Corner " ++ m.label .corner cmv.component_id.id ++ ", part of line " ++
        m.label .line cmv_line.component_id.id ++ ", but is neither boundary nor internal of it."))))
      (m.componentMeshVertices v))) (m.componentMeshVertices v)

/-- `BRepCornersTopology::brep_corner_topology_is_valid`, brep_corners_topology.cpp:102-141. -/
def brepCornerTopologyIsValid (m : TopologyModel) (v : Index) : Except Failure Bool := do
  if !(← brepCornerLoop m (m.componentMeshVertices v) false) then return false
  if (← brepCornerIsMultiplyEmbedded m v).isSome then return false
  if (← brepCornerIsPartOfLineButNotBoundary m v).isSome then return false
  return true

/-- Body of the loop over unique vertices, brep_corners_topology.cpp:331-361. -/
def brepCornersVertex (m : TopologyModel) (result : BRepCornersTopologyInspectionResult) (v : Index) :
    Except Failure BRepCornersTopologyInspectionResult := do
  let multiple ← brepUniqueVertexHasMultipleCorners m v
  let result := { result with
    unique_vertices_linked_to_multiple_corners :=
      addOptional result.unique_vertices_linked_to_multiple_corners v multiple }
  let embedded ← brepCornerIsMultiplyEmbedded m v
  let result := { result with
    unique_vertices_linked_to_multiply_embedded_corner :=
      addOptional result.unique_vertices_linked_to_multiply_embedded_corner v embedded }
  let alone ← brepCornerIsNotInternalNorBoundary m v
  let result := { result with
    unique_vertices_linked_to_not_internal_nor_boundary_corner :=
      addOptional result.unique_vertices_linked_to_not_internal_nor_boundary_corner v alone }
  let line ← brepCornerIsPartOfLineButNotBoundary m v
  return { result with
    unique_vertices_linked_to_not_boundary_line_corner :=
      addOptional result.unique_vertices_linked_to_not_boundary_line_corner v line }

/-- `BRepCornersTopology::inspect_corners_topology`, brep_corners_topology.cpp:311-366. -/
def brepInspectCorners (m : TopologyModel) : Except Failure BRepCornersTopologyInspectionResult :=
  let result : BRepCornersTopologyInspectionResult := {}
  let result := (m.activeComponents .corner).foldl (fun result corner =>
    let r := addCorner m " is not meshed." result.corners_not_meshed result.corners_not_linked_to_a_unique_vertex corner
    { result with corners_not_meshed := r.1, corners_not_linked_to_a_unique_vertex := r.2 }) result
  (List.range m.nbUniqueVertices).foldlM (brepCornersVertex m) result

end Inspector
