import Verif.Model.Inspectors
import Verif.Model.TopologyBlocks
/-
Model of topology/section_topology.cpp and topology/brep_topology.cpp.
-/
namespace Inspector
variable (m : TopologyModel)

/-- `section.component( id )`, `brep.component( id )` (external): the component of this uuid, whatever its kind; an
exception for an unknown uuid. -/
def TopologyModel.anyComponent (id : Uuid) : Except Failure TopologyComponent :=
  match (m.components .corner ++ m.components .line ++ m.components .surface ++ m.components .block).find?
    fun c => c.id == id with
  | some c => .ok c
  | none => .error .openGeodeException

/-- `section.has_corner( id )`, `brep.has_block( id )`, ... (external). -/
def TopologyModel.has (kind : ComponentType) (id : Uuid) : Bool := (m.components kind).any fun c => c.id == id

/-- `section.corner( id ).mesh().nb_vertices()`, ... (external), for an existing component. -/
def TopologyModel.nbMeshVertices (kind : ComponentType) (id : Uuid) : Nat :=
  match m.component kind id with
  | .ok c => c.nbVertices
  | .error _ => 0

/-- `cmv_exists_in_section`, topology/section_topology.cpp:200-233. -/
def cmvExistsInSection (cmv : ComponentMeshVertex) : Bool :=
  if cmv.component_id.type == .corner &&
    (m.has .corner cmv.component_id.id && cmv.vertex < m.nbMeshVertices .corner cmv.component_id.id) then true
  else if cmv.component_id.type == .line &&
    (m.has .line cmv.component_id.id && cmv.vertex < m.nbMeshVertices .line cmv.component_id.id) then true
  else if cmv.component_id.type == .surface &&
    (m.has .surface cmv.component_id.id && cmv.vertex < m.nbMeshVertices .surface cmv.component_id.id) then true
  else false

/-- `cmv_exists_in_brep`, topology/brep_topology.cpp:208-251. -/
def cmvExistsInBRep (cmv : ComponentMeshVertex) : Bool :=
  if cmv.component_id.type == .corner &&
    (m.has .corner cmv.component_id.id && cmv.vertex < m.nbMeshVertices .corner cmv.component_id.id) then true
  else if cmv.component_id.type == .line &&
    (m.has .line cmv.component_id.id && cmv.vertex < m.nbMeshVertices .line cmv.component_id.id) then true
  else if cmv.component_id.type == .surface &&
    (m.has .surface cmv.component_id.id && cmv.vertex < m.nbMeshVertices .surface cmv.component_id.id) then true
  else if cmv.component_id.type == .block &&
    (m.has .block cmv.component_id.id && cmv.vertex < m.nbMeshVertices .block cmv.component_id.id) then true
  else false

/-- The body of the loop over unique vertices of
`section_unique_vertices_are_bijectively_linked_to_an_existing_component_vertex`: whether it returns false,
topology/section_topology.cpp:75-93. -/
def sectionLinkIsWrong (uv_id : Index) : Except Failure Bool :=
  let unique_vertex_cmvs := m.componentMeshVertices uv_id
  if unique_vertex_cmvs.isEmpty then .ok true
  else loopAnyM (fun cmv =>
    if !cmvExistsInSection m cmv then .ok true
    else
      match m.anyComponent cmv.component_id.id with
      | .error f => .error f
      | .ok c => .ok (c.active && m.uniqueVertex cmv != some uv_id)) unique_vertex_cmvs

/-- `section_unique_vertices_are_bijectively_linked_to_an_existing_component_vertex`,
topology/section_topology.cpp:69-95. -/
def sectionBijectivelyLinked : Except Failure Bool := do
  let wrong ← loopAnyM (sectionLinkIsWrong m) (List.range m.nbUniqueVertices)
  return !wrong

/-- The body of the loop over unique vertices of
`brep_unique_vertices_are_bijectively_linked_to_an_existing_component_vertex`: whether it returns false,
topology/brep_topology.cpp:78-96. -/
def brepLinkIsWrong (uv_id : Index) : Except Failure Bool :=
  let unique_vertex_cmvs := m.componentMeshVertices uv_id
  if unique_vertex_cmvs.isEmpty then .ok true
  else loopAnyM (fun cmv =>
    if !cmvExistsInBRep m cmv then .ok true
    else
      match m.anyComponent cmv.component_id.id with
      | .error f => .error f
      | .ok c => .ok (c.active && m.uniqueVertex cmv != some uv_id)) unique_vertex_cmvs

/-- `brep_unique_vertices_are_bijectively_linked_to_an_existing_component_vertex`,
topology/brep_topology.cpp:72-98. -/
def brepBijectivelyLinked : Except Failure Bool := do
  let wrong ← loopAnyM (brepLinkIsWrong m) (List.range m.nbUniqueVertices)
  return !wrong

/-- The three lists of unique vertices of the result of a topology inspection: not linked, linked to an inexistent
component mesh vertex, not bijectively linked. -/
structure WrongLinks where
  notLinked : Issues Index
  inexistent : Issues Index
  nonBijective : Issues Index

/-- The body of the inner loop of `add_unique_vertices_with_wrong_cmv_link`,
topology/section_topology.cpp:118-135. -/
def sectionAddWrongLink (uv_id : Index) (l : WrongLinks) (cmv : ComponentMeshVertex) : Except Failure WrongLinks :=
  if !cmvExistsInSection m cmv then
    .ok { l with
      inexistent := l.inexistent.add uv_id ("unique vertex " ++ toString uv_id ++
        " is linked to inexistant mesh vertex [" ++ m.cmvString cmv ++ "].") }
  else
    match m.anyComponent cmv.component_id.id with
    | .error f => .error f
    | .ok c =>
      if c.active && m.uniqueVertex cmv != some uv_id then
        .ok { l with
          nonBijective := l.nonBijective.add uv_id ("unique vertex " ++ toString uv_id ++
            " is linked to inexistant mesh vertex [" ++ m.cmvString cmv ++ "].") }
      else .ok l

/-- The body of the loop over unique vertices of `add_unique_vertices_with_wrong_cmv_link`,
topology/section_topology.cpp:107-136. -/
def sectionAddWrongLinks (l : WrongLinks) (uv_id : Index) : Except Failure WrongLinks :=
  let unique_vertex_cmvs := m.componentMeshVertices uv_id
  if unique_vertex_cmvs.isEmpty then
    .ok { l with
      notLinked := l.notLinked.add uv_id ("unique vertex " ++ toString uv_id ++
        " is not linked to any mesh vertex.") }
  else unique_vertex_cmvs.foldlM (sectionAddWrongLink m uv_id) l

/-- `add_unique_vertices_with_wrong_cmv_link`, topology/section_topology.cpp:97-137. -/
def sectionAddUniqueVerticesWithWrongLink (result : SectionTopologyInspectionResult) :
    Except Failure SectionTopologyInspectionResult := do
  let links ← (List.range m.nbUniqueVertices).foldlM (sectionAddWrongLinks m)
    ⟨result.unique_vertices_not_linked_to_any_component, result.unique_vertices_linked_to_inexistant_cmv,
      result.unique_vertices_nonbijectively_linked_to_cmv⟩
  return { result with
    unique_vertices_not_linked_to_any_component := links.notLinked
    unique_vertices_linked_to_inexistant_cmv := links.inexistent
    unique_vertices_nonbijectively_linked_to_cmv := links.nonBijective }

/-- The body of the inner loop of `add_unique_vertices_with_wrong_cmv_link`, topology/brep_topology.cpp:121-138. -/
def brepAddWrongLink (uv_id : Index) (l : WrongLinks) (cmv : ComponentMeshVertex) : Except Failure WrongLinks :=
  if !cmvExistsInBRep m cmv then
    .ok { l with
      inexistent := l.inexistent.add uv_id ("unique vertex " ++ toString uv_id ++
        " is linked to inexistant mesh vertex [" ++ m.cmvString cmv ++ "].") }
  else
    match m.anyComponent cmv.component_id.id with
    | .error f => .error f
    | .ok c =>
      if c.active && m.uniqueVertex cmv != some uv_id then
        .ok { l with
          nonBijective := l.nonBijective.add uv_id ("unique vertex " ++ toString uv_id ++
            " is linked to inexistant mesh vertex [" ++ m.cmvString cmv ++ "].") }
      else .ok l

/-- The body of the loop over unique vertices of `add_unique_vertices_with_wrong_cmv_link`,
topology/brep_topology.cpp:110-139. -/
def brepAddWrongLinks (l : WrongLinks) (uv_id : Index) : Except Failure WrongLinks :=
  let unique_vertex_cmvs := m.componentMeshVertices uv_id
  if unique_vertex_cmvs.isEmpty then
    .ok { l with
      notLinked := l.notLinked.add uv_id ("unique vertex " ++ toString uv_id ++
        " is not linked to any mesh vertex.") }
  else unique_vertex_cmvs.foldlM (brepAddWrongLink m uv_id) l

/-- `add_unique_vertices_with_wrong_cmv_link`, topology/brep_topology.cpp:100-140. -/
def brepAddUniqueVerticesWithWrongLink (result : BRepTopologyInspectionResult) :
    Except Failure BRepTopologyInspectionResult := do
  let links ← (List.range m.nbUniqueVertices).foldlM (brepAddWrongLinks m)
    ⟨result.unique_vertices_not_linked_to_any_component, result.unique_vertices_linked_to_inexistant_cmv,
      result.unique_vertices_nonbijectively_linked_to_cmv⟩
  return { result with
    unique_vertices_not_linked_to_any_component := links.notLinked
    unique_vertices_linked_to_inexistant_cmv := links.inexistent
    unique_vertices_nonbijectively_linked_to_cmv := links.nonBijective }

/-- `section_meshed_components_are_linked_to_unique_vertices`, topology/section_topology.cpp:235-269. -/
def sectionMeshedComponentsAreLinked : Bool :=
  if loopAny (fun corner => cornerIsMeshed corner && !verticesAreAssociated m .corner corner)
    (m.activeComponents .corner) then false
  else if loopAny (fun line => lineIsMeshed line && !verticesAreAssociated m .line line)
    (m.activeComponents .line) then false
  else if loopAny (fun surface => surfaceIsMeshed surface && !verticesAreAssociated m .surface surface)
    (m.activeComponents .surface) then false
  else true

/-- `brep_meshed_components_are_linked_to_unique_vertices`, topology/brep_topology.cpp:253-297 (`block_is_meshed` is
inlined). -/
def brepMeshedComponentsAreLinked : Bool :=
  if loopAny (fun corner => cornerIsMeshed corner && !verticesAreAssociated m .corner corner)
    (m.activeComponents .corner) then false
  else if loopAny (fun line => lineIsMeshed line && !verticesAreAssociated m .line line)
    (m.activeComponents .line) then false
  else if loopAny (fun surface => surfaceIsMeshed surface && !verticesAreAssociated m .surface surface)
    (m.activeComponents .surface) then false
  else if loopAny (fun block => (block.nbVertices != 0 && block.nbElements != 0) &&
      !verticesAreAssociated m .block block) (m.activeComponents .block) then false
  else true

/-- The condition of the loop over unique vertices of `section_topology_is_valid`,
topology/section_topology.cpp:158-164. -/
def sectionVertexIsInvalid (v : Index) : Except Failure Bool := do
  if !(← sectionCornerTopologyIsValid m v) then return true
  if !(← sectionLinesTopologyIsValid m v) then return true
  return !(← sectionVertexSurfacesTopologyIsValid m v)

/-- `section_topology_is_valid`, topology/section_topology.cpp:139-170. -/
def sectionTopologyIsValid : Except Failure Bool := do
  if m.nbUniqueVertices == 0 then return false
  if !sectionMeshedComponentsAreLinked m then return false
  if !(← sectionBijectivelyLinked m) then return false
  return !(← loopAnyM (sectionVertexIsInvalid m) (List.range m.nbUniqueVertices))

/-- The condition of the loop over unique vertices of `brep_topology_is_valid`, topology/brep_topology.cpp:161-168. -/
def brepVertexIsInvalid (v : Index) : Except Failure Bool := do
  if !(← brepCornerTopologyIsValid m v) then return true
  if !(← brepLinesTopologyIsValid m v) then return true
  if !(← brepSurfacesTopologyIsValid m v) then return true
  return !(← brepBlocksTopologyIsValid m v)

/-- `brep_topology_is_valid`, topology/brep_topology.cpp:142-174. -/
def brepTopologyIsValid : Except Failure Bool := do
  if m.nbUniqueVertices == 0 then return false
  if !brepMeshedComponentsAreLinked m then return false
  if !(← brepBijectivelyLinked m) then return false
  return !(← loopAnyM (brepVertexIsInvalid m) (List.range m.nbUniqueVertices))

/-- `inspect_section_topology`, topology/section_topology.cpp:172-197. -/
def inspectSectionTopology (choose : List Failure → Failure) (schedule : List Nat) :
    Except Failure SectionTopologyInspectionResult := do
  let result ← invokeAndCatch choose schedule
    (sectionTopologyTasks (sectionInspectCorners m) (sectionInspectLines m) (sectionInspectSurfaces m)) {}
  sectionAddUniqueVerticesWithWrongLink m result

/-- `inspect_brep_topology`, topology/brep_topology.cpp:176-205. -/
def inspectBRepTopology (o : BlocksOracle) (fuel : Nat) (choose : List Failure → Failure) (schedule : List Nat) :
    Except Failure BRepTopologyInspectionResult := do
  let result ← invokeAndCatch choose schedule
    (brepTopologyTasks (brepInspectCorners m) (brepInspectLines m) (brepInspectSurfaces m)
      (brepInspectBlocks m o fuel)) {}
  brepAddUniqueVerticesWithWrongLink m result

end Inspector
