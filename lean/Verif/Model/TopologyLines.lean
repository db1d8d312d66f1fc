import Verif.Model.Topology
/-
Model of topology/section_lines_topology.cpp and topology/brep_lines_topology.cpp.
-/
namespace Inspector

/-- `line_is_meshed`, section_lines_topology.cpp:141-145; `BRepLinesTopology::line_is_meshed` is the same
function. -/
def lineIsMeshed (c : TopologyComponent) : Bool := c.nbVertices != 0 && c.nbElements != 0

/-- The first loop of `section_lines_topology_is_valid`, `brep_lines_topology_is_valid` and
`brep_surfaces_topology_is_valid` (section_lines_topology.cpp:115-128): is there an active component? -/
def hasActive (m : TopologyModel) (kind : ComponentType) : List ComponentMeshVertex → Except Failure Bool
  | [] => .ok false
  | cmv :: rest => ifActive m kind cmv (hasActive m kind rest) (.ok true)

/-! ### section_lines_topology.cpp -/

/-- `vertex_is_part_of_line_with_wrong_relationships_to_surface`, section_lines_topology.cpp:156-180. -/
def sectionLineWrongRelationships (m : TopologyModel) (v : Index) : Except Failure (Option String) :=
  findSomeM (fun cmv => ifActive m .line cmv (.ok none)
    (if m.nbEmbeddings cmv.component_id.id < 1 && m.nbIncidences cmv.component_id.id < 1 then
      .ok (some ("unique vertex " ++ toString v ++ " is part of Line " ++ m.label .line cmv.component_id.id ++
        ", which is neither embedded nor incident."))
    else .ok none)) (m.componentMeshVertices v)

/-- Loop over the embeddings of a line, section_lines_topology.cpp:218-246.  Line 237 prints the component id
of the line. -/
def sectionEmbeddingLoop (m : TopologyModel) (v : Index) (line : Uuid) : Except Failure (Option String) :=
  findSomeM (fun embedding =>
    match m.component .surface embedding.id with
    | .error f => .error f
    | .ok surface =>
      if !surface.active then .ok none
      else if sectionSurfacesAreMeshed m &&
          !(m.componentMeshVertices v).any (fun cmv => cmv.component_id.id == embedding.id) then
        .ok (some ("unique vertex " ++ toString v ++ " is part of Line " ++
          ((m.nameOf .line line).getD (m.uuidString line) ++ " (" ++ m.componentString ⟨.line, line⟩ ++ ")") ++
          ", which is embedded in surface " ++ m.label .surface embedding.id ++
          ", but the unique vertex is not linked to the Surface mesh vertices."))
      else .ok none) (m.embeddings line)

/-- Loop of `vertex_is_part_of_invalid_embedded_line`, section_lines_topology.cpp:186-247.  At the first active
line without embedding, the function returns. -/
def sectionEmbeddedLineLoop (m : TopologyModel) (v : Index) :
    List ComponentMeshVertex → Except Failure (Option String)
  | [] => .ok none
  | cmv :: rest =>
    let line := cmv.component_id.id
    ifActive m .line cmv (sectionEmbeddedLineLoop m v rest)
      (if m.nbEmbeddings line < 1 then .ok none
      else if m.nbEmbeddings line > 1 then
        .ok (some ("unique vertex " ++ toString v ++ " is part of line " ++ m.label .line line ++
          ", which has multiple embeddings."))
      else if m.nbIncidences line > 0 then
        .ok (some ("unique vertex " ++ toString v ++ " is part of Line " ++ m.label .line line ++
          ", which has both an embedding and incidence(s)."))
      else
        match sectionEmbeddingLoop m v line with
        | .error f => .error f
        | .ok (some message) => .ok (some message)
        | .ok none => sectionEmbeddedLineLoop m v rest)

/-- `vertex_is_part_of_invalid_embedded_line`, section_lines_topology.cpp:183-249. -/
def sectionInvalidEmbeddedLine (m : TopologyModel) (v : Index) : Except Failure (Option String) :=
  sectionEmbeddedLineLoop m v (m.componentMeshVertices v)

/-- `vertex_is_part_of_invalid_single_line`, section_lines_topology.cpp:252-313. -/
def sectionInvalidSingleLine (m : TopologyModel) (v : Index) : Except Failure (Option String) :=
  match componentsUuids m v .line with
  | [line_id] =>
    match m.component .line line_id with
    | .error f => .error f
    | .ok line =>
      if !line.active then .ok none
      else
        let surface_uuids := componentsUuids m v .surface
        if surface_uuids.length > 2 then
          .ok (some ("unique vertex " ++ toString v ++ " is part of only one Line " ++ m.label .line line_id ++
            ", but part of more than two Surfaces"))
        else if m.nbEmbeddings line_id > 0 then
          if sectionSurfacesAreMeshed m &&
              (surface_uuids.length != 1 || !m.isInternal line_id (surface_uuids.getD 0 0)) then
            .ok (some ("unique vertex " ++ toString v ++ " is part of only one Line " ++ m.label .line line_id ++
              ", which has embeddings, but there are more than one meshed Surface associated to the vertex, or " ++
              "the Line is not internal to the meshed Surface associated to the vertex."))
          else .ok none
        else
          findSomeM (fun surface_id =>
            if !m.isBoundary line_id surface_id then
              match m.component .surface surface_id with
              | .error f => .error f
              | .ok _ => .ok (some ("unique vertex " ++ toString v ++ " is part of only one Line " ++
                  m.label .line line_id ++
                  ", and mutiple Surfaces, but the Line is not boundary of associated Surface " ++
                  m.label .surface surface_id))
            else .ok none) surface_uuids
  | _ => .ok none

/-- Loop of `vertex_has_lines_but_is_not_a_corner`, section_lines_topology.cpp:319-334: number of lines and
presence of a corner. -/
def sectionLinesAndCorner (m : TopologyModel) : List ComponentMeshVertex → Nat → Bool →
    Except Failure (Nat × Bool)
  | [], nb_cmv_lines, corner_found => .ok (nb_cmv_lines, corner_found)
  | cmv :: rest, nb_cmv_lines, corner_found =>
    ifActive m .line cmv
      (if cmv.component_id.type == .corner then sectionLinesAndCorner m rest nb_cmv_lines true
      else sectionLinesAndCorner m rest nb_cmv_lines corner_found)
      (sectionLinesAndCorner m rest (nb_cmv_lines + 1) corner_found)

/-- `vertex_has_lines_but_is_not_a_corner`, section_lines_topology.cpp:316-341. -/
def sectionLinesButNotCorner (m : TopologyModel) (v : Index) : Except Failure (Option String) := do
  let (nb_cmv_lines, corner_found) ← sectionLinesAndCorner m (m.componentMeshVertices v) 0 false
  if nb_cmv_lines > 1 && !corner_found then
    return some ("unique vertex " ++ toString v ++ " is part of multiple Lines but is not a Corner.")
  return none

/-- `SectionLinesTopology::section_lines_topology_is_valid`, section_lines_topology.cpp:112-139. -/
def sectionLinesTopologyIsValid (m : TopologyModel) (v : Index) : Except Failure Bool := do
  let is_a_line ← hasActive m .line (m.componentMeshVertices v)
  if !is_a_line then return true
  if (← sectionLineWrongRelationships m v).isSome then return false
  if (← sectionInvalidEmbeddedLine m v).isSome then return false
  if (← sectionInvalidSingleLine m v).isSome then return false
  if (← sectionLinesButNotCorner m v).isSome then return false
  return true

/-- Body of the loop over active lines, section_lines_topology.cpp:347-367. -/
def sectionLinesComponent (m : TopologyModel) (result : SectionLinesTopologyInspectionResult)
    (line : TopologyComponent) : SectionLinesTopologyInspectionResult :=
  { result with
    lines_not_meshed :=
      if !lineIsMeshed line then
        result.lines_not_meshed.add line.id ("Line " ++ m.label .line line.id ++ " is not meshed")
      else result.lines_not_meshed
    lines_not_linked_to_a_unique_vertex :=
      addNotAssociated m .line "Line " result.lines_not_linked_to_a_unique_vertex line }

/-- Body of the loop over unique vertices, section_lines_topology.cpp:368-403. -/
def sectionLinesVertex (m : TopologyModel) (result : SectionLinesTopologyInspectionResult) (v : Index) :
    Except Failure SectionLinesTopologyInspectionResult := do
  let relationships ← sectionLineWrongRelationships m v
  let result := { result with
    unique_vertices_linked_to_line_with_wrong_relationship_to_surface :=
      addOptional result.unique_vertices_linked_to_line_with_wrong_relationship_to_surface v relationships }
  let embedded ← sectionInvalidEmbeddedLine m v
  let result := { result with
    unique_vertices_linked_to_a_line_with_invalid_embeddings :=
      addOptional result.unique_vertices_linked_to_a_line_with_invalid_embeddings v embedded }
  let single ← sectionInvalidSingleLine m v
  let result := { result with
    unique_vertices_linked_to_a_single_and_invalid_line :=
      addOptional result.unique_vertices_linked_to_a_single_and_invalid_line v single }
  let corner ← sectionLinesButNotCorner m v
  return { result with
    unique_vertices_linked_to_several_lines_but_not_linked_to_a_corner :=
      addOptional result.unique_vertices_linked_to_several_lines_but_not_linked_to_a_corner v corner }

/-- `SectionLinesTopology::inspect_lines_topology`, section_lines_topology.cpp:344-404. -/
def sectionInspectLines (m : TopologyModel) : Except Failure SectionLinesTopologyInspectionResult :=
  (List.range m.nbUniqueVertices).foldlM (sectionLinesVertex m)
    ((m.activeComponents .line).foldl (sectionLinesComponent m) {})

/-! ### brep_lines_topology.cpp -/

/-- Loop over the embeddings of a line, brep_lines_topology.cpp:181-219.  The messages look up the Surface of
the embedding, which fails for a Block. -/
def brepEmbeddingLoop (m : TopologyModel) (v : Index) (line : Uuid) : Except Failure (Option String) :=
  findSomeM (fun embedding =>
    if m.isBoundary line embedding.id then
      match m.component .surface embedding.id with
      | .error f => .error f
      | .ok _ => .ok (some ("unique vertex " ++ toString v ++ " is part of line " ++ m.label .line line ++
          ", which is both boundary and embedded in Surface " ++ m.label .surface embedding.id ++ "."))
    else if embedding.type == .block && !brepBlocksAreMeshed m then .ok none
    else if !(m.componentMeshVertices v).any (fun cmv => cmv.component_id == embedding) then
      match m.component .surface embedding.id with
      | .error f => .error f
      | .ok _ => .ok (some ("unique vertex " ++ toString v ++ " is part of Line " ++ m.label .line line ++
          ", which is embedded in Surface " ++ m.label .surface embedding.id ++
          ", but the unique vertex is not linked to the Surface mesh vertices."))
    else .ok none) (m.embeddings line)

/-- `vertex_is_part_of_invalid_embedded_line`, brep_lines_topology.cpp:164-222. -/
def brepInvalidEmbeddedLine (m : TopologyModel) (v : Index) : Except Failure (Option String) :=
  findSomeM (fun cmv => ifActive m .line cmv (.ok none) (brepEmbeddingLoop m v cmv.component_id.id))
    (m.componentMeshVertices v)

/-- `vertex_is_part_of_invalid_single_line`, brep_lines_topology.cpp:225-313. -/
def brepInvalidSingleLine (m : TopologyModel) (v : Index) : Except Failure (Option String) :=
  match componentsUuids m v .line with
  | [line_id] =>
    match m.component .line line_id with
    | .error f => .error f
    | .ok line =>
      if !line.active then .ok none
      else
        let surface_uuids := componentsUuids m v .surface
        let block_uuids := componentsUuids m v .block
        if (m.related (m.embeddings line_id) .surface).length < 1 && m.nbIncidences line_id < 1 then .ok none
        else
          match surface_uuids with
          | [surface] =>
            if !m.isInternal line_id surface &&
                !(decide (m.nbEmbeddings surface > 0) || m.isBoundary line_id surface) then
              match m.component .surface surface with
              | .error f => .error f
              | .ok _ => .ok (some ("unique vertex " ++ toString v ++ " is part of only one Line " ++
                  m.label .line line_id ++ ", and only one Surface " ++ m.label .surface surface ++
                  ", but the Line is neither embedded in the Surface, nor boundary of the Surface while the " ++
                  "Surface is embedded in a Block."))
            else .ok none
          | [] =>
            if !brepBlocksAreMeshed m then .ok none
            else if block_uuids.length != 1 then
              .ok (some ("unique vertex " ++ toString v ++ " is part of only one Line " ++ m.label .line line_id ++
                ", no Surfaces, but is part of " ++ toString block_uuids.length ++ " Blocks, instead of one."))
            else if !m.isInternal line_id (block_uuids.getD 0 0) then
              .ok (some ("unique vertex " ++ toString v ++ " is part of only one Line " ++ m.label .line line_id ++
                ", no Surfaces, one Block, but the Line is not internal to the Block."))
            else .ok none
          | _ =>
            findSomeM (fun surface_id =>
              match m.component .surface surface_id with
              | .error f => .error f
              | .ok _ =>
                if !m.isBoundary line_id surface_id && !m.isInternal line_id surface_id then
                  .ok (some ("unique vertex " ++ toString v ++ " is part of only one Line " ++
                    m.label .line line_id ++
                    ", and multiple Surfaces, but the Line is neither internal nor boundary of Surface " ++
                    m.label .surface surface_id ++ ", in which the vertex is."))
                else .ok none) surface_uuids
  | _ => .ok none

/-- One line in `vertex_is_part_of_line_with_wrong_relationships_to_surface`,
brep_lines_topology.cpp:326-415. -/
def brepLineRelationships (m : TopologyModel) (v : Index) (line : TopologyComponent) :
    Except Failure (Option String) := do
  if line.nbElements == 0 then return none
  let (surface_edges, _) ← m.componentMeshEdges line.id 0
  let incident ← findSomeM (fun surface_id =>
    match m.component .surface surface_id with
    | .error f => .error f
    | .ok surface =>
      if !surface.active then .ok none
      else
        match surface_edges.find? surface_id with
        | none => .ok (some ("unique vertex " ++ toString v ++ " is part of Line " ++ m.label .line line.id ++
            ", which is boundary of Surface " ++ m.label .surface surface_id ++
            ", but Line edge 0 is not part of this surface"))
        | some nb => if nb != 1 then .ok (some ("unique vertex " ++ toString v ++ " is part of Line " ++
            m.label .line line.id ++ ", which is boundary of Surface " ++ m.label .surface surface_id ++
            " but has several surface edges of this surface around Line edge 0"))
          else .ok none) (m.related (m.incidences line.id) .surface)
  if incident.isSome then return incident
  let embedding ← findSomeM (fun surface_id =>
    match m.component .surface surface_id with
    | .error f => .error f
    | .ok surface =>
      if !surface.active then .ok none
      else
        match surface_edges.find? surface_id with
        | none => .ok (some ("unique vertex " ++ toString v ++ " is part of Line " ++ m.label .line line.id ++
            ", which is embedded in Surface " ++ m.label .surface surface_id ++
            ", but has no surface edge around Line edge 0"))
        | some nb => if nb ≤ 1 then .ok (some ("unique vertex " ++ toString v ++ " is part of Line " ++
            m.label .line line.id ++ ", which is embedded in Surface " ++ m.label .surface surface_id ++
            " but doesn't cut it (should have more than 1 Surface edge around Line edge 0)"))
          else .ok none) (m.related (m.embeddings line.id) .surface)
  if embedding.isSome then return embedding
  if m.nbIncidences line.id == 0 && (m.related (m.embeddings line.id) .surface).length == 0 then
    findSomeM (fun surface_id =>
      match m.component .surface surface_id with
      | .error f => .error f
      | .ok surface =>
        if surface.active then .ok (some ("unique vertex " ++ toString v ++ " is part of Line " ++
          m.label .line line.id ++ ", which should be internal or boundary to Surface " ++
          m.label .surface surface_id))
        else .ok none) ((m.iterate surface_edges).map Prod.fst)
  else return none

/-- `vertex_is_part_of_line_with_wrong_relationships_to_surface`, brep_lines_topology.cpp:320-418. -/
def brepLineWrongRelationships (m : TopologyModel) (v : Index) : Except Failure (Option String) :=
  findSomeM (fun cmv =>
    if cmv.component_id.type != .line then .ok none
    else
      match m.component .line cmv.component_id.id with
      | .error f => .error f
      | .ok line => if !line.active then .ok none else brepLineRelationships m v line)
    (m.componentMeshVertices v)

/-- Loop of `vertex_has_lines_but_is_not_a_corner`, brep_lines_topology.cpp:427-439. -/
def brepLinesAndCorner (m : TopologyModel) : List ComponentMeshVertex → Nat → Bool →
    Except Failure (Nat × Bool)
  | [], nb_lines, is_a_corner => .ok (nb_lines, is_a_corner)
  | cmv :: rest, nb_lines, is_a_corner =>
    if cmv.component_id.type == .corner then brepLinesAndCorner m rest nb_lines true
    else
      ifActive m .line cmv (brepLinesAndCorner m rest nb_lines is_a_corner)
        (brepLinesAndCorner m rest (nb_lines + 1) is_a_corner)

/-- `vertex_has_lines_but_is_not_a_corner`, brep_lines_topology.cpp:421-445. -/
def brepLinesButNotCorner (m : TopologyModel) (v : Index) : Except Failure (Option String) := do
  let (nb_lines, is_a_corner) ← brepLinesAndCorner m (m.componentMeshVertices v) 0 false
  if nb_lines > 1 && !is_a_corner then
    return some ("unique vertex " ++ toString v ++ " is part of multiple Lines but is not a Corner.")
  return none

/-- `BRepLinesTopology::brep_lines_topology_is_valid`, brep_lines_topology.cpp:120-147. -/
def brepLinesTopologyIsValid (m : TopologyModel) (v : Index) : Except Failure Bool := do
  let part_of_active_line ← hasActive m .line (m.componentMeshVertices v)
  if !part_of_active_line then return true
  if (← brepInvalidEmbeddedLine m v).isSome then return false
  if (← brepInvalidSingleLine m v).isSome then return false
  if (← brepLineWrongRelationships m v).isSome then return false
  if (← brepLinesButNotCorner m v).isSome then return false
  return true

/-- `line_edge_has_wrong_component_edges_around`, brep_lines_topology.cpp:449-554. -/
def lineEdgeHasWrongComponentEdgesAround (m : TopologyModel) (line : TopologyComponent) (edge : Index) :
    Except Failure (Option String) := do
  let (surface_edges, block_edges) ← m.componentMeshEdges line.id edge
  let around ← findSomeM (fun (entry : Uuid × Nat) =>
    match m.component .surface entry.1 with
    | .error f => .error f
    | .ok surface =>
      if !surface.active then .ok none
      else if m.isBoundary line.id entry.1 then
        if entry.2 != 1 then .ok (some ("Line " ++ m.label .line line.id ++ " is boundary of Surface " ++
          m.label .surface entry.1 ++ ", but has " ++ toString entry.2 ++
          " edges of this Surface around it, it should be 1.")) else .ok none
      else if m.isInternal line.id entry.1 then
        if entry.2 != 2 then .ok (some ("Line with uuid '" ++ m.uuidString line.id ++
          "' is internal to Surface " ++ m.label .surface entry.1 ++ ", but has " ++ toString entry.2 ++
          " edges of this surface around it, it should be 2.")) else .ok none
      else .ok (some ("Line with uuid '" ++ m.uuidString line.id ++ "' has edge with id " ++ toString edge ++
        " in common with Surface " ++ m.label .surface entry.1 ++
        ", but is neither boundary of nor internal to it.")))
    (m.iterate surface_edges)
  if around.isSome then return around
  let embedding ← findSomeM (fun surface_id =>
    match m.component .surface surface_id with
    | .error f => .error f
    | .ok surface =>
      if !surface.active then .ok none
      else if (surface_edges.find? surface_id).isNone then
        .ok (some ("Line " ++ m.label .line line.id ++ " is embedded in Surface " ++ m.label .surface surface_id ++
          " but edge " ++ toString edge ++ " has no common edge with the surface"))
      else .ok none) (m.related (m.embeddings line.id) .surface)
  if embedding.isSome then return embedding
  let incident ← findSomeM (fun surface_id =>
    match m.component .surface surface_id with
    | .error f => .error f
    | .ok surface =>
      if !surface.active then .ok none
      else if (surface_edges.find? surface_id).isNone then
        .ok (some ("Line " ++ m.label .line line.id ++ " is incident to Surface " ++ m.label .surface surface_id ++
          " but edge " ++ toString edge ++ " has no common edge with the surface"))
      else .ok none) (m.related (m.incidences line.id) .surface)
  if incident.isSome then return incident
  let blocks ← findSomeM (fun (entry : Uuid × Nat) =>
    match m.component .block entry.1 with
    | .error f => .error f
    | .ok block =>
      if block.active && m.isInternal line.id entry.1 then
        if entry.2 != 1 then .ok (some ("Line " ++ m.label .line line.id ++ " is internal to Block " ++
          m.label .block entry.1 ++ ", but has " ++ toString entry.2 ++
          " edges of this Block around it, it should be 1.")) else .ok none
      else .ok none) (m.iterate block_edges)
  if blocks.isSome then return blocks
  findSomeM (fun block_id =>
    match m.component .block block_id with
    | .error f => .error f
    | .ok block =>
      if !block.active || block.nbElements == 0 then .ok none
      else if (block_edges.find? block_id).isNone then
        .ok (some ("Line " ++ m.label .line line.id ++ " is embedded in Block " ++ m.label .block block_id ++
          " but edge " ++ toString edge ++ " has no common edge with the block"))
      else .ok none) (m.related (m.embeddings line.id) .block)

/-- `for( id : Range{ nb } ) { if( const auto message = check( id ) ) { issues.add_issue( id, ... ); } }`,
brep_lines_topology.cpp:591-602. -/
def inspectElements (check : Index → Except Failure (Option String)) (description : String) (nb : Nat) :
    Except Failure (Issues Index) :=
  (List.range nb).foldlM (fun issues e => do return addOptional issues e (← check e)) (Issues.new description)

/-- Body of the loop over active lines, brep_lines_topology.cpp:568-610. -/
def brepLinesComponent (m : TopologyModel) (result : BRepLinesTopologyInspectionResult)
    (line : TopologyComponent) : Except Failure BRepLinesTopologyInspectionResult := do
  let result := { result with
    lines_not_meshed :=
      if !lineIsMeshed line then
        result.lines_not_meshed.add line.id ("Line " ++ m.label .line line.id ++ " is not meshed")
      else result.lines_not_meshed }
  let line_result := verticesNotAssociated m .line line
  if line_result.nbIssues != 0 then
    return { result with
      lines_not_linked_to_a_unique_vertex :=
        result.lines_not_linked_to_a_unique_vertex.addIssues line.id
          (line_result.setDescription ("Line " ++ m.label .line line.id)) }
  let edges ← inspectElements (lineEdgeHasWrongComponentEdgesAround m line) ("Line " ++ m.label .line line.id)
    line.nbElements
  if edges.nbIssues != 0 then
    return { result with
      line_edges_with_wrong_component_edges_around :=
        result.line_edges_with_wrong_component_edges_around.addIssues line.id edges }
  return result

/-- Body of the loop over unique vertices, brep_lines_topology.cpp:611-643. -/
def brepLinesVertex (m : TopologyModel) (result : BRepLinesTopologyInspectionResult) (v : Index) :
    Except Failure BRepLinesTopologyInspectionResult := do
  let embedded ← brepInvalidEmbeddedLine m v
  let result := { result with
    unique_vertices_linked_to_a_line_with_invalid_embeddings :=
      addOptional result.unique_vertices_linked_to_a_line_with_invalid_embeddings v embedded }
  let relationships ← brepLineWrongRelationships m v
  let result := { result with
    unique_vertices_linked_to_line_with_wrong_relationship_to_surface :=
      addOptional result.unique_vertices_linked_to_line_with_wrong_relationship_to_surface v relationships }
  let single ← brepInvalidSingleLine m v
  let result := { result with
    unique_vertices_linked_to_a_single_and_invalid_line :=
      addOptional result.unique_vertices_linked_to_a_single_and_invalid_line v single }
  let corner ← brepLinesButNotCorner m v
  return { result with
    unique_vertices_linked_to_several_lines_but_not_linked_to_a_corner :=
      addOptional result.unique_vertices_linked_to_several_lines_but_not_linked_to_a_corner v corner }

/-- `BRepLinesTopology::inspect_lines_topology`, brep_lines_topology.cpp:565-645. -/
def brepInspectLines (m : TopologyModel) : Except Failure BRepLinesTopologyInspectionResult := do
  let result ← (m.activeComponents .line).foldlM (brepLinesComponent m) {}
  (List.range m.nbUniqueVertices).foldlM (brepLinesVertex m) result

end Inspector
