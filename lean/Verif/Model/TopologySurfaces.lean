import Verif.Model.TopologyLines
/-
Model of topology/section_surfaces_topology.cpp and topology/brep_surfaces_topology.cpp.
-/
namespace Inspector

/-- `surface_is_meshed`, section_surfaces_topology.cpp:119-125; the same function in
brep_surfaces_topology.cpp:141-147. -/
def surfaceIsMeshed (c : TopologyComponent) : Bool := c.nbVertices != 0 && c.nbElements != 0

/-! ### section_surfaces_topology.cpp -/

/-- `vertex_is_part_of_invalid_embedded_surface`, section_surfaces_topology.cpp:136-166. -/
def sectionInvalidEmbeddedSurface (m : TopologyModel) (v : Index) : Except Failure (Option String) :=
  match componentsUuids m v .surface with
  | [surface0, surface1] =>
    if loopAny (fun line_cmv => line_cmv.component_id.type == .line &&
        (m.isBoundary line_cmv.component_id.id surface0 && m.isBoundary line_cmv.component_id.id surface1))
        (m.componentMeshVertices v) then .ok none
    else .ok (some ("unique vertex " ++ toString v ++
      " is part of two Surfaces, but is associated to no Line boundary of the two Surfaces."))
  | _ => .ok none

/-- `vertex_is_part_of_line_and_not_on_surface_border`, section_surfaces_topology.cpp:168-210. -/
def sectionLineNotOnSurfaceBorder (m : TopologyModel) (v : Index) : Except Failure (Option String) :=
  if !sectionSurfacesAreMeshed m then .ok none
  else
    findSomeM (fun line_cmv => ifActive m .line line_cmv (.ok none)
      (findSomeM (fun surface_cmv => ifActive m .surface surface_cmv (.ok none)
        (if !m.isVertexOnBorder surface_cmv.component_id.id surface_cmv.vertex then
          .ok (some ("Unique vertex " ++ toString v ++ " is part of a Line and of Surface " ++
            m.label .surface surface_cmv.component_id.id ++
            " but the associated vertex in the Surface mesh is not on the mesh border."))
        else .ok none)) (m.componentMeshVertices v))) (m.componentMeshVertices v)

/-- Loop of `section_vertex_surfaces_topology_is_valid`, section_surfaces_topology.cpp:100-116. -/
def sectionSurfacesLoop (m : TopologyModel) (v : Index) : List ComponentMeshVertex → Except Failure Bool
  | [] => .ok true
  | cmv :: rest =>
    ifActive m .surface cmv (sectionSurfacesLoop m v rest) (do
      if (← sectionInvalidEmbeddedSurface m v).isSome then return false
      if (← sectionLineNotOnSurfaceBorder m v).isSome then return false
      sectionSurfacesLoop m v rest)

/-- `SectionSurfacesTopology::section_vertex_surfaces_topology_is_valid`,
section_surfaces_topology.cpp:97-117. -/
def sectionVertexSurfacesTopologyIsValid (m : TopologyModel) (v : Index) : Except Failure Bool :=
  sectionSurfacesLoop m v (m.componentMeshVertices v)

/-- Body of the loop over active surfaces, section_surfaces_topology.cpp:216-236. -/
def sectionSurfacesComponent (m : TopologyModel) (result : SectionSurfacesTopologyInspectionResult)
    (surface : TopologyComponent) : SectionSurfacesTopologyInspectionResult :=
  { result with
    surfaces_not_meshed :=
      if !surfaceIsMeshed surface then
        result.surfaces_not_meshed.add surface.id ("Surface " ++ m.label .surface surface.id ++ " is not meshed")
      else result.surfaces_not_meshed
    surfaces_not_linked_to_a_unique_vertex :=
      addNotAssociated m .surface "Surface " result.surfaces_not_linked_to_a_unique_vertex surface }

/-- Body of the loop over unique vertices, section_surfaces_topology.cpp:237-259. -/
def sectionSurfacesVertex (m : TopologyModel) (result : SectionSurfacesTopologyInspectionResult) (v : Index) :
    Except Failure SectionSurfacesTopologyInspectionResult := do
  let embedded ← sectionInvalidEmbeddedSurface m v
  let result := { result with
    unique_vertices_linked_to_a_surface_with_invalid_embbedings :=
      addOptional result.unique_vertices_linked_to_a_surface_with_invalid_embbedings v embedded }
  let border ← sectionLineNotOnSurfaceBorder m v
  return { result with
    unique_vertices_linked_to_a_line_but_is_not_on_a_surface_border :=
      addOptional result.unique_vertices_linked_to_a_line_but_is_not_on_a_surface_border v border }

/-- `SectionSurfacesTopology::inspect_surfaces`, section_surfaces_topology.cpp:212-261. -/
def sectionInspectSurfaces (m : TopologyModel) : Except Failure SectionSurfacesTopologyInspectionResult :=
  (List.range m.nbUniqueVertices).foldlM (sectionSurfacesVertex m)
    ((m.activeComponents .surface).foldl (sectionSurfacesComponent m) {})

/-! ### brep_surfaces_topology.cpp -/

/-- `vertex_is_part_of_invalid_embedded_surface`, brep_surfaces_topology.cpp:158-208. -/
def brepInvalidEmbeddedSurface (m : TopologyModel) (v : Index) : Except Failure (Option String) :=
  findSomeM (fun surface_id =>
    match m.component .surface surface_id with
    | .error f => .error f
    | .ok surface =>
      if !surface.active then .ok none
      else
        findSomeM (fun embedding =>
          match m.component .block embedding.id with
          | .error f => .error f
          | .ok block =>
            if !block.active then .ok none
            else if m.isBoundary surface_id embedding.id then
              .ok (some ("unique vertex " ++ toString v ++ " is part of Surface " ++ m.label .surface surface_id ++
                ", which is both internal and boundary of " ++ "Block " ++ m.label .block embedding.id))
            else if brepBlocksAreMeshed m &&
                !(m.componentMeshVertices v).any (fun cmv => cmv.component_id.id == embedding.id) then
              .ok (some ("unique vertex " ++ toString v ++ " is part of Surface " ++
                ((m.nameOf .surface surface_id).getD (m.uuidString surface_id) ++ " (" ++ m.uuidString surface_id ++
                  " (" ++ m.uuidString surface_id ++ ")") ++ ", which is embedded in Block " ++
                ((m.nameOf .block embedding.id).getD (m.uuidString embedding.id) ++ " (" ++
                  m.uuidString embedding.id ++ " (" ++ m.uuidString embedding.id ++ ")") ++
                ", but the unique vertex is not linked to any of the Block vertices."))
            else .ok none) (m.embeddings surface_id)) (componentsUuids m v .surface)

/-- `c_count_if` of active surfaces, brep_surfaces_topology.cpp:216-220. -/
def countActiveSurfaces (m : TopologyModel) (surface_uuids : List Uuid) : Except Failure Nat :=
  surface_uuids.foldlM (fun n surface_id =>
    match m.component .surface surface_id with
    | .error f => .error f
    | .ok surface => .ok (if surface.active then n + 1 else n)) 0

/-- Loop over the surfaces for one corner, brep_surfaces_topology.cpp:239-256. -/
def cornerNotInternal (m : TopologyModel) (v : Index) (cmv : ComponentMeshVertex) (surface_uuids : List Uuid) :
    Except Failure (Option String) :=
  findSomeM (fun surface_id =>
    match m.component .surface surface_id with
    | .error f => .error f
    | .ok surface =>
      if surface.active && !m.isInternal cmv.component_id.id surface_id then
        .ok (some ("unique vertex " ++ toString v ++ " at position [" ++ m.pointString cmv ++
          "] is part of multiple active Surfaces, and not part of any Line, but is part of Corner " ++
          m.label .corner cmv.component_id.id ++ ", which is not internal to active Surface " ++
          m.label .surface surface_id ++ "."))
      else .ok none) surface_uuids

/-- The case without line, brep_surfaces_topology.cpp:229-268. -/
def cornersInternalLoop (m : TopologyModel) (v : Index) (surface_uuids : List Uuid) :
    List ComponentMeshVertex → Bool → Except Failure (Option String)
  | [], has_corner_internal_to_all_surfaces =>
    if !has_corner_internal_to_all_surfaces then
      .ok (some ("unique vertex " ++ toString v ++
        " is part of multiple active Surfaces, and not part of any Line, but not part of any Corner internal to " ++
        "all Surfaces."))
    else .ok none
  | cmv :: rest, has_corner_internal_to_all_surfaces =>
    if cmv.component_id.type != .corner then
      cornersInternalLoop m v surface_uuids rest has_corner_internal_to_all_surfaces
    else
      match m.component .corner cmv.component_id.id with
      | .error f => .error f
      | .ok _ =>
        match cornerNotInternal m v cmv surface_uuids with
        | .error f => .error f
        | .ok (some message) => .ok (some message)
        | .ok none => cornersInternalLoop m v surface_uuids rest true

/-- Loop over the lines, brep_surfaces_topology.cpp:272-293: number of vertices of lines, and number of
relationships of lines with surfaces. -/
def lineRelationshipsLoop (m : TopologyModel) (surface_uuids : List Uuid) :
    List ComponentMeshVertex → Nat → Nat → Nat × Nat
  | [], nb_cmv_lines, nb_of_line_relationships_with_surfaces =>
    (nb_cmv_lines, nb_of_line_relationships_with_surfaces)
  | cmv :: rest, nb_cmv_lines, nb_of_line_relationships_with_surfaces =>
    if cmv.component_id.type != .line then
      lineRelationshipsLoop m surface_uuids rest nb_cmv_lines nb_of_line_relationships_with_surfaces
    else
      lineRelationshipsLoop m surface_uuids rest (nb_cmv_lines + 1)
        (nb_of_line_relationships_with_surfaces + (surface_uuids.filter fun surface_id =>
          m.isBoundary cmv.component_id.id surface_id || m.isInternal cmv.component_id.id surface_id).length)

/-- The case of one line, brep_surfaces_topology.cpp:269-320 (`index_t` sums, supposed below 2^32). -/
def oneLineSurfaces (m : TopologyModel) (v : Index) (surface_uuids : List Uuid) :
    Except Failure (Option String) :=
  let counts := lineRelationshipsLoop m surface_uuids (m.componentMeshVertices v) 0 0
  if counts.1 ≥ 2 then .ok none
  else
    findSomeM (fun cmv =>
      if cmv.component_id.type != .corner then .ok none
      else if m.nbEmbeddings cmv.component_id.id + counts.2 < surface_uuids.length then
        .ok (some ("unique vertex " ++ toString v ++
          " is part of multiple active Surfaces and only one Line, is a Corner, but is not internal to all the " ++
          "Surfaces without relationships to the Line."))
      else if m.nbEmbeddings cmv.component_id.id + counts.2 > surface_uuids.length then
        .ok (some ("unique vertex " ++ toString v ++
          " is part of multiple active Surfaces and only one Line, is a Corner, but is internal to Surfaces with " ++
          "relationships to the Line."))
      else .ok none) (m.componentMeshVertices v)

/-- `vertex_is_part_of_invalid_multiple_surfaces`, brep_surfaces_topology.cpp:210-322. -/
def brepInvalidMultipleSurfaces (m : TopologyModel) (v : Index) : Except Failure (Option String) := do
  let surface_uuids := componentsUuids m v .surface
  let nb ← countActiveSurfaces m surface_uuids
  if nb < 2 then return none
  let line_uuids := componentsUuids m v .line
  if line_uuids.length == 0 then
    cornersInternalLoop m v surface_uuids (m.componentMeshVertices v) false
  else if line_uuids.length == 1 then oneLineSurfaces m v surface_uuids
  else return none

/-- `vertex_is_part_of_line_and_not_on_surface_border`, brep_surfaces_topology.cpp:324-363. -/
def brepLineNotOnSurfaceBorder (m : TopologyModel) (v : Index) : Except Failure (Option String) :=
  let line_uuids := componentsUuids m v .line
  if line_uuids.length == 0 then .ok none
  else
    findSomeM (fun cmv =>
      if cmv.component_id.type != .surface then .ok none
      else
        match m.component .surface cmv.component_id.id with
        | .error f => .error f
        | .ok _ =>
          if m.isVertexOnBorder cmv.component_id.id cmv.vertex then .ok none
          else
            findSomeM (fun line_id =>
              match m.component .line line_id with
              | .error f => .error f
              | .ok line =>
                if line.active &&
                    (m.isBoundary line_id cmv.component_id.id || m.isInternal line_id cmv.component_id.id) then
                  .ok (some ("unique vertex " ++ toString v ++ " is part of a Line and of Surface " ++
                    m.label .surface cmv.component_id.id ++
                    " but the associated vertex in the Surface mesh is not on the mesh border."))
                else .ok none) line_uuids) (m.componentMeshVertices v)

/-- `BRepSurfacesTopology::brep_surfaces_topology_is_valid`, brep_surfaces_topology.cpp:112-139. -/
def brepSurfacesTopologyIsValid (m : TopologyModel) (v : Index) : Except Failure Bool := do
  let surface_found ← hasActive m .surface (m.componentMeshVertices v)
  if !surface_found then return true
  if (← brepInvalidEmbeddedSurface m v).isSome then return false
  if (← brepInvalidMultipleSurfaces m v).isSome then return false
  if (← brepLineNotOnSurfaceBorder m v).isSome then return false
  return true

/-- `surface_facet_has_wrong_component_facets_around`, brep_surfaces_topology.cpp:365-412. -/
def surfaceFacetHasWrongComponentFacetsAround (m : TopologyModel) (surface : TopologyComponent)
    (facet : Index) : Except Failure (Option String) := do
  let block_polygons ← m.componentMeshPolygons surface.id facet
  findSomeM (fun (entry : Uuid × Nat) =>
    match m.component .block entry.1 with
    | .error f => .error f
    | .ok block =>
      if !block.active then .ok none
      else if m.isBoundary surface.id entry.1 then
        if entry.2 != 1 then .ok (some ("Surface " ++ m.label .surface surface.id ++ " is boundary of block " ++
          m.label .block entry.1 ++ ", but has " ++ toString entry.2 ++
          " facets of this Block around it, it should be 1.")) else .ok none
      else if m.isInternal surface.id entry.1 then
        if entry.2 != 2 then .ok (some ("Surface " ++ m.label .surface surface.id ++ " is internal to block " ++
          m.label .block entry.1 ++ ", but has " ++ toString entry.2 ++
          " facets of this Block around it, it should be 2.")) else .ok none
      else .ok (some ("Surface " ++ m.label .surface surface.id ++ " has facet with id " ++ toString facet ++
        " in common with Block" ++ m.label .block entry.1 ++
        ", but is neither boundary of nor internal to it.")))
    (m.iterate block_polygons)

/-- Body of the loop over active surfaces, brep_surfaces_topology.cpp:419-467. -/
def brepSurfacesComponent (m : TopologyModel) (meshed_blocks : Bool)
    (result : BRepSurfacesTopologyInspectionResult) (surface : TopologyComponent) :
    Except Failure BRepSurfacesTopologyInspectionResult := do
  let result := { result with
    surfaces_not_meshed :=
      if !surfaceIsMeshed surface then
        result.surfaces_not_meshed.add surface.id ("Surface " ++ m.label .surface surface.id ++ " is not meshed")
      else result.surfaces_not_meshed }
  let surface_result := verticesNotAssociated m .surface surface
  if surface_result.nbIssues != 0 then
    return { result with
      surfaces_not_linked_to_a_unique_vertex :=
        result.surfaces_not_linked_to_a_unique_vertex.addIssues surface.id
          (surface_result.setDescription ("Surface " ++ m.label .surface surface.id)) }
  if !meshed_blocks then return result
  let facets ← inspectElements (surfaceFacetHasWrongComponentFacetsAround m surface)
    ("Surface " ++ m.label .surface surface.id) surface.nbElements
  if facets.nbIssues != 0 then
    return { result with
      surface_polygons_with_wrong_component_facets_around :=
        result.surface_polygons_with_wrong_component_facets_around.addIssues surface.id facets }
  return result

/-- Body of the loop over unique vertices, brep_surfaces_topology.cpp:468-497. -/
def brepSurfacesVertex (m : TopologyModel) (result : BRepSurfacesTopologyInspectionResult) (v : Index) :
    Except Failure BRepSurfacesTopologyInspectionResult := do
  let embedded ← brepInvalidEmbeddedSurface m v
  let result := { result with
    unique_vertices_linked_to_a_surface_with_invalid_embbedings :=
      addOptional result.unique_vertices_linked_to_a_surface_with_invalid_embbedings v embedded }
  let multiple ← brepInvalidMultipleSurfaces m v
  let result := { result with
    unique_vertices_linked_to_several_and_invalid_surfaces :=
      addOptional result.unique_vertices_linked_to_several_and_invalid_surfaces v multiple }
  let border ← brepLineNotOnSurfaceBorder m v
  return { result with
    unique_vertices_linked_to_a_line_but_is_not_on_a_surface_border :=
      addOptional result.unique_vertices_linked_to_a_line_but_is_not_on_a_surface_border v border }

/-- `BRepSurfacesTopology::inspect_surfaces_topology`, brep_surfaces_topology.cpp:414-499. -/
def brepInspectSurfaces (m : TopologyModel) : Except Failure BRepSurfacesTopologyInspectionResult := do
  let meshed_blocks := brepBlocksAreMeshed m
  let result ← (m.activeComponents .surface).foldlM (brepSurfacesComponent m meshed_blocks) {}
  (List.range m.nbUniqueVertices).foldlM (brepSurfacesVertex m) result

end Inspector
