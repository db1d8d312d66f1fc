import Verif.Model.TopologySurfaces
import Verif.Model.ExpectedCmvs
import Verif.Model.LinkedSurfaces
import Verif.Model.NotBoundarySurfaces
/-
Model of topology/brep_blocks_topology.cpp: the criteria and `inspect_blocks`.
-/
namespace Inspector

/-- `line_is_boundary_of_at_least_two_surfaces_or_one_embedding_surface`,
brep_blocks_topology.cpp:62-84. -/
def lineIsBoundaryOfTwo (m : TopologyModel) (line : Uuid) : Nat → List Uuid → Bool
  | _, [] => false
  | counter, surface_id :: rest =>
    if m.isBoundary line surface_id then
      if m.nbEmbeddings surface_id > 0 then true
      else if counter + 1 > 1 then true
      else lineIsBoundaryOfTwo m line (counter + 1) rest
    else lineIsBoundaryOfTwo m line counter rest

/-- `is_line_incident_to_another_block_boundary_surface`, brep_blocks_topology.cpp:86-101. -/
def isLineIncidentToAnother (m : TopologyModel) (block line boundary_surface_id : Uuid) : Bool :=
  loopAny (fun incident_surface => incident_surface != boundary_surface_id && m.isBoundary incident_surface block)
    (m.related (m.incidences line) .surface)

/-- `surface_boundaries_are_not_linked_to_another_block_boundary`, brep_blocks_topology.cpp:103-117. -/
def surfaceBoundariesAreNotLinked (m : TopologyModel) (block surface : Uuid) : Bool :=
  loopAny (fun line => !isLineIncidentToAnother m block line surface) (m.related (m.boundaries surface) .line)

/-- `unique_vertex_is_part_of_two_blocks_and_no_boundary_surface`, brep_blocks_topology.cpp:634-690. -/
def twoBlocksAndNoBoundarySurface (m : TopologyModel) (v : Index) : Except Failure (Option String) := do
  match componentsUuids m v .block with
  | [block0, block1] =>
    let inactive ← loopAnyM (fun block_uuid => do
      let block ← m.component .block block_uuid
      return !block.active) [block0, block1]
    if inactive then return none
    if loopAny (fun surface_cmv : ComponentMeshVertex =>
        surface_cmv.component_id.type == .surface &&
        ((m.isBoundary surface_cmv.component_id.id block0 && m.isBoundary surface_cmv.component_id.id block1) ||
          loopAny (fun line_cmv : ComponentMeshVertex =>
            line_cmv.component_id.type == .line &&
            (m.isBoundary line_cmv.component_id.id surface_cmv.component_id.id &&
              (m.isBoundary surface_cmv.component_id.id block0 || m.isBoundary surface_cmv.component_id.id block1)))
            (m.componentMeshVertices v)))
        (m.componentMeshVertices v) then return none
    return some ("unique vertex " ++ toString v ++ " is part of two Blocks, but not of a Surface boundary to the " ++
      "two Blocks, nor of a Line boundary to one of the Blocks incident Surfaces.")
  | _ => return none

/-- `unique_vertex_block_cmvs_count_is_incorrect`, brep_blocks_topology.cpp:692-713. -/
def blockCmvsCountIsIncorrect (m : TopologyModel) (v : Index) : Except Failure (Option String) :=
  findSomeM (fun block_uuid =>
    match m.component .block block_uuid with
    | .error f => .error f
    | .ok block =>
      if !block.active then .ok none
      else wrongNbExpectedBlockCmvs m v block_uuid (vertexCmvsByComponent m v))
    (componentsUuids m v .block)

/-- `brep_blocks_topology_is_valid`, brep_blocks_topology.cpp:611-618. -/
def brepBlocksTopologyIsValid (m : TopologyModel) (v : Index) : Except Failure Bool := do
  if (← twoBlocksAndNoBoundarySurface m v).isSome then return false
  return !(← blockCmvsCountIsIncorrect m v).isSome

/-- `vertex_is_part_of_surface_with_wrong_relationships_to_block`, brep_blocks_topology.cpp:715-771. -/
def wrongRelationshipsToBlock (m : TopologyModel) (v : Index) (not_boundary_surfaces dangling_surface : List Uuid) :
    Except Failure (Option String) :=
  findSomeM (fun cmv => ifActive m .surface cmv (.ok none)
    (if decide (m.nbIncidences cmv.component_id.id ≥ 1) && not_boundary_surfaces.contains cmv.component_id.id then
      .ok (some ("unique vertex with index " ++ toString v ++ " is part of Surface " ++
        m.label .surface cmv.component_id.id ++ ", which should not be boundary of any Block."))
    else if decide (m.nbEmbeddings cmv.component_id.id ≥ 1) && decide (m.nbIncidences cmv.component_id.id < 1)
        && !not_boundary_surfaces.contains cmv.component_id.id && dangling_surface.contains cmv.component_id.id then
      .ok (some ("unique vertex " ++ toString v ++ " is part of Surface " ++
        m.label .surface cmv.component_id.id ++ ", which should not be embedded in any Block."))
    else if decide (m.nbIncidences cmv.component_id.id < 1) && decide (m.nbEmbeddings cmv.component_id.id < 1)
        && !dangling_surface.contains cmv.component_id.id then
      .ok (some ("unique vertex " ++ toString v ++ " is part of Surface " ++
        m.label .surface cmv.component_id.id ++ ", which is not internal to a Block while it should be."))
    else .ok none)) (m.componentMeshVertices v)

/-- `vertex_is_part_of_invalid_single_surface`, brep_blocks_topology.cpp:773-840. -/
def invalidSingleSurface (m : TopologyModel) (v : Index) (not_boundary_surfaces : List Uuid) :
    Except Failure (Option String) := do
  match componentsUuids m v .surface with
  | [surface_id] =>
    let surface ← m.component .surface surface_id
    if !surface.active then return none
    let block_uuids := componentsUuids m v .block
    if not_boundary_surfaces.contains surface_id then return none
    if block_uuids.length > 2 then
      return some ("unique vertex " ++ toString v ++ " is part of only one Surface, but is part of more than two Blocks.")
    if m.nbEmbeddings surface_id > 0 then
      if brepBlocksAreMeshed m then
        match block_uuids with
        | [block_id] =>
          if !m.isInternal surface_id block_id then
            return some ("unique vertex " ++ toString v ++ " is part of only one Surface, which is embedded, " ++
              "and one Block, but the Surface is not internal to the Block.")
          return none
        | _ => return some ("unique vertex " ++ toString v ++ " is part of only one Surface, which is embedded, " ++
            "but not part of only one Block.")
      return none
    findSomeM (fun block_id =>
      if !m.isBoundary surface_id block_id then
        match m.component .block block_id with
        | .error f => .error f
        | .ok _ => .ok (some ("unique vertex " ++ toString v ++ " is part of only one Surface" ++
            m.label .surface surface_id ++ " which is not embedded, but not boundary either of Block " ++
            m.label .block block_id ++ ", in which the vertex is."))
      else .ok none) block_uuids
  | _ => return none

/-- `vertex_is_part_of_invalid_multiple_surfaces`, brep_blocks_topology.cpp:842-903. -/
def invalidMultipleSurfaces (m : TopologyModel) (v : Index) : Except Failure (Option String) :=
  let line_uuids := componentsUuids m v .line
  if line_uuids.length < 2 then .ok none
  else
    let surface_uuids := componentsUuids m v .surface
    if surface_uuids.length < 2 then .ok none
    else
      let not_dangling_surfaces := surface_uuids.filter fun surface_uuid =>
        !(decide (m.nbIncidences surface_uuid < 1) && decide (m.nbEmbeddings surface_uuid < 1))
      if not_dangling_surfaces.length < 2 then .ok none
      else
        findSomeM (fun line_id =>
          if decide (m.nbEmbeddings line_id < 1) && !lineIsBoundaryOfTwo m line_id 0 not_dangling_surfaces &&
              !loopAny (fun surface_id => !m.isInternal line_id surface_id && !m.isBoundary line_id surface_id)
                not_dangling_surfaces then
            match m.component .line line_id with
            | .error f => .error f
            | .ok _ => .ok (some ("unique vertex " ++ toString v ++
                " is part of multiple Surfaces and multiple Lines, but Line " ++ m.label .line line_id ++
                " is neither internal, nor a boundary of at least two Surfaces or one embedding Surface."))
          else .ok none) line_uuids

/-- What is external to the inspection of the blocks: the graph, the ray tracing, the bounding boxes and the model
boundaries. -/
structure BlocksOracle where
  edgeFromVertices : List GraphEdge → Uuid → Uuid → Option Nat
  isInsideBlock : Uuid → Uuid → Except Failure Bool
  geometry : BlockGeometry
  /-- items of each model boundary -/
  modelBoundaries : List (List Uuid)

/-- The two loops over the blocks, brep_blocks_topology.cpp:916-955: `block_is_meshed` is inlined. -/
def blocksMeshes (m : TopologyModel) (result : BRepBlocksTopologyInspectionResult) :
    BRepBlocksTopologyInspectionResult :=
  let blocks_not_meshed := (m.activeComponents .block).filter fun block =>
    !(block.nbVertices != 0 && block.nbElements != 0)
  let meshed_blocks := (m.activeComponents .block).filter fun block =>
    block.nbVertices != 0 && block.nbElements != 0
  let result := if !blocks_not_meshed.isEmpty && !meshed_blocks.isEmpty then
    blocks_not_meshed.foldl (fun result block =>
      { result with
        some_blocks_not_meshed :=
          result.some_blocks_not_meshed.add block.id ("Block " ++ m.label .block block.id ++ " is not meshed.") }) result
    else result
  meshed_blocks.foldl (fun result block =>
    { result with
      blocks_not_linked_to_a_unique_vertex :=
        addNotAssociated m .block "Block " result.blocks_not_linked_to_a_unique_vertex block }) result

/-- Body of the loop over the unique vertices, brep_blocks_topology.cpp:964-1004. -/
def blocksVertex (m : TopologyModel) (not_boundary_surfaces dangling_surfaces : List Uuid)
    (result : BRepBlocksTopologyInspectionResult) (v : Index) : Except Failure BRepBlocksTopologyInspectionResult := do
  let two ← twoBlocksAndNoBoundarySurface m v
  let count ← blockCmvsCountIsIncorrect m v
  let single ← invalidSingleSurface m v not_boundary_surfaces
  let wrong ← wrongRelationshipsToBlock m v not_boundary_surfaces dangling_surfaces
  let multiple ← invalidMultipleSurfaces m v
  return { result with
    unique_vertices_part_of_two_blocks_and_no_boundary_surface :=
      addOptional result.unique_vertices_part_of_two_blocks_and_no_boundary_surface v two
    unique_vertices_with_incorrect_block_cmvs_count :=
      addOptional result.unique_vertices_with_incorrect_block_cmvs_count v count
    unique_vertices_linked_to_a_single_and_invalid_surface :=
      addOptional result.unique_vertices_linked_to_a_single_and_invalid_surface v single
    unique_vertices_linked_to_surface_with_wrong_relationship_to_blocks :=
      addOptional result.unique_vertices_linked_to_surface_with_wrong_relationship_to_blocks v wrong
    unique_vertex_linked_to_multiple_invalid_surfaces :=
      addOptional result.unique_vertex_linked_to_multiple_invalid_surfaces v multiple }

/-- The loop over the boundary surfaces of a block, brep_blocks_topology.cpp:1017-1038: an active boundary
surface with a line not linked to another boundary surface. -/
def wrongBoundarySurface (m : TopologyModel) (block : Uuid) : Except Failure (Option String) :=
  findSomeM (fun surface =>
    match m.component .surface surface with
    | .error f => .error f
    | .ok c =>
      if !c.active then .ok none
      else if surfaceBoundariesAreNotLinked m block surface then
        .ok (some ("Block " ++ m.label .block block ++ " boundary Surface " ++ m.label .surface surface ++
          " has a boundary Line not incident to any other Block boundary Surface. Either the surface " ++
          "shouldn't be boundary, or there is a hole in the block boundaries"))
      else .ok none)
    (m.related (m.boundaries block) .surface)

/-- Body of the last loop over the blocks, brep_blocks_topology.cpp:1005-1039. -/
def blocksBoundaries (m : TopologyModel) (o : BlocksOracle) (fuel : Nat) (result : BRepBlocksTopologyInspectionResult)
    (block : TopologyComponent) : Except Failure BRepBlocksTopologyInspectionResult := do
  let closed ← blockBoundariesAreClosed m o.geometry fuel block.id
  let wrong ← wrongBoundarySurface m block.id
  return { result with
    blocks_with_not_closed_boundary_surfaces :=
      if !closed then
        result.blocks_with_not_closed_boundary_surfaces.add block.id
          ("Block " ++ m.label .block block.id ++ " boundaries are not closed or form several closed volumes.")
      else result.blocks_with_not_closed_boundary_surfaces
    wrong_block_boundary_surface :=
      match wrong with
      | some message => result.wrong_block_boundary_surface.add block.id message
      | none => result.wrong_block_boundary_surface }

/-- The test of the model boundaries, brep_blocks_topology.cpp:956-963. -/
def blocksModelBoundaries (m : TopologyModel) (o : BlocksOracle) (fuel : Nat)
    (result : BRepBlocksTopologyInspectionResult) : Except Failure BRepBlocksTopologyInspectionResult := do
  if o.modelBoundaries.length != 0 then
    let closed ← brepBoundariesAreClosed m o.modelBoundaries fuel
    if !closed then
      return { result with
        model_boundaries_dont_form_a_closed_surface :=
          result.model_boundaries_dont_form_a_closed_surface.add 0
            "ModelBoundaries don't form a valid closed surface." }
  return result

/-- `inspect_blocks`, brep_blocks_topology.cpp:905-1041. -/
def brepInspectBlocks (m : TopologyModel) (o : BlocksOracle) (fuel : Nat) :
    Except Failure BRepBlocksTopologyInspectionResult := do
  if (m.activeComponents .block).length == 0 then return {}
  let not_boundary_surfaces ← findNotBoundarySurfaces m o.edgeFromVertices fuel
  let dangling_surfaces ← findDanglingSurfaces m o.isInsideBlock not_boundary_surfaces
  let result := blocksMeshes m {}
  let result ← blocksModelBoundaries m o fuel result
  let result ← (List.range m.nbUniqueVertices).foldlM
    (blocksVertex m not_boundary_surfaces dangling_surfaces) result
  (m.activeComponents .block).foldlM (blocksBoundaries m o fuel) result

end Inspector
