import Verif.Model.Topology
/-
Model of topology/internal/expected_nb_cmvs.{hpp,cpp}.  The counters of the loops are natural numbers (they are
bounded by the sizes of lists, supposed below 2^32); the `index_t` arithmetic on them wraps, as in the code.
-/
namespace Inspector

/-- `VertexCMVsByComponent`, internal/expected_nb_cmvs.hpp:41-47. -/
structure VertexCMVsByComponent where
  block_cmvs : List ComponentMeshVertex := []
  surface_cmvs : List ComponentMeshVertex := []
  line_cmvs : List ComponentMeshVertex := []
  corner_cmvs : List ComponentMeshVertex := []

/-- `vertex_cmvs_by_component`, internal/expected_nb_cmvs.cpp:238-266. -/
def vertexCmvsByComponent (m : TopologyModel) (v : Index) : VertexCMVsByComponent :=
  (m.componentMeshVertices v).foldl (fun result cmv =>
    let result := if cmv.component_id.type == .block then
      { result with
        block_cmvs := result.block_cmvs ++ [cmv] } else result
    let result := if cmv.component_id.type == .surface then
      { result with
        surface_cmvs := result.surface_cmvs ++ [cmv] } else result
    let result := if cmv.component_id.type == .line then
      { result with
        line_cmvs := result.line_cmvs ++ [cmv] } else result
    if cmv.component_id.type == .corner then
      { result with
        corner_cmvs := result.corner_cmvs ++ [cmv] } else result) {}

/-- `count_cmvs`, internal/expected_nb_cmvs.cpp:42-56. -/
def countCmvs (cmvs : List ComponentMeshVertex) (condition : ComponentMeshVertex → Bool) : Nat :=
  cmvs.foldl (fun counter cmv => if condition cmv then counter + 1 else counter) 0

/-- `line_on_block_boundary_count`, internal/expected_nb_cmvs.cpp:58-76. -/
def lineOnBlockBoundaryCount (m : TopologyModel) (line block : Uuid) : Nat :=
  (m.related (m.boundaries block) .surface).foldl (fun counter boundary_surface =>
    let counter := if m.isBoundary line boundary_surface then counter + 1 else counter
    if m.isInternal line boundary_surface then counter + 2 else counter) 0 / 2

/-- `line_is_inside_block`, internal/expected_nb_cmvs.cpp:78-90. -/
def lineIsInsideBlock (m : TopologyModel) (line block : Uuid) : Bool :=
  !loopAny (fun incident_surface => !m.isInternal incident_surface block)
    (m.related (m.incidences line) .surface)

/-- Loop over the surfaces of `expected_block_cmvs_and_error`, internal/expected_nb_cmvs.cpp:103-117: numbers
of boundary and of internal surface vertices. -/
def surfaceCmvsLoop (m : TopologyModel) (block : Uuid) :
    List ComponentMeshVertex → Nat → Nat → Except Failure (Nat × Nat)
  | [], nb_boundary_surface_cmvs, nb_internal_surface_cmvs =>
    .ok (nb_boundary_surface_cmvs, nb_internal_surface_cmvs)
  | cmv :: rest, nb_boundary_surface_cmvs, nb_internal_surface_cmvs =>
    match m.component .surface cmv.component_id.id with
    | .error f => .error f
    | .ok _ =>
      if m.isBoundary cmv.component_id.id block then
        surfaceCmvsLoop m block rest (nb_boundary_surface_cmvs + 1) nb_internal_surface_cmvs
      else if m.isInternal cmv.component_id.id block then
        surfaceCmvsLoop m block rest nb_boundary_surface_cmvs (nb_internal_surface_cmvs + 1)
      else surfaceCmvsLoop m block rest nb_boundary_surface_cmvs nb_internal_surface_cmvs

/-- The counters of the loop over the lines, internal/expected_nb_cmvs.cpp:118-123. -/
structure LineCmvsCounters where
  nb_line_on_boundary_cmvs : Nat := 0
  nb_lines_on_several_boundaries : Nat := 0
  nb_additional_corners_count : Nat := 0
  nb_line_internal_to_internal_surface_cmvs : Nat := 0
  nb_free_line_cmvs : Nat := 0
  nb_line_boundary_to_several_internal_surfaces_cmvs : Nat := 0
  deriving DecidableEq, Repr

/-- Body of the loop over the lines, internal/expected_nb_cmvs.cpp:124-166. -/
def lineCmvsBody (m : TopologyModel) (block : Uuid) (c : LineCmvsCounters) (cmv : ComponentMeshVertex) :
    Except Failure LineCmvsCounters :=
  let line := cmv.component_id.id
  match m.component .line line with
  | .error f => .error f
  | .ok _ =>
    if (m.related (m.embeddings line) .block).length != 0 then .ok c
    else
      let boundary_count := lineOnBlockBoundaryCount m line block
      if boundary_count > 0 then
        .ok { c with
          nb_line_on_boundary_cmvs := c.nb_line_on_boundary_cmvs + boundary_count
          nb_lines_on_several_boundaries :=
            if boundary_count > 1 then c.nb_lines_on_several_boundaries + 1
            else c.nb_lines_on_several_boundaries
          nb_additional_corners_count :=
            if boundary_count > 1 then c.nb_additional_corners_count + (boundary_count - 1)
            else c.nb_additional_corners_count }
      else if (m.related (m.embeddings line) .surface).length > 0 then
        if loopAny (fun incident_surface => m.isInternal incident_surface block)
            (m.related (m.embeddings line) .surface) then
          .ok { c with
            nb_line_internal_to_internal_surface_cmvs := c.nb_line_internal_to_internal_surface_cmvs + 1 }
        else .ok c
      else if !lineIsInsideBlock m line block then .ok c
      else if m.nbIncidences line == 1 then
        .ok { c with
          nb_free_line_cmvs := c.nb_free_line_cmvs + 1 }
      else
        .ok { c with
          nb_line_boundary_to_several_internal_surfaces_cmvs :=
            c.nb_line_boundary_to_several_internal_surfaces_cmvs + 1 }

/-- Lines 167-182 of internal/expected_nb_cmvs.cpp: the predicted number, in `index_t` arithmetic. -/
def predictedNbBlockCmvs (nb_boundary_surface_cmvs nb_internal_surface_cmvs nb_corner_cmvs : Nat)
    (c : LineCmvsCounters) : UInt32 :=
  let predicted : UInt32 := 1 + UInt32.ofNat nb_internal_surface_cmvs
  let predicted := if nb_boundary_surface_cmvs > 0 then
    predicted + (UInt32.ofNat nb_boundary_surface_cmvs - 1 - UInt32.ofNat c.nb_line_on_boundary_cmvs)
    else predicted
  let nb_line_cmvs_to_remove := c.nb_line_internal_to_internal_surface_cmvs + c.nb_free_line_cmvs
    + c.nb_line_boundary_to_several_internal_surfaces_cmvs
  let predicted := predicted - UInt32.ofNat nb_line_cmvs_to_remove
  if nb_line_cmvs_to_remove != 0 || c.nb_line_on_boundary_cmvs != 0 then
    predicted + UInt32.ofNat nb_corner_cmvs + UInt32.ofNat (c.nb_additional_corners_count / 2)
  else predicted

/-- The message of `expected_block_cmvs_and_error`, internal/expected_nb_cmvs.cpp:205-232. -/
def blockCmvsMessage (m : TopologyModel) (v : Index) (block : Uuid) (cmvs : VertexCMVsByComponent)
    (surfaces : Nat × Nat) (c : LineCmvsCounters) (nb_block_cmvs : Nat) (predicted : UInt32) : String :=
  "unique vertex " ++ toString v ++ " at position [" ++
    ((cmvs.block_cmvs.head?.map m.pointString).getD "") ++ "] is part of Block " ++ m.label .block block ++
    ", and has " ++ toString cmvs.corner_cmvs.length ++ " cmvs of corners, " ++ toString surfaces.2 ++
    " cmvs of surfaces internal to that block, " ++ toString c.nb_line_internal_to_internal_surface_cmvs ++
    " cmvs of lines internal to one surface internal to that block, " ++ toString c.nb_free_line_cmvs ++
    " cmvs of free lines, " ++ toString c.nb_line_boundary_to_several_internal_surfaces_cmvs ++
    " cmvs of lines boundary to several internal surfaces, " ++ toString surfaces.1 ++
    " cmvs of surfaces boundary to the block, and " ++ toString c.nb_line_on_boundary_cmvs ++
    " cmvs counted for lines on the boundary, with " ++ toString nb_block_cmvs ++ " Block CMVs (expected " ++
    toString predicted ++ " with valid topology)."

/-- `expected_block_cmvs_and_error`, internal/expected_nb_cmvs.cpp:92-233.  Reading `block_cmvs[0]` for the
texts is undefined behaviour when there is no block. -/
def expectedBlockCmvsAndError (m : TopologyModel) (v : Index) (block : Uuid) (cmvs : VertexCMVsByComponent) :
    Except Failure (UInt32 × Option String) := do
  let nb_block_cmvs := countCmvs cmvs.block_cmvs fun cmv => cmv.component_id.id == block
  let _ ← m.component .block block
  let surfaces ← surfaceCmvsLoop m block cmvs.surface_cmvs 0 0
  let c ← cmvs.line_cmvs.foldlM (lineCmvsBody m block) {}
  let predicted := predictedNbBlockCmvs surfaces.1 surfaces.2 cmvs.corner_cmvs.length c
  if c.nb_lines_on_several_boundaries % 2 == 1 then
    if cmvs.block_cmvs == [] then throw .undefinedBehaviour
    if UInt32.ofNat nb_block_cmvs == predicted + UInt32.ofNat c.nb_lines_on_several_boundaries then
      return (UInt32.ofNat nb_block_cmvs, none)
  if UInt32.ofNat nb_block_cmvs == predicted then return (predicted, none)
  if cmvs.block_cmvs == [] then throw .undefinedBehaviour
  return (predicted, some (blockCmvsMessage m v block cmvs surfaces c nb_block_cmvs predicted))

/-- `nb_expected_block_cmvs`, internal/expected_nb_cmvs.cpp:268-275. -/
def nbExpectedBlockCmvs (m : TopologyModel) (v : Index) (block : Uuid) (cmvs : VertexCMVsByComponent) :
    Except Failure UInt32 := do
  return (← expectedBlockCmvsAndError m v block cmvs).1

/-- `wrong_nb_expected_block_cmvs`, internal/expected_nb_cmvs.cpp:277-285. -/
def wrongNbExpectedBlockCmvs (m : TopologyModel) (v : Index) (block : Uuid) (cmvs : VertexCMVsByComponent) :
    Except Failure (Option String) := do
  return (← expectedBlockCmvsAndError m v block cmvs).2

end Inspector
