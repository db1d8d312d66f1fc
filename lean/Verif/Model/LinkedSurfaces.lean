import Verif.Model.Topology
/-
Model of the functions of topology/brep_blocks_topology.cpp on linked boundary surfaces (lines 278-510): the
queue of `closed_linked_surfaces`, the parts of the boundary of a block, the enclosing part and its fused mesh.
The `while` loops take a bound `fuel` on their number of iterations, and fail with `outOfFuel` when it is
reached; the theorems show that they terminate.
-/
namespace Inspector

/-- `find_linked_processed_surface`, brep_blocks_topology.cpp:278-294 (the lookup of the surface succeeds: its
uuid was given by the model). -/
def findLinkedProcessedSurface (m : TopologyModel) (surface_uuid : Uuid) (processed : List Uuid) : Bool :=
  loopAny (fun line =>
    loopAny (fun other_surface => processed.contains other_surface) (m.related (m.incidences line) .surface))
    (m.related (m.boundaries surface_uuid) .line)

/-- The loop of `closed_linked_surfaces`, brep_blocks_topology.cpp:304-326: the processed surfaces and the
remaining queue. -/
def closedLinkedLoop (m : TopologyModel) : Nat → List Uuid → List Uuid → Nat → Except Failure (List Uuid × List Uuid)
  | 0, _, _, _ => .error .outOfFuel
  | _ + 1, processed, [], _ => .ok (processed, [])
  | fuel + 1, processed, surface_uuid :: rest, skip_counter =>
    if skip_counter == (surface_uuid :: rest).length then .ok (processed, surface_uuid :: rest)
    else if processed.contains surface_uuid then closedLinkedLoop m fuel processed rest skip_counter
    else if findLinkedProcessedSurface m surface_uuid processed then
      closedLinkedLoop m fuel (processed ++ [surface_uuid]) rest 0
    else closedLinkedLoop m fuel processed (rest ++ [surface_uuid]) (skip_counter + 1)

/-- `closed_linked_surfaces`, brep_blocks_topology.cpp:296-328: the processed surfaces and the remaining queue.
`to_process.front()` on an empty queue is undefined behaviour. -/
def closedLinkedSurfaces (m : TopologyModel) (fuel : Nat) : List Uuid → Except Failure (List Uuid × List Uuid)
  | [] => .error .undefinedBehaviour
  | first_surface_uuid :: to_process => closedLinkedLoop m fuel [first_surface_uuid] to_process 0

/-- The loop of `block_boundaries_are_closed`, brep_blocks_topology.cpp:450-455. -/
def linkedBoundaryParts (m : TopologyModel) (fuel : Nat) : Nat → List Uuid → Except Failure (List (List Uuid))
  | 0, _ => .error .outOfFuel
  | _ + 1, [] => .ok []
  | n + 1, surface :: rest => do
    let part ← closedLinkedSurfaces m fuel (surface :: rest)
    let parts ← linkedBoundaryParts m fuel n part.2
    return part.1 :: parts

/-- `queue_with_block_boundaries`, brep_blocks_topology.cpp:330-339. -/
def queueWithBlockBoundaries (m : TopologyModel) (block : Uuid) : List Uuid :=
  (m.related (m.boundaries block) .surface).foldl (fun queue surface => queue ++ [surface]) []

/-- `queue_with_model_boundaries`, brep_blocks_topology.cpp:341-354: `modelBoundaries` are the items of each
model boundary. -/
def queueWithModelBoundaries (modelBoundaries : List (List Uuid)) : List Uuid :=
  modelBoundaries.foldl (fun queue items => items.foldl (fun queue surface => queue ++ [surface]) queue) []

/-- A fused mesh: the surface vertex giving each point, the polygons, and the mapping of unique vertices (`none`
for `NO_ID`). -/
structure FusedSurface where
  points : List (Uuid × Index) := []
  polygons : List (List Nat) := []
  mapping : List (Option Index × Nat) := []

/-- The body of the loop over the vertices of a polygon, brep_blocks_topology.cpp:417-437. -/
def fuseVertex (m : TopologyModel) (surface : Uuid) (state : FusedSurface × List Nat) (vertex : Index) :
    FusedSurface × List Nat :=
  let unique_vertex := m.uniqueVertex ⟨⟨.surface, surface⟩, vertex⟩
  match state.1.mapping.find? fun e => e.1 == unique_vertex with
  | none =>
    ({ state.1 with
        points := state.1.points ++ [(surface, vertex)]
        mapping := state.1.mapping ++ [(unique_vertex, state.1.points.length)] },
      state.2 ++ [state.1.points.length])
  | some e => (state.1, state.2 ++ [e.2])

/-- The body of the loop over the polygons of a surface, brep_blocks_topology.cpp:412-439. -/
def fusePolygon (m : TopologyModel) (surface : Uuid) (fused : FusedSurface) (polygon : Index) : FusedSurface :=
  let state := (m.polygonVertices surface polygon).foldl (fuseVertex m surface) (fused, [])
  { state.1 with
    polygons := state.1.polygons ++ [state.2] }

/-- `fuse_brep_surfaces_from_list`, brep_blocks_topology.cpp:400-444 (without the adjacencies; `brep.surface`
raises for an unknown uuid). -/
def fuseBRepSurfacesFromList (m : TopologyModel) (surface_list : List Uuid) : Except Failure FusedSurface :=
  surface_list.foldlM (fun fused surface_id => do
    let surface ← m.component .surface surface_id
    return (List.range surface.nbElements).foldl (fusePolygon m surface_id) fused) {}

/-- What the closedness tests read of the geometry (external): bounding boxes of surfaces, and
`is_point_inside_closed_surface` for a vertex of a surface and a fused mesh, which may raise. -/
structure BlockGeometry where
  Box : Type
  emptyBox : Box
  addBox : Box → Box → Box
  contains : Box → Box → Bool
  surfaceBox : Uuid → Box
  isVertexInside : FusedSurface → Uuid → Index → Except Failure Bool

/-- `surface_list_box`, brep_blocks_topology.cpp:356-365. -/
def surfaceListBox (g : BlockGeometry) (surface_list : List Uuid) : g.Box :=
  surface_list.foldl (fun result surface_id => g.addBox result (g.surfaceBox surface_id)) g.emptyBox

/-- `enclosing_surface_list`, brep_blocks_topology.cpp:367-398. -/
def enclosingSurfaceList (g : BlockGeometry) (linked_surfaces_list : List (List Uuid)) : Option Nat :=
  let bounding_boxes := linked_surfaces_list.map (surfaceListBox g)
  (List.range linked_surfaces_list.length).find? fun first =>
    !loopAny (fun second => second != first &&
      match bounding_boxes[first]?, bounding_boxes[second]? with
      | some box1, some box2 => !g.contains box1 box2
      | _, _ => false) (List.range linked_surfaces_list.length)

/-- The test of one vertex, brep_blocks_topology.cpp:483-497: `return false` also on an OpenGeode exception. -/
def vertexIsOutside (g : BlockGeometry) (mesh : FusedSurface) (surface : Uuid) (vertex : Index) :
    Except Failure Bool :=
  match g.isVertexInside mesh surface vertex with
  | .ok inside => .ok (!inside)
  | .error .openGeodeException => .ok true
  | .error f => .error f

/-- The loop over the surfaces of a part, brep_blocks_topology.cpp:477-499: some vertex is outside. -/
def partIsOutside (m : TopologyModel) (g : BlockGeometry) (mesh : FusedSurface) (surface_list : List Uuid) :
    Except Failure Bool :=
  loopAnyM (fun surface_id =>
    match m.component .surface surface_id with
    | .error f => .error f
    | .ok surface => loopAnyM (fun vertex_id => vertexIsOutside g mesh surface_id vertex_id)
        (List.range surface.nbVertices)) surface_list

/-- `block_boundaries_are_closed`, brep_blocks_topology.cpp:446-502. -/
def blockBoundariesAreClosed (m : TopologyModel) (g : BlockGeometry) (fuel : Nat) (block : Uuid) :
    Except Failure Bool := do
  let linked_boundary_parts ← linkedBoundaryParts m fuel fuel (queueWithBlockBoundaries m block)
  if linked_boundary_parts.length < 2 then return true
  match enclosingSurfaceList g linked_boundary_parts with
  | none => return false
  | some enclosing_surface_index =>
    let mesh ← fuseBRepSurfacesFromList m (linked_boundary_parts.getD enclosing_surface_index [])
    let outside ← loopAnyM (fun surface_list_id =>
      if surface_list_id == enclosing_surface_index then .ok false
      else partIsOutside m g mesh (linked_boundary_parts.getD surface_list_id []))
      (List.range linked_boundary_parts.length)
    return !outside

/-- `brep_boundaries_are_closed`, brep_blocks_topology.cpp:504-510. -/
def brepBoundariesAreClosed (m : TopologyModel) (modelBoundaries : List (List Uuid)) (fuel : Nat) :
    Except Failure Bool := do
  let result ← closedLinkedSurfaces m fuel (queueWithModelBoundaries modelBoundaries)
  return result.2.isEmpty

end Inspector
