import Verif.Model.Topology
/-
Model of the search of the surfaces which cannot be boundaries, topology/brep_blocks_topology.cpp:119-276: a graph
with one vertex per line and edges labelled by surfaces, peeled by rounds.  Graph vertices are identified with the uuids
of their lines (the mapping is a bijection), and edges are in a list: their identifiers are their positions.
-/
namespace Inspector

/-- An edge of the graph: its two vertices and the surface mapped to it. -/
structure GraphEdge where
  v0 : Uuid
  v1 : Uuid
  surface : Uuid
  deriving DecidableEq, Repr

/-- The innermost loop of `create_graph`, brep_blocks_topology.cpp:138-159.  `edgeFromVertices` is
`graph.edge_from_vertices` (external). -/
def addGraphEdge (edgeFromVertices : List GraphEdge → Uuid → Uuid → Option Nat) (line incident_surface : Uuid)
    (edges : List GraphEdge) (boundary_line : Uuid) : List GraphEdge :=
  match edgeFromVertices edges boundary_line line with
  | some existing_edge =>
    if (edges[existing_edge]?).map GraphEdge.surface == some incident_surface then edges
    else edges ++ [⟨boundary_line, line, incident_surface⟩]
  | none => edges ++ [⟨boundary_line, line, incident_surface⟩]

/-- `create_graph`, brep_blocks_topology.cpp:119-161: the edges (the vertices are the lines). -/
def createGraph (m : TopologyModel) (edgeFromVertices : List GraphEdge → Uuid → Uuid → Option Nat) :
    List GraphEdge :=
  (m.components .line).foldl (fun edges line =>
    (m.related (m.incidences line.id) .surface).foldl (fun edges incident_surface =>
      (m.related (m.boundaries incident_surface) .line).foldl
        (addGraphEdge edgeFromVertices line.id incident_surface) edges) edges) []

/-- `graph.edges_around_vertex` (external; the order and the repetition of a loop edge do not matter). -/
def edgesAroundVertex (edges : List GraphEdge) (vertex : Uuid) : List GraphEdge :=
  edges.filter fun e => e.v0 == vertex || e.v1 == vertex

/-- The body of the loop over the vertices, brep_blocks_topology.cpp:179-219: the surfaces found and `to_delete`. -/
def peelVertex (edges : List GraphEdge) (state : List Uuid × List Bool) (vertex : Uuid) : List Uuid × List Bool :=
  match edgesAroundVertex edges vertex with
  | [] => state
  | first :: _ =>
    let surface_id := first.surface
    if loopAny (fun edge_around => edge_around.surface != surface_id) (edgesAroundVertex edges vertex) then state
    else if state.1.contains surface_id then state
    else (state.1 ++ [surface_id],
      (edges.zip state.2).map fun edge => if edge.1.surface == surface_id then true else edge.2)

/-- The loop of `find_not_boundary_surfaces`, brep_blocks_topology.cpp:176-242. -/
def peelLoop : Nat → List Uuid → List GraphEdge → List Uuid → Except Failure (List Uuid)
  | 0, _, _, _ => .error .outOfFuel
  | fuel + 1, vertices, edges, not_boundaries_surfaces =>
    let state := vertices.foldl (peelVertex edges) (not_boundaries_surfaces, List.replicate edges.length false)
    if !state.2.contains true then .ok state.1
    else
      let edges := ((edges.zip state.2).filter fun edge => !edge.2).map Prod.fst
      peelLoop fuel (vertices.filter fun vertex => !(edgesAroundVertex edges vertex).isEmpty) edges state.1

/-- `find_not_boundary_surfaces`, brep_blocks_topology.cpp:167-244. -/
def findNotBoundarySurfaces (m : TopologyModel) (edgeFromVertices : List GraphEdge → Uuid → Uuid → Option Nat)
    (fuel : Nat) : Except Failure (List Uuid) :=
  peelLoop fuel ((m.components .line).map TopologyComponent.id) (createGraph m edgeFromVertices) []

/-- `find_dangling_surfaces`, brep_blocks_topology.cpp:246-276.  `isInsideBlock surface block` is
`ray_tracing.is_point_inside_block` for the barycenter of the first polygon of the surface (external), which may raise. -/
def findDanglingSurfaces (m : TopologyModel) (isInsideBlock : Uuid → Uuid → Except Failure Bool)
    (not_boundary_surfaces : List Uuid) : Except Failure (List Uuid) :=
  not_boundary_surfaces.foldlM (fun dangling_surfaces surface_id => do
    let surface ← m.component .surface surface_id
    if surface.nbElements == 0 then return dangling_surfaces
    let is_inside ← loopAnyM (fun block => isInsideBlock surface_id block.id) (m.components .block)
    return if !is_inside then dangling_surfaces ++ [surface_id] else dangling_surfaces) []

end Inspector
