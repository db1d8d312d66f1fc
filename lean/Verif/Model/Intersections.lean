import Verif.Model.Mesh
import Verif.Model.Results
import Verif.Model.HashMap
/-
Model of the intersection criteria (src/geode/inspector/inspection/criterion/intersections/).
Geometric predicates of OpenGeode and traversals of its AABB trees are external: parameters.
-/
namespace Inspector

/-- `geode::POSITION` (external), the values named in the code; `other` stands for the remaining ones. -/
inductive Position where
  | outside | inside | parallel
  | vertex0 | vertex1 | vertex2
  | edge0 | edge1 | edge2
  | other (n : Nat)
  deriving DecidableEq, Repr

/-- A pair of element indices met by the traversal of one or two trees. -/
abbrev ElementPair := Index × Index

/-- The traversal of AABB trees (external): given when the action asks to stop, the pairs on which the
action is run. -/
abbrev Traversal := (ElementPair → Bool) → List ElementPair

/-- Runs an action by a traversal: the action says for a pair whether it is emplaced and whether the
traversal should stop, or fails.  The vector of emplaced pairs, in the order of the calls. -/
def runTraversal (traverse : Traversal) (action : ElementPair → Except Failure (Bool × Bool)) :
    Except Failure (List ElementPair) :=
  (traverse fun x => match action x with
    | .ok r => r.2
    | .error _ => true).foldlM (fun intersecting x =>
      match action x with
      | .error f => .error f
      | .ok r => .ok (if r.1 then intersecting ++ [x] else intersecting)) []

/-! ### polygons of one surface -/

/-- A surface mesh as read by its intersection criterion; `polygonsIntersect` is the external
`polygons_intersection_detection` on the vertices of two polygons, which may raise. -/
structure IntersectionSurface where
  polygonVertices : Index → List Index
  polygonsIntersect : List Index → List Index → Except Failure Bool

/-- `PolygonPolygonIntersection::operator()`, surface_intersections.cpp:57-73. -/
def polygonPolygonAction (mesh : IntersectionSurface) (stop_at_first_intersection : Bool) (p : ElementPair) :
    Except Failure (Bool × Bool) :=
  if p.1 == p.2 then .ok (false, false)
  else
    match mesh.polygonsIntersect (mesh.polygonVertices p.1) (mesh.polygonVertices p.2) with
    | .error f => .error f
    | .ok true => .ok (true, stop_at_first_intersection)
    | .ok false => .ok (false, false)

/-- `SurfaceMeshIntersections::Impl::intersecting_polygons`, surface_intersections.cpp:135-143. -/
def intersectingPolygons (traverse : Traversal) (mesh : IntersectionSurface) (stop : Bool) :
    Except Failure (List ElementPair) :=
  runTraversal traverse (polygonPolygonAction mesh stop)

/-- `SurfaceMeshIntersections::Impl::mesh_has_self_intersections`, surface_intersections.cpp:107-115. -/
def meshHasSelfIntersections (traverse : Traversal) (mesh : IntersectionSurface) : Except Failure Bool :=
  match intersectingPolygons traverse mesh true with
  | .error f => .error f
  | .ok intersections => if intersections.isEmpty then .ok false else .ok true

/-- `SurfaceMeshIntersections::Impl::intersecting_elements`, surface_intersections.cpp:118-132. -/
def surfaceIntersectingElements (traverse : Traversal) (mesh : IntersectionSurface) :
    Except Failure (Issues ElementPair) :=
  match intersectingPolygons traverse mesh false with
  | .error f => .error f
  | .ok intersections => .ok (intersections.foldl (fun issues p =>
      issues.add p ("Polygons " ++ toString p.1 ++ " and " ++ toString p.2 ++ " intersect"))
      (Issues.new "intersections between polygons"))

/-! ### triangles of a surface and edges of a curve -/

/-- A triangulated surface and a curve; `P` is the type of points, the predicates are external. -/
structure SurfaceCurve (P : Type) where
  triangle : Index → P × P × P
  /-- points of the two vertices of an edge of a triangle -/
  triangleEdge : Index → Nat → P × P
  segment : Index → P × P
  pointTriangle : P → P × P × P → Position
  segmentSegment : P × P → P × P → Position × Position
  segmentTriangle : P × P → P × P × P → Position × Position

/-- `edge_intersects_triangle` in 2D, surface_curve_intersections.cpp:126-158. -/
def edgeIntersectsTriangle2D {P : Type} (m : SurfaceCurve P) (p : ElementPair) : Bool :=
  let triangle := m.triangle p.1
  let segment := m.segment p.2
  if loopAny (fun vertex => m.pointTriangle vertex triangle == .inside) [segment.1, segment.2] then true
  else loopAny (fun e =>
    let result := m.segmentSegment segment (m.triangleEdge p.1 e)
    if result.1 == .inside then true
    else if result.2 == .inside then true
    else false) (List.range 3)

/-- `edge_intersects_triangle` in 3D, surface_curve_intersections.cpp:161-211. -/
def edgeIntersectsTriangle3D {P : Type} (m : SurfaceCurve P) (p : ElementPair) : Bool :=
  let triangle := m.triangle p.1
  let segment := m.segment p.2
  if loopAny (fun vertex => m.pointTriangle vertex triangle == .inside) [segment.1, segment.2] then true
  else
    let result := m.segmentTriangle segment triangle
    if result.1 == .outside || result.2 == .outside then false
    else if result.1 == .inside then true
    else if result.2 == .inside || result.2 == .edge0 || result.2 == .edge1 || result.2 == .edge2 then true
    else if result.1 == .parallel then
      loopAny (fun vertex =>
        let position := m.pointTriangle vertex triangle
        position != .vertex0 && position != .vertex1 && position != .vertex2) [segment.1, segment.2]
    else false

/-- `OneTriangleEdgeIntersection::operator()`, surface_curve_intersections.cpp:92-100. -/
def oneTriangleEdgeAction (intersects : ElementPair → Bool) (p : ElementPair) : Except Failure (Bool × Bool) :=
  if intersects p then .ok (true, true) else .ok (false, false)

/-- `AllTriangleEdgeIntersection::operator()`, surface_curve_intersections.cpp:115-122. -/
def allTriangleEdgeAction (intersects : ElementPair → Bool) (p : ElementPair) : Except Failure (Bool × Bool) :=
  if intersects p then .ok (true, false) else .ok (false, false)

/-- `SurfaceCurveIntersections::Impl::meshes_have_intersections`,
surface_curve_intersections.cpp:226-235. -/
def meshesHaveIntersections (traverse : Traversal) (intersects : ElementPair → Bool) : Except Failure Bool :=
  match runTraversal traverse (oneTriangleEdgeAction intersects) with
  | .error f => .error f
  | .ok intersections => if intersections.isEmpty then .ok false else .ok true

/-- `SurfaceCurveIntersections::Impl::intersecting_elements`,
surface_curve_intersections.cpp:238-252. -/
def curveIntersectingElements (traverse : Traversal) (intersects : ElementPair → Bool) :
    Except Failure (Issues ElementPair) :=
  match runTraversal traverse (allTriangleEdgeAction intersects) with
  | .error f => .error f
  | .ok intersections => .ok (intersections.foldl (fun issues p =>
      issues.add p ("Triangle " ++ toString p.1 ++ " and edge" ++ toString p.2 ++ " intersect"))
      (Issues.new "intersections between triangles and edges"))

/-! ### models: polygons -/

/-- `polygon_fan_triangles`, model_intersections.cpp:63-79.  `LRange` counts on 8 bits. -/
def polygonFanTriangles (polygon : List Index) (apex : Nat) : List (List Index) :=
  (List.range' 1 ((polygon.length - 1) % 256 - 1)).map fun edge =>
    let next_apex := (apex + edge) % polygon.length
    let next_next_apex := if next_apex + 1 == polygon.length then 0 else next_apex + 1
    [polygon.getD apex 0, polygon.getD next_apex 0, polygon.getD next_next_apex 0]

/-- A surface of a model as read by the intersection criterion. -/
structure ModelSurface (P : Type) where
  id : Uuid
  active : Bool
  nbPolygons : Nat
  polygonVertices : Index → List Index
  nbVertices : Nat
  point : Index → P
  uniqueVertex : Index → Index

/-- A line of a BRep as read by the intersection criterion. -/
structure ModelLine (P : Type) where
  id : Uuid
  active : Bool
  nbEdges : Nat
  segment : Index → P × P
  nbEmbeddingBlocks : Nat

/-- The external geometric predicates. -/
structure Geometry (P : Type) where
  segmentSegment : P × P → P × P → Position × Position
  pointTriangle : P → P × P × P → Position
  segmentTriangle : P × P → P × P × P → Position × Position
  /-- `geode::detail::position_to_index`, `none` for `NO_LID` -/
  positionToIndex : Position → Option Nat

/-- `triangles_common_vertices`, model_intersections.cpp:227-250. -/
def trianglesCommonVertices {P : Type} (s1 s2 : ModelSurface P) (t1 t2 : List Index) : List (Index × Index) :=
  t1.filterMap fun v1_id =>
    (t2.find? fun v2_id => s1.uniqueVertex v1_id == s2.uniqueVertex v2_id).map fun v2_id => (v1_id, v2_id)

/-- `third_point_index`, model_intersections.cpp:391-409, on the column `vertex_position` of the two
common vertices. -/
def thirdPointIndex (vertices : List Index) (common0 common1 : Index) : Except Failure Index :=
  match vertices.find? fun vertex_id => !(vertex_id == common0 || vertex_id == common1) with
  | some vertex_id => .ok vertex_id
  | none => .error .openGeodeException

/-- `mesh_triangle`, model_intersections.cpp:273-280. -/
def meshTriangle {P : Type} (s : ModelSurface P) (t : List Index) : P × P × P :=
  (s.point (t.getD 0 0), s.point (t.getD 1 0), s.point (t.getD 2 0))

/-- Body of the edge loops of `triangles_intersect` of a Section, model_intersections.cpp:446-489. -/
def sectionEdgesIntersect {P : Type} (g : Geometry P) (s1 s2 : ModelSurface P) (t1 t2 : List Index)
    (common_vertices : List (Index × Index)) (t1_edge_v t2_edge_v : Nat) : Bool :=
  let edge1_vertices := [t1.getD t1_edge_v 0, t1.getD (if t1_edge_v == 2 then 0 else t1_edge_v + 1) 0]
  let edge2_vertices := [t2.getD t2_edge_v 0, t2.getD (if t2_edge_v == 2 then 0 else t2_edge_v + 1) 0]
  let edge_edge_inter := g.segmentSegment
    (s1.point (edge1_vertices.getD 0 0), s1.point (edge1_vertices.getD 1 0))
    (s2.point (edge2_vertices.getD 0 0), s2.point (edge2_vertices.getD 1 0))
  if edge_edge_inter.1 == .outside || edge_edge_inter.1 == .parallel then false
  else if common_vertices.length != 1 then true
  else
    match g.positionToIndex edge_edge_inter.1, g.positionToIndex edge_edge_inter.2 with
    | some i1, some i2 =>
      edge1_vertices.getD i1 0 != (common_vertices.getD 0 (0, 0)).1 ||
        edge2_vertices.getD i2 0 != (common_vertices.getD 0 (0, 0)).2
    | _, _ => true

/-- `triangles_intersect` of a Section, model_intersections.cpp:413-491.  Line 422 reads the second
common point in the first mesh with the index it has in the second mesh: undefined behaviour if the
first mesh has no such vertex. -/
def sectionTrianglesIntersect {P : Type} (g : Geometry P) (s1 s2 : ModelSurface P) (t1 t2 : List Index)
    (common_vertices : List (Index × Index)) : Except Failure Bool :=
  if common_vertices.length == 2 then
    let c0 := common_vertices.getD 0 (0, 0)
    let c1 := common_vertices.getD 1 (0, 0)
    if !(c1.2 < s1.nbVertices) then .error .undefinedBehaviour
    else
    let common_pt0 := s1.point c0.1
    let common_pt1 := s1.point c1.2
    match thirdPointIndex t1 c0.1 c1.1 with
    | .error f => .error f
    | .ok third1 =>
      match thirdPointIndex t2 c0.2 c1.2 with
      | .error f => .error f
      | .ok third2 =>
        let t1_third_pt := s1.point third1
        let t2_third_pt := s2.point third2
        if (g.segmentSegment (common_pt0, t1_third_pt) (common_pt1, t2_third_pt)).1 != .outside
            || (g.segmentSegment (common_pt1, t1_third_pt) (common_pt0, t2_third_pt)).1 != .outside then .ok true
        else .ok (g.pointTriangle t1_third_pt (meshTriangle s2 t2) != .outside
          || g.pointTriangle t2_third_pt (meshTriangle s1 t1) != .outside)
  else .ok (loopAny (fun t1_edge_v => loopAny (fun t2_edge_v =>
    sectionEdgesIntersect g s1 s2 t1 t2 common_vertices t1_edge_v t2_edge_v) (List.range 3)) (List.range 3))

/-- `triangle_intersects_other`, model_intersections.cpp:493-532.  `own` and `theirs` are the columns of
the common vertices for the two triangles (`t2_vertex_position` 1 or 0). -/
def triangleIntersectsOther {P : Type} (g : Geometry P) (triangle1 triangle2 : P × P × P) (t1 t2 : List Index)
    (common_vertices : List (Index × Index)) (own theirs : Index × Index → Index) : Bool :=
  loopAny (fun v_id =>
    let v2_id := if v_id == 2 then 0 else v_id + 1
    let vertex := fun i : Nat => if i == 0 then triangle1.1 else if i == 1 then triangle1.2.1 else triangle1.2.2
    let intersection := g.segmentTriangle (vertex v_id, vertex v2_id) triangle2
    if intersection.1 != .outside then
      if common_vertices.length != 1 then true
      else
        match g.positionToIndex intersection.1, g.positionToIndex intersection.2 with
        | some edge_inter_pt_id, some t2_inter_pt_id =>
          t1.getD (if edge_inter_pt_id == 0 then v_id else v2_id) 0 != own (common_vertices.getD 0 (0, 0)) ||
            t2.getD t2_inter_pt_id 0 != theirs (common_vertices.getD 0 (0, 0))
        | _, _ => true
    else false) (List.range 3)

/-- `triangles_intersect` of a BRep, model_intersections.cpp:536-564. -/
def brepTrianglesIntersect {P : Type} (g : Geometry P) (s1 s2 : ModelSurface P) (t1 t2 : List Index)
    (common_vertices : List (Index × Index)) : Except Failure Bool :=
  let triangle2 := meshTriangle s2 t2
  if common_vertices.length == 2 then
    let c0 := common_vertices.getD 0 (0, 0)
    let c1 := common_vertices.getD 1 (0, 0)
    match thirdPointIndex t1 c0.1 c1.1 with
    | .error f => .error f
    | .ok third1 =>
      let t1_third_pt := s1.point third1
      .ok ((g.segmentTriangle (s1.point c0.1, t1_third_pt) triangle2).1 == .parallel
        || (g.segmentTriangle (s1.point c1.1, t1_third_pt) triangle2).1 == .parallel)
  else
    let triangle1 := meshTriangle s1 t1
    .ok (triangleIntersectsOther g triangle1 triangle2 t1 t2 common_vertices Prod.fst Prod.snd
      || triangleIntersectsOther g triangle2 triangle1 t2 t1 common_vertices Prod.snd Prod.fst)

/-- `triangles_intersection_detection`, model_intersections.cpp:216-225; `trianglesIntersect` is the
version of the kind of model. -/
def trianglesIntersectionDetection {P : Type}
    (trianglesIntersect : ModelSurface P → ModelSurface P → List Index → List Index → List (Index × Index) →
      Except Failure Bool)
    (s1 s2 : ModelSurface P) (t1 t2 : List Index) : Except Failure Bool :=
  let common_vertices := trianglesCommonVertices s1 s2 t1 t2
  if common_vertices.length == 3 then .ok true
  else trianglesIntersect s1 s2 t1 t2 common_vertices

/-- `polygons_intersect`, model_intersections.cpp:185-214; `detect` is
`triangles_intersection_detection`. -/
def polygonsIntersect (detect : List Index → List Index → Except Failure Bool) (p1 p2 : List Index) :
    Except Failure Bool :=
  if p1.length < 3 || p2.length < 3 then .ok false
  else if p1.length == 3 && p2.length == 3 then detect p1 p2
  else loopAnyM (fun p1_triangle => loopAnyM (fun p2_triangle => detect p1_triangle p2_triangle)
    (polygonFanTriangles p2 0)) (polygonFanTriangles p1 0)

/-- `polygon_edge_intersect`, model_intersections.cpp:110-148. -/
def polygonEdgeIntersect {P : Type} (g : Geometry P) (surface : ModelSurface P) (line : ModelLine P)
    (p : ElementPair) : Bool :=
  loopAny (fun t =>
    let r := g.segmentTriangle (line.segment p.2) (meshTriangle surface t)
    r.1 == .inside || r.2 == .inside || r.1 == .edge0 || r.1 == .edge1 || r.2 == .edge0 || r.2 == .edge1
      || r.2 == .edge2 || r.1 == .edge2) (polygonFanTriangles (surface.polygonVertices p.1) 0)

/-! ### models: actions on pairs of polygons -/

/-- `OneModelSurfacesIntersection::operator()`, model_intersections.cpp:307-319. -/
def oneModelAction (intersect : ElementPair → Except Failure Bool) (same_surface : Bool) (p : ElementPair) :
    Except Failure (Bool × Bool) :=
  if same_surface && p.1 == p.2 then .ok (false, false)
  else
    match intersect p with
    | .error f => .error f
    | .ok true => .ok (true, true)
    | .ok false => .ok (false, false)

/-- `AllModelSurfacesIntersection::operator()`, model_intersections.cpp:339-350. -/
def allModelAction (intersect : ElementPair → Except Failure Bool) (same_surface : Bool) (p : ElementPair) :
    Except Failure (Bool × Bool) :=
  if same_surface && p.1 == p.2 then .ok (false, false)
  else
    match intersect p with
    | .error f => .error f
    | .ok true => .ok (true, false)
    | .ok false => .ok (false, false)

/-- `AllModelSurfacesAutoIntersection::operator()`, model_intersections.cpp:370-385. -/
def autoModelAction (intersect : ElementPair → Except Failure Bool) (same_surface : Bool) (p : ElementPair) :
    Except Failure (Bool × Bool) :=
  if !same_surface then .ok (false, false)
  else if same_surface && p.1 == p.2 then .ok (false, false)
  else
    match intersect p with
    | .error f => .error f
    | .ok true => .ok (true, false)
    | .ok false => .ok (false, false)

/-- A Section or a BRep as read by the intersection criterion: its components, the external trees (the
traversal of the tree of one surface, of two surfaces, of a surface and a line, and the pairs of
surfaces whose boxes overlap), and the test of two triangles of its dimension. -/
structure IntersectionModel (P : Type) where
  surfaces : List (ModelSurface P)
  lines : List (ModelLine P) := []
  geometry : Geometry P
  selfTraversal : ModelSurface P → Traversal
  otherTraversal : ModelSurface P → ModelSurface P → Traversal
  lineTraversal : ModelSurface P → ModelLine P → Traversal
  overlappingSurfaces : List (ModelSurface P × ModelSurface P)
  trianglesIntersect : ModelSurface P → ModelSurface P → List Index → List Index → List (Index × Index) →
    Except Failure Bool
  /-- name (or uuid) and uuid of a surface in the messages: `model_.surface( id ).name().value_or( id.string() )`
  and `id.string()`, model_intersections.cpp:609-620; the uuids come from the surfaces of the model. -/
  surfaceLabel : Uuid → String := fun id => toString id ++ " (" ++ toString id ++ ")"
  /-- name (or uuid) and uuid of a line in the messages, model_intersections.cpp:657-666. -/
  lineLabel : Uuid → String := fun id => toString id ++ " (" ++ toString id ++ ")"

/-- An action on the polygons of two surfaces. -/
abbrev PolygonsAction := (ElementPair → Except Failure Bool) → Bool → ElementPair → Except Failure (Bool × Bool)

/-- `ModelSurfacesIntersectionBase::polygons_intersect` for two surfaces of a model,
model_intersections.cpp:186-190. -/
def IntersectionModel.intersect {P : Type} (m : IntersectionModel P) (s1 s2 : ModelSurface P) (p : ElementPair) :
    Except Failure Bool :=
  polygonsIntersect (trianglesIntersectionDetection m.trianglesIntersect s1 s2)
    (s1.polygonVertices p.1) (s2.polygonVertices p.2)

/-- The tasks of `intersecting_polygons`, in the order in which they are spawned,
model_intersections.cpp:695-751: the two surfaces, and the traversal. -/
def intersectionTasks {P : Type} (m : IntersectionModel P) :
    List ((ModelSurface P × ModelSurface P) × Traversal) :=
  ((m.surfaces.filter fun s => s.active).map fun surface => ((surface, surface), m.selfTraversal surface)) ++
  m.overlappingSurfaces.map fun components => (components, m.otherTraversal components.1 components.2)

/-- One task of `intersecting_polygons`, model_intersections.cpp:697-716 and 725-749. -/
def runIntersectionTask {P : Type} (m : IntersectionModel P) (action : PolygonsAction)
    (task : (ModelSurface P × ModelSurface P) × Traversal) :
    Except Failure (List (ComponentMeshElement × ComponentMeshElement)) :=
  match runTraversal task.2 (action (m.intersect task.1.1 task.1.2) (task.1.1.id == task.1.2.id)) with
  | .error f => .error f
  | .ok pairs => .ok (pairs.map fun p =>
      (⟨⟨.surface, task.1.1.id⟩, p.1⟩, ⟨⟨.surface, task.1.2.id⟩, p.2⟩))

/-- `intersecting_polygons`, model_intersections.cpp:675-757.  The tasks run concurrently, each on its
own action; their results are read in the order of the tasks. -/
def intersectingModelPolygons {P : Type} (m : IntersectionModel P) (action : PolygonsAction) :
    Except Failure (List (ComponentMeshElement × ComponentMeshElement)) :=
  if loopAny (fun surface => surface.nbPolygons == 0) (m.surfaces.filter fun s => s.active) then .ok []
  else (intersectionTasks m).foldlM (fun component_intersections task =>
    match runIntersectionTask m action task with
    | .error f => .error f
    | .ok result => .ok (component_intersections ++ result)) []

/-- `model_has_intersecting_surfaces`, model_intersections.cpp:594-599. -/
def modelHasIntersectingSurfaces {P : Type} (m : IntersectionModel P) : Except Failure Bool :=
  match intersectingModelPolygons m oneModelAction with
  | .error f => .error f
  | .ok intersections => .ok (!intersections.isEmpty)

/-- `add_intersecting_surfaces_elements`, model_intersections.cpp:601-624. -/
def addIntersectingSurfacesElements {P : Type} (m : IntersectionModel P)
    (issues : Issues (ComponentMeshElement × ComponentMeshElement)) :
    Except Failure (Issues (ComponentMeshElement × ComponentMeshElement)) :=
  match intersectingModelPolygons m allModelAction with
  | .error f => .error f
  | .ok intersections => .ok (intersections.foldl (fun issues p =>
      issues.add p ("Surfaces " ++ m.surfaceLabel p.1.component_id.id ++ " and " ++
        m.surfaceLabel p.2.component_id.id ++ " intersect on polygons " ++ toString p.1.element_id ++ " and " ++
        toString p.2.element_id)) issues)

/-- `add_surface_auto_intersecting_elements`, model_intersections.cpp:626-644. -/
def addSurfaceAutoIntersectingElements {P : Type} (m : IntersectionModel P)
    (issues : Issues (ComponentMeshElement × ComponentMeshElement)) :
    Except Failure (Issues (ComponentMeshElement × ComponentMeshElement)) :=
  match intersectingModelPolygons m autoModelAction with
  | .error f => .error f
  | .ok intersections => .ok (intersections.foldl (fun issues p =>
      issues.add p ("Surface " ++ m.surfaceLabel p.1.component_id.id ++
        " has a self intersection on polygons " ++ toString p.1.element_id ++ "and " ++
        toString p.2.element_id)) issues)

/-- `BRepLineSurfacesIntersection::operator()`, model_intersections.cpp:94-101. -/
def lineSurfaceAction (intersect : ElementPair → Bool) (p : ElementPair) : Except Failure (Bool × Bool) :=
  if intersect p then .ok (true, false) else .ok (false, false)

/-- `intersecting_lines_surfaces`, model_intersections.cpp:761-818. -/
def intersectingLinesSurfaces {P : Type} (m : IntersectionModel P) :
    Except Failure (List (ComponentMeshElement × ComponentMeshElement)) :=
  if loopAny (fun surface => surface.nbPolygons == 0) (m.surfaces.filter fun s => s.active) then .ok []
  else if loopAny (fun line => line.nbEdges == 0) (m.lines.filter fun l => l.active) then .ok []
  else (m.surfaces.filter fun s => s.active).foldlM (fun found surface =>
    (m.lines.filter fun l => l.active).foldlM (fun found line =>
      if line.nbEmbeddingBlocks == 0 then .ok found
      else
        match runTraversal (m.lineTraversal surface line)
            (lineSurfaceAction (polygonEdgeIntersect m.geometry surface line)) with
        | .error f => .error f
        | .ok pairs => .ok (found ++ pairs.map fun p =>
            (⟨⟨.surface, surface.id⟩, p.1⟩, ⟨⟨.line, line.id⟩, p.2⟩))) found) []

/-- `add_intersecting_lines_surfaces_elements`, model_intersections.cpp:646-671 (`dim` is 2 for a
Section, 3 for a BRep). -/
def addIntersectingLinesSurfacesElements {P : Type} (dim : Nat) (m : IntersectionModel P)
    (issues : Issues (ComponentMeshElement × ComponentMeshElement)) :
    Except Failure (Issues (ComponentMeshElement × ComponentMeshElement)) :=
  if dim == 3 then
    match intersectingLinesSurfaces m with
    | .error f => .error f
    | .ok intersections => .ok (intersections.foldl (fun issues p =>
        issues.add p ("Surface " ++ m.surfaceLabel p.1.component_id.id ++ " and Line " ++
          m.lineLabel p.2.component_id.id ++ " intersect on polygon " ++ toString p.1.element_id ++ " and edge " ++
          toString p.2.element_id)) issues)
  else .ok issues

/-- `ModelMeshesIntersections::inspect_intersections`, model_intersections.cpp:844-852. -/
def inspectIntersections {P : Type} (dim : Nat) (m : IntersectionModel P) :
    Except Failure ElementsIntersectionsInspectionResult :=
  let results : ElementsIntersectionsInspectionResult := {}
  match addIntersectingSurfacesElements m results.elements_intersections with
  | .error f => .error f
  | .ok issues =>
    match addIntersectingLinesSurfacesElements dim m issues with
    | .error f => .error f
    | .ok issues => .ok { elements_intersections := issues }

/-- `ModelMeshesIntersections::inspect_surfaces_self_intersections`,
model_intersections.cpp:856-863. -/
def inspectSurfacesSelfIntersections {P : Type} (m : IntersectionModel P) :
    Except Failure ElementsIntersectionsInspectionResult :=
  let results : ElementsIntersectionsInspectionResult := {}
  match addSurfaceAutoIntersectingElements m results.elements_intersections with
  | .error f => .error f
  | .ok issues => .ok { elements_intersections := issues }

end Inspector
