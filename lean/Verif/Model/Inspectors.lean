import Verif.Model.Adjacency
import Verif.Model.Concurrency
/-
Model of the inspectors which run several criteria concurrently.  The results of the criteria (modelled in the other
files) are given: they are functions of the mesh or model only.
-/
namespace Inspector
variable (choose : List Failure → Failure) (schedule : List Nat)

/-- Results of the criteria on an edged curve. -/
structure EdgedCurveCriteria where
  colocated_points_groups : Except Failure (Issues (List Index))
  degenerated_edges : Except Failure (Issues Index)

/-- `EdgedCurveInspector::inspect_edged_curve`, edgedcurve_inspector.cpp:58-73. -/
def inspectEdgedCurve (c : EdgedCurveCriteria) : Except Failure EdgedCurveInspectionResult :=
  invokeAndReturn choose schedule
    [Task.assign c.colocated_points_groups fun x result => { result with colocated_points_groups := x },
     Task.assign c.degenerated_edges fun x result => { result with degenerated_edges := x }] {}

/-- Results of the criteria on a surface mesh. -/
structure SurfaceCriteria where
  polygon_edges_with_wrong_adjacency : Except Failure (Issues (Index × Index))
  colocated_points_groups : Except Failure (Issues (List Index))
  degenerated_edges : Except Failure (Issues Index)
  degenerated_polygons : Except Failure (Issues Index)
  non_manifold_edges : Except Failure (Issues (Index × Index))
  non_manifold_vertices : Except Failure (Issues Index)
  intersecting_elements : Except Failure (Issues (Index × Index))
  negative_polygons : Except Failure (Issues Index)

/-- `SurfaceMeshInspector::inspect_surface`, surface_inspector.cpp:72-108. -/
def inspectSurface (c : SurfaceCriteria) : Except Failure SurfaceInspectionResult :=
  invokeAndReturn choose schedule
    [Task.assign c.polygon_edges_with_wrong_adjacency
      fun x result => { result with polygon_edges_with_wrong_adjacency := x },
     Task.assign c.colocated_points_groups fun x result => { result with colocated_points_groups := x },
     Task.assign c.degenerated_edges fun x result => { result with degenerated_edges := x },
     Task.assign c.degenerated_polygons fun x result => { result with degenerated_polygons := x },
     Task.assign c.non_manifold_edges fun x result => { result with non_manifold_edges := x },
     Task.assign c.non_manifold_vertices fun x result => { result with non_manifold_vertices := x },
     Task.assign c.intersecting_elements fun x result => { result with intersecting_elements := x },
     Task.assign c.negative_polygons fun x result => { result with negative_polygons := x }] {}

/-- Results of the criteria on a solid mesh. -/
structure SolidCriteria where
  polyhedron_facets_with_wrong_adjacency : Except Failure (Issues (Index × Index))
  colocated_points_groups : Except Failure (Issues (List Index))
  degenerated_edges : Except Failure (Issues Index)
  degenerated_polyhedra : Except Failure (Issues Index)
  non_manifold_vertices : Except Failure (Issues Index)
  non_manifold_edges : Except Failure (Issues (Index × Index))
  non_manifold_facets : Except Failure (Issues (List Index))
  negative_polyhedra : Except Failure (Issues Index)

/-- `SolidMeshInspector::inspect_solid`, solid_inspector.cpp:72-107. -/
def inspectSolid (c : SolidCriteria) : Except Failure SolidInspectionResult :=
  invokeAndReturn choose schedule
    [Task.assign c.polyhedron_facets_with_wrong_adjacency
      fun x result => { result with polyhedron_facets_with_wrong_adjacency := x },
     Task.assign c.colocated_points_groups fun x result => { result with colocated_points_groups := x },
     Task.assign c.degenerated_edges fun x result => { result with degenerated_edges := x },
     Task.assign c.degenerated_polyhedra fun x result => { result with degenerated_polyhedra := x },
     Task.assign c.non_manifold_vertices fun x result => { result with non_manifold_vertices := x },
     Task.assign c.non_manifold_edges fun x result => { result with non_manifold_edges := x },
     Task.assign c.non_manifold_facets fun x result => { result with non_manifold_facets := x },
     Task.assign c.negative_polyhedra fun x result => { result with negative_polyhedra := x }] {}

/-- Results of the criteria on the meshes of a Section. -/
structure SectionMeshesCriteria where
  unique_vertices_colocation : Except Failure UniqueVerticesInspectionResult
  meshes_colocation : Except Failure MeshesColocationInspectionResult
  meshes_adjacencies : Except Failure SectionMeshesAdjacencyInspectionResult
  meshes_degenerations : Except Failure SectionMeshesDegenerationInspectionResult
  meshes_intersections : Except Failure ElementsIntersectionsInspectionResult
  meshes_non_manifolds : Except Failure SectionMeshesManifoldInspectionResult
  meshes_negative_elements : Except Failure SectionMeshesNegativeElementsInspectionResult

/-- `SectionMeshesInspector::inspect_section_meshes`, criterion/section_meshes_inspector.cpp:64-95. -/
def inspectSectionMeshes (c : SectionMeshesCriteria) : Except Failure SectionMeshesInspectionResult :=
  invokeAndReturn choose schedule
    [Task.assign c.unique_vertices_colocation fun x result => { result with unique_vertices_colocation := x },
     Task.assign c.meshes_colocation fun x result => { result with meshes_colocation := x },
     Task.assign c.meshes_adjacencies fun x result => { result with meshes_adjacencies := x },
     Task.assign c.meshes_degenerations fun x result => { result with meshes_degenerations := x },
     Task.assign c.meshes_intersections fun x result => { result with meshes_intersections := x },
     Task.assign c.meshes_non_manifolds fun x result => { result with meshes_non_manifolds := x },
     Task.assign c.meshes_negative_elements fun x result => { result with meshes_negative_elements := x }] {}

/-- Results of the criteria on the meshes of a BRep. -/
structure BRepMeshesCriteria where
  unique_vertices_colocation : Except Failure UniqueVerticesInspectionResult
  meshes_colocation : Except Failure MeshesColocationInspectionResult
  meshes_adjacencies : Except Failure BRepMeshesAdjacencyInspectionResult
  meshes_degenerations : Except Failure BRepMeshesDegenerationInspectionResult
  meshes_intersections : Except Failure ElementsIntersectionsInspectionResult
  meshes_non_manifolds : Except Failure BRepMeshesManifoldInspectionResult
  meshes_negative_elements : Except Failure BRepMeshesNegativeElementsInspectionResult

/-- `BRepMeshesInspector::inspect_brep_meshes`, criterion/brep_meshes_inspector.cpp:64-93. -/
def inspectBRepMeshes (c : BRepMeshesCriteria) : Except Failure BRepMeshesInspectionResult :=
  invokeAndReturn choose schedule
    [Task.assign c.unique_vertices_colocation fun x result => { result with unique_vertices_colocation := x },
     Task.assign c.meshes_colocation fun x result => { result with meshes_colocation := x },
     Task.assign c.meshes_adjacencies fun x result => { result with meshes_adjacencies := x },
     Task.assign c.meshes_degenerations fun x result => { result with meshes_degenerations := x },
     Task.assign c.meshes_intersections fun x result => { result with meshes_intersections := x },
     Task.assign c.meshes_non_manifolds fun x result => { result with meshes_non_manifolds := x },
     Task.assign c.meshes_negative_elements fun x result => { result with meshes_negative_elements := x }] {}

/-- `SectionInspector::inspect_section`, section_inspector.cpp:54-66. -/
def inspectSection (meshes : Except Failure SectionMeshesInspectionResult)
    (topology : Except Failure SectionTopologyInspectionResult) : Except Failure SectionInspectionResult :=
  invokeAndReturn choose schedule
    [Task.assign meshes fun x result => { result with meshes := x },
     Task.assign topology fun x result => { result with topology := x }] {}

/-- `BRepInspector::inspect_brep`, brep_inspector.cpp:54-66. -/
def inspectBRep (meshes : Except Failure BRepMeshesInspectionResult)
    (topology : Except Failure BRepTopologyInspectionResult) : Except Failure BRepInspectionResult :=
  invokeAndReturn choose schedule
    [Task.assign meshes fun x result => { result with meshes := x },
     Task.assign topology fun x result => { result with topology := x }] {}

/-- `BRepComponentMeshesAdjacency::inspect_brep_meshes_adjacencies` with its two tasks interleaved,
criterion/adjacency/brep_meshes_adjacency.cpp:153-167: a write is the addition of the issues of one component
(criterion/adjacency/brep_meshes_adjacency.cpp:123-124 and
criterion/internal/component_meshes_adjacency.cpp:124-125). -/
def interleavedBRepMeshesAdjacencies (isOpposite : List Index → List Index → Bool) (model : AdjacencyModel) :
    Except Failure BRepMeshesAdjacencyInspectionResult :=
  invokeAndReturn choose schedule
    [⟨(model.surfaces.filter fun s => s.active).map fun surface result =>
        { result with
          surfaces_edges_with_wrong_adjacencies :=
            result.surfaces_edges_with_wrong_adjacencies.addIssues surface.id (surfaceAdjacencyIssues model surface) },
      none⟩,
     ⟨(model.blocks.filter fun b => b.active).map fun block result =>
        { result with
          blocks_facets_with_wrong_adjacencies :=
            result.blocks_facets_with_wrong_adjacencies.addIssues block.id
              (blockAdjacencyIssues isOpposite model block) },
      none⟩] {}

/-- The tasks of `SectionTopologyInspector::Impl::inspect_section_topology`, topology/section_topology.cpp:178-192. -/
def sectionTopologyTasks (corners : Except Failure SectionCornersTopologyInspectionResult)
    (lines : Except Failure SectionLinesTopologyInspectionResult)
    (surfaces : Except Failure SectionSurfacesTopologyInspectionResult) : List (Task SectionTopologyInspectionResult) :=
  [Task.assign corners fun x result => { result with corners := x },
   Task.assign lines fun x result => { result with lines := x },
   Task.assign surfaces fun x result => { result with surfaces := x }]

/-- The tasks of `BRepTopologyInspector::Impl::inspect_brep_topology`, topology/brep_topology.cpp:182-199. -/
def brepTopologyTasks (corners : Except Failure BRepCornersTopologyInspectionResult)
    (lines : Except Failure BRepLinesTopologyInspectionResult)
    (surfaces : Except Failure BRepSurfacesTopologyInspectionResult)
    (blocks : Except Failure BRepBlocksTopologyInspectionResult) : List (Task BRepTopologyInspectionResult) :=
  [Task.assign corners fun x result => { result with corners := x },
   Task.assign lines fun x result => { result with lines := x },
   Task.assign surfaces fun x result => { result with surfaces := x },
   Task.assign blocks fun x result => { result with blocks := x }]

/-- `try { async::parallel_invoke( ... ); } catch( OpenGeodeException& ) {}` of the two functions
`inspect_..._topology`, topology/section_topology.cpp:176-195 and topology/brep_topology.cpp:180-203. -/
def invokeAndCatch {σ : Type} (tasks : List (Task σ)) (s : σ) : Except Failure σ :=
  match parallelInvoke choose schedule tasks s with
  | (result, none) => .ok result
  | (result, some .openGeodeException) => .ok result
  | (_, some f) => .error f

end Inspector
