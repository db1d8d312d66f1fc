import Verif.Spec.MeshMessages
/-
Specification of C98: the messages of a list tell its issues apart.
-/
namespace Inspector.Spec
variable {P : Type}

/-- Two messages of the list are the same only if what `key` gives of their issues is the same. -/
def ToldApartBy {α β : Type} (key : α → β) (s : Issues α) : Prop :=
  ∀ (i j : Nat) (x y : α) (t : String), s.issues[i]? = some x → s.messages[i]? = some t →
    s.issues[j]? = some y → s.messages[j]? = some t → key x = key y

/-- Two messages of the list are the same only if their issues are the same. -/
def ToldApart {α : Type} (s : Issues α) : Prop := ToldApartBy id s

/-- In each list of the map, two messages are the same only if their issues are the same. -/
def ToldApartMap {α : Type} (map : IssuesMap α) : Prop := ∀ e ∈ map.entries, ToldApart e.2

/-- The messages of the inspection of a curve tell the issues apart. -/
structure CurveToldApart (r : EdgedCurveInspectionResult) : Prop where
  colocation : ToldApart r.colocated_points_groups
  edges : ToldApart r.degenerated_edges

/-- The messages of the inspection of a surface tell the issues apart; short edges are told by their vertices. -/
structure SurfaceToldApart (mesh : SurfaceData P) (r : SurfaceInspectionResult) : Prop where
  adjacency : ToldApart r.polygon_edges_with_wrong_adjacency
  colocation : ToldApart r.colocated_points_groups
  edges : ToldApartBy mesh.edgeVertices r.degenerated_edges
  polygons : ToldApart r.degenerated_polygons
  manifoldEdges : ToldApart r.non_manifold_edges
  manifoldVertices : ToldApart r.non_manifold_vertices
  intersecting : ToldApart r.intersecting_elements
  negative : ToldApart r.negative_polygons

/-- The messages of the inspection of a solid tell the issues apart; short edges are told by their vertices. -/
structure SolidToldApart (mesh : SolidData P) (r : SolidInspectionResult) : Prop where
  adjacency : ToldApart r.polyhedron_facets_with_wrong_adjacency
  colocation : ToldApart r.colocated_points_groups
  edges : ToldApartBy mesh.edgeVertices r.degenerated_edges
  polyhedra : ToldApart r.degenerated_polyhedra
  manifoldVertices : ToldApart r.non_manifold_vertices
  manifoldEdges : ToldApart r.non_manifold_edges
  manifoldFacets : ToldApart r.non_manifold_facets
  negative : ToldApart r.negative_polyhedra

/-- The messages on vertices of the topology of a Section tell them apart. -/
structure SectionTopologyToldApart (r : SectionTopologyInspectionResult) : Prop where
  corners : ToldApartMap r.corners.corners_not_linked_to_a_unique_vertex ∧
    ToldApart r.corners.unique_vertices_linked_to_multiple_corners ∧
    ToldApart r.corners.unique_vertices_linked_to_multiple_internals_corner ∧
    ToldApart r.corners.unique_vertices_linked_to_not_internal_nor_boundary_corner ∧
    ToldApart r.corners.unique_vertices_linked_to_not_boundary_line_corner
  lines : ToldApartMap r.lines.lines_not_linked_to_a_unique_vertex ∧
    ToldApart r.lines.unique_vertices_linked_to_line_with_wrong_relationship_to_surface ∧
    ToldApart r.lines.unique_vertices_linked_to_a_line_with_invalid_embeddings ∧
    ToldApart r.lines.unique_vertices_linked_to_a_single_and_invalid_line ∧
    ToldApart r.lines.unique_vertices_linked_to_several_lines_but_not_linked_to_a_corner
  surfaces : ToldApartMap r.surfaces.surfaces_not_linked_to_a_unique_vertex ∧
    ToldApart r.surfaces.unique_vertices_linked_to_a_surface_with_invalid_embbedings ∧
    ToldApart r.surfaces.unique_vertices_linked_to_a_line_but_is_not_on_a_surface_border
  links : ToldApart r.unique_vertices_not_linked_to_any_component ∧
    ToldApart r.unique_vertices_linked_to_inexistant_cmv ∧
    ToldApart r.unique_vertices_nonbijectively_linked_to_cmv

/-- The messages on vertices of the topology of a BRep tell them apart. -/
structure BRepTopologyToldApart (r : BRepTopologyInspectionResult) : Prop where
  corners : ToldApartMap r.corners.corners_not_linked_to_a_unique_vertex ∧
    ToldApart r.corners.unique_vertices_linked_to_multiple_corners ∧
    ToldApart r.corners.unique_vertices_linked_to_multiply_embedded_corner ∧
    ToldApart r.corners.unique_vertices_linked_to_not_internal_nor_boundary_corner ∧
    ToldApart r.corners.unique_vertices_linked_to_not_boundary_line_corner
  lines : ToldApartMap r.lines.lines_not_linked_to_a_unique_vertex ∧
    ToldApart r.lines.unique_vertices_linked_to_a_line_with_invalid_embeddings ∧
    ToldApart r.lines.unique_vertices_linked_to_line_with_wrong_relationship_to_surface ∧
    ToldApart r.lines.unique_vertices_linked_to_a_single_and_invalid_line ∧
    ToldApart r.lines.unique_vertices_linked_to_several_lines_but_not_linked_to_a_corner
  surfaces : ToldApartMap r.surfaces.surfaces_not_linked_to_a_unique_vertex ∧
    ToldApart r.surfaces.unique_vertices_linked_to_a_surface_with_invalid_embbedings ∧
    ToldApart r.surfaces.unique_vertices_linked_to_several_and_invalid_surfaces ∧
    ToldApart r.surfaces.unique_vertices_linked_to_a_line_but_is_not_on_a_surface_border
  blocks : ToldApartMap r.blocks.blocks_not_linked_to_a_unique_vertex ∧
    ToldApart r.blocks.unique_vertices_part_of_two_blocks_and_no_boundary_surface ∧
    ToldApart r.blocks.unique_vertices_with_incorrect_block_cmvs_count ∧
    ToldApart r.blocks.unique_vertices_linked_to_a_single_and_invalid_surface ∧
    ToldApart r.blocks.unique_vertices_linked_to_surface_with_wrong_relationship_to_blocks ∧
    ToldApart r.blocks.unique_vertex_linked_to_multiple_invalid_surfaces
  links : ToldApart r.unique_vertices_not_linked_to_any_component ∧
    ToldApart r.unique_vertices_linked_to_inexistant_cmv ∧
    ToldApart r.unique_vertices_nonbijectively_linked_to_cmv

/-- The messages on the meshes of a Section tell the issues of a mesh apart; short edges of Surfaces excepted. -/
structure SectionMeshesToldApart (r : SectionMeshesInspectionResult) : Prop where
  uniqueVertices : ToldApart r.unique_vertices_colocation.colocated_unique_vertices_groups ∧
    ToldApart r.unique_vertices_colocation.unique_vertices_linked_to_different_points
  colocation : ToldApartMap r.meshes_colocation.colocated_points_groups
  adjacency : ToldApartMap r.meshes_adjacencies.surfaces_edges_with_wrong_adjacencies
  polygons : ToldApartMap r.meshes_degenerations.degenerated_polygons
  manifoldVertices : ToldApartMap r.meshes_non_manifolds.meshes_non_manifold_vertices
  manifoldEdges : ToldApartMap r.meshes_non_manifolds.meshes_non_manifold_edges
  negative : ToldApartMap r.meshes_negative_elements.negative_polygons

/-- The messages on the meshes of a BRep tell the issues of a mesh apart, short edges excepted; those on edges of the
model tell the edges apart. -/
structure BRepMeshesToldApart (r : BRepMeshesInspectionResult) : Prop where
  uniqueVertices : ToldApart r.unique_vertices_colocation.colocated_unique_vertices_groups ∧
    ToldApart r.unique_vertices_colocation.unique_vertices_linked_to_different_points
  colocation : ToldApartMap r.meshes_colocation.colocated_points_groups
  adjacency : ToldApartMap r.meshes_adjacencies.surfaces_edges_with_wrong_adjacencies
  facetsAdjacency : ToldApartMap r.meshes_adjacencies.blocks_facets_with_wrong_adjacencies
  polygons : ToldApartMap r.meshes_degenerations.degenerated_polygons
  polyhedra : ToldApartMap r.meshes_degenerations.degenerated_polyhedra
  manifoldVertices : ToldApartMap r.meshes_non_manifolds.meshes_non_manifold_vertices
  manifoldEdges : ToldApartMap r.meshes_non_manifolds.meshes_non_manifold_edges
  manifoldFacets : ToldApartMap r.meshes_non_manifolds.meshes_non_manifold_facets
  modelEdges : ToldApartBy Prod.fst r.meshes_non_manifolds.brep_non_manifold_edges
  modelFacets : ToldApartBy Prod.fst r.meshes_non_manifolds.brep_non_manifold_facets
  negative : ToldApartMap r.meshes_negative_elements.negative_polyhedra

end Inspector.Spec
