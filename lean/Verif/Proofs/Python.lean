import Verif.Spec.Python
/-
What a Python program learns from a result: lemmas for C107.
-/
namespace Inspector.Python
open Inspector.Spec

theorem silent_self {o : PyValue} (h : Silent o) : NoIssue o := h [] o rfl

theorem silent_attribute {o : PyValue} (h : Silent o) {name : String} {w : PyValue} (ha : o.attribute name = some w) :
    Silent w := fun path v hv => h (name :: path) v ⟨w, ha, hv⟩

theorem no_issue {α : Type} {s : Issues α} (h : s.issues = []) : s.nbIssues = 0 := by
  unfold Issues.nbIssues
  rw [h]
  rfl

theorem no_entry {α : Type} {s : IssuesMap α} (h : s.entries = []) : s.nbIssues = 0 := by
  unfold IssuesMap.nbIssues
  rw [h]
  rfl

/-- Lists are silent when empty. -/
theorem silent_list {o : PyValue} (ha : ∀ name, o.attribute name = none) (h : NoIssue o) : Silent o := by
  intro path v hv
  cases path with
  | nil => rw [hv]; exact h
  | cons name path =>
    obtain ⟨w, hw, _⟩ := hv
    rw [ha name] at hw
    cases hw

theorem lookup_mem {β : Type} {l : List (String × β)} {name : String} {v : β} (h : l.lookup name = some v) :
    (name, v) ∈ l := by
  induction l with
  | nil => cases h
  | cons e l ih =>
    rw [List.lookup] at h
    split at h
    · rename_i hb
      injection h with h
      have := eq_of_beq hb
      rw [this, ← h]
      exact List.mem_cons_self
    · exact List.mem_cons_of_mem _ (ih h)

theorem lookup_of_mem {β : Type} {l : List (String × β)} (hn : (l.map Prod.fst).Nodup) {name : String} {v : β}
    (h : (name, v) ∈ l) : l.lookup name = some v := by
  induction l with
  | nil => cases h
  | cons e l ih =>
    rw [List.map_cons, List.nodup_cons] at hn
    rw [List.lookup]
    rcases List.mem_cons.1 h with h | h
    · rw [← h]
      simp
    · have hne : ¬ name = e.1 := fun he => hn.1 (he ▸ List.mem_map_of_mem (f := Prod.fst) h)
      have hb : (name == e.1) = false := beq_eq_false_iff_ne.2 hne
      rw [hb]
      exact ih hn.2 h

/-- An object is silent when its attributes are. -/
theorem silent_object {attributes : List (String × PyValue)} {string : String} {nb : Option UInt32}
    (h : ∀ e ∈ attributes, Silent e.2) : Silent (.object attributes string nb) := by
  intro path v hv
  cases path with
  | nil => rw [hv]; trivial
  | cons name path =>
    obtain ⟨w, hw, hr⟩ := hv
    exact h _ (lookup_mem hw) path v hr

theorem offers_of {attributes table : List (String × PyValue)} {string : String} {nb : Option UInt32}
    (hn : (attributes.map Prod.fst).Nodup) (h : ∀ e, e ∈ attributes ↔ e ∈ table) :
    Offers (.object attributes string nb) table :=
  fun name v => ⟨fun ha => (h (name, v)).1 (lookup_mem ha), fun ha => lookup_of_mem hn ((h (name, v)).2 ha)⟩

theorem PointSet_count {r : PointSetInspectionResult} (h : Silent r.python) :
    r.nbIssues = 0 := by
  have h1 : r.colocated_points_groups.nbIssues = 0 := no_issue (silent_self (silent_attribute (name := "colocated_points_groups") h rfl))
  unfold PointSetInspectionResult.nbIssues
  simp only [h1, UInt32.zero_add, UInt32.add_zero, UInt32.add_assoc]

theorem EdgedCurve_count {r : EdgedCurveInspectionResult} (h : Silent r.python) :
    r.nbIssues = 0 := by
  have h1 : r.colocated_points_groups.nbIssues = 0 := no_issue (silent_self (silent_attribute (name := "colocated_points_groups") h rfl))
  have h2 : r.degenerated_edges.nbIssues = 0 := no_issue (silent_self (silent_attribute (name := "degenerated_edges") h rfl))
  unfold EdgedCurveInspectionResult.nbIssues
  simp only [h1, h2, UInt32.zero_add, UInt32.add_zero, UInt32.add_assoc]

theorem Surface_count {r : SurfaceInspectionResult} (h : Silent r.python) :
    r.nbIssues = r.negative_polygons.nbIssues := by
  have h1 : r.polygon_edges_with_wrong_adjacency.nbIssues = 0 := no_issue (silent_self (silent_attribute (name := "polygon_edges_with_wrong_adjacency") h rfl))
  have h2 : r.colocated_points_groups.nbIssues = 0 := no_issue (silent_self (silent_attribute (name := "colocated_points_groups") h rfl))
  have h3 : r.degenerated_edges.nbIssues = 0 := no_issue (silent_self (silent_attribute (name := "degenerated_edges") h rfl))
  have h4 : r.degenerated_polygons.nbIssues = 0 := no_issue (silent_self (silent_attribute (name := "degenerated_polygons") h rfl))
  have h5 : r.non_manifold_edges.nbIssues = 0 := no_issue (silent_self (silent_attribute (name := "non_manifold_edges") h rfl))
  have h6 : r.non_manifold_vertices.nbIssues = 0 := no_issue (silent_self (silent_attribute (name := "non_manifold_vertices") h rfl))
  have h7 : r.intersecting_elements.nbIssues = 0 := no_issue (silent_self (silent_attribute (name := "intersecting_elements") h rfl))
  unfold SurfaceInspectionResult.nbIssues
  simp only [h1, h2, h3, h4, h5, h6, h7, UInt32.zero_add, UInt32.add_zero, UInt32.add_assoc]

theorem Solid_count {r : SolidInspectionResult} (h : Silent r.python) :
    r.nbIssues = r.negative_polyhedra.nbIssues := by
  have h1 : r.polyhedron_facets_with_wrong_adjacency.nbIssues = 0 := no_issue (silent_self (silent_attribute (name := "polyhedron_facets_with_wrong_adjacency") h rfl))
  have h2 : r.colocated_points_groups.nbIssues = 0 := no_issue (silent_self (silent_attribute (name := "colocated_points_groups") h rfl))
  have h3 : r.degenerated_edges.nbIssues = 0 := no_issue (silent_self (silent_attribute (name := "degenerated_edges") h rfl))
  have h4 : r.degenerated_polyhedra.nbIssues = 0 := no_issue (silent_self (silent_attribute (name := "degenerated_polyhedra") h rfl))
  have h5 : r.non_manifold_vertices.nbIssues = 0 := no_issue (silent_self (silent_attribute (name := "non_manifold_vertices") h rfl))
  have h6 : r.non_manifold_edges.nbIssues = 0 := no_issue (silent_self (silent_attribute (name := "non_manifold_edges") h rfl))
  have h7 : r.non_manifold_facets.nbIssues = 0 := no_issue (silent_self (silent_attribute (name := "non_manifold_facets") h rfl))
  unfold SolidInspectionResult.nbIssues
  simp only [h1, h2, h3, h4, h5, h6, h7, UInt32.zero_add, UInt32.add_zero, UInt32.add_assoc]

theorem UniqueVertices_count {r : UniqueVerticesInspectionResult} (h : Silent r.python) :
    r.nbIssues = 0 := by
  have h1 : r.colocated_unique_vertices_groups.nbIssues = 0 := no_issue (silent_self (silent_attribute (name := "colocated_unique_vertices_groups") h rfl))
  have h2 : r.unique_vertices_linked_to_different_points.nbIssues = 0 := no_issue (silent_self (silent_attribute (name := "unique_vertices_linked_to_different_points") h rfl))
  unfold UniqueVerticesInspectionResult.nbIssues
  simp only [h1, h2, UInt32.zero_add, UInt32.add_zero, UInt32.add_assoc]

theorem MeshesColocation_count {r : MeshesColocationInspectionResult} (h : Silent r.python) :
    r.nbIssues = 0 := by
  have h1 : r.colocated_points_groups.nbIssues = 0 := no_entry (silent_self (silent_attribute (name := "colocated_points_groups") h rfl))
  unfold MeshesColocationInspectionResult.nbIssues
  simp only [h1, UInt32.zero_add, UInt32.add_zero, UInt32.add_assoc]

theorem SectionMeshesAdjacency_count {r : SectionMeshesAdjacencyInspectionResult} (h : Silent r.python) :
    r.nbIssues = 0 := by
  have h1 : r.surfaces_edges_with_wrong_adjacencies.nbIssues = 0 := no_entry (silent_self (silent_attribute (name := "surfaces_edges_with_wrong_adjacencies") h rfl))
  unfold SectionMeshesAdjacencyInspectionResult.nbIssues
  simp only [h1, UInt32.zero_add, UInt32.add_zero, UInt32.add_assoc]

theorem BRepMeshesAdjacency_count {r : BRepMeshesAdjacencyInspectionResult} (h : Silent r.python) :
    r.nbIssues = 0 := by
  have h1 : r.surfaces_edges_with_wrong_adjacencies.nbIssues = 0 := no_entry (silent_self (silent_attribute (name := "surfaces_edges_with_wrong_adjacencies") h rfl))
  have h2 : r.blocks_facets_with_wrong_adjacencies.nbIssues = 0 := no_entry (silent_self (silent_attribute (name := "blocks_facets_with_wrong_adjacencies") h rfl))
  unfold BRepMeshesAdjacencyInspectionResult.nbIssues
  simp only [h1, h2, UInt32.zero_add, UInt32.add_zero, UInt32.add_assoc]

theorem SectionMeshesDegeneration_count {r : SectionMeshesDegenerationInspectionResult} (h : Silent r.python) :
    r.nbIssues = 0 := by
  have h1 : r.degenerated_edges.nbIssues = 0 := no_entry (silent_self (silent_attribute (name := "degenerated_edges") h rfl))
  have h2 : r.degenerated_polygons.nbIssues = 0 := no_entry (silent_self (silent_attribute (name := "degenerated_polygons") h rfl))
  unfold SectionMeshesDegenerationInspectionResult.nbIssues
  simp only [h1, h2, UInt32.zero_add, UInt32.add_zero, UInt32.add_assoc]

theorem BRepMeshesDegeneration_count {r : BRepMeshesDegenerationInspectionResult} (h : Silent r.python) :
    r.nbIssues = 0 := by
  have h1 : r.degenerated_edges.nbIssues = 0 := no_entry (silent_self (silent_attribute (name := "degenerated_edges") h rfl))
  have h2 : r.degenerated_polygons.nbIssues = 0 := no_entry (silent_self (silent_attribute (name := "degenerated_polygons") h rfl))
  have h3 : r.degenerated_polyhedra.nbIssues = 0 := no_entry (silent_self (silent_attribute (name := "degenerated_polyhedra") h rfl))
  unfold BRepMeshesDegenerationInspectionResult.nbIssues
  simp only [h1, h2, h3, UInt32.zero_add, UInt32.add_zero, UInt32.add_assoc]

theorem ElementsIntersections_count {r : ElementsIntersectionsInspectionResult} (h : Silent r.python) :
    r.nbIssues = 0 := by
  have h1 : r.elements_intersections.nbIssues = 0 := no_issue (silent_self (silent_attribute (name := "elements_intersections") h rfl))
  unfold ElementsIntersectionsInspectionResult.nbIssues
  simp only [h1, UInt32.zero_add, UInt32.add_zero, UInt32.add_assoc]

theorem SectionMeshesManifold_count {r : SectionMeshesManifoldInspectionResult} (h : Silent r.python) :
    r.nbIssues = 0 := by
  have h1 : r.meshes_non_manifold_vertices.nbIssues = 0 := no_entry (silent_self (silent_attribute (name := "meshes_non_manifold_vertices") h rfl))
  have h2 : r.meshes_non_manifold_edges.nbIssues = 0 := no_entry (silent_self (silent_attribute (name := "meshes_non_manifold_edges") h rfl))
  unfold SectionMeshesManifoldInspectionResult.nbIssues
  simp only [h1, h2, UInt32.zero_add, UInt32.add_zero, UInt32.add_assoc]

theorem BRepMeshesManifold_count {r : BRepMeshesManifoldInspectionResult} (h : Silent r.python) :
    r.nbIssues = r.brep_non_manifold_facets.nbIssues := by
  have h1 : r.meshes_non_manifold_vertices.nbIssues = 0 := no_entry (silent_self (silent_attribute (name := "meshes_non_manifold_vertices") h rfl))
  have h2 : r.meshes_non_manifold_edges.nbIssues = 0 := no_entry (silent_self (silent_attribute (name := "meshes_non_manifold_edges") h rfl))
  have h3 : r.meshes_non_manifold_facets.nbIssues = 0 := no_entry (silent_self (silent_attribute (name := "meshes_non_manifold_facets") h rfl))
  have h4 : r.brep_non_manifold_edges.nbIssues = 0 := no_issue (silent_self (silent_attribute (name := "brep_non_manifold_edges") h rfl))
  unfold BRepMeshesManifoldInspectionResult.nbIssues
  simp only [h1, h2, h3, h4, UInt32.zero_add, UInt32.add_zero, UInt32.add_assoc]

theorem SectionMeshes_count {r : SectionMeshesInspectionResult} (h : Silent r.python) :
    r.nbIssues = r.meshes_negative_elements.nbIssues := by
  have h1 := UniqueVertices_count (silent_attribute (name := "unique_vertices_colocation") h rfl)
  have h2 := MeshesColocation_count (silent_attribute (name := "meshes_colocation") h rfl)
  have h3 := SectionMeshesAdjacency_count (silent_attribute (name := "meshes_adjacencies") h rfl)
  have h4 := SectionMeshesDegeneration_count (silent_attribute (name := "meshes_degenerations") h rfl)
  have h5 := ElementsIntersections_count (silent_attribute (name := "meshes_intersections") h rfl)
  have h6 := SectionMeshesManifold_count (silent_attribute (name := "meshes_non_manifolds") h rfl)
  unfold SectionMeshesInspectionResult.nbIssues
  simp only [h1, h2, h3, h4, h5, h6, UInt32.zero_add, UInt32.add_zero, UInt32.add_assoc]

theorem BRepMeshes_count {r : BRepMeshesInspectionResult} (h : Silent r.python) :
    r.nbIssues = r.meshes_non_manifolds.brep_non_manifold_facets.nbIssues + r.meshes_negative_elements.nbIssues := by
  have h1 := UniqueVertices_count (silent_attribute (name := "unique_vertices_colocation") h rfl)
  have h2 := MeshesColocation_count (silent_attribute (name := "meshes_colocation") h rfl)
  have h3 := BRepMeshesAdjacency_count (silent_attribute (name := "meshes_adjacencies") h rfl)
  have h4 := BRepMeshesDegeneration_count (silent_attribute (name := "meshes_degenerations") h rfl)
  have h5 := ElementsIntersections_count (silent_attribute (name := "meshes_intersections") h rfl)
  have h6 := BRepMeshesManifold_count (silent_attribute (name := "meshes_non_manifolds") h rfl)
  unfold BRepMeshesInspectionResult.nbIssues
  simp only [h1, h2, h3, h4, h5, h6, UInt32.zero_add, UInt32.add_zero, UInt32.add_assoc]

theorem SectionCornersTopology_count {r : SectionCornersTopologyInspectionResult} (h : Silent r.python) :
    r.nbIssues = 0 := by
  have h1 : r.corners_not_meshed.nbIssues = 0 := no_issue (silent_self (silent_attribute (name := "corners_not_meshed") h rfl))
  have h2 : r.corners_not_linked_to_a_unique_vertex.nbIssues = 0 := no_entry (silent_self (silent_attribute (name := "corners_not_linked_to_a_unique_vertex") h rfl))
  have h3 : r.unique_vertices_linked_to_multiple_corners.nbIssues = 0 := no_issue (silent_self (silent_attribute (name := "unique_vertices_linked_to_multiple_corners") h rfl))
  have h4 : r.unique_vertices_linked_to_multiple_internals_corner.nbIssues = 0 := no_issue (silent_self (silent_attribute (name := "unique_vertices_linked_to_multiple_internals_corner") h rfl))
  have h5 : r.unique_vertices_linked_to_not_internal_nor_boundary_corner.nbIssues = 0 := no_issue (silent_self (silent_attribute (name := "unique_vertices_linked_to_not_internal_nor_boundary_corner") h rfl))
  have h6 : r.unique_vertices_linked_to_not_boundary_line_corner.nbIssues = 0 := no_issue (silent_self (silent_attribute (name := "unique_vertices_linked_to_not_boundary_line_corner") h rfl))
  unfold SectionCornersTopologyInspectionResult.nbIssues
  simp only [h1, h2, h3, h4, h5, h6, UInt32.zero_add, UInt32.add_zero, UInt32.add_assoc]

theorem BRepCornersTopology_count {r : BRepCornersTopologyInspectionResult} (h : Silent r.python) :
    r.nbIssues = 0 := by
  have h1 : r.corners_not_meshed.nbIssues = 0 := no_issue (silent_self (silent_attribute (name := "corners_not_meshed") h rfl))
  have h2 : r.corners_not_linked_to_a_unique_vertex.nbIssues = 0 := no_entry (silent_self (silent_attribute (name := "corners_not_linked_to_a_unique_vertex") h rfl))
  have h3 : r.unique_vertices_linked_to_multiple_corners.nbIssues = 0 := no_issue (silent_self (silent_attribute (name := "unique_vertices_linked_to_multiple_corners") h rfl))
  have h4 : r.unique_vertices_linked_to_multiply_embedded_corner.nbIssues = 0 := no_issue (silent_self (silent_attribute (name := "unique_vertices_linked_to_multiply_embedded_corner") h rfl))
  have h5 : r.unique_vertices_linked_to_not_internal_nor_boundary_corner.nbIssues = 0 := no_issue (silent_self (silent_attribute (name := "unique_vertices_linked_to_not_internal_nor_boundary_corner") h rfl))
  have h6 : r.unique_vertices_linked_to_not_boundary_line_corner.nbIssues = 0 := no_issue (silent_self (silent_attribute (name := "unique_vertices_linked_to_not_boundary_line_corner") h rfl))
  unfold BRepCornersTopologyInspectionResult.nbIssues
  simp only [h1, h2, h3, h4, h5, h6, UInt32.zero_add, UInt32.add_zero, UInt32.add_assoc]

theorem SectionLinesTopology_count {r : SectionLinesTopologyInspectionResult} (h : Silent r.python) :
    r.nbIssues = 0 := by
  have h1 : r.lines_not_meshed.nbIssues = 0 := no_issue (silent_self (silent_attribute (name := "lines_not_meshed") h rfl))
  have h2 : r.lines_not_linked_to_a_unique_vertex.nbIssues = 0 := no_entry (silent_self (silent_attribute (name := "lines_not_linked_to_a_unique_vertex") h rfl))
  have h3 : r.unique_vertices_linked_to_line_with_wrong_relationship_to_surface.nbIssues = 0 := no_issue (silent_self (silent_attribute (name := "unique_vertices_linked_to_line_with_wrong_relationship_to_surface") h rfl))
  have h4 : r.unique_vertices_linked_to_a_line_with_invalid_embeddings.nbIssues = 0 := no_issue (silent_self (silent_attribute (name := "unique_vertices_linked_to_a_line_with_invalid_embeddings") h rfl))
  have h5 : r.unique_vertices_linked_to_a_single_and_invalid_line.nbIssues = 0 := no_issue (silent_self (silent_attribute (name := "unique_vertices_linked_to_a_single_and_invalid_line") h rfl))
  have h6 : r.unique_vertices_linked_to_several_lines_but_not_linked_to_a_corner.nbIssues = 0 := no_issue (silent_self (silent_attribute (name := "unique_vertices_linked_to_several_lines_but_not_linked_to_a_corner") h rfl))
  unfold SectionLinesTopologyInspectionResult.nbIssues
  simp only [h1, h2, h3, h4, h5, h6, UInt32.zero_add, UInt32.add_zero, UInt32.add_assoc]

theorem BRepLinesTopology_count {r : BRepLinesTopologyInspectionResult} (h : Silent r.python) :
    r.nbIssues = 0 := by
  have h1 : r.lines_not_meshed.nbIssues = 0 := no_issue (silent_self (silent_attribute (name := "lines_not_meshed") h rfl))
  have h2 : r.unique_vertices_linked_to_line_with_wrong_relationship_to_surface.nbIssues = 0 := no_issue (silent_self (silent_attribute (name := "unique_vertices_linked_to_line_with_wrong_relationship_to_surface") h rfl))
  have h3 : r.lines_not_linked_to_a_unique_vertex.nbIssues = 0 := no_entry (silent_self (silent_attribute (name := "lines_not_linked_to_a_unique_vertex") h rfl))
  have h4 : r.unique_vertices_linked_to_a_line_with_invalid_embeddings.nbIssues = 0 := no_issue (silent_self (silent_attribute (name := "unique_vertices_linked_to_a_line_with_invalid_embeddings") h rfl))
  have h5 : r.unique_vertices_linked_to_a_single_and_invalid_line.nbIssues = 0 := no_issue (silent_self (silent_attribute (name := "unique_vertices_linked_to_a_single_and_invalid_line") h rfl))
  have h6 : r.unique_vertices_linked_to_several_lines_but_not_linked_to_a_corner.nbIssues = 0 := no_issue (silent_self (silent_attribute (name := "unique_vertices_linked_to_several_lines_but_not_linked_to_a_corner") h rfl))
  have h7 : r.line_edges_with_wrong_component_edges_around.nbIssues = 0 := no_entry (silent_self (silent_attribute (name := "line_edges_with_wrong_component_edges_around") h rfl))
  unfold BRepLinesTopologyInspectionResult.nbIssues
  simp only [h1, h2, h3, h4, h5, h6, h7, UInt32.zero_add, UInt32.add_zero, UInt32.add_assoc]

theorem SectionSurfacesTopology_count {r : SectionSurfacesTopologyInspectionResult} (h : Silent r.python) :
    r.nbIssues = 0 := by
  have h1 : r.surfaces_not_meshed.nbIssues = 0 := no_issue (silent_self (silent_attribute (name := "surfaces_not_meshed") h rfl))
  have h2 : r.surfaces_not_linked_to_a_unique_vertex.nbIssues = 0 := no_entry (silent_self (silent_attribute (name := "surfaces_not_linked_to_a_unique_vertex") h rfl))
  have h3 : r.unique_vertices_linked_to_a_surface_with_invalid_embbedings.nbIssues = 0 := no_issue (silent_self (silent_attribute (name := "unique_vertices_linked_to_a_surface_with_invalid_embbedings") h rfl))
  have h4 : r.unique_vertices_linked_to_a_line_but_is_not_on_a_surface_border.nbIssues = 0 := no_issue (silent_self (silent_attribute (name := "unique_vertices_linked_to_a_line_but_is_not_on_a_surface_border") h rfl))
  unfold SectionSurfacesTopologyInspectionResult.nbIssues
  simp only [h1, h2, h3, h4, UInt32.zero_add, UInt32.add_zero, UInt32.add_assoc]

theorem BRepSurfacesTopology_count {r : BRepSurfacesTopologyInspectionResult} (h : Silent r.python) :
    r.nbIssues = 0 := by
  have h1 : r.surfaces_not_meshed.nbIssues = 0 := no_issue (silent_self (silent_attribute (name := "surfaces_not_meshed") h rfl))
  have h2 : r.surfaces_not_linked_to_a_unique_vertex.nbIssues = 0 := no_entry (silent_self (silent_attribute (name := "surfaces_not_linked_to_a_unique_vertex") h rfl))
  have h3 : r.unique_vertices_linked_to_a_surface_with_invalid_embbedings.nbIssues = 0 := no_issue (silent_self (silent_attribute (name := "unique_vertices_linked_to_a_surface_with_invalid_embbedings") h rfl))
  have h4 : r.unique_vertices_linked_to_several_and_invalid_surfaces.nbIssues = 0 := no_issue (silent_self (silent_attribute (name := "unique_vertices_linked_to_several_and_invalid_surfaces") h rfl))
  have h5 : r.unique_vertices_linked_to_a_line_but_is_not_on_a_surface_border.nbIssues = 0 := no_issue (silent_self (silent_attribute (name := "unique_vertices_linked_to_a_line_but_is_not_on_a_surface_border") h rfl))
  have h6 : r.surface_polygons_with_wrong_component_facets_around.nbIssues = 0 := no_entry (silent_self (silent_attribute (name := "surface_polygons_with_wrong_component_facets_around") h rfl))
  unfold BRepSurfacesTopologyInspectionResult.nbIssues
  simp only [h1, h2, h3, h4, h5, h6, UInt32.zero_add, UInt32.add_zero, UInt32.add_assoc]

theorem BRepBlocksTopology_count {r : BRepBlocksTopologyInspectionResult} (h : Silent r.python) :
    r.nbIssues = 0 := by
  have h1 : r.some_blocks_not_meshed.nbIssues = 0 := no_issue (silent_self (silent_attribute (name := "some_blocks_not_meshed") h rfl))
  have h2 : r.wrong_block_boundary_surface.nbIssues = 0 := no_issue (silent_self (silent_attribute (name := "wrong_block_boundary_surface") h rfl))
  have h3 : r.blocks_not_linked_to_a_unique_vertex.nbIssues = 0 := no_entry (silent_self (silent_attribute (name := "blocks_not_linked_to_a_unique_vertex") h rfl))
  have h4 : r.blocks_with_not_closed_boundary_surfaces.nbIssues = 0 := no_issue (silent_self (silent_attribute (name := "blocks_with_not_closed_boundary_surfaces") h rfl))
  have h5 : r.model_boundaries_dont_form_a_closed_surface.nbIssues = 0 := no_issue (silent_self (silent_attribute (name := "model_boundaries_dont_form_a_closed_surface") h rfl))
  have h6 : r.unique_vertices_part_of_two_blocks_and_no_boundary_surface.nbIssues = 0 := no_issue (silent_self (silent_attribute (name := "unique_vertices_part_of_two_blocks_and_no_boundary_surface") h rfl))
  have h7 : r.unique_vertices_with_incorrect_block_cmvs_count.nbIssues = 0 := no_issue (silent_self (silent_attribute (name := "unique_vertices_with_incorrect_block_cmvs_count") h rfl))
  have h8 : r.unique_vertices_linked_to_surface_with_wrong_relationship_to_blocks.nbIssues = 0 := no_issue (silent_self (silent_attribute (name := "unique_vertices_linked_to_surface_with_wrong_relationship_to_blocks") h rfl))
  have h9 : r.unique_vertices_linked_to_a_single_and_invalid_surface.nbIssues = 0 := no_issue (silent_self (silent_attribute (name := "unique_vertices_linked_to_a_single_and_invalid_surface") h rfl))
  have h10 : r.unique_vertex_linked_to_multiple_invalid_surfaces.nbIssues = 0 := no_issue (silent_self (silent_attribute (name := "unique_vertex_linked_to_multiple_invalid_surfaces") h rfl))
  unfold BRepBlocksTopologyInspectionResult.nbIssues
  simp only [h1, h2, h3, h4, h5, h6, h7, h8, h9, h10, UInt32.zero_add, UInt32.add_zero, UInt32.add_assoc]

theorem SectionTopology_count {r : SectionTopologyInspectionResult} (h : Silent r.python) :
    r.nbIssues = r.unique_vertices_linked_to_inexistant_cmv.nbIssues + r.unique_vertices_nonbijectively_linked_to_cmv.nbIssues := by
  have h1 := SectionCornersTopology_count (silent_attribute (name := "corners") h rfl)
  have h2 := SectionLinesTopology_count (silent_attribute (name := "lines") h rfl)
  have h3 := SectionSurfacesTopology_count (silent_attribute (name := "surfaces") h rfl)
  have h4 : r.unique_vertices_not_linked_to_any_component.nbIssues = 0 := no_issue (silent_self (silent_attribute (name := "unique_vertices_not_linked_to_any_component") h rfl))
  unfold SectionTopologyInspectionResult.nbIssues
  simp only [h1, h2, h3, h4, UInt32.zero_add, UInt32.add_zero, UInt32.add_assoc]

theorem BRepTopology_count {r : BRepTopologyInspectionResult} (h : Silent r.python) :
    r.nbIssues = r.unique_vertices_linked_to_inexistant_cmv.nbIssues + r.unique_vertices_nonbijectively_linked_to_cmv.nbIssues := by
  have h1 := BRepCornersTopology_count (silent_attribute (name := "corners") h rfl)
  have h2 := BRepLinesTopology_count (silent_attribute (name := "lines") h rfl)
  have h3 := BRepSurfacesTopology_count (silent_attribute (name := "surfaces") h rfl)
  have h4 := BRepBlocksTopology_count (silent_attribute (name := "blocks") h rfl)
  have h5 : r.unique_vertices_not_linked_to_any_component.nbIssues = 0 := no_issue (silent_self (silent_attribute (name := "unique_vertices_not_linked_to_any_component") h rfl))
  unfold BRepTopologyInspectionResult.nbIssues
  simp only [h1, h2, h3, h4, h5, UInt32.zero_add, UInt32.add_zero, UInt32.add_assoc]

theorem Section_count {r : SectionInspectionResult} (h : Silent r.python) :
    r.nbIssues = r.meshes.meshes_negative_elements.nbIssues + r.topology.unique_vertices_linked_to_inexistant_cmv.nbIssues + r.topology.unique_vertices_nonbijectively_linked_to_cmv.nbIssues := by
  have h1 := SectionMeshes_count (silent_attribute (name := "meshes") h rfl)
  have h2 := SectionTopology_count (silent_attribute (name := "topology") h rfl)
  unfold SectionInspectionResult.nbIssues
  simp only [h1, h2, UInt32.zero_add, UInt32.add_zero, UInt32.add_assoc]

theorem BRep_count {r : BRepInspectionResult} (h : Silent r.python) :
    r.nbIssues = r.meshes.meshes_non_manifolds.brep_non_manifold_facets.nbIssues + r.meshes.meshes_negative_elements.nbIssues + r.topology.unique_vertices_linked_to_inexistant_cmv.nbIssues + r.topology.unique_vertices_nonbijectively_linked_to_cmv.nbIssues := by
  have h1 := BRepMeshes_count (silent_attribute (name := "meshes") h rfl)
  have h2 := BRepTopology_count (silent_attribute (name := "topology") h rfl)
  unfold BRepInspectionResult.nbIssues
  simp only [h1, h2, UInt32.zero_add, UInt32.add_zero, UInt32.add_assoc]

/-- Computation of `Silent` for objects nested less deeply than `depth`. -/
def quiet : Nat → PyValue → Bool
  | 0, _ => false
  | depth + 1, .object attributes _ _ => attributes.all fun e => quiet depth e.2
  | _ + 1, .indices v => v.issues.isEmpty
  | _ + 1, .groups v => v.issues.isEmpty
  | _ + 1, .pairs v => v.issues.isEmpty
  | _ + 1, .uuids v => v.issues.isEmpty
  | _ + 1, .elements v => v.issues.isEmpty
  | _ + 1, .edges v => v.issues.isEmpty
  | _ + 1, .indicesMap v => v.entries.isEmpty
  | _ + 1, .groupsMap v => v.entries.isEmpty
  | _ + 1, .pairsMap v => v.entries.isEmpty

theorem silent_of_quiet : ∀ {depth : Nat} {o : PyValue}, quiet depth o = true → Silent o := by
  intro depth
  induction depth with
  | zero => intro o h; cases h
  | succ depth ih =>
    intro o h
    cases o with
    | object attributes string nb =>
      refine silent_object fun e he => ih ?_
      unfold quiet at h
      exact List.all_eq_true.1 h e he
    | _ => exact silent_list (fun _ => rfl) (List.isEmpty_iff.1 h)

end Inspector.Python
