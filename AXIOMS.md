# Axioms of the theorems

Printed by `#print axioms` (tools/axioms.py) for the 528 theorems of MANIFEST.json.

## `propext` (34 theorems)

C04_surfaces_count_and_text_forget_polygons, C05_lines_count_forgets_corners, C08_section_invalid_without_issue, C08_brep_invalid_without_issue, C29_bool_raises, C32_no_negative_polygon_in_3d, C35_large_polygon_false, C52_adjacencies, C52_degeneration, C52_negative, C52_corners, C52_lines, C52_surfaces, C53_false, C56_brep_text_forgets_a_list, C57_adjacent_triangles_false, C57_out_of_range_false, C57_missed_overlap_false, C62_section_false, C68_surfaces_readable, C73_false, C87_section, C87_cross_section, C87_implicit_cross_section, C87_brep, C87_structural_model, C87_implicit_structural_model, C96_surface_curve, C107_lists, C107_methods, C107_verdict_false, C107_verdict_partial, C108_false, C121_false

## `Quot.sound`, `propext` (83 theorems)

C01_issues_history, C02_map_text, C03_PointSetInspectionResult, C03_EdgedCurveInspectionResult, C03_SurfaceInspectionResult, C03_SolidInspectionResult, C03_UniqueVerticesInspectionResult, C03_MeshesColocationInspectionResult, C03_SectionMeshesAdjacencyInspectionResult, C03_BRepMeshesAdjacencyInspectionResult, C03_SectionMeshesDegenerationInspectionResult, C03_BRepMeshesDegenerationInspectionResult, C03_ElementsIntersectionsInspectionResult, C03_SectionMeshesManifoldInspectionResult, C03_BRepMeshesManifoldInspectionResult, C03_SectionMeshesNegativeElementsInspectionResult, C03_BRepMeshesNegativeElementsInspectionResult, C03_SectionMeshesInspectionResult, C03_BRepMeshesInspectionResult, C03_SectionCornersTopologyInspectionResult, C03_BRepCornersTopologyInspectionResult, C03_BRepLinesTopologyInspectionResult, C03_SectionSurfacesTopologyInspectionResult, C03_BRepBlocksTopologyInspectionResult, C03_bound_is_needed, C04_surfaces_count_partial, C05_lines_count_partial, C12_violated, C21_boolean, C22_edges_left_as_found, C22_never_disabled, C22_edges_enabled_during_queries, C23_model_edges_left_as_found, C28_solid_vertices_raise, C30_solid_facets, C35_fan_area_partial, C51_false, C52_colocation, C52_blocks, C52_manifold, C52_intersections, C53_edged_curve_partial, C53_surface_partial, C53_solid_partial, C53_section_meshes_partial, C53_brep_meshes_partial, C53_section_partial, C53_brep_partial, C53_brep_adjacencies_partial, C54_false, C56_PointSetInspectionResult, C56_EdgedCurveInspectionResult, C56_SurfaceInspectionResult, C56_SolidInspectionResult, C56_UniqueVerticesInspectionResult, C56_ElementsIntersectionsInspectionResult, C59_empty_line_hides, C62_section_test_partial, C64_false, C69_section_false, C69_brep_false, C72_glued_iff, C77_false, C85_nested_triangles_false, C89_exit_code_false, C91_shared_extension_false, C93_inexistent_false, C93_several_surfaces_false, C94_line_vertices_false, C94_edge_not_told_false, C95_corner_in_surfaces_false, C95_expected_number_false, C103_equal_boxes, C106_surface_edges_partial, C107_surface_false, C107_solid_false, C107_section_false, C107_brep_false, C115_in_plane_partial, C121_edges_as_asked_partial, C121_never_taken_away_partial, C124_false, C130_linked_surfaces

## `Classical.choice`, `Quot.sound`, `propext` (411 theorems)

C01_no_issue_text_is_reliable, C02_map_history, C06_pointset, C06_edged_curve, C06_surface, C06_solid, C07_section, C07_brep, C08_section_partial, C08_brep_partial, C08_surface, C08_solid, C08_edged_curve, C08_pointset, C09_colocated_points_groups, C10_mesh_has_colocated_points, C11_filter, C11_section, C11_brep, C12_one_vertex_per_unique_vertex_partial, C12_exact_report_partial, C12_small_groups_partial, C13_linked_to_different_points, C13_inspect_unique_vertices, C14_colocated_unique_vertices, C15_surface_adjacency, C16_solid_adjacency, C17_section_surface_adjacency, C17_brep_surface_adjacency, C18_brep_block_adjacency, C19_curve_small_edges, C19_curve_degenerated_edges, C19_small_edges, C19_degenerated_edges, C19_small_height_polygons, C19_degenerated_polygons, C19_small_height_polyhedra, C19_degenerated_polyhedra, C19_section, C19_brep, C19_brep_thresholds, C20_monotone, C21_boolean_lists, C24_surface_edges, C24_surface_edges_modulo, C25_false, C25_partial, C25_exact_partial, C26_surface_edges, C26_surface_vertices, C26_solid_vertices, C26_solid_facets, C27_surface_vertices, C27_section_maps, C28_solid_vertices, C29_solid_edges, C31_model_edges, C31_model_facets, C31_brep_maps, C32_negative_polygons, C32_negative_polyhedra, C32_section, C32_brep, C33_surface_self_intersections, C33_raises, C34_surface_curve_2d, C34_surface_curve_3d, C35_fan_partial, C35_polygons_intersect_partial, C35_exact_partial, C36_boolean_agrees, C36_section_list, C36_brep_list, C37_empty_surface_false, C37_no_empty_surface_partial, C38_section_links, C38_brep_links, C39_not_associated, C40_false, C40_section_corner_agreement_partial, C41_false, C41_brep_corner_agreement_partial, C42_section_lines_agreement, C43_brep_lines_agreement, C44_section_surfaces_agreement, C45_brep_surfaces_agreement, C46_false, C46_valid_iff_two_lists_partial, C47_false, C47_embedded_lines_partial, C47_exact_partial, C48_peeled_surfaces, C49_linked_parts, C49_linked_parts_any_queue, C50_block_closed, C50_block_closed_geometric, C51_expected_count_partial, C53_emplace_with_mutex_partial, C54_section_partial, C54_brep_partial, C55_MeshesColocationInspectionResult_text, C55_SectionMeshesAdjacencyInspectionResult_text, C55_BRepMeshesAdjacencyInspectionResult_text, C55_SectionMeshesDegenerationInspectionResult_text, C55_BRepMeshesDegenerationInspectionResult_text, C55_SectionMeshesManifoldInspectionResult_text, C55_BRepMeshesManifoldInspectionResult_text, C55_SectionMeshesNegativeElementsInspectionResult_text, C55_BRepMeshesNegativeElementsInspectionResult_text, C55_SectionCornersTopologyInspectionResult_text, C55_BRepCornersTopologyInspectionResult_text, C55_SectionLinesTopologyInspectionResult_text, C55_BRepLinesTopologyInspectionResult_text, C55_SectionSurfacesTopologyInspectionResult_text, C55_BRepSurfacesTopologyInspectionResult_text_partial, C55_BRepBlocksTopologyInspectionResult_text, C56_SectionMeshesInspectionResult, C56_BRepMeshesInspectionResult, C56_SectionTopologyInspectionResult, C56_BRepTopologyInspectionResult_partial, C56_SectionInspectionResult, C56_BRepInspectionResult_partial, C57_same_surface_partial, C57_two_surfaces_partial, C58_self_intersections, C59_lines_surfaces, C60_same_unique_vertices, C61_unlinked_vertices_false, C61_no_common_vertex_partial, C62_brep_no_exception, C62_section_test_exact, C62_section_no_exception_partial, C63_closed_line_false, C63_corner_on_line_partial, C64_linked_lines_partial, C65_section_corner_lists, C66_brep_corner_lists, C67_section_line_lists, C68_brep_line_lists, C68_completes, C69_inactive_surfaces_partial, C70_section_surface_lists, C71_brep_surface_lists, C72_fused_mesh, C73_model_boundaries_partial, C74_false, C74_surface_status_partial, C75_block_reports, C75_no_active_block, C76_section_valid, C76_brep_valid, C77_section_no_issue_partial, C77_section_valid_partial, C77_brep_no_issue_partial, C77_brep_valid_partial, C78_false, C78_no_exception_partial, C79_point_set, C79_edged_curve, C79_surface, C79_solid, C80_point_set, C80_edged_curve, C80_surface, C80_solid, C81_section, C81_brep_partial, C81_brep_false, C82_section, C82_brep_false, C82_brep_partial, C83_section_apart, C83_section_one_vertex, C83_brep_apart, C83_brep_one_vertex, C84_brep_adjacent, C85_overlap_partial, C85_crossing_triangles_partial, C86_point_set, C86_edged_curve, C86_surface, C86_solid, C86_surface_curve, C88_point_set_3d, C88_point_set_2d, C88_edged_curve_3d, C88_edged_curve_2d, C88_surface_3d, C88_surface_2d, C88_solid, C88_surface_curve_3d, C88_surface_curve_2d, C88_section, C88_brep_partial, C88_cross_section, C88_implicit_cross_section, C88_structural_model_partial, C88_implicit_structural_model_partial, C88_brep_false, C89_exit_code_partial, C90_disable_option_false, C90_input_option_partial, C91_own_extension_partial, C92_section_messages_designate, C92_brep_messages_designate, C93_several_lines_false, C93_section_messages_partial, C93_one_vertex_each_partial, C94_corner_and_line_messages_partial, C95_brep_messages_partial, C95_expected_number_partial, C96_point_set, C96_edged_curve, C96_surface, C96_solid, C97_section, C97_self_intersections, C97_brep, C98_point_set, C98_edged_curve, C98_surface, C98_solid, C98_section_topology, C98_brep_topology, C98_section_meshes, C98_brep_meshes, C99_section, C99_brep_false, C99_brep_partial, C100_section, C100_brep, C101_edged_curve, C101_surface, C101_solid, C102_section, C102_brep, C103_closed, C103_any_order, C104_section, C104_brep_partial, C104_brep_false, C105_section, C105_brep, C106_parameters, C106_lines_polygons_intersections, C106_surface_edges_false, C107_point_set, C107_curve, C107_surface_partial, C107_solid_partial, C107_unique_vertices, C107_colocation, C107_section_adjacency, C107_brep_adjacency, C107_section_degeneration, C107_brep_degeneration, C107_intersections, C107_section_manifold, C107_brep_manifold_partial, C107_section_meshes_partial, C107_brep_meshes_partial, C107_section_corners, C107_brep_corners, C107_section_lines, C107_brep_lines, C107_section_surfaces, C107_brep_surfaces, C107_brep_blocks, C107_section_topology_partial, C107_brep_topology_partial, C107_section_partial, C107_brep_partial, C108_exact_partial, C108_functions_partial, C108_single_assignment_partial, C108_keep_alive_partial, C109_point_set, C109_edged_curve, C109_surface, C109_solid, C110_false, C110_hidden_partial, C110_exact_partial, C111_surface, C111_section, C111_solid, C111_brep, C112_apart, C112_apart_overlap, C112_one_vertex, C112_one_vertex_overlap, C112_adjacent, C112_adjacent_surfaces_partial, C112_false, C113_found, C113_apart, C113_one_vertex_found, C113_one_vertex, C113_adjacent, C114_plane_partial, C114_plane_along_partial, C114_plane_sound, C114_plane_list_partial, C114_plane_false, C114_space, C114_space_list, C114_space_in_plane_partial, C115_edge, C115_list, C115_false, C116_triangles, C116_report, C117_criteria, C117_booleans, C117_verdict, C117_section, C117_brep, C118_criteria_partial, C118_verdict_partial, C118_brep, C118_false, C119_section, C119_brep, C120_section_partial, C120_brep, C120_section_false, C122_section, C122_brep, C123_section, C123_brep, C124_section_partial, C124_brep_partial, C125_partial, C125_false, C126_facets_partial, C126_facets_false, C126_polygons_false, C127_section_partial, C127_brep_partial, C127_section_false, C127_brep_false, C128_section, C128_brep, C129_section_partial, C129_section_false, C129_brep_false, C129_brep_partial, C129_blocks_false, C130_not_boundary_surfaces, C130_blocks, C130_brep, C130_verdict, C131_section, C131_brep, C132_brep, C132_section_partial, C132_section_false, C133_brep, C133_section, C134_brep_partial, C134_section, C134_brep_false, C135_boundary, C135_apart_partial, C135_apart_whole_partial, C135_false, C136_section_partial, C136_section_corners, C136_brep_partial, C136_brep_corners_partial, C136_false, C137_brep_partial, C137_section_partial, C137_section_false, C137_brep_false, C138_partial, C138_false, C139_brep, C140_section_partial, C140_brep_partial, C140_false, C141_section, C141_brep, C142_section, C142_brep, C143_brep, C144_brep, C145_section, C145_brep, C146_section, C146_brep_partial, C146_false, C147_section, C147_brep, C148_section_partial, C148_brep_partial, C148_section_false, C148_brep_false, C149_section_partial, C149_brep_partial, C149_section_false, C149_brep_false, C150_brep, C151_section, C151_brep_partial, C152_section_false, C152_surfaces_partial, C152_blocks, C153_brep_false, C153_section_false, C153_brep_partial
