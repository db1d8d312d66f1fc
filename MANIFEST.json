{
 "claims": [
  {
   "property": "C01",
   "status": "proved",
   "theorems": [
    "Inspector.C01_issues_history",
    "Inspector.C01_no_issue_text_is_reliable"
   ],
   "note": "any history of add_issue/set_description"
  },
  {
   "property": "C02",
   "status": "proved",
   "theorems": [
    "Inspector.C02_map_history",
    "Inspector.C02_map_text"
   ],
   "note": "any history of add_issues_to_map; text for any hash iteration order"
  },
  {
   "property": "C03",
   "status": "proved",
   "theorems": [
    "Inspector.C03_PointSetInspectionResult",
    "Inspector.C03_EdgedCurveInspectionResult",
    "Inspector.C03_SurfaceInspectionResult",
    "Inspector.C03_SolidInspectionResult",
    "Inspector.C03_UniqueVerticesInspectionResult",
    "Inspector.C03_MeshesColocationInspectionResult",
    "Inspector.C03_SectionMeshesAdjacencyInspectionResult",
    "Inspector.C03_BRepMeshesAdjacencyInspectionResult",
    "Inspector.C03_SectionMeshesDegenerationInspectionResult",
    "Inspector.C03_BRepMeshesDegenerationInspectionResult",
    "Inspector.C03_ElementsIntersectionsInspectionResult",
    "Inspector.C03_SectionMeshesManifoldInspectionResult",
    "Inspector.C03_BRepMeshesManifoldInspectionResult",
    "Inspector.C03_SectionMeshesNegativeElementsInspectionResult",
    "Inspector.C03_BRepMeshesNegativeElementsInspectionResult",
    "Inspector.C03_SectionMeshesInspectionResult",
    "Inspector.C03_BRepMeshesInspectionResult",
    "Inspector.C03_SectionCornersTopologyInspectionResult",
    "Inspector.C03_BRepCornersTopologyInspectionResult",
    "Inspector.C03_BRepLinesTopologyInspectionResult",
    "Inspector.C03_SectionSurfacesTopologyInspectionResult",
    "Inspector.C03_BRepBlocksTopologyInspectionResult",
    "Inspector.C03_bound_is_needed"
   ],
   "note": "counts are 32 bits; the bound total < 2^32 is shown necessary"
  },
  {
   "property": "C04",
   "status": "partial",
   "theorems": [
    "Inspector.C04_surfaces_count_and_text_forget_polygons",
    "Inspector.C04_surfaces_count_partial"
   ],
   "note": "false in the code: surface_polygons_with_wrong_component_facets_around is neither counted nor printed (witness theorem); holds for the five other lists"
  },
  {
   "property": "C05",
   "status": "partial",
   "theorems": [
    "Inspector.C05_lines_count_forgets_corners",
    "Inspector.C05_lines_count_partial"
   ],
   "note": "false in the code: unique_vertices_linked_to_several_lines_but_not_linked_to_a_corner is not counted (witness theorem); holds for the five other lists"
  },
  {
   "property": "C06",
   "status": "proved",
   "theorems": [
    "Inspector.C06_pointset",
    "Inspector.C06_edged_curve",
    "Inspector.C06_surface",
    "Inspector.C06_solid"
   ],
   "note": ""
  },
  {
   "property": "C07",
   "status": "proved",
   "theorems": [
    "Inspector.C07_section",
    "Inspector.C07_brep"
   ],
   "note": ""
  },
  {
   "property": "C08",
   "status": "partial",
   "theorems": [
    "Inspector.C08_section_invalid_without_issue",
    "Inspector.C08_brep_invalid_without_issue",
    "Inspector.C08_section_partial",
    "Inspector.C08_brep_partial",
    "Inspector.C08_surface",
    "Inspector.C08_solid",
    "Inspector.C08_edged_curve",
    "Inspector.C08_pointset"
   ],
   "note": "false in the code for models because of C04/C05 (witnesses); exact characterisation proved; true for the four kinds of mesh"
  },
  {
   "property": "C09",
   "status": "proved",
   "theorems": [
    "Inspector.C09_colocated_points_groups"
   ],
   "note": "for every answer of the external search satisfying SearchOk"
  },
  {
   "property": "C10",
   "status": "proved",
   "theorems": [
    "Inspector.C10_mesh_has_colocated_points"
   ],
   "note": "32 bits subtraction included"
  },
  {
   "property": "C11",
   "status": "proved",
   "theorems": [
    "Inspector.C11_filter",
    "Inspector.C11_section",
    "Inspector.C11_brep"
   ],
   "note": "filter, Section map and BRep map"
  },
  {
   "property": "C12",
   "status": "partial",
   "theorems": [
    "Inspector.C12_violated",
    "Inspector.C12_one_vertex_per_unique_vertex_partial",
    "Inspector.C12_exact_report_partial",
    "Inspector.C12_small_groups_partial"
   ],
   "note": "false in the code for an alternating group of 4 vertices (C12_violated); holds without the pattern, in particular for groups of at most 3 vertices C12_exact_report_partial gives the exact report in all cases."
  },
  {
   "property": "C13",
   "status": "proved",
   "theorems": [
    "Inspector.C13_linked_to_different_points",
    "Inspector.C13_inspect_unique_vertices"
   ],
   "note": "boolean and list versions; hypotheses: known component types"
  },
  {
   "property": "C14",
   "status": "proved",
   "theorems": [
    "Inspector.C14_colocated_unique_vertices"
   ],
   "note": ""
  },
  {
   "property": "C15",
   "status": "proved",
   "theorems": [
    "Inspector.C15_surface_adjacency"
   ],
   "note": ""
  },
  {
   "property": "C16",
   "status": "proved",
   "theorems": [
    "Inspector.C16_solid_adjacency"
   ],
   "note": ""
  },
  {
   "property": "C17",
   "status": "proved",
   "theorems": [
    "Inspector.C17_section_surface_adjacency",
    "Inspector.C17_brep_surface_adjacency"
   ],
   "note": "Section and BRep"
  },
  {
   "property": "C18",
   "status": "proved",
   "theorems": [
    "Inspector.C18_brep_block_adjacency"
   ],
   "note": ""
  },
  {
   "property": "C19",
   "status": "proved",
   "theorems": [
    "Inspector.C19_curve_small_edges",
    "Inspector.C19_curve_degenerated_edges",
    "Inspector.C19_small_edges",
    "Inspector.C19_degenerated_edges",
    "Inspector.C19_small_height_polygons",
    "Inspector.C19_degenerated_polygons",
    "Inspector.C19_small_height_polyhedra",
    "Inspector.C19_degenerated_polyhedra",
    "Inspector.C19_section",
    "Inspector.C19_brep",
    "Inspector.C19_brep_thresholds"
   ],
   "note": "meshes and models (Section, BRep, thresholds); lengths and heights are external doubles, NaN included"
  },
  {
   "property": "C20",
   "status": "proved",
   "theorems": [
    "Inspector.C20_monotone"
   ],
   "note": ""
  },
  {
   "property": "C21",
   "status": "proved",
   "theorems": [
    "Inspector.C21_boolean",
    "Inspector.C21_boolean_lists"
   ],
   "note": "second theorem under the hypothesis that the mesh calls degenerated what is at most epsilon"
  },
  {
   "property": "C22",
   "status": "proved",
   "theorems": [
    "Inspector.C22_edges_left_as_found",
    "Inspector.C22_never_disabled",
    "Inspector.C22_edges_enabled_during_queries"
   ],
   "note": "every history of any number of inspectors on meshes and models; concurrent tasks of a model query are atomic per surface"
  },
  {
   "property": "C23",
   "status": "proved",
   "theorems": [
    "Inspector.C23_model_edges_left_as_found"
   ],
   "note": ""
  },
  {
   "property": "C24",
   "status": "proved",
   "theorems": [
    "Inspector.C24_surface_edges",
    "Inspector.C24_surface_edges_modulo"
   ],
   "note": "any hash iteration order; without the bound the counts are modulo 256 (C24_surface_edges_modulo)"
  },
  {
   "property": "C25",
   "status": "partial",
   "theorems": [
    "Inspector.C25_false",
    "Inspector.C25_partial",
    "Inspector.C25_exact_partial"
   ],
   "note": "false in the code: the 8-bit counter wraps, witness mesh with 258 triangles around an edge (C25_false); proved below 256 uses C25_exact_partial gives the exact verdict in all cases (uses modulo 256)."
  },
  {
   "property": "C26",
   "status": "proved",
   "theorems": [
    "Inspector.C26_surface_edges",
    "Inspector.C26_surface_vertices",
    "Inspector.C26_solid_vertices",
    "Inspector.C26_solid_facets"
   ],
   "note": "any hash iteration orders; for vertices, whenever the list is computed without exception so is the boolean"
  },
  {
   "property": "C27",
   "status": "proved",
   "theorems": [
    "Inspector.C27_surface_vertices",
    "Inspector.C27_section_maps"
   ],
   "note": "for every answer of the external walks around vertices that raise only OpenGeode exceptions"
  },
  {
   "property": "C28",
   "status": "proved",
   "theorems": [
    "Inspector.C28_solid_vertices",
    "Inspector.C28_solid_vertices_raise"
   ],
   "note": "an exception of one walk makes the inspection raise (C28_solid_vertices_raise)"
  },
  {
   "property": "C29",
   "status": "proved",
   "theorems": [
    "Inspector.C29_solid_edges",
    "Inspector.C29_bool_raises"
   ],
   "note": "turns around edges are external, assumed without repetition; the boolean raises where the list reports"
  },
  {
   "property": "C30",
   "status": "proved",
   "theorems": [
    "Inspector.C30_solid_facets"
   ],
   "note": "the facet normal form is external: any function whose equality is the sameness of facets"
  },
  {
   "property": "C31",
   "status": "proved",
   "theorems": [
    "Inspector.C31_model_edges",
    "Inspector.C31_model_facets",
    "Inspector.C31_brep_maps"
   ],
   "note": "lists of the model and maps of the components of a BRep"
  },
  {
   "property": "C32",
   "status": "proved",
   "theorems": [
    "Inspector.C32_negative_polygons",
    "Inspector.C32_no_negative_polygon_in_3d",
    "Inspector.C32_negative_polyhedra",
    "Inspector.C32_section",
    "Inspector.C32_brep"
   ],
   "note": "signs and volumes are external, NaN included"
  },
  {
   "property": "C33",
   "status": "proved",
   "theorems": [
    "Inspector.C33_surface_self_intersections",
    "Inspector.C33_raises"
   ],
   "note": "for any traversal of the tree (external) meeting only candidates, and all of them unless asked to stop, when the test of two polygons (external) answers on the candidates; when it raises on a candidate, the list raises it (C33_raises)"
  },
  {
   "property": "C34",
   "status": "proved",
   "theorems": [
    "Inspector.C34_surface_curve_2d",
    "Inspector.C34_surface_curve_3d"
   ],
   "note": "2D and 3D, same hypothesis on traversals as C33"
  },
  {
   "property": "C35",
   "status": "partial",
   "theorems": [
    "Inspector.C35_fan_partial",
    "Inspector.C35_fan_area_partial",
    "Inspector.C35_polygons_intersect_partial",
    "Inspector.C35_exact_partial",
    "Inspector.C35_large_polygon_false"
   ],
   "note": "proved from 3 to 256 vertices; false beyond (C35_large_polygon: 257 vertices give no triangle) C35_exact_partial: entirely cut exactly up to 256 vertices, and which triangles are made beyond."
  },
  {
   "property": "C36",
   "status": "proved",
   "theorems": [
    "Inspector.C36_boolean_agrees",
    "Inspector.C36_section_list",
    "Inspector.C36_brep_list"
   ],
   "note": "boolean and list specified separately for any traversals; tasks write their own result read in task order (interleavings: C53)"
  },
  {
   "property": "C37",
   "status": "partial",
   "theorems": [
    "Inspector.C37_empty_surface_false",
    "Inspector.C37_no_empty_surface_partial"
   ],
   "note": "false in the code (witness); exact characterisation proved"
  },
  {
   "property": "C38",
   "status": "proved",
   "theorems": [
    "Inspector.C38_section_links",
    "Inspector.C38_brep_links"
   ],
   "note": "For every interleaving of the tasks and every choice of the rethrown exception, whenever the inspection returns."
  },
  {
   "property": "C39",
   "status": "proved",
   "theorems": [
    "Inspector.C39_not_associated"
   ],
   "note": ""
  },
  {
   "property": "C40",
   "status": "partial",
   "theorems": [
    "Inspector.C40_false",
    "Inspector.C40_section_corner_agreement_partial"
   ],
   "note": "False as stated (C40_false): section_corner_topology_is_valid(v) is false for a Corner with one embedding and several incidences, which no list reports. Partial: exact relation between the boolean and the lists."
  },
  {
   "property": "C41",
   "status": "partial",
   "theorems": [
    "Inspector.C41_false",
    "Inspector.C41_brep_corner_agreement_partial"
   ],
   "note": "False as stated (C41_false): brep_corner_topology_is_valid(v) is false for an embedded Corner with several incidences, which no list reports. Partial: exact relation between the boolean and the lists."
  },
  {
   "property": "C42",
   "status": "proved",
   "theorems": [
    "Inspector.C42_section_lines_agreement"
   ],
   "note": "For Sections whose Lines are embedded in Surfaces only (what the Section API allows)."
  },
  {
   "property": "C43",
   "status": "proved",
   "theorems": [
    "Inspector.C43_brep_lines_agreement"
   ],
   "note": "When the inspection of lines completes; completion conditions in C68_completes, failures in C54 and C64."
  },
  {
   "property": "C44",
   "status": "proved",
   "theorems": [
    "Inspector.C44_section_surfaces_agreement"
   ],
   "note": "Proved for every well-formed Section; also: true when the vertex is on no active surface."
  },
  {
   "property": "C45",
   "status": "proved",
   "theorems": [
    "Inspector.C45_brep_surfaces_agreement"
   ],
   "note": "Proved for every well-formed BRep in which active surfaces are embedded in blocks (the only embedding kind a BRep allows)."
  },
  {
   "property": "C46",
   "status": "partial",
   "theorems": [
    "Inspector.C46_false",
    "Inspector.C46_valid_iff_two_lists_partial"
   ],
   "note": "C46_false: brep_blocks_topology_is_valid tests two of the five vertex criteria. Partial theorem: it agrees exactly with these two lists."
  },
  {
   "property": "C47",
   "status": "partial",
   "theorems": [
    "Inspector.C47_false",
    "Inspector.C47_embedded_lines_partial",
    "Inspector.C47_exact_partial"
   ],
   "note": "False (C47_false): the function returns at the first active Line without embedding. Partial: exact and order independent when all active Lines at the vertex are embedded; never a false report. C47_exact_partial gives the exact answer in all cases, in terms of the order of the component mesh vertices."
  },
  {
   "property": "C48",
   "status": "proved",
   "theorems": [
    "Inspector.C48_peeled_surfaces"
   ],
   "note": "Graph search function is arbitrary among those returning edges between the given vertices (it may miss a parallel edge); assumes coherent line/surface relations."
  },
  {
   "property": "C49",
   "status": "proved",
   "theorems": [
    "Inspector.C49_linked_parts",
    "Inspector.C49_linked_parts_any_queue"
   ],
   "note": "The boundary and incidence relations of Lines and Surfaces are supposed to be the same relation (CoherentLines), as OpenGeode maintains. Termination: the result does not depend on the bound on iterations from some bound on."
  },
  {
   "property": "C50",
   "status": "proved",
   "theorems": [
    "Inspector.C50_block_closed",
    "Inspector.C50_block_closed_geometric"
   ],
   "note": "C50_block_closed is exact for any box and point-in-surface oracles (only the first part whose box contains the others is tried; exceptions count as outside). C50_block_closed_geometric is the statement itself, when a part inside another has a strictly contained box. One open part is declared closed (holes are the subject of wrong_block_boundary_surface, C75)."
  },
  {
   "property": "C51",
   "status": "partial",
   "theorems": [
    "Inspector.C51_false",
    "Inspector.C51_expected_count_partial"
   ],
   "note": "False (C51_false): the announced number wraps when the count is negative. Proved: the accept/reject decision is exactly the integer count, and the number is right when it is not negative."
  },
  {
   "property": "C52",
   "status": "proved",
   "theorems": [
    "Inspector.C52_adjacencies",
    "Inspector.C52_degeneration",
    "Inspector.C52_colocation",
    "Inspector.C52_negative",
    "Inspector.C52_corners",
    "Inspector.C52_lines",
    "Inspector.C52_surfaces",
    "Inspector.C52_blocks",
    "Inspector.C52_manifold",
    "Inspector.C52_intersections"
   ],
   "note": "For any model; nothing is assumed on uuids, meshes or unique vertices."
  },
  {
   "property": "C53",
   "status": "partial",
   "theorems": [
    "Inspector.C53_edged_curve_partial",
    "Inspector.C53_surface_partial",
    "Inspector.C53_solid_partial",
    "Inspector.C53_section_meshes_partial",
    "Inspector.C53_brep_meshes_partial",
    "Inspector.C53_section_partial",
    "Inspector.C53_brep_partial",
    "Inspector.C53_brep_adjacencies_partial",
    "Inspector.C53_emplace_with_mutex_partial",
    "Inspector.C53_false"
   ],
   "note": "Tasks write disjoint results, emplace_back modelled as 3 steps for the unprotected case (see the theorems). The lifetime of enable_edges (component_meshes_degeneration.cpp:95-101) is the subject of C106."
  },
  {
   "property": "C54",
   "status": "partial",
   "theorems": [
    "Inspector.C54_false",
    "Inspector.C54_section_partial",
    "Inspector.C54_brep_partial"
   ],
   "note": "False (C54_false): an OpenGeode exception in one task is logged and the corresponding part of the result is empty, like that of a valid model (witness: an embedded Line in a Block). Partial: each part is the result of its inspection or empty when it failed. An inspection of a BRep with only inactive Blocks also escapes inspect_blocks."
  },
  {
   "property": "C55",
   "status": "partial",
   "theorems": [
    "Inspector.C55_MeshesColocationInspectionResult_text",
    "Inspector.C55_SectionMeshesAdjacencyInspectionResult_text",
    "Inspector.C55_BRepMeshesAdjacencyInspectionResult_text",
    "Inspector.C55_SectionMeshesDegenerationInspectionResult_text",
    "Inspector.C55_BRepMeshesDegenerationInspectionResult_text",
    "Inspector.C55_SectionMeshesManifoldInspectionResult_text",
    "Inspector.C55_BRepMeshesManifoldInspectionResult_text",
    "Inspector.C55_SectionMeshesNegativeElementsInspectionResult_text",
    "Inspector.C55_BRepMeshesNegativeElementsInspectionResult_text",
    "Inspector.C55_SectionCornersTopologyInspectionResult_text",
    "Inspector.C55_BRepCornersTopologyInspectionResult_text",
    "Inspector.C55_SectionLinesTopologyInspectionResult_text",
    "Inspector.C55_BRepLinesTopologyInspectionResult_text",
    "Inspector.C55_SectionSurfacesTopologyInspectionResult_text",
    "Inspector.C55_BRepSurfacesTopologyInspectionResult_text_partial",
    "Inspector.C55_BRepBlocksTopologyInspectionResult_text"
   ],
   "note": "false only for the BRep surfaces list of C04 (C04_surfaces_count_and_text_forget_polygons)"
  },
  {
   "property": "C56",
   "status": "partial",
   "theorems": [
    "Inspector.C56_PointSetInspectionResult",
    "Inspector.C56_EdgedCurveInspectionResult",
    "Inspector.C56_SurfaceInspectionResult",
    "Inspector.C56_SolidInspectionResult",
    "Inspector.C56_UniqueVerticesInspectionResult",
    "Inspector.C56_ElementsIntersectionsInspectionResult",
    "Inspector.C56_SectionMeshesInspectionResult",
    "Inspector.C56_BRepMeshesInspectionResult",
    "Inspector.C56_SectionTopologyInspectionResult",
    "Inspector.C56_BRepTopologyInspectionResult_partial",
    "Inspector.C56_SectionInspectionResult",
    "Inspector.C56_BRepInspectionResult_partial",
    "Inspector.C56_brep_text_forgets_a_list"
   ],
   "note": "false only for BReps, because of C04 (C56_brep_text_forgets_a_list)"
  },
  {
   "property": "C57",
   "status": "partial",
   "theorems": [
    "Inspector.C57_same_surface_partial",
    "Inspector.C57_two_surfaces_partial",
    "Inspector.C57_adjacent_triangles_false",
    "Inspector.C57_out_of_range_false",
    "Inspector.C57_missed_overlap_false"
   ],
   "note": "false in the code: line 422 reads the second common point in the first mesh with its index in the second mesh; two witnesses (false intersection reported, read beyond the mesh); proved for two triangles of a same Surface; C57_two_surfaces_partial: the exact answer for two Surfaces in terms of the point that is really read"
  },
  {
   "property": "C58",
   "status": "proved",
   "theorems": [
    "Inspector.C58_self_intersections"
   ],
   "note": "polygons of at most 256 vertices (8 bits count); see C37 for empty meshes"
  },
  {
   "property": "C59",
   "status": "proved",
   "theorems": [
    "Inspector.C59_lines_surfaces",
    "Inspector.C59_empty_line_hides"
   ],
   "note": "also proved: one active Line without edge hides them all"
  },
  {
   "property": "C60",
   "status": "proved",
   "theorems": [
    "Inspector.C60_same_unique_vertices"
   ],
   "note": ""
  },
  {
   "property": "C61",
   "status": "partial",
   "theorems": [
    "Inspector.C61_unlinked_vertices_false",
    "Inspector.C61_no_common_vertex_partial"
   ],
   "note": "false in the code: NO_ID is taken for a common unique vertex, such triangles are always said to intersect (proved); proved when no unique vertex is common"
  },
  {
   "property": "C62",
   "status": "partial",
   "theorems": [
    "Inspector.C62_brep_no_exception",
    "Inspector.C62_section_test_exact",
    "Inspector.C62_section_no_exception_partial",
    "Inspector.C62_section_test_partial",
    "Inspector.C62_section_false"
   ],
   "note": "BRep: proved for every mesh and linking (polygons of at most 256 vertices); Section: false (witness with a degenerated triangle); C62_section_test_exact gives the exact failures of the test of two triangles, C62_section_no_exception_partial the absence of exception for a whole Section whose compared triangles are comparable"
  },
  {
   "property": "C63",
   "status": "partial",
   "theorems": [
    "Inspector.C63_closed_line_false",
    "Inspector.C63_corner_on_line_partial"
   ],
   "note": "False (C63_closed_line_false, for every BRep): the vertices of the Corner are counted instead of those of the Line, so such a Corner is always reported. Partial: the other cases."
  },
  {
   "property": "C64",
   "status": "partial",
   "theorems": [
    "Inspector.C64_false",
    "Inspector.C64_linked_lines_partial"
   ],
   "note": "False (C64_false): only the edge test is guarded; the relationship test at unique vertices reads edge 0 of any active Line. Partial: no undefined behaviour when the active Lines are fully linked; the only failure left is the exception of C54, exactly when LinesUnreadable."
  },
  {
   "property": "C65",
   "status": "proved",
   "theorems": [
    "Inspector.C65_section_corner_lists"
   ],
   "note": ""
  },
  {
   "property": "C66",
   "status": "proved",
   "theorems": [
    "Inspector.C66_brep_corner_lists"
   ],
   "note": "The criterion on internal Corners is the one of the code, see C63."
  },
  {
   "property": "C67",
   "status": "proved",
   "theorems": [
    "Inspector.C67_section_line_lists"
   ],
   "note": "The list of invalid embedded Lines has no false report and is exact where all the active Lines are embedded (C47)."
  },
  {
   "property": "C68",
   "status": "proved",
   "theorems": [
    "Inspector.C68_brep_line_lists",
    "Inspector.C68_completes",
    "Inspector.C68_surfaces_readable"
   ],
   "note": "The map of edges is exact for active Lines whose vertices are all linked (the other ones are skipped by the code). C68_completes: completion exactly characterised (LinesUnreadable)."
  },
  {
   "property": "C69",
   "status": "partial",
   "theorems": [
    "Inspector.C69_section_false",
    "Inspector.C69_brep_false",
    "Inspector.C69_inactive_surfaces_partial"
   ],
   "note": "False (C69_section_false, C69_brep_false): a Section vertex on two inactive Surfaces, and a BRep vertex inside an inactive Surface related to an active Line, are reported although the boolean function is true. Partial theorem: the other per-vertex lists."
  },
  {
   "property": "C70",
   "status": "proved",
   "theorems": [
    "Inspector.C70_section_surface_lists"
   ],
   "note": ""
  },
  {
   "property": "C71",
   "status": "proved",
   "theorems": [
    "Inspector.C71_brep_surface_lists"
   ],
   "note": ""
  },
  {
   "property": "C72",
   "status": "proved",
   "theorems": [
    "Inspector.C72_fused_mesh",
    "Inspector.C72_glued_iff"
   ],
   "note": "Vertices without unique vertex (NO_ID) are all glued together; C72_glued_iff says it."
  },
  {
   "property": "C73",
   "status": "partial",
   "theorems": [
    "Inspector.C73_false",
    "Inspector.C73_model_boundaries_partial"
   ],
   "note": "False (C73_false): with ModelBoundaries without items, front()/pop() are called on an empty queue (undefined behaviour). Proved when there is an item."
  },
  {
   "property": "C74",
   "status": "partial",
   "theorems": [
    "Inspector.C74_false",
    "Inspector.C74_surface_status_partial"
   ],
   "note": "C74_false: the second condition is dead code (dangling surfaces are a subset of the not-boundary surfaces), so an embedded surface outside all blocks is not reported. Partial theorem: exact for the two other conditions."
  },
  {
   "property": "C75",
   "status": "proved",
   "theorems": [
    "Inspector.C75_block_reports",
    "Inspector.C75_no_active_block"
   ],
   "note": "Assumes coherent line/surface relations, model boundaries without item only when there are none (C73), at most 2^30 component mesh vertices at a unique vertex; geometry (ray tracing, boxes) is an arbitrary function raising only OpenGeodeException."
  },
  {
   "property": "C76",
   "status": "proved",
   "theorems": [
    "Inspector.C76_section_valid",
    "Inspector.C76_brep_valid"
   ],
   "note": "Geometry-free part of the code, no bound. Hypotheses: Surfaces embedded in Blocks only, Section Lines in Surfaces only, counts fit in int32. BRep: whenever it answers; it answers unless LinesUnreadable (then C78)."
  },
  {
   "property": "C77",
   "status": "partial",
   "theorems": [
    "Inspector.C77_false",
    "Inspector.C77_section_no_issue_partial",
    "Inspector.C77_section_valid_partial",
    "Inspector.C77_brep_no_issue_partial",
    "Inspector.C77_brep_valid_partial"
   ],
   "note": "False in the code, both ways (C77_false): an active component without mesh is reported but accepted by the boolean; a model without unique vertices is rejected and nothing is reported. Partial: both implications for Sections and for BReps under the hypotheses which exclude these cases; for BReps a valid topology empties the lists that the validity looks at (C77_brep_valid_partial), the others being C46's."
  },
  {
   "property": "C78",
   "status": "partial",
   "theorems": [
    "Inspector.C78_false",
    "Inspector.C78_no_exception_partial"
   ],
   "note": "False (C78_false). Partial: Sections do not raise; BReps raise exactly in the case described (iff)."
  },
  {
   "property": "C79",
   "status": "proved",
   "theorems": [
    "Inspector.C79_point_set",
    "Inspector.C79_edged_curve",
    "Inspector.C79_surface",
    "Inspector.C79_solid"
   ],
   "note": "End to end: the inspector model runs the criterion models on one mesh."
  },
  {
   "property": "C80",
   "status": "proved",
   "theorems": [
    "Inspector.C80_point_set",
    "Inspector.C80_edged_curve",
    "Inspector.C80_surface",
    "Inspector.C80_solid"
   ],
   "note": "End to end from the mesh to the verdict."
  },
  {
   "property": "C81",
   "status": "partial",
   "theorems": [
    "Inspector.C81_section",
    "Inspector.C81_brep_partial",
    "Inspector.C81_brep_false"
   ],
   "note": "BRep: false in the code when the first wrong embedding of the Lines at a unique vertex is in a Block (LinesUnreadable, C54): the Line lists are then empty instead of exact (C81_brep_false); exact in every other case. Sections: exact whenever the inspection returns; it raises exactly when the test of two candidate polygons does (C111)."
  },
  {
   "property": "C82",
   "status": "partial",
   "theorems": [
    "Inspector.C82_section",
    "Inspector.C82_brep_false",
    "Inspector.C82_brep_partial"
   ],
   "note": "Sections proved; false for BReps (C82_brep_false: a defect is hidden by the exception of C54 and the verdict is valid); C82_brep_partial gives the exact verdict in all cases: right unless LinesUnreadable, and invalid verdicts are always right."
  },
  {
   "property": "C83",
   "status": "proved",
   "theorems": [
    "Inspector.C83_section_apart",
    "Inspector.C83_section_one_vertex",
    "Inspector.C83_brep_apart",
    "Inspector.C83_brep_one_vertex"
   ],
   "note": "Section and BRep, no and one common vertex."
  },
  {
   "property": "C84",
   "status": "proved",
   "theorems": [
    "Inspector.C84_brep_adjacent"
   ],
   "note": ""
  },
  {
   "property": "C85",
   "status": "partial",
   "theorems": [
    "Inspector.C85_overlap_partial",
    "Inspector.C85_nested_triangles_false",
    "Inspector.C85_crossing_triangles_partial"
   ],
   "note": "False: only crossings of edges are looked for, so a triangle inside another one is not reported (C85_nested_triangles_false); crossing edges are (C85_crossing_triangles_partial), and with exact predicates overlapping triangles are reported unless one is in the other (C85_overlap_partial)."
  },
  {
   "property": "C86",
   "status": "proved",
   "theorems": [
    "Inspector.C86_point_set",
    "Inspector.C86_edged_curve",
    "Inspector.C86_surface",
    "Inspector.C86_solid",
    "Inspector.C86_surface_curve"
   ],
   "note": "Loaders, extension registration, Abseil and geode_lippincott are parameters of the model. The two files of surface-curve-intersections are loaded in either order (the language leaves it open)."
  },
  {
   "property": "C87",
   "status": "proved",
   "theorems": [
    "Inspector.C87_section",
    "Inspector.C87_cross_section",
    "Inspector.C87_implicit_cross_section",
    "Inspector.C87_brep",
    "Inspector.C87_structural_model",
    "Inspector.C87_implicit_structural_model"
   ],
   "note": "Loaders, Abseil and geode_lippincott are parameters of the model."
  },
  {
   "property": "C88",
   "status": "partial",
   "theorems": [
    "Inspector.C88_point_set_3d",
    "Inspector.C88_point_set_2d",
    "Inspector.C88_edged_curve_3d",
    "Inspector.C88_edged_curve_2d",
    "Inspector.C88_surface_3d",
    "Inspector.C88_surface_2d",
    "Inspector.C88_solid",
    "Inspector.C88_surface_curve_3d",
    "Inspector.C88_surface_curve_2d",
    "Inspector.C88_section",
    "Inspector.C88_brep_partial",
    "Inspector.C88_cross_section",
    "Inspector.C88_implicit_cross_section",
    "Inspector.C88_structural_model_partial",
    "Inspector.C88_implicit_structural_model_partial",
    "Inspector.C88_brep_false"
   ],
   "note": "Proved for point sets, curves, surfaces, solids, surface/curve, Sections, CrossSections and ImplicitCrossSections. BReps and (implicit) structural models: false in the case LinesUnreadable (C88_brep_false), exact otherwise, as C81."
  },
  {
   "property": "C89",
   "status": "partial",
   "theorems": [
    "Inspector.C89_exit_code_false",
    "Inspector.C89_exit_code_partial"
   ],
   "note": "False: main returns 0 whatever the number of issues (C89_exit_code_false). Proved instead: code 0 exactly when one report has been printed, another code exactly when none has."
  },
  {
   "property": "C90",
   "status": "partial",
   "theorems": [
    "Inspector.C90_disable_option_false",
    "Inspector.C90_input_option_partial"
   ],
   "note": "False: no flag but --input is declared, so that Abseil stops the program with code 1 when the documented option is given (C90_disable_option_false, assuming that Abseil rejects undeclared flags). Proved instead: --input works."
  },
  {
   "property": "C91",
   "status": "partial",
   "theorems": [
    "Inspector.C91_shared_extension_false",
    "Inspector.C91_own_extension_partial"
   ],
   "note": "False: when an extension is registered for triangulated and for polygonal surfaces (as obj, ply, ... may be) only the first reader is tried (C91_shared_extension_false). Proved instead for extensions registered for one kind of surface."
  },
  {
   "property": "C92",
   "status": "proved",
   "theorems": [
    "Inspector.C92_section_messages_designate",
    "Inspector.C92_brep_messages_designate"
   ],
   "note": "C92_section_messages_designate needs no hypothesis; C92_brep_messages_designate supposes only that iterating a hash map visits each entry once. The number of the vertex is delimited (introduction before, space after), so it cannot be confused with another."
  },
  {
   "property": "C93",
   "status": "partial",
   "theorems": [
    "Inspector.C93_several_lines_false",
    "Inspector.C93_inexistent_false",
    "Inspector.C93_several_surfaces_false",
    "Inspector.C93_section_messages_partial",
    "Inspector.C93_one_vertex_each_partial"
   ],
   "note": "False of the code: 'multiple Lines' for one closed Line, 'mutiple Surfaces' for one Surface, 'inexistant mesh vertex' for an existing one (three witnesses). Proved: the exact text of every message with the facts that hold when it is emitted (SectionExplained), and that 'several Corners'/'multiple Lines' are true when no component has two vertices at a unique vertex."
  },
  {
   "property": "C94",
   "status": "partial",
   "theorems": [
    "Inspector.C94_line_vertices_false",
    "Inspector.C94_edge_not_told_false",
    "Inspector.C94_corner_and_line_messages_partial"
   ],
   "note": "False of the code: the number of vertices of a closed Line printed beside an internal Corner is that of the Corner; the messages on two edges can be identical (two witnesses). Proved: the exact text of every message with the facts that hold when it is emitted (BRepCornersExplained, BRepLinesExplained)."
  },
  {
   "property": "C95",
   "status": "partial",
   "theorems": [
    "Inspector.C95_corner_in_surfaces_false",
    "Inspector.C95_expected_number_false",
    "Inspector.C95_brep_messages_partial",
    "Inspector.C95_expected_number_partial"
   ],
   "note": "False of the code: a Corner embedded in Blocks only is said to be internal to Surfaces; a negative expected number of vertices is printed as 4294967294 (two witnesses). Proved: the exact text of every message with the facts that hold when it is emitted (BRepExplained), and the expected number is right when it is a 32-bit number."
  },
  {
   "property": "C96",
   "status": "proved",
   "theorems": [
    "Inspector.C96_point_set",
    "Inspector.C96_edged_curve",
    "Inspector.C96_surface",
    "Inspector.C96_surface_curve",
    "Inspector.C96_solid"
   ],
   "note": "All meshes and schedules; positions are printed by a library function left arbitrary."
  },
  {
   "property": "C97",
   "status": "proved",
   "theorems": [
    "Inspector.C97_section",
    "Inspector.C97_self_intersections",
    "Inspector.C97_brep"
   ],
   "note": "For models whose components all have meshes and when no task fails."
  },
  {
   "property": "C98",
   "status": "proved",
   "theorems": [
    "Inspector.C98_point_set",
    "Inspector.C98_edged_curve",
    "Inspector.C98_surface",
    "Inspector.C98_solid",
    "Inspector.C98_section_topology",
    "Inspector.C98_brep_topology",
    "Inspector.C98_section_meshes",
    "Inspector.C98_brep_meshes"
   ],
   "note": "Lists whose texts contain only names of components, the intersections of models (named by free labels), and the edges of C94 are not in the claim."
  },
  {
   "property": "C99",
   "status": "partial",
   "theorems": [
    "Inspector.C99_section",
    "Inspector.C99_brep_false",
    "Inspector.C99_brep_partial"
   ],
   "note": "False for BReps: a Line whose first wrong embedding at a unique vertex is a Block makes the topology of the Lines unread (C99_brep_false). C99_brep_partial gives the verdict in both cases; C99_section is exact."
  },
  {
   "property": "C100",
   "status": "proved",
   "theorems": [
    "Inspector.C100_section",
    "Inspector.C100_brep"
   ],
   "note": "Proved through C99 (both verdicts are the same predicate of the model)."
  },
  {
   "property": "C101",
   "status": "proved",
   "theorems": [
    "Inspector.C101_edged_curve",
    "Inspector.C101_surface",
    "Inspector.C101_solid"
   ],
   "note": "Proved from C79: each list is determined by the mesh."
  },
  {
   "property": "C102",
   "status": "proved",
   "theorems": [
    "Inspector.C102_section",
    "Inspector.C102_brep"
   ],
   "note": "Proved from C81: each list is determined by the model (also when the topology of the Lines of a BRep is not read)."
  },
  {
   "property": "C103",
   "status": "proved",
   "theorems": [
    "Inspector.C103_closed",
    "Inspector.C103_any_order",
    "Inspector.C103_equal_boxes"
   ],
   "note": "C103_equal_boxes shows that with equal boxes (the hypothesis on boxes fails) the answer depends on the order: only the first part with an enclosing box is tried."
  },
  {
   "property": "C104",
   "status": "partial",
   "theorems": [
    "Inspector.C104_section",
    "Inspector.C104_brep_partial",
    "Inspector.C104_brep_false"
   ],
   "note": "Proved for Sections (C104_section). For BReps it is false (C104_brep_false: the order of the two embeddings of a Line decides whether the lists on lines are lost, see C54); C104_brep_partial proves it when the wrong embeddings can be described in both orders and the geometry is sound in the sense of C103."
  },
  {
   "property": "C105",
   "status": "proved",
   "theorems": [
    "Inspector.C105_section",
    "Inspector.C105_brep"
   ],
   "note": "Spec/TrianglesMeet.lean; now used by C99 and C104 in place of the test of the model. That the point of a Section is looked for with the index of the other Surface is the disagreement of C57."
  },
  {
   "property": "C106",
   "status": "partial",
   "theorems": [
    "Inspector.C106_parameters",
    "Inspector.C106_lines_polygons_intersections",
    "Inspector.C106_surface_edges_false",
    "Inspector.C106_surface_edges_partial"
   ],
   "note": "False for the edges of the Surfaces (C106_surface_edges_false, for any number of them): enable_edges, declared in the loop, is captured by reference by tasks which may run after it is destroyed. Proved for the tasks on Lines, polygons and intersections (parameters, protected by when_all), and for Surfaces when each task ends before the loop goes on. Exceptions between spawn and when_all are not modelled."
  },
  {
   "property": "C107",
   "status": "partial",
   "theorems": [
    "Inspector.C107_lists",
    "Inspector.C107_point_set",
    "Inspector.C107_curve",
    "Inspector.C107_surface_partial",
    "Inspector.C107_solid_partial",
    "Inspector.C107_unique_vertices",
    "Inspector.C107_colocation",
    "Inspector.C107_section_adjacency",
    "Inspector.C107_brep_adjacency",
    "Inspector.C107_section_degeneration",
    "Inspector.C107_brep_degeneration",
    "Inspector.C107_intersections",
    "Inspector.C107_section_manifold",
    "Inspector.C107_brep_manifold_partial",
    "Inspector.C107_section_meshes_partial",
    "Inspector.C107_brep_meshes_partial",
    "Inspector.C107_section_corners",
    "Inspector.C107_brep_corners",
    "Inspector.C107_section_lines",
    "Inspector.C107_brep_lines",
    "Inspector.C107_section_surfaces",
    "Inspector.C107_brep_surfaces",
    "Inspector.C107_brep_blocks",
    "Inspector.C107_section_topology_partial",
    "Inspector.C107_brep_topology_partial",
    "Inspector.C107_section_partial",
    "Inspector.C107_brep_partial",
    "Inspector.C107_methods",
    "Inspector.C107_surface_false",
    "Inspector.C107_solid_false",
    "Inspector.C107_section_false",
    "Inspector.C107_brep_false",
    "Inspector.C107_verdict_false",
    "Inspector.C107_verdict_partial"
   ],
   "note": "False of surfaces, solids, Sections and BReps (negative elements, non manifold facets of a BRep, wrong links of unique vertices are not bound) and of the truth value of ObjectValidity (no __bool__): C107_*_false. Proved: the exact table of what each class exposes, and that when all of it is empty the issues are exactly those of the named unbound lists (zero for the classes with nothing unbound)."
  },
  {
   "property": "C108",
   "status": "partial",
   "theorems": [
    "Inspector.C108_false",
    "Inspector.C108_exact_partial",
    "Inspector.C108_functions_partial",
    "Inspector.C108_single_assignment_partial",
    "Inspector.C108_keep_alive_partial"
   ],
   "note": "False: no constructor is bound with keep_alive (C108_false). Proved: the exact histories that read a destroyed object, safety of the inspect_* functions, of programs that write each variable once and delete none, and of every program if keep_alive< 1, 2 > were added."
  },
  {
   "property": "C109",
   "status": "proved",
   "theorems": [
    "Inspector.C109_point_set",
    "Inspector.C109_edged_curve",
    "Inspector.C109_surface",
    "Inspector.C109_solid"
   ],
   "note": "External behaviour assumed: the search identifies vertices iff two points are near; the distance is symmetric; a walk visits the class of its starting element; facet comparison is insensitive to injective renaming."
  },
  {
   "property": "C110",
   "status": "partial",
   "theorems": [
    "Inspector.C110_false",
    "Inspector.C110_hidden_partial",
    "Inspector.C110_exact_partial"
   ],
   "note": "False of the code (C110_false). Proved instead: if a ray raises for a surface which has a polygon and cannot be a boundary, no issue about blocks is reported at all (C110_hidden_partial); rays which raise for any other surface change nothing, the lists are exact (C110_exact_partial)."
  },
  {
   "property": "C111",
   "status": "proved",
   "theorems": [
    "Inspector.C111_surface",
    "Inspector.C111_section",
    "Inspector.C111_solid",
    "Inspector.C111_brep"
   ],
   "note": "Exact in both directions: C79-C82 without the hypothesis that the tests and walks raise nothing. In a BRep the triangle test never raises (C62), the walks around the vertices of the active Blocks may."
  },
  {
   "property": "C112",
   "status": "partial",
   "theorems": [
    "Inspector.C112_apart",
    "Inspector.C112_apart_overlap",
    "Inspector.C112_one_vertex",
    "Inspector.C112_one_vertex_overlap",
    "Inspector.C112_adjacent",
    "Inspector.C112_adjacent_surfaces_partial",
    "Inspector.C112_false"
   ],
   "note": "C112_apart, C112_one_vertex and C112_adjacent are exact. In two different Surfaces, C112_adjacent_surfaces_partial asks that the point read for the second common vertex (at an index of the other Surface, see C57) is the right one: otherwise the claim is false in both directions (C112_false, for every exact geometry)."
  },
  {
   "property": "C113",
   "status": "proved",
   "theorems": [
    "Inspector.C113_found",
    "Inspector.C113_apart",
    "Inspector.C113_one_vertex_found",
    "Inspector.C113_one_vertex",
    "Inspector.C113_adjacent"
   ],
   "note": "C113_found, C113_one_vertex_found: no miss. C113_apart, C113_one_vertex: exact. C113_adjacent: no false report. Triangles of a same plane are out of the claim: the answers of the external predicate for them are not specified (C105 tells how they are used)."
  },
  {
   "property": "C114",
   "status": "partial",
   "theorems": [
    "Inspector.C114_plane_partial",
    "Inspector.C114_plane_along_partial",
    "Inspector.C114_plane_sound",
    "Inspector.C114_plane_list_partial",
    "Inspector.C114_plane_false",
    "Inspector.C114_space",
    "Inspector.C114_space_list",
    "Inspector.C114_space_in_plane_partial"
   ],
   "note": "False in the plane (C114_plane_false): an edge strictly inside an edge of a triangle is not reported. Exact in the plane in all cases: C114_plane_partial (edge not along an edge of the triangle), C114_plane_along_partial (along: reported iff it goes through a vertex), C114_plane_sound (no false report), C114_plane_list_partial (lists). Exact in the space for edges which are not in the plane of the triangle (C114_space, C114_space_list); C114_space_in_plane_partial tells what is done with those which are, when the external predicate calls them parallel."
  },
  {
   "property": "C115",
   "status": "partial",
   "theorems": [
    "Inspector.C115_edge",
    "Inspector.C115_in_plane_partial",
    "Inspector.C115_list",
    "Inspector.C115_false"
   ],
   "note": "Proved when no edge is in the plane of a triangle of the fan (C115_edge, C115_list). Missing: edges in the plane of a triangle, for which the answer of the external predicate is not specified; when it is parallel, nothing is reported (C115_in_plane_partial), even if the edge crosses the polygon (C115_false)."
  },
  {
   "property": "C116",
   "status": "proved",
   "theorems": [
    "Inspector.C116_triangles",
    "Inspector.C116_report"
   ],
   "note": "C116_triangles: the test. C116_report: the list and the boolean of the whole model."
  },
  {
   "property": "C117",
   "status": "proved",
   "theorems": [
    "Inspector.C117_criteria",
    "Inspector.C117_booleans",
    "Inspector.C117_verdict",
    "Inspector.C117_section",
    "Inspector.C117_brep"
   ],
   "note": "Equivalence for surfaces; consequence of the verdict for surfaces, Sections and BReps."
  },
  {
   "property": "C118",
   "status": "partial",
   "theorems": [
    "Inspector.C118_criteria_partial",
    "Inspector.C118_verdict_partial",
    "Inspector.C118_brep",
    "Inspector.C118_false"
   ],
   "note": "Proved up to cracks (ConformalButCracks); C118_false is a valid solid of seven tetrahedra with a crack."
  },
  {
   "property": "C119",
   "status": "proved",
   "theorems": [
    "Inspector.C119_section",
    "Inspector.C119_brep"
   ],
   "note": "Consequence of the verdict, for Sections and BReps."
  },
  {
   "property": "C120",
   "status": "partial",
   "theorems": [
    "Inspector.C120_section_partial",
    "Inspector.C120_brep",
    "Inspector.C120_section_false"
   ],
   "note": "Proved for BReps. Sections: false (C120_section_false: two Surfaces, one in the other, declared valid); proved that triangles with a common inside point are nested with at most one common vertex, for triangles of one Surface, or of two Surfaces with at most one common vertex."
  },
  {
   "property": "C121",
   "status": "partial",
   "theorems": [
    "Inspector.C121_edges_as_asked_partial",
    "Inspector.C121_never_taken_away_partial",
    "Inspector.C121_false"
   ],
   "note": "Proved for programs which touch the edges of a mesh only while no living inspector has enabled them. Missing: the others, for which it is false (C121_false: the edges enabled by the program after a query are disabled at the destruction of the inspector)."
  },
  {
   "property": "C122",
   "status": "proved",
   "theorems": [
    "Inspector.C122_section",
    "Inspector.C122_brep"
   ],
   "note": "Assumes that the colocation search decides the colocation of two unique vertices from their points (`UniqueVerticesNear`) and, for BReps, that `is_point_inside_closed_surface` reads only the mesh it is given."
  },
  {
   "property": "C123",
   "status": "proved",
   "theorems": [
    "Inspector.C123_section",
    "Inspector.C123_brep"
   ],
   "note": "Assumes what C79 and C82 assume, and that NO_ID is not the number of a unique vertex."
  },
  {
   "property": "C124",
   "status": "partial",
   "theorems": [
    "Inspector.C124_section_partial",
    "Inspector.C124_brep_partial",
    "Inspector.C124_false"
   ],
   "note": "False (C124_false): an inactive Surface of a Section without polygon switches off the comparison of embedded Lines with their Surfaces. Proved when the meshes keep their numbers of vertices, stay as empty, have edges (Surfaces: polygons) on the same unique vertices, and, in BReps, the inactive Surfaces keep their polygons and borders."
  },
  {
   "property": "C125",
   "status": "partial",
   "theorems": [
    "Inspector.C125_partial",
    "Inspector.C125_false"
   ],
   "note": "False (C125_false): a face of the boundary may be inactive. Proved when the Lines and the Surfaces bounding the Block are active, and the wrong embeddings of the Lines can be described (C54)."
  },
  {
   "property": "C126",
   "status": "partial",
   "theorems": [
    "Inspector.C126_facets_partial",
    "Inspector.C126_facets_false",
    "Inspector.C126_polygons_false"
   ],
   "note": "False for the polygons (C126_polygons_false): nothing is looked for around a polygon without facet, a Surface may bound a Block which is not there. False for the facets when Surfaces are inactive (C126_facets_false). Proved for the facets when all Surfaces are active, all Blocks meshed, and the wrong embeddings of the Lines can be described (C54)."
  },
  {
   "property": "C127",
   "status": "partial",
   "theorems": [
    "Inspector.C127_section_partial",
    "Inspector.C127_brep_partial",
    "Inspector.C127_section_false",
    "Inspector.C127_brep_false"
   ],
   "note": "False for Sections (C127_section_false): the edges of the Lines are not compared with those of the Surfaces, the Line may bound another Surface only; proved: the edge is on a Line. False for BReps with inactive Lines (C127_brep_false); proved when the Lines are active and their wrong embeddings can be described (C54)."
  },
  {
   "property": "C128",
   "status": "proved",
   "theorems": [
    "Inspector.C128_section",
    "Inspector.C128_brep"
   ],
   "note": "Both kinds of models, without restriction on the embeddings of Lines. The vertices of the edges, polygons and links are assumed to exist. Shown to apply to a translation of the plane with exact predicates."
  },
  {
   "property": "C129",
   "status": "partial",
   "theorems": [
    "Inspector.C129_section_partial",
    "Inspector.C129_section_false",
    "Inspector.C129_brep_false",
    "Inspector.C129_brep_partial",
    "Inspector.C129_blocks_false"
   ],
   "note": "Proved for Sections whose inactive Surfaces have polygons (C129_section_partial) and for BReps without model boundary whose Blocks are alike in both parts (there are Blocks, meshed ones and empty ones in both or in none), when every embedding is read (C129_brep_partial). False otherwise: C129_section_false (an inactive Surface without polygon in one part hides a defect of the other), C129_brep_false (two valid BReps with model boundaries are invalid together, because all the model boundaries must be linked by Lines), C129_blocks_false (a closed Surface without Block is valid, unless there is a Block elsewhere)."
  },
  {
   "property": "C130",
   "status": "proved",
   "theorems": [
    "Inspector.C130_not_boundary_surfaces",
    "Inspector.C130_linked_surfaces",
    "Inspector.C130_blocks",
    "Inspector.C130_brep",
    "Inspector.C130_verdict"
   ],
   "note": "No assumption on the model for the loops and for the stability of the result; C130_verdict assumes the guarantees of OpenGeode (BRepOk) to conclude that there is a verdict."
  },
  {
   "property": "C131",
   "status": "proved",
   "theorems": [
    "Inspector.C131_section",
    "Inspector.C131_brep"
   ],
   "note": "The renaming is any bijection of uuids. OpenGeode's guarantees are assumed of the original model only: those of the renamed model are proved."
  },
  {
   "property": "C132",
   "status": "partial",
   "theorems": [
    "Inspector.C132_brep",
    "Inspector.C132_section_partial",
    "Inspector.C132_section_false"
   ],
   "note": "Proved for BReps. For Sections it is proved when the Surfaces are renumbered in the same way (C132_section_partial) and false otherwise (C132_section_false): two adjacent triangles of two Surfaces become intersecting when the first two vertices of one of them exchange their numbers, the second common vertex being read in the first Surface by its number in the second one (C57)."
  },
  {
   "property": "C133",
   "status": "proved",
   "theorems": [
    "Inspector.C133_brep",
    "Inspector.C133_section"
   ],
   "note": "Proved for Sections and BReps."
  },
  {
   "property": "C134",
   "status": "partial",
   "theorems": [
    "Inspector.C134_brep_partial",
    "Inspector.C134_section",
    "Inspector.C134_brep_false"
   ],
   "note": "Proved for all Sections. For BReps it is false (C134_brep_false): a Surface which is neither boundary nor internal is declared outside the Blocks from the barycentre of its polygon number 0 only, so a Surface crossing the boundary of a Block is accepted or not according to which polygon has this number. C134_brep_partial proves it when no Surface crosses the boundary of a Block (OnOneSide)."
  },
  {
   "property": "C135",
   "status": "partial",
   "theorems": [
    "Inspector.C135_boundary",
    "Inspector.C135_apart_partial",
    "Inspector.C135_apart_whole_partial",
    "Inspector.C135_false"
   ],
   "note": "C135_boundary proves the part on boundary Surfaces. For the others it is false (C135_false): only the barycentre of the polygon number 0 is looked for in the Blocks, so a Surface that crosses a Block may be accepted. C135_apart_partial proves it of the polygon number 0, and C135_apart_whole_partial of all polygons when no Surface crosses the boundary of a Block."
  },
  {
   "property": "C136",
   "status": "partial",
   "theorems": [
    "Inspector.C136_section_partial",
    "Inspector.C136_section_corners",
    "Inspector.C136_brep_partial",
    "Inspector.C136_brep_corners_partial",
    "Inspector.C136_false"
   ],
   "note": "False (C136_false): an end of a Line at which no other Line is needs no Corner, as that of a Line which ends inside a Surface. C136_section_partial and C136_brep_partial prove that there is a Corner wherever two vertices of Lines are at the same place, C136_section_corners and C136_brep_corners_partial that Corners bound the Lines at their place. For BReps, no active Line is in a Block (otherwise the inspection of the Lines may end without result, C54)."
  },
  {
   "property": "C137",
   "status": "partial",
   "theorems": [
    "Inspector.C137_brep_partial",
    "Inspector.C137_section_partial",
    "Inspector.C137_section_false",
    "Inspector.C137_brep_false"
   ],
   "note": "C137_brep_partial proves it of the BReps for which the inspection of the Lines ends (not LinesUnreadable); otherwise it is false (C137_brep_false). It is false for Sections (C137_section_false: the vertices of the Lines are considered one by one, and those where two Lines meet are not compared with the Surfaces); C137_section_partial proves what holds at the vertices which are on one Line."
  },
  {
   "property": "C138",
   "status": "partial",
   "theorems": [
    "Inspector.C138_partial",
    "Inspector.C138_false"
   ],
   "note": "C138_partial proves it of the BReps whose Blocks are all meshed, even if the inspection of the Lines is lost, except that a polygon may be on no facet (C126_polygons_false shows a Surface bounding a Block without being on it). C138_false: with a Block without polyhedra, even inactive, facets of Blocks unrelated to the Surface are accepted."
  },
  {
   "property": "C139",
   "status": "proved",
   "theorems": [
    "Inspector.C139_brep"
   ],
   "note": "Assumes that the Line edges found by OpenGeode between two unique vertices exist, and that adjacent polygons exist."
  },
  {
   "property": "C140",
   "status": "partial",
   "theorems": [
    "Inspector.C140_section_partial",
    "Inspector.C140_brep_partial",
    "Inspector.C140_false"
   ],
   "note": "False (C140_false): a triangle one edge of which is two Lines is declared valid, as a Section and as a BRep. C140_section_partial and C140_brep_partial prove that the ends of a common edge are at Corners which bound (or are internal to) both Lines, so only such edges can be repeated."
  },
  {
   "property": "C141",
   "status": "proved",
   "theorems": [
    "Inspector.C141_section",
    "Inspector.C141_brep"
   ],
   "note": "C141_section, C141_brep (all BReps, those the Lines of which cannot be inspected included). CornersApart and the data of the Corners are enough to read the statement."
  },
  {
   "property": "C142",
   "status": "proved",
   "theorems": [
    "Inspector.C142_section",
    "Inspector.C142_brep"
   ],
   "note": "C142_section, C142_brep (all BReps, those the Lines of which cannot be inspected included). Inactive Lines and Corners are accepted by the code, whatever their place."
  },
  {
   "property": "C143",
   "status": "proved",
   "theorems": [
    "Inspector.C143_brep"
   ],
   "note": "C143_brep (all BReps, those the Lines of which cannot be inspected included)."
  },
  {
   "property": "C144",
   "status": "proved",
   "theorems": [
    "Inspector.C144_brep"
   ],
   "note": "C144_brep (all BReps with meshed Blocks, those the Lines of which cannot be inspected included)."
  },
  {
   "property": "C145",
   "status": "proved",
   "theorems": [
    "Inspector.C145_section",
    "Inspector.C145_brep"
   ],
   "note": "C145_section, C145_brep (all BReps). The vertices of active Lines have unique vertices unless the inspection of the Lines is lost (C54). Without the hypothesis on the polygons nothing is looked for in Sections (C124)."
  },
  {
   "property": "C146",
   "status": "partial",
   "theorems": [
    "Inspector.C146_section",
    "Inspector.C146_brep_partial",
    "Inspector.C146_false"
   ],
   "note": "C146_section proves all of it of Sections, C146_brep_partial that of BReps but for Lines which are part of nothing; C146_false: a BRep with such a Line is accepted. The Lines of a BRep are shown meshed unless their inspection is lost (C54)."
  },
  {
   "property": "C147",
   "status": "proved",
   "theorems": [
    "Inspector.C147_section",
    "Inspector.C147_brep"
   ],
   "note": "C147_section, C147_brep (all BReps). The exception for Corners internal to closed Lines, in the code, counts the vertices of the Corner and not those of the Line (C63), and a Corner with two vertices there is refused for another reason: it never applies."
  },
  {
   "property": "C148",
   "status": "partial",
   "theorems": [
    "Inspector.C148_section_partial",
    "Inspector.C148_brep_partial",
    "Inspector.C148_section_false",
    "Inspector.C148_brep_false"
   ],
   "note": "False: C148_section_false (the end of a Line internal to a Surface may be out of the Surface if a Line internal to nothing ends there and is stored before), C148_brep_false (a Line internal to a Block may be out of it: describing the defect raises an exception, which loses it, see C54). C148_section_partial proves it of the vertices where no Line internal to nothing is, C148_brep_partial of the BReps the wrong embeddings of which can be described."
  },
  {
   "property": "C149",
   "status": "partial",
   "theorems": [
    "Inspector.C149_section_partial",
    "Inspector.C149_brep_partial",
    "Inspector.C149_section_false",
    "Inspector.C149_brep_false"
   ],
   "note": "C149_section_partial and C149_brep_partial (all BReps) prove the first part; the second one is false: C149_section_false, C149_brep_false (a Corner out of the Surface or Block it is internal to is accepted)."
  },
  {
   "property": "C150",
   "status": "proved",
   "theorems": [
    "Inspector.C150_brep"
   ],
   "note": ""
  },
  {
   "property": "C151",
   "status": "partial",
   "theorems": [
    "Inspector.C151_section",
    "Inspector.C151_brep_partial"
   ],
   "note": "C151_section (all of them), C151_brep_partial (the BReps the wrong embeddings of the Lines of which can be described, see C54)."
  },
  {
   "property": "C152",
   "status": "partial",
   "theorems": [
    "Inspector.C152_section_false",
    "Inspector.C152_surfaces_partial",
    "Inspector.C152_blocks"
   ],
   "note": "C152_blocks (all of them), C152_surfaces_partial (the BReps the wrong embeddings of the Lines of which can be described, see C54); C152_section_false: a valid Section with a Line bounding a Surface between two adjacent polygons of it."
  },
  {
   "property": "C153",
   "status": "partial",
   "theorems": [
    "Inspector.C153_brep_false",
    "Inspector.C153_section_false",
    "Inspector.C153_brep_partial"
   ],
   "note": "False: C153_brep_false and C153_section_false are a square of two adjacent triangles, valid with a Line inside it on its diagonal. C153_brep_partial: there are exactly two such edges in a BRep, both without adjacent polygon or adjacent to one another (BReps the wrong embeddings of the Lines of which can be described, see C54)."
  }
 ]
}