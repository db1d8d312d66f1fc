{"id": "C01", "title": "Issue lists count, order and print exactly what was added", "statement": "After any sequence of add_issue/set_description calls on an InspectionIssues, issues() is the sequence of added issues in order, nb_issues() is its length (as index_t), and string() is 'no issues with <description>\\n' when nothing was added and otherwise '<n> issues with <description>' followed by one '\\n\\t<message>' per added issue in order and a final newline; the two forms are never equal.", "quantifier": "every description, issue type and sequence of add_issue/set_description calls", "why_tests_cant": "sequences of calls of any length and every message text", "anchors": ["include/geode/inspector/inspection/information.hpp:InspectionIssues"]}
{"id": "C02", "title": "Per-component maps keep the first non-empty list of each component", "statement": "After any sequence of add_issues_to_map(component, issues), the map has an entry for a component exactly when a non-empty issue list was added for it, the entry is the first such list, no entry is empty, and nb_issues() is the number of distinct components with issues.", "quantifier": "every sequence of additions, with repeated components and empty lists (each added list having fewer than 2^32 issues, the limit of index_t)", "why_tests_cant": "histories of any length with repeated keys", "anchors": ["include/geode/inspector/inspection/information.hpp:InspectionIssuesMap"]}
{"id": "C03", "title": "Mesh inspection results count every list", "statement": "For PointSet, EdgedCurve, Surface and Solid inspection results (and for the BRep and Section mesh results), while the total number of issues is below 2^32, nb_issues() is the sum over all the lists of the result, and it is 0 exactly when every list is empty.", "quantifier": "every content of the result structures", "why_tests_cant": "index_t sums over lists of arbitrary sizes, including wrap-around", "anchors": ["src/geode/inspector/inspection/pointset_inspector.cpp", "src/geode/inspector/inspection/edgedcurve_inspector.cpp", "src/geode/inspector/inspection/surface_inspector.cpp", "src/geode/inspector/inspection/solid_inspector.cpp", "src/geode/inspector/inspection/criterion/brep_meshes_inspector.cpp", "src/geode/inspector/inspection/criterion/section_meshes_inspector.cpp"]}
{"id": "C04", "title": "BRep Surfaces topology results count and print every list", "statement": "BRepSurfacesTopologyInspectionResult::nb_issues() is 0 and string() says there is no issue only if all six of its lists are empty.", "quantifier": "every content of the result structure", "why_tests_cant": "needs a result with issues only in one list", "anchors": ["src/geode/inspector/inspection/topology/brep_surfaces_topology.cpp:nb_issues", "src/geode/inspector/inspection/topology/brep_surfaces_topology.cpp:string"]}
{"id": "C05", "title": "Section Lines topology results count every list", "statement": "SectionLinesTopologyInspectionResult::nb_issues() is 0 only if all six of its lists are empty.", "quantifier": "every content of the result structure", "why_tests_cant": "needs a result with issues only in one list", "anchors": ["src/geode/inspector/inspection/topology/section_lines_topology.cpp:nb_issues"]}
{"id": "C06", "title": "Mesh validity verdicts are exactly 'every list is empty'", "statement": "is_pointset_valid, is_edged_curve_valid, is_surface_valid and is_solid_valid are true exactly when every list of the corresponding inspection result is empty; nb_issues() of the verdict is the number of non-empty lists and its text is the concatenation of their texts, in the order of the lists.", "quantifier": "every inspection result whose lists have fewer than 2^32 issues each (the limit of index_t)", "why_tests_cant": "all combinations of empty and non-empty lists of any length", "anchors": ["src/geode/inspector/validity/pointset_validity.cpp", "src/geode/inspector/validity/edgedcurve_validity.cpp", "src/geode/inspector/validity/surface_validity.cpp", "src/geode/inspector/validity/solid_validity.cpp", "src/geode/inspector/validity/object_validity.cpp"]}
{"id": "C07", "title": "Model validity verdicts are exactly 'every list is empty'", "statement": "is_section_valid and is_brep_valid are true exactly when every list of the mesh and topology inspection results (including the lists that nb_issues() forgets) is empty, and nb_issues() of the verdict is the number of non-empty lists.", "quantifier": "every inspection result whose lists have fewer than 2^32 issues each (the limit of index_t)", "why_tests_cant": "all combinations of the 24 (Section) / 40 (BRep) lists", "anchors": ["src/geode/inspector/validity/section_validity.cpp", "src/geode/inspector/validity/brep_validity.cpp"]}
{"id": "C08", "title": "Validity verdict agrees with the inspection count", "statement": "is_section_valid/is_brep_valid are true exactly when inspect_section()/inspect_brep() report nb_issues() = 0.", "quantifier": "every inspection result with fewer than 2^32 issues", "why_tests_cant": "needs a result where only a forgotten list is filled", "anchors": ["src/geode/inspector/validity/section_validity.cpp", "src/geode/inspector/validity/brep_validity.cpp", "src/geode/inspector/inspection/section_inspector.cpp", "src/geode/inspector/inspection/brep_inspector.cpp"]}
{"id": "C09", "title": "Colocated groups partition the colocated vertices", "statement": "colocated_points_groups() returns pairwise disjoint groups of at least two vertices, each in increasing index order, such that two different vertices are in a common group exactly when they are colocated (mapped to the same unique point by the colocation search).", "quantifier": "every mesh (any number of points) and every colocation mapping", "why_tests_cant": "every point configuration", "anchors": ["src/geode/inspector/inspection/criterion/internal/colocation_impl.cpp:colocated_points_groups"]}
{"id": "C10", "title": "mesh_has_colocated_points agrees with the groups", "statement": "mesh_has_colocated_points() is true exactly when colocated_points_groups() is non-empty.", "quantifier": "every mesh and colocation mapping onto its unique points", "why_tests_cant": "every point configuration", "anchors": ["src/geode/inspector/inspection/criterion/internal/colocation_impl.cpp:mesh_has_colocated_points"]}
{"id": "C11", "title": "A model component is reported for colocation iff colocated vertices have different unique vertices", "statement": "inspect_meshes_point_colocations() keeps a group of colocated vertices of a component exactly when two of its vertices are linked to different unique vertices; kept groups always contain the first vertex of the group and only vertices of the group; every unique vertex of a kept group is represented.", "quantifier": "every group, of any size, and every vertex to unique vertex link", "why_tests_cant": "groups of any size and link patterns", "anchors": ["src/geode/inspector/inspection/criterion/colocation/component_meshes_colocation.cpp:filter_colocated_points_with_same_unique_vertex"]}
{"id": "C12", "title": "Filtered colocation groups have one vertex per unique vertex", "statement": "In a group reported by inspect_meshes_point_colocations(), no two vertices are linked to the same unique vertex.", "quantifier": "every group and link", "why_tests_cant": "needs a group of at least four vertices with an alternating pattern", "anchors": ["src/geode/inspector/inspection/criterion/colocation/component_meshes_colocation.cpp:filter_colocated_points_with_same_unique_vertex"]}
{"id": "C13", "title": "Unique vertices linked to different points are exactly reported", "statement": "inspect_unique_vertices() reports a unique vertex as linked to different points exactly when one of its active component mesh vertices is not at the position of its first active one; the list is in increasing order without repetition and model_has_unique_vertices_linked_to_different_points() is true exactly when it is non-empty; unique vertices with only inactive components are never reported.", "quantifier": "every model (unique vertices, component mesh vertices, activity, positions)", "why_tests_cant": "models of any size, with inactive components", "anchors": ["src/geode/inspector/inspection/criterion/colocation/unique_vertices_colocation.cpp:Impl"]}
{"id": "C14", "title": "Colocated unique vertices groups are numbered in the model", "statement": "The groups returned for colocated unique vertices contain model unique vertex ids (not ids in the compressed set of active ones): each is a unique vertex with an active component mesh vertex, and two of them are in a common group exactly when their positions are colocated.", "quantifier": "every model and every pattern of inactive unique vertices", "why_tests_cant": "any pattern of deleted vertices", "anchors": ["src/geode/inspector/inspection/criterion/colocation/unique_vertices_colocation.cpp:add_colocated_unique_vertices_groups"]}
{"id": "C15", "title": "Surface adjacency issues are exactly the non-reciprocal adjacencies", "statement": "polygon_edges_with_wrong_adjacency() returns exactly the polygon edges that have an adjacent polygon none of whose edges is the reversed edge adjacent back to the polygon, each once, in (polygon, edge) order; mesh_has_wrong_adjacencies() is true exactly when it is non-empty.", "quantifier": "every surface mesh", "why_tests_cant": "meshes of any size and any adjacency table", "anchors": ["src/geode/inspector/inspection/criterion/adjacency/surface_adjacency.cpp"]}
{"id": "C16", "title": "Solid adjacency issues are exactly the non-reciprocal adjacencies", "statement": "polyhedron_facets_with_wrong_adjacency() returns exactly the polyhedron facets with an adjacent polyhedron none of whose facets is the opposite facet adjacent back to the polyhedron, each once, in order; mesh_has_wrong_adjacencies() is true exactly when it is non-empty.", "quantifier": "every solid mesh", "why_tests_cant": "meshes of any size and any adjacency table", "anchors": ["src/geode/inspector/inspection/criterion/adjacency/solid_adjacency.cpp"]}
{"id": "C17", "title": "Model adjacency: surface borders must be Lines", "statement": "For every active Surface of a model, the reported wrong edges are exactly those with a wrong adjacency, followed by the border edges whose unique vertices are not an edge of a Line (or have no unique vertices); inactive Surfaces are never reported and Surfaces without issue have no entry.", "quantifier": "every model (components with distinct uuids and, for the maps per component, fewer than 2^32 edges, facets or elements per mesh, the limit of index_t)", "why_tests_cant": "models of any size", "anchors": ["src/geode/inspector/inspection/criterion/internal/component_meshes_adjacency.cpp", "src/geode/inspector/inspection/criterion/adjacency/section_meshes_adjacency.cpp"]}
{"id": "C18", "title": "Model adjacency: block borders must be Surfaces", "statement": "For every active Block of a BRep, the reported facets are exactly those with a wrong adjacency, followed by the border facets that have unique vertices matching no Surface facet.", "quantifier": "every BRep (components with distinct uuids and, for the maps per component, fewer than 2^32 edges, facets or elements per mesh, the limit of index_t)", "why_tests_cant": "models of any size", "anchors": ["src/geode/inspector/inspection/criterion/adjacency/brep_meshes_adjacency.cpp"]}
{"id": "C19", "title": "Small edges and small heights are exact", "statement": "small_edges(t) of a surface or solid returns exactly the edges of length < t, small_edges(t) of an edged curve exactly those of length <= t, small_height_polygons/polyhedra(t) exactly the elements of minimum height <= t, each once in increasing order; the degenerated_* variants are the same at the global epsilon.", "quantifier": "every mesh and threshold (components with distinct uuids and, for the maps per component, fewer than 2^32 edges, facets or elements per mesh, the limit of index_t)", "why_tests_cant": "every mesh size, length and threshold", "anchors": ["src/geode/inspector/inspection/criterion/internal/degeneration_impl.cpp", "src/geode/inspector/inspection/criterion/degeneration/edgedcurve_degeneration.cpp", "src/geode/inspector/inspection/criterion/degeneration/surface_degeneration.cpp", "src/geode/inspector/inspection/criterion/degeneration/solid_degeneration.cpp"]}
{"id": "C20", "title": "Thresholded degeneration is monotone", "statement": "If t <= t' then everything reported at t is reported at t', in the same order (the list at t is a sublist of the list at t').", "quantifier": "every mesh and pair of thresholds", "why_tests_cant": "pairs of thresholds over every mesh", "anchors": ["src/geode/inspector/inspection/criterion/internal/degeneration_impl.cpp:small_edges", "src/geode/inspector/inspection/criterion/degeneration/surface_degeneration.cpp:small_height_polygons"]}
{"id": "C21", "title": "Degeneration boolean agrees with the lists", "statement": "is_mesh_degenerated() is true exactly when an edge or an element is degenerated (in the sense of the mesh), and when the mesh notion of degeneration is 'length/height below epsilon' this is exactly when one of the lists degenerated_edges/degenerated_polygons (polyhedra) is non-empty.", "quantifier": "every mesh", "why_tests_cant": "every mesh", "anchors": ["src/geode/inspector/inspection/criterion/degeneration/surface_degeneration.cpp:is_mesh_degenerated", "src/geode/inspector/inspection/criterion/internal/degeneration_impl.cpp:is_mesh_degenerated"]}
{"id": "C22", "title": "Inspecting degeneration leaves the mesh edges as found", "statement": "Whatever history of creations, queries and destructions of any number of degeneration inspectors on the same mesh, when none is alive any more the edges of the mesh are enabled exactly if they were before the history; and during every edge query the edges are enabled.", "quantifier": "every interleaved history of constructor, query and destructor calls of any number of inspectors on one mesh", "why_tests_cant": "histories of any length", "anchors": ["src/geode/inspector/inspection/criterion/internal/degeneration_impl.cpp:DegenerationImpl"]}
{"id": "C23", "title": "Model degeneration leaves every mesh edges as found", "statement": "After a Section or BRep degeneration inspection object is destroyed, each Surface (and Block) mesh has its edges enabled exactly if it had before.", "quantifier": "every model and every sequence of queries", "why_tests_cant": "histories of any length over any number of components", "anchors": ["src/geode/inspector/inspection/criterion/internal/component_meshes_degeneration.cpp", "src/geode/inspector/inspection/criterion/degeneration/brep_meshes_degeneration.cpp"]}
{"id": "C24", "title": "Surface edge manifold check is exact below 256 polygons per edge", "statement": "When no edge is shared by 256 polygon edges or more, non_manifold_edges() returns exactly the edges that are declared border and used by a number of polygon edges other than 1, or not declared border and used by a number other than 2, each once.", "quantifier": "every surface mesh with fewer than 256 uses of each edge", "why_tests_cant": "meshes of any size", "anchors": ["src/geode/inspector/inspection/criterion/manifold/surface_edge_manifold.cpp"]}
{"id": "C25", "title": "Surface edge manifold check for any number of polygons per edge", "statement": "mesh_edges_are_manifold() is false for a mesh where a non-border edge is shared by more than two polygon edges, whatever their number.", "quantifier": "every surface mesh", "why_tests_cant": "needs an edge with 258 incident polygons", "anchors": ["src/geode/inspector/inspection/criterion/manifold/surface_edge_manifold.cpp:edge_to_polygons_around"]}
{"id": "C26", "title": "Manifold booleans agree with the lists", "statement": "For surface edges, surface vertices, solid vertices and solid facets, mesh_*_are_manifold() is true exactly when the list of non manifold elements is empty.", "quantifier": "every mesh, every iteration order of the hash maps", "why_tests_cant": "every mesh and hash order", "anchors": ["src/geode/inspector/inspection/criterion/manifold/surface_edge_manifold.cpp", "src/geode/inspector/inspection/criterion/manifold/surface_vertex_manifold.cpp", "src/geode/inspector/inspection/criterion/manifold/solid_vertex_manifold.cpp", "src/geode/inspector/inspection/criterion/manifold/solid_facet_manifold.cpp"]}
{"id": "C27", "title": "Surface vertex manifold check is exact", "statement": "non_manifold_vertices() of a surface returns, in increasing order, exactly the vertices whose polygon fan (as walked by adjacency) is not the whole set of polygon corners at that vertex, vertices whose fan cannot be computed excepted.", "quantifier": "every surface mesh whose polygons have existing vertices; the external walk around a vertex answers anything or raises an OpenGeode exception", "why_tests_cant": "every mesh", "anchors": ["src/geode/inspector/inspection/criterion/manifold/surface_vertex_manifold.cpp"]}
{"id": "C28", "title": "Solid vertex manifold check is exact", "statement": "non_manifold_vertices() of a solid returns, in increasing order, exactly the vertices whose polyhedron fan is not the whole set of polyhedron corners at that vertex.", "quantifier": "every solid mesh whose polyhedra have existing vertices and whose walks around vertices answer (otherwise the inspection raises)", "why_tests_cant": "every mesh", "anchors": ["src/geode/inspector/inspection/criterion/manifold/solid_vertex_manifold.cpp"]}
{"id": "C29", "title": "Solid edge manifold check is exact and reports each edge once", "statement": "non_manifold_edges() of a solid reports an edge exactly when the set of polyhedra having this edge is not the set met when turning around it (or turning fails), each edge once.", "quantifier": "every solid mesh ; the external turn around an edge answers polyhedra without repetition or raises an OpenGeode exception", "why_tests_cant": "every mesh", "anchors": ["src/geode/inspector/inspection/criterion/manifold/solid_edge_manifold.cpp"]}
{"id": "C30", "title": "Solid facet manifold check is exact", "statement": "non_manifold_facets() returns exactly the facets (up to vertex rotation/reversal) used by more than two polyhedron facets, each once.", "quantifier": "every solid mesh with fewer than 2^32 facets", "why_tests_cant": "every mesh", "anchors": ["src/geode/inspector/inspection/criterion/manifold/solid_facet_manifold.cpp"]}
{"id": "C31", "title": "BRep non manifold edges", "statement": "inspect_brep_manifold() reports as model non-manifold an interior surface edge exactly when it is seen more than once among the surfaces, or an embedded single-edge Line without shared vertices.", "quantifier": "every BRep", "why_tests_cant": "every model", "anchors": ["src/geode/inspector/inspection/criterion/manifold/brep_meshes_manifold.cpp"]}
{"id": "C32", "title": "Negative elements are exact", "statement": "negative_polygons()/negative_polyhedra() return exactly the elements of negative signed area/volume, each once in increasing order, the booleans agree, and 3D surfaces never have negative polygons.", "quantifier": "every mesh (for the maps per component: distinct uuids and fewer than 2^32 elements per mesh)", "why_tests_cant": "every mesh", "anchors": ["src/geode/inspector/inspection/criterion/negative_elements/surface_negative_elements.cpp", "src/geode/inspector/inspection/criterion/negative_elements/solid_negative_elements.cpp"]}
{"id": "C33", "title": "Surface self-intersections: boolean agrees with the list, no self pair", "statement": "mesh_has_self_intersections() is true exactly when intersecting_elements() is non-empty; every reported pair is a pair of distinct polygons that the tree visited and that intersect, and every visited intersecting pair is reported.", "quantifier": "every surface mesh and every traversal order of the tree ; the external test answers on the visited pairs (otherwise the list raises)", "why_tests_cant": "every mesh and traversal order", "anchors": ["src/geode/inspector/inspection/criterion/intersections/surface_intersections.cpp"]}
{"id": "C34", "title": "Surface/curve intersections: boolean agrees with the list", "statement": "meshes_have_intersections() is true exactly when intersecting_elements() is non-empty; the list holds exactly the intersecting (triangle, edge) pairs visited.", "quantifier": "every surface, curve and traversal order", "why_tests_cant": "every mesh and traversal order", "anchors": ["src/geode/inspector/inspection/criterion/intersections/surface_curve_intersections.cpp"]}
{"id": "C35", "title": "Polygon fan triangulation covers the polygon", "statement": "A polygon with n >= 3 vertices is cut for intersection tests into n-2 triangles, all with the first vertex; every polygon edge is an edge of a triangle, every vertex is used, and two polygons are said to intersect exactly when two of their triangles do.", "quantifier": "every pair of polygons of any size", "why_tests_cant": "polygons of any size", "anchors": ["src/geode/inspector/inspection/criterion/intersections/model_intersections.cpp:polygon_fan_triangles", "src/geode/inspector/inspection/criterion/intersections/model_intersections.cpp:polygons_intersect"]}
{"id": "C36", "title": "Model intersections: boolean agrees with the list and is schedule independent", "statement": "model_has_intersecting_surfaces() is true exactly when the inspection of surfaces reports an intersection, for every schedule of the parallel tasks.", "quantifier": "every model, traversal order and schedule ; polygons of at most 256 vertices and external tests which answer (exceptions: C62, C111); exact lists when no active mesh is empty (C37)", "why_tests_cant": "every schedule", "anchors": ["src/geode/inspector/inspection/criterion/intersections/model_intersections.cpp"]}
{"id": "C37", "title": "An empty Surface mesh does not hide intersections of the others", "statement": "inspect_intersections() reports the intersections between meshed Surfaces even if some other active Surface has an empty mesh.", "quantifier": "every model", "why_tests_cant": "needs a model with an empty surface and a real intersection", "anchors": ["src/geode/inspector/inspection/criterion/intersections/model_intersections.cpp"]}
{"id": "C38", "title": "Unique vertices link check is exact", "statement": "inspect_brep_topology()/inspect_section_topology() report every unique vertex without component mesh vertex, every link to a component mesh vertex that does not exist, and every link to an active component vertex whose unique vertex is another one, and nothing else; the boolean ...bijectively_linked... is true exactly when these three lists are empty.", "quantifier": "every model", "why_tests_cant": "models of any size", "anchors": ["src/geode/inspector/inspection/topology/brep_topology.cpp", "src/geode/inspector/inspection/topology/section_topology.cpp"]}
{"id": "C39", "title": "Vertices without unique vertex are exactly listed", "statement": "For a component mesh, the reported vertices not linked to a unique vertex are exactly those whose unique vertex is undefined, in increasing order, and ...vertices_are_associated_to_unique_vertices is true exactly when there is none.", "quantifier": "every component mesh", "why_tests_cant": "meshes of any size", "anchors": ["src/geode/inspector/inspection/topology/internal/topology_helpers.cpp"]}
{"id": "C40", "title": "Section corner validity agrees with the corner reports", "statement": "section_corner_topology_is_valid(v) is true exactly when inspect_corners_topology() reports nothing for unique vertex v.", "quantifier": "every section and unique vertex", "why_tests_cant": "models of any size", "anchors": ["src/geode/inspector/inspection/topology/section_corners_topology.cpp"]}
{"id": "C41", "title": "BRep corner validity agrees with the corner reports", "statement": "brep_corner_topology_is_valid(v) is true exactly when inspect_corners_topology() reports nothing for unique vertex v.", "quantifier": "every BRep and unique vertex", "why_tests_cant": "models of any size", "anchors": ["src/geode/inspector/inspection/topology/brep_corners_topology.cpp"]}
{"id": "C42", "title": "Section line validity agrees with the line reports", "statement": "section_lines_topology_is_valid(v) is true exactly when no per-vertex line list contains v (for vertices on an active line).", "quantifier": "every section and unique vertex whose Lines are embedded in Surfaces only (what a Section allows)", "why_tests_cant": "models of any size", "anchors": ["src/geode/inspector/inspection/topology/section_lines_topology.cpp"]}
{"id": "C43", "title": "BRep line validity agrees with the line reports", "statement": "brep_lines_topology_is_valid(v) is true exactly when no per-vertex line list contains v (for vertices on an active line).", "quantifier": "every BRep and unique vertex whose inspection of Lines completes (C54, C68)", "why_tests_cant": "models of any size", "anchors": ["src/geode/inspector/inspection/topology/brep_lines_topology.cpp"]}
{"id": "C44", "title": "Section surface validity agrees with the surface reports", "statement": "section_vertex_surfaces_topology_is_valid(v) is true exactly when v is in no per-vertex surface list (for vertices on an active surface).", "quantifier": "every section and unique vertex", "why_tests_cant": "models of any size", "anchors": ["src/geode/inspector/inspection/topology/section_surfaces_topology.cpp"]}
{"id": "C45", "title": "BRep surface validity agrees with the surface reports", "statement": "brep_surfaces_topology_is_valid(v) is true exactly when v is in no per-vertex surface list (for vertices on an active surface).", "quantifier": "every BRep and unique vertex whose Surfaces are embedded in Blocks only (what a BRep allows)", "why_tests_cant": "models of any size", "anchors": ["src/geode/inspector/inspection/topology/brep_surfaces_topology.cpp"]}
{"id": "C46", "title": "BRep block validity agrees with the block reports", "statement": "brep_blocks_topology_is_valid(v) implies that inspect_blocks() reports nothing for v.", "quantifier": "every BRep and unique vertex", "why_tests_cant": "models of any size", "anchors": ["src/geode/inspector/inspection/topology/brep_blocks_topology.cpp"]}
{"id": "C47", "title": "Embedded line check does not depend on the order of the lines", "statement": "vertex_is_part_of_invalid_embedded_line(v) of a Section gives an issue or not independently of the order in which component mesh vertices are stored.", "quantifier": "every section and permutation of the component mesh vertices", "why_tests_cant": "all permutations", "anchors": ["src/geode/inspector/inspection/topology/section_lines_topology.cpp:vertex_is_part_of_invalid_embedded_line"]}
{"id": "C48", "title": "Surfaces that cannot bound are exactly peeled", "statement": "The surfaces found not to be possible boundaries are exactly those outside the largest set of surfaces in which every boundary line of every surface is shared by at least two surfaces of the set; the search terminates.", "quantifier": "every set of surfaces and lines whose boundary and incidence relations are the same relation read in both directions, as OpenGeode maintains", "why_tests_cant": "all incidence structures", "anchors": ["src/geode/inspector/inspection/topology/brep_blocks_topology.cpp:find_not_boundary_surfaces"]}
{"id": "C49", "title": "Linked boundary surfaces are exactly a connected component", "statement": "Grouping the boundary surfaces terminates, and each group is exactly a connected component of the surfaces linked by shared lines; the groups partition the surfaces.", "quantifier": "every set of surfaces and lines whose boundary and incidence relations are the same relation read in both directions, as OpenGeode maintains", "why_tests_cant": "all incidence structures", "anchors": ["src/geode/inspector/inspection/topology/brep_blocks_topology.cpp:closed_linked_surfaces"]}
{"id": "C50", "title": "Block boundaries closedness decision", "statement": "A block whose boundary surfaces form fewer than two linked parts is declared closed; otherwise it is declared closed exactly when one part contains all the others.", "quantifier": "every block with coherent relations; external point and box tests which answer or raise an OpenGeode exception", "why_tests_cant": "any number of parts", "anchors": ["src/geode/inspector/inspection/topology/brep_blocks_topology.cpp:block_boundaries_are_closed"]}
{"id": "C51", "title": "Expected number of block mesh vertices", "statement": "The number of block mesh vertices expected at a unique vertex is the combinatorial count given by the numbers of internal/boundary surfaces, lines and corners, with no arithmetic wrap-around.", "quantifier": "every vertex configuration", "why_tests_cant": "all configurations, including those where index_t wraps", "anchors": ["src/geode/inspector/inspection/topology/internal/expected_nb_cmvs.cpp"]}
{"id": "C52", "title": "Only active components are reported", "statement": "Every component id appearing in a map or uuid list of a mesh or topology inspection is the id of an active component.", "quantifier": "every model with any set of inactive components", "why_tests_cant": "every activity pattern", "anchors": ["src/geode/inspector/inspection/criterion/internal/component_meshes_degeneration.cpp", "src/geode/inspector/inspection/criterion/internal/component_meshes_manifold.cpp", "src/geode/inspector/inspection/criterion/negative_elements/brep_meshes_negative_elements.cpp", "src/geode/inspector/inspection/topology/brep_corners_topology.cpp"]}
{"id": "C53", "title": "Parallel inspections are schedule independent", "statement": "The result of inspect_edged_curve/surface/solid/brep/section and of the model inspections does not depend on the interleaving of the parallel tasks.", "quantifier": "every interleaving of the tasks", "why_tests_cant": "all schedules", "anchors": ["src/geode/inspector/inspection/surface_inspector.cpp", "src/geode/inspector/inspection/solid_inspector.cpp", "src/geode/inspector/inspection/criterion/brep_meshes_inspector.cpp", "src/geode/inspector/inspection/criterion/section_meshes_inspector.cpp", "src/geode/inspector/inspection/brep_inspector.cpp"]}
{"id": "C54", "title": "Topology inspection survives exceptions and reports it", "statement": "If an exception is thrown while inspecting the topology, the result is not the same as for a valid model.", "quantifier": "every model and failing sub-inspection", "why_tests_cant": "needs a fault in a given task", "anchors": ["src/geode/inspector/inspection/topology/brep_topology.cpp:inspect_brep_topology", "src/geode/inspector/inspection/topology/section_topology.cpp:inspect_section_topology"]}
{"id": "C55", "title": "Result texts tell about every list", "statement": "string() of each criterion or topology inspection result is its no-issue text exactly when all its lists are empty, and otherwise contains the text of each non-empty list (each list having fewer than 2^32 entries).", "quantifier": "every value of every result structure", "why_tests_cant": "the combinations of empty and non-empty lists and their contents are unbounded", "anchors": ["src/geode/inspector/inspection/topology/brep_lines_topology.cpp:string", "src/geode/inspector/inspection/criterion/manifold/brep_meshes_manifold.cpp:string"]}
{"id": "C56", "title": "Top level texts contain every non-empty list", "statement": "string() of a PointSet/EdgedCurve/Surface/Solid/Section/BRep inspection result contains the text of each of its non-empty lists.", "quantifier": "every value of every top level result structure", "why_tests_cant": "the combinations of lists and their contents are unbounded", "anchors": ["src/geode/inspector/inspection/surface_inspector.cpp:string", "src/geode/inspector/inspection/brep_inspector.cpp:string", "src/geode/inspector/inspection/section_inspector.cpp:string"]}
{"id": "C57", "title": "Adjacent triangles of a Section intersect exactly when they overlap", "statement": "For two triangles of Surfaces of a Section that share exactly two unique vertices, inspect_intersections() considers them as intersecting exactly when their free edges cross or the free vertex of one is not outside the other, and reads only points of these triangles.", "quantifier": "every pair of Surfaces and triangles", "why_tests_cant": "all meshes and all vertex numberings", "anchors": ["src/geode/inspector/inspection/criterion/intersections/model_intersections.cpp:triangles_intersect"]}
{"id": "C58", "title": "Self-intersection inspection is exact", "statement": "inspect_surfaces_self_intersections() reports exactly the pairs of distinct intersecting polygons of a same active Surface, none between two Surfaces, when no active Surface mesh is empty.", "quantifier": "every Section or BRep and every traversal order ; polygons of at most 256 vertices and external tests which answer (exceptions: C62, C111)", "why_tests_cant": "all models and traversal orders", "anchors": ["src/geode/inspector/inspection/criterion/intersections/model_intersections.cpp:inspect_surfaces_self_intersections"]}
{"id": "C59", "title": "Lines and Surfaces intersections of a BRep are exact", "statement": "When no active Surface or Line mesh is empty, inspect_intersections() of a BRep reports exactly the pairs of a polygon of an active Surface and an edge of an active Line embedded in a Block that meet by the inside or an edge.", "quantifier": "every BRep and every traversal order whose active Surfaces and Lines have polygons and edges (otherwise nothing is compared, C37, C59_empty_line_hides), polygons having at most 256 vertices", "why_tests_cant": "all models and traversal orders", "anchors": ["src/geode/inspector/inspection/criterion/intersections/model_intersections.cpp:intersecting_lines_surfaces"]}
{"id": "C60", "title": "Triangles with the same unique vertices always intersect", "statement": "Two compared triangles with the same three unique vertices are always said to intersect.", "quantifier": "every model and pair of triangles", "why_tests_cant": "all geometries", "anchors": ["src/geode/inspector/inspection/criterion/intersections/model_intersections.cpp:triangles_intersection_detection"]}
{"id": "C61", "title": "Triangles without unique vertices are judged by geometry", "statement": "Two compared triangles whose vertices have no unique vertex are said to intersect only if the geometric test says so.", "quantifier": "every model and pair of triangles", "why_tests_cant": "all models with missing unique vertices", "anchors": ["src/geode/inspector/inspection/criterion/intersections/model_intersections.cpp:triangles_common_vertices"]}
{"id": "C62", "title": "Intersection inspections raise no exception", "statement": "The intersection inspections of a Section or BRep give an answer and raise no exception, whatever the meshes.", "quantifier": "every model", "why_tests_cant": "degenerated and badly linked meshes of every kind", "anchors": ["src/geode/inspector/inspection/criterion/intersections/model_intersections.cpp:third_point_index"]}
{"id": "C63", "title": "A Corner internal to a closed Line is accepted", "statement": "For a Corner internal to a Line, inspect_corners_topology() accepts the unique vertex exactly when the Line has two vertices on it.", "quantifier": "every BRep, every unique vertex with a Corner internal to a Line", "why_tests_cant": "The tests have no Corner internal to a Line; the wrong operand of the count matters for every such model.", "anchors": ["src/geode/inspector/inspection/topology/brep_corners_topology.cpp: corner_is_part_of_line_but_not_boundary"]}
{"id": "C64", "title": "Surroundings of unlinked lines are not read", "statement": "inspect_lines_topology() of a BRep does not look for the component edges around an edge of a Line having a vertex without unique vertex (which may crash, as the code says), it only reports these vertices.", "quantifier": "every BRep, every Line with unlinked vertices", "why_tests_cant": "The crash depends on which vertices are not linked.", "anchors": ["src/geode/inspector/inspection/topology/brep_lines_topology.cpp: vertex_is_part_of_line_with_wrong_relationships_to_surface, inspect_lines_topology"]}
{"id": "C65", "title": "Section corner lists are exact", "statement": "inspect_corners_topology() of a Section lists exactly: active Corners without mesh, vertices without unique vertex, unique vertices on several Corners, on a Corner with several embeddings, on a Corner without relation, on a Corner and a Line it does not bound; each once, in increasing order.", "quantifier": "every Section", "why_tests_cant": "Any number of Corners and vertices.", "anchors": ["src/geode/inspector/inspection/topology/section_corners_topology.cpp"]}
{"id": "C66", "title": "BRep corner lists are exact", "statement": "inspect_corners_topology() of a BRep lists exactly: active Corners without mesh, vertices without unique vertex, unique vertices on several Corners, on a Corner embedded in several components including an active Block, on a Corner without relation, on a Corner and an active Line it neither bounds nor is accepted by the code as internal to (a Corner internal to a closed Line is reported, C63); each once, in increasing order.", "quantifier": "every BRep", "why_tests_cant": "Any number of Corners and vertices.", "anchors": ["src/geode/inspector/inspection/topology/brep_corners_topology.cpp"]}
{"id": "C67", "title": "Section line lists are exact", "statement": "inspect_lines_topology() of a Section lists exactly the active Lines without mesh, the vertices without unique vertex and, for each criterion on Lines, the unique vertices which do not satisfy it, each once and in increasing order; the list of the invalid embedded Lines has no false report, and holds every such unique vertex whose active Lines are all embedded (the others depend on the order of the Lines, C47).", "quantifier": "every Section whose Lines are embedded in Surfaces only", "why_tests_cant": "Any number of Lines and vertices.", "anchors": ["src/geode/inspector/inspection/topology/section_lines_topology.cpp"]}
{"id": "C68", "title": "BRep line lists are exact", "statement": "When it completes, inspect_lines_topology() of a BRep lists exactly the active Lines without mesh, the vertices without unique vertex, for each criterion on Lines the unique vertices which do not satisfy it, and the edges of fully linked Lines with wrong component edges around.", "quantifier": "every BRep with well-formed relations", "why_tests_cant": "Any number of Lines, edges and vertices, any iteration order of the hash maps.", "anchors": ["src/geode/inspector/inspection/topology/brep_lines_topology.cpp"]}
{"id": "C69", "title": "Unique vertices without active Surface are not in the Surface reports", "statement": "inspect_surfaces()/inspect_surfaces_topology() list no unique vertex which is on no active Surface (for these vertices the boolean functions say the topology is valid).", "quantifier": "all well-formed Sections and BReps, all unique vertices", "why_tests_cant": "All combinations of active and inactive components at a vertex.", "anchors": ["src/geode/inspector/inspection/topology/section_surfaces_topology.cpp: inspect_surfaces", "src/geode/inspector/inspection/topology/brep_surfaces_topology.cpp: inspect_surfaces_topology"]}
{"id": "C70", "title": "Section surface lists are exact", "statement": "inspect_surfaces() of a Section lists exactly the active Surfaces without mesh, the vertices without unique vertex and, for each criterion on Surfaces, the unique vertices which do not satisfy it, each once and in increasing order.", "quantifier": "all well-formed Sections", "why_tests_cant": "Unbounded numbers of components and vertices.", "anchors": ["src/geode/inspector/inspection/topology/section_surfaces_topology.cpp: SectionSurfacesTopology::inspect_surfaces"]}
{"id": "C71", "title": "BRep surface lists are exact", "statement": "inspect_surfaces_topology() of a BRep lists exactly the active Surfaces without mesh, the vertices without unique vertex, for each criterion on Surfaces the unique vertices which do not satisfy it, and the polygons of fully linked Surfaces with wrong Block facets around (when all Blocks are meshed).", "quantifier": "all well-formed BReps", "why_tests_cant": "Unbounded numbers of components and vertices, any iteration order of hash maps.", "anchors": ["src/geode/inspector/inspection/topology/brep_surfaces_topology.cpp: BRepSurfacesTopology::inspect_surfaces_topology"]}
{"id": "C72", "title": "Fused boundary mesh is glued along unique vertices", "statement": "The mesh built from a list of Surfaces to test whether other Surfaces are inside has the polygons of these Surfaces in order, and two polygon vertices are the same mesh vertex exactly when they have the same unique vertex.", "quantifier": "every list of Surfaces of every BRep", "why_tests_cant": "any number of polygons and any assignment of unique vertices", "anchors": ["src/geode/inspector/inspection/topology/brep_blocks_topology.cpp: fuse_brep_surfaces_from_list"]}
{"id": "C73", "title": "Model boundaries closedness decision", "statement": "inspect_blocks() reports the model boundaries exactly when the Surfaces of the ModelBoundaries are not all linked by shared Lines; the test is defined for every BRep with a ModelBoundary.", "quantifier": "every set of ModelBoundaries, Surfaces and Lines", "why_tests_cant": "any number of surfaces, and the case without items is not tested", "anchors": ["src/geode/inspector/inspection/topology/brep_blocks_topology.cpp: brep_boundaries_are_closed, queue_with_model_boundaries"]}
{"id": "C74", "title": "Surfaces wrongly related to Blocks are reported", "statement": "inspect_blocks() reports every unique vertex of an active Surface which bounds a Block although it cannot bound, which is embedded in a Block although no Block contains it, or which is neither boundary nor embedded although it is not outside all Blocks.", "quantifier": "every BRep, every active Surface", "why_tests_cant": "depends on the fixpoint of the whole incidence structure", "anchors": ["src/geode/inspector/inspection/topology/brep_blocks_topology.cpp:vertex_is_part_of_surface_with_wrong_relationships_to_block"]}
{"id": "C75", "title": "Exact lists of the Blocks inspection", "statement": "inspect_blocks() terminates, and each of its ten lists contains exactly the components or unique vertices meeting the criterion of the list, in increasing order or order of the Blocks; without active Block nothing is reported.", "quantifier": "every BRep with coherent relations", "why_tests_cant": "any number of blocks, surfaces, lines", "anchors": ["src/geode/inspector/inspection/topology/brep_blocks_topology.cpp:inspect_blocks"]}
{"id": "C76", "title": "Validity of the whole topology is exact", "statement": "section_topology_is_valid()/brep_topology_is_valid() returns true exactly when the model has unique vertices, every component vertex of every meshed active component is linked to a unique vertex and back, no unique vertex is without component, and every unique vertex satisfies the corner, line, surface (and block) criteria.", "quantifier": "every Section and BRep with well-formed relations (Section Lines embedded in Surfaces only, BRep Surfaces in Blocks only)", "why_tests_cant": "models of any size; combination of all criteria", "anchors": ["src/geode/inspector/inspection/topology/section_topology.cpp:section_topology_is_valid", "src/geode/inspector/inspection/topology/brep_topology.cpp:brep_topology_is_valid"]}
{"id": "C77", "title": "Topology boolean and topology report agree", "statement": "section_topology_is_valid()/brep_topology_is_valid() is true exactly when inspect_section_topology()/inspect_brep_topology() reports nothing.", "quantifier": "every Section and BRep", "why_tests_cant": "two independent implementations over every model", "anchors": ["src/geode/inspector/inspection/topology/section_topology.cpp", "src/geode/inspector/inspection/topology/brep_topology.cpp"]}
{"id": "C78", "title": "Topology boolean does not throw", "statement": "section_topology_is_valid()/brep_topology_is_valid() returns a boolean for every model, it does not throw.", "quantifier": "every Section and BRep", "why_tests_cant": "faulty models of every kind", "anchors": ["src/geode/inspector/inspection/topology/section_topology.cpp:section_topology_is_valid", "src/geode/inspector/inspection/topology/brep_topology.cpp:brep_topology_is_valid"]}
{"id": "C79", "title": "A whole mesh inspection lists all defects of the mesh and nothing else", "statement": "Inspecting a point set, an edged curve, a surface or a solid (inspect_point_set, inspect_edged_curve, inspect_surface, inspect_solid) always ends with a result, whatever the interleaving of its tasks; in it, the colocated groups are the classes of vertices found at the same position, and the lists of wrong adjacencies, degenerated edges and elements, non-manifold items, intersecting pairs and negative elements hold exactly the defects of that kind of the inspected mesh.", "quantifier": "every mesh whose sizes fit in 32 bits and whose edges are used less than 256 times, every result of the external geometric predicates, every schedule of the parallel tasks and every hash-map iteration order ; the external walks and tests answer (exceptions: C111)", "why_tests_cant": "Combines unbounded meshes, every external predicate and every schedule.", "anchors": ["src/geode/inspector/inspection/pointset_inspector.cpp: inspect_point_set", "src/geode/inspector/inspection/edgedcurve_inspector.cpp: inspect_edged_curve", "src/geode/inspector/inspection/surface_inspector.cpp: inspect_surface", "src/geode/inspector/inspection/solid_inspector.cpp: inspect_solid"]}
{"id": "C80", "title": "The verdict on a mesh is 'valid' exactly when the mesh has no defect", "statement": "is_pointset_valid, is_edged_curve_valid, is_surface_valid and is_solid_valid, called on a mesh, always answer; the answer is valid if and only if the mesh has none of the defects: colocated vertices, degenerated edge or element, wrong adjacency, non-manifold item, intersecting pair of polygons (surfaces), negative element (2D surfaces and solids).", "quantifier": "every mesh whose sizes fit in 32 bits and whose edges are used less than 256 times, every external geometric predicate, every schedule ; the external walks and tests answer (exceptions: C111)", "why_tests_cant": "An equivalence over all meshes and schedules.", "anchors": ["src/geode/inspector/validity/pointset_validity.cpp: is_pointset_valid", "src/geode/inspector/validity/edgedcurve_validity.cpp: is_edged_curve_valid", "src/geode/inspector/validity/surface_validity.cpp: is_surface_valid", "src/geode/inspector/validity/solid_validity.cpp: is_solid_valid"]}
{"id": "C81", "title": "A whole Section or BRep inspection lists all defects of the model and nothing else", "statement": "Inspecting a Section or a BRep (inspect_section, inspect_brep) always ends with a result, whatever the interleaving of its tasks; in it, every list - unique vertices at several positions or colocated, vertices colocated but with different unique vertices, wrong adjacencies, degenerated elements, intersecting elements, non-manifold items, negative elements, wrong links, and each of the lists on corners, lines, surfaces and blocks - holds exactly the defects of that kind of the inspected model.", "quantifier": "every Section or BRep whose sizes fit in their counters and whose relations refer to existing components, every external geometric predicate, every schedule of the parallel tasks and every hash-map iteration order", "why_tests_cant": "Combines unbounded models, every external predicate and every schedule.", "anchors": ["src/geode/inspector/inspection/section_inspector.cpp: inspect_section", "src/geode/inspector/inspection/brep_inspector.cpp: inspect_brep", "src/geode/inspector/inspection/criterion/section_meshes_inspector.cpp: inspect_section_meshes", "src/geode/inspector/inspection/criterion/brep_meshes_inspector.cpp: inspect_brep_meshes", "src/geode/inspector/inspection/topology/section_topology.cpp:inspect_section_topology", "src/geode/inspector/inspection/topology/brep_topology.cpp:inspect_brep_topology"]}
{"id": "C82", "title": "The verdict on a Section or a BRep is 'valid' exactly when the model has no defect", "statement": "is_section_valid and is_brep_valid, called on a model, always answer; the answer is valid if and only if the model has none of the defects looked for by the mesh and topology criteria.", "quantifier": "every Section or BRep whose sizes fit in their counters and whose relations refer to existing components, every external geometric predicate, every schedule", "why_tests_cant": "An equivalence over all models and schedules.", "anchors": ["src/geode/inspector/validity/section_validity.cpp: is_section_valid", "src/geode/inspector/validity/brep_validity.cpp: is_brep_valid"]}
{"id": "C83", "title": "Triangles without common edge intersect exactly when an edge of one meets the other elsewhere than at their common vertex", "statement": "When inspect_intersections() compares two triangles of Surfaces of a model that share no unique vertex, it considers them as intersecting exactly when, in a Section, two of their edges cross (parallel edges do not), and in a BRep, an edge of one of them is not outside the other; when they share exactly one unique vertex, the same holds for intersections found elsewhere than at this vertex.", "quantifier": "every pair of triangles sharing at most one unique vertex, every answer of the external geometric predicates", "why_tests_cant": "All pairs of triangles and all answers of the predicates, each edge of each triangle in turn.", "anchors": ["src/geode/inspector/inspection/criterion/intersections/model_intersections.cpp: triangles_intersect", "src/geode/inspector/inspection/criterion/intersections/model_intersections.cpp: triangle_intersects_other", "src/geode/inspector/inspection/criterion/intersections/model_intersections.cpp: triangles_common_vertices"]}
{"id": "C84", "title": "Adjacent triangles of a BRep intersect exactly when they are folded on each other", "statement": "Two compared triangles of a BRep that share exactly two unique vertices are considered as intersecting exactly when one of the two free edges of the first one is found parallel to the second one.", "quantifier": "every pair of triangles sharing two unique vertices, every answer of the external predicate", "why_tests_cant": "All pairs of triangles, in every numbering of their vertices.", "anchors": ["src/geode/inspector/inspection/criterion/intersections/model_intersections.cpp: triangles_intersect", "src/geode/inspector/inspection/criterion/intersections/model_intersections.cpp: third_point_index"]}
{"id": "C85", "title": "Overlapping triangles of a Section are reported as intersecting", "statement": "Two compared triangles of Surfaces of a Section whose interiors overlap are considered as intersecting.", "quantifier": "every pair of triangles of a Section", "why_tests_cant": "All pairs of triangles; the failing cases (nested triangles) are not in the test data.", "anchors": ["src/geode/inspector/inspection/criterion/intersections/model_intersections.cpp: triangles_intersect"]}
{"id": "C86", "title": "Mesh tools print the inspection of their file once, or fail with a non-silent code", "statement": "geode-inspector-pointset, -edgedcurve, -surface, -solid and -surface-curve-intersections, whatever the command line: either the command line stops the program and nothing is printed, or the file named by --input (--surface, --curve) is read as the first kind of object its extension is registered for by the two input libraries (triangulated before polygonal, 3D before 2D, ...), and the tool exits with code 0 having printed exactly once the text of the inspection of that object, or exits with the code of the first exception (unknown extension, loading, inspection) having printed nothing.", "quantifier": "all command lines, files, sets of registered extensions, results or exceptions of the loaders, meshes, schedules and hash orders", "why_tests_cant": "unit tests call the inspectors, not the tools; which branch is taken depends on every combination of registered extensions, and what is printed before a failure depends on where the exception comes from", "anchors": ["src/bin/geode-inspector-pointset.cpp: main", "src/bin/geode-inspector-edgedcurve.cpp: main", "src/bin/geode-inspector-surface.cpp: main", "src/bin/geode-inspector-solid.cpp: main", "src/bin/geode-inspector-surface-curve-intersections.cpp: main"]}
{"id": "C87", "title": "Model tools print the inspection of their file once, or fail with a non-silent code", "statement": "geode-inspector-section, -cross-section, -implicit-cross-section, -brep, -structural-model and -implicit-structural-model, whatever the command line: either it stops the program and nothing is printed, or the model of the file is loaded and inspected as a Section (resp. BRep), and the tool exits with code 0 having printed exactly once the text of the inspection, or exits with the code of the first exception having printed nothing.", "quantifier": "all command lines, files, results or exceptions of the loaders, models, schedules and hash orders", "why_tests_cant": "the tools are not covered by unit tests, and every path by which an exception leaves the inspection has to be considered", "anchors": ["src/bin/geode-inspector-section.cpp: main", "src/bin/geode-inspector-cross-section.cpp: main", "src/bin/geode-inspector-implicit-cross-section.cpp: main", "src/bin/geode-inspector-brep.cpp: main", "src/bin/geode-inspector-structural-model.cpp: main", "src/bin/geode-inspector-implicit-structural-model.cpp: main"]}
{"id": "C88", "title": "A tool run on a well formed file prints exactly the defects of the file", "statement": "When the file loads and is well formed, the tool succeeds and what it prints is the text of a result whose lists are exactly the defects of the object of the file.", "quantifier": "all files, objects, schedules, hash orders", "why_tests_cant": "composition of the loaders, the dispatch, the criteria run in parallel and the text; must hold for every object", "anchors": ["src/bin/geode-inspector-surface.cpp: main", "src/geode/inspector/inspection/surface_inspector.cpp", "src/geode/inspector/inspection/section_inspector.cpp", "src/geode/inspector/inspection/brep_inspector.cpp"]}
{"id": "C89", "title": "The exit code of a tool tells whether the object is valid", "statement": "A script can rely on the exit code of a tool: zero exactly when no issue is found.", "quantifier": "all files and objects", "why_tests_cant": "must hold for every object", "anchors": ["src/bin/geode-inspector-surface.cpp: main"]}
{"id": "C90", "title": "The documented options of the tools work", "statement": "The usage messages say that --input names the file and that --noXXX (--noadjacency, --nocolocation, --nocomponent_linking) disables a criterion.", "quantifier": "all tools and files", "why_tests_cant": "tests do not run the tools; the flags must be accepted whatever the file", "anchors": ["src/bin/geode-inspector-edgedcurve.cpp: ABSL_FLAG, SetProgramUsageMessage", "src/bin/geode-inspector-surface.cpp: ABSL_FLAG, SetProgramUsageMessage", "src/bin/geode-inspector-solid.cpp: ABSL_FLAG, SetProgramUsageMessage", "src/bin/geode-inspector-brep.cpp: ABSL_FLAG, SetProgramUsageMessage", "src/bin/geode-inspector-section.cpp: ABSL_FLAG, SetProgramUsageMessage"]}
{"id": "C91", "title": "A surface file that a registered reader can load is inspected", "statement": "geode-inspector-surface inspects every file that one of the readers registered for its extension can load.", "quantifier": "all files and sets of registered extensions", "why_tests_cant": "depends on every combination of registered extensions and readers", "anchors": ["src/bin/geode-inspector-surface.cpp: main"]}
{"id": "C92", "title": "Topology messages designate what they are about", "statement": "In the result of a topology inspection each list has as many messages as issues, in the same order; the message of a unique vertex begins with the number of that vertex, the message of a component with its name and uuid, and each per-component list is described by the name and uuid of its component.", "quantifier": "all models, schedules, exceptions in the other parts, and hash map iteration orders", "why_tests_cant": "the pairing of messages with issues must hold for every model and every order of detection; tests print messages without reading them", "anchors": ["src/geode/inspector/inspection/topology/section_topology.cpp", "src/geode/inspector/inspection/topology/brep_topology.cpp", "src/geode/inspector/inspection/topology/brep_lines_topology.cpp", "src/geode/inspector/inspection/topology/brep_surfaces_topology.cpp", "src/geode/inspector/inspection/topology/brep_blocks_topology.cpp"]}
{"id": "C93", "title": "Section topology messages are true", "statement": "Each message of the topology inspection of a Section states facts true of the model: the components it names are there, have the stated relationships, and the stated counts are right.", "quantifier": "all Sections, schedules and failures", "why_tests_cant": "every message of every invalid model must be true; tests check the number of messages only", "anchors": ["src/geode/inspector/inspection/topology/section_corners_topology.cpp", "src/geode/inspector/inspection/topology/section_lines_topology.cpp", "src/geode/inspector/inspection/topology/section_surfaces_topology.cpp", "src/geode/inspector/inspection/topology/section_topology.cpp"]}
{"id": "C94", "title": "BRep corner and line messages are true", "statement": "Each message on the Corners and Lines of a BRep states facts true of the model, with the right counts, and a message on an edge tells which edge.", "quantifier": "all BReps, schedules, failures and hash map orders", "why_tests_cant": "every message of every invalid model must be true; tests check the number of messages only", "anchors": ["src/geode/inspector/inspection/topology/brep_corners_topology.cpp", "src/geode/inspector/inspection/topology/brep_lines_topology.cpp"]}
{"id": "C95", "title": "BRep surface and block messages are true", "statement": "Each message on the Surfaces, Blocks and links of a BRep states facts true of the model, with the right counts.", "quantifier": "all BReps, schedules, failures and hash map orders", "why_tests_cant": "every message of every invalid model must be true; tests check the number of messages only", "anchors": ["src/geode/inspector/inspection/topology/brep_surfaces_topology.cpp", "src/geode/inspector/inspection/topology/brep_blocks_topology.cpp", "src/geode/inspector/inspection/topology/brep_topology.cpp"]}
{"id": "C96", "title": "Mesh inspection messages say what is wrong", "statement": "After a successful inspection of a point set, curve, surface or solid, each list of issues has its own description, never \"not tested\", and holds, in the same order, one message per issue, naming that issue (its vertices, edge, facet or element) and its position.", "quantifier": "all meshes, geometric outcomes and schedules", "why_tests_cant": "every issue of every mesh must be named; tests only count issues", "anchors": ["src/geode/inspector/inspection/pointset_inspector.cpp", "src/geode/inspector/inspection/edgedcurve_inspector.cpp", "src/geode/inspector/inspection/surface_inspector.cpp", "src/geode/inspector/inspection/solid_inspector.cpp"]}
{"id": "C97", "title": "Messages on the meshes of a model name the component", "statement": "After a successful inspection of the meshes of a Section or BRep, each list names in its description the component whose mesh has the issues, and each message names the issue in the numbering of that mesh.", "quantifier": "all Sections and BReps, geometric outcomes, schedules and hash map orders", "why_tests_cant": "every issue of every component must be named; tests only count issues", "anchors": ["src/geode/inspector/inspection/section_inspector.cpp", "src/geode/inspector/inspection/brep_inspector.cpp", "src/geode/inspector/inspection/criterion/internal/colocation_impl.cpp", "src/geode/inspector/inspection/criterion/internal/component_meshes_degeneration.cpp", "src/geode/inspector/inspection/criterion/internal/component_meshes_adjacency.cpp", "src/geode/inspector/inspection/criterion/internal/component_meshes_manifold.cpp"]}
{"id": "C98", "title": "Messages tell issues apart", "statement": "In each list of a report, two equal messages are about the same issue: the vertices, edges, facets and elements of a mesh, and the unique vertices of a model, can be read back from the messages. Short edges are told by their vertices.", "quantifier": "all meshes, Sections, BReps, positions, schedules and hash map orders", "why_tests_cant": "ambiguous texts (numbers glued together, missing numbers) appear only for some numbers", "anchors": ["src/geode/inspector/inspection/surface_inspector.cpp", "src/geode/inspector/inspection/solid_inspector.cpp", "src/geode/inspector/inspection/section_inspector.cpp", "src/geode/inspector/inspection/brep_inspector.cpp"]}
{"id": "C99", "title": "The verdict on a model in terms of its data", "statement": "A Section or BRep is declared valid when, and only when, it has no defect, a defect being said in terms of the data of the model alone: its components, their meshes and points, its unique vertices with their component mesh vertices, its boundary and internal relationships.", "quantifier": "all Sections and BReps, geometric outcomes, schedules and hash map orders", "why_tests_cant": "every combination of components, meshes, unique vertices and relationships must be judged rightly; each criterion reads the model through its own accessors", "anchors": ["src/geode/inspector/inspection/section_inspector.cpp", "src/geode/inspector/inspection/brep_inspector.cpp", "src/geode/inspector/validity/section_validity.cpp", "src/geode/inspector/validity/brep_validity.cpp"]}
{"id": "C100", "title": "The verdict does not depend on the execution", "statement": "Two validity checks of the same Section or BRep, with any two schedules of the parallel tasks and any two orders of the hash maps, give the same verdict.", "quantifier": "all Sections and BReps, pairs of schedules, hash map orders", "why_tests_cant": "tests run few schedules and one hash function", "anchors": ["src/geode/inspector/inspection/section_inspector.cpp", "src/geode/inspector/inspection/brep_inspector.cpp", "src/geode/inspector/validity/section_validity.cpp", "src/geode/inspector/validity/brep_validity.cpp"]}
{"id": "C101", "title": "Two inspections of a mesh tell the same issues", "statement": "Two inspections of the same curve, surface or solid, with any two schedules, hash map orders and orders of visit of the candidate pairs, list the same issues: in the same order for the lists in element order, up to the order for groups of vertices and non manifold edges and facets, and up to the order in the pair for intersecting polygons.", "quantifier": "all meshes, pairs of schedules, hash map orders, tree traversals", "why_tests_cant": "tests run few schedules and one hash function; a lost or doubled issue would depend on them", "anchors": ["src/geode/inspector/inspection/edgedcurve_inspector.cpp", "src/geode/inspector/inspection/surface_inspector.cpp", "src/geode/inspector/inspection/solid_inspector.cpp"]}
{"id": "C102", "title": "Two inspections of a model tell the same issues", "statement": "Two inspections of the same Section or BRep, with any two schedules and hash map orders, list the same issues for the same components in the same order, up to the order for groups of unique vertices and non manifold edges and facets; groups of colocated vertices are in the same components and as many.", "quantifier": "all Sections and BReps, pairs of schedules, hash map orders", "why_tests_cant": "tests run few schedules and one hash function", "anchors": ["src/geode/inspector/inspection/section_inspector.cpp", "src/geode/inspector/inspection/brep_inspector.cpp"]}
{"id": "C103", "title": "Closedness of a block boundary does not depend on storage order", "statement": "A block is declared closed exactly when its boundary surfaces form one piece (linked by common lines) or one of the pieces, glued along unique vertices, contains all the vertices of the others; storing surfaces, boundaries or lines in another order gives the same answer, provided a piece inside another one has a strictly smaller box and the test of points depends on the closed surface only.", "quantifier": "all BReps, blocks, orders of storage, geometries with these two properties", "why_tests_cant": "the parts are found by a queue whose course depends on the order; tests use one order", "anchors": ["src/geode/inspector/inspection/topology/brep_blocks_topology.cpp:block_boundaries_are_closed", "src/geode/inspector/inspection/topology/brep_blocks_topology.cpp:closed_linked_surfaces", "src/geode/inspector/inspection/topology/brep_blocks_topology.cpp:enclosing_surface_list"]}
{"id": "C104", "title": "Verdicts do not depend on the order in which the model is stored", "statement": "The same Section or BRep with its components, relationships and maps around edges and polygons stored in other orders (the links of each unique vertex being in the same order), inspected in another execution, gets the same validity verdict.", "quantifier": "all pairs of models with permuted components and relationships, executions", "why_tests_cant": "order dependence shows only for particular orders of particular models", "anchors": ["src/geode/inspector/validity/section_validity.cpp", "src/geode/inspector/validity/brep_validity.cpp", "src/geode/inspector/inspection/topology/brep_lines_topology.cpp", "src/geode/inspector/inspection/topology/brep_blocks_topology.cpp"]}
{"id": "C105", "title": "The comparison of two triangles is decided by their shared unique vertices and the geometric predicates", "statement": "Whatever the unique vertices shared by two compared triangles of Surfaces, they are said to intersect exactly when: all three vertices of the first one are shared; or two are, and (Section) the free edges cross or a free vertex is not outside the other triangle, the second common point being looked for in the first Surface at the index it has in the second one, (BRep) a free edge of the first one is parallel to the second one; or one or none is, and an edge of one of them (Section: crosses an edge of the other; BRep: is not outside the other) elsewhere than at the shared vertex. In a BRep the answer is always given.", "quantifier": "every pair of triangles, every assignment of unique vertices, including repeated ones, every answer of the external predicates", "why_tests_cant": "All pairs of triangles, all ways of sharing vertices in every numbering, all answers of the predicates.", "anchors": ["src/geode/inspector/inspection/criterion/intersections/model_intersections.cpp: triangles_intersection_detection", "src/geode/inspector/inspection/criterion/intersections/model_intersections.cpp: triangles_common_vertices", "src/geode/inspector/inspection/criterion/intersections/model_intersections.cpp: triangles_intersect"]}
{"id": "C106", "title": "Parallel tasks read only living variables", "statement": "While inspecting the degeneration of the meshes of a model (small edges, small heights) or their intersections, no task reads a variable of the spawning function out of its lifetime.", "quantifier": "every number of active components, every schedule of the tasks and of the thread that spawns them", "why_tests_cant": "A test runs few schedules, and reading a dead stack variable usually gives the right value.", "anchors": ["src/geode/inspector/inspection/criterion/internal/component_meshes_degeneration.cpp: add_small_edges", "src/geode/inspector/inspection/criterion/internal/component_meshes_degeneration.cpp: add_small_height_polygons", "src/geode/inspector/inspection/criterion/intersections/model_intersections.cpp: intersecting_polygons"]}
{"id": "C107", "title": "A Python program sees every issue of a result", "statement": "A Python program that reads every list of a result of the inspector, at any depth, and finds all of them empty, can conclude that the result has no issue; and the truth value in Python of a validity verdict is the verdict.", "quantifier": "every result of every class (point set, edged curve, surface, solid, Section, BRep, and every sub-result), every verdict", "why_tests_cant": "The Python tests check a handful of attributes of a few files; no test can compare what the bindings expose with all possible contents of the results.", "anchors": ["bindings/python/src/inspection/surface_inspector.hpp: define_surface_inspector", "bindings/python/src/inspection/solid_inspector.hpp: define_solid_inspector", "bindings/python/src/inspection/criterion/section_meshes_inspector.hpp: define_section_meshes_inspector", "bindings/python/src/inspection/criterion/brep_meshes_inspector.hpp: define_brep_meshes_inspector", "bindings/python/src/inspection/topology/section_topology.hpp: define_section_topology_inspector", "bindings/python/src/inspection/topology/brep_topology.hpp: define_brep_topology_inspector", "bindings/python/src/validity/object_validity.hpp: define_object_validity"]}
{"id": "C108", "title": "The inspectors of a Python program read only living objects", "statement": "In a Python program, using an inspector never reads a mesh or model that has been destroyed, whatever the order in which the program creates, renames and deletes the inspected objects and the inspectors.", "quantifier": "every Python program (sequence of creations of objects and inspectors, assignments, deletions and inspections of any length)", "why_tests_cant": "Lifetimes depend on the whole history of the program; tests keep their meshes in a variable until the end, and a read of freed memory often goes unnoticed.", "anchors": ["bindings/python/src/inspection/surface_inspector.hpp: do_define_surface_inspector", "bindings/python/src/inspection/solid_inspector.hpp: do_define_solid_inspector", "bindings/python/src/inspection/section_inspector.hpp: define_section_inspector", "bindings/python/src/inspection/brep_inspector.hpp: define_brep_inspector", "src/geode/inspector/inspection/criterion/adjacency/surface_adjacency.cpp: SurfaceMeshAdjacency::Impl::mesh_"]}
{"id": "C109", "title": "The inspection of a mesh does not depend on the numbers of its elements", "statement": "Inspecting a point set, a curve, a surface or a solid and inspecting the same mesh after its vertices, edges, polygons or polyhedra have been given other numbers (the ends of edges being possibly exchanged and the vertices of polygons possibly turned) gives the same verdict, and the lists of the second result are those of the first one with the other numbers (for colocated vertices: both lists are empty, or none), whatever the schedules of the two executions, the iteration orders of the hash maps, the traversals of the trees and the elements at which the walks around vertices and edges begin.", "quantifier": "all meshes within the sizes, all renumberings of vertices, edges and elements, all schedules, all iteration orders, all traversals, all starting elements of the walks", "why_tests_cant": "The code visits elements in the order of their numbers, marks edges at their first use, begins walks at stored elements and compares vertex numbers to normalise edges and facets: a test compares a few numberings of a few meshes.", "anchors": ["src/geode/inspector/inspection/surface_inspector.cpp:inspect_surface", "src/geode/inspector/inspection/solid_inspector.cpp:inspect_solid", "src/geode/inspector/inspection/edgedcurve_inspector.cpp:inspect_edged_curve", "src/geode/inspector/inspection/criterion/manifold/solid_edge_manifold.cpp", "src/geode/inspector/inspection/criterion/manifold/surface_edge_manifold.cpp"]}
{"id": "C110", "title": "A failure of the ray tracing does not hide the other issues of the blocks", "statement": "When testing whether a surface lies inside a block raises an OpenGeode exception, inspect_brep_topology still reports the issues of the blocks which have nothing to do with this test (blocks without mesh, block vertices without unique vertex, block boundaries which are not closed, ...).", "quantifier": "all BReps, all answers and exceptions of the ray tracing, all schedules, all choices of the exception which is rethrown", "why_tests_cant": "The exception is swallowed by inspect_brep_topology, so that the result of a BRep with invalid blocks looks like that of a valid one; a test would have to make the geometric predicates of OpenGeode raise.", "anchors": ["src/geode/inspector/inspection/topology/brep_blocks_topology.cpp:find_dangling_surfaces", "src/geode/inspector/inspection/topology/brep_topology.cpp:inspect_brep_topology"]}
{"id": "C111", "title": "An exception of a geometric test or walk never becomes a wrong report", "statement": "When the intersection test of two polygons (surfaces and Sections) or the walk around a vertex (solids and Blocks of a BRep) raises, the inspection does not return a report or a verdict: it raises. Whenever the inspection does return, its lists are right and its verdict is exact (for a BRep whose Lines are readable, see C82); whatever exception reaches the caller was raised by one of these tests or walks.", "quantifier": "all surfaces, solids, Sections and BReps, all candidate pairs met by the trees in any order, all exceptions of the tests and walks, all schedules, all choices of the exception which is rethrown, all hash map iteration orders", "why_tests_cant": "The tests run in concurrent tasks and in the callbacks of tree traversals; a unit test would have to make each geometric predicate raise at each point of each schedule.", "anchors": ["src/geode/inspector/inspection/criterion/intersections/surface_intersections.cpp:intersecting_polygons", "src/geode/inspector/inspection/criterion/intersections/model_intersections.cpp:third_point_index", "src/geode/inspector/inspection/criterion/manifold/solid_vertex_manifold.cpp:non_manifold_vertices", "src/geode/inspector/validity/section_validity.cpp:is_section_valid", "src/geode/inspector/validity/brep_validity.cpp:is_brep_valid"]}
{"id": "C112", "title": "What it means in the plane that two triangles of a Section are said to intersect", "statement": "With exact predicates of the plane, two non flat triangles of Surfaces of a Section are said to intersect exactly when: without common unique vertex, their borders have a point in common; with one common unique vertex, their borders have a point in common elsewhere than at this vertex; with two of them, their interiors overlap. So with at most one common unique vertex, two triangles which overlap and are said not to intersect are one in the other.", "quantifier": "all triangles of the plane over any ordered field, all vertex numberings and unique vertices, all exact predicates", "why_tests_cant": "A statement about all pairs of triangles of the plane, among which edges on a same line, edges touching at an end and triangles touching at a vertex.", "anchors": ["src/geode/inspector/inspection/criterion/intersections/model_intersections.cpp:triangles_intersect", "src/geode/inspector/inspection/criterion/intersections/model_intersections.cpp:triangles_common_vertices"]}
{"id": "C113", "title": "What it means in the space that two triangles of a BRep are said to intersect", "statement": "With exact predicates of the space, and for two non flat triangles of Surfaces of a BRep which are not in a same plane: if they have a point in common, other than their common vertex when they have one, they are said to intersect; when no edge of one of them is in the plane of the other, this is an equivalence; with two common vertices they are never said to intersect, and have no point in common but those of their common edge.", "quantifier": "all triangles of the space over any ordered field which are not in a same plane, all vertex numberings and unique vertices, all predicates which are exact on the segments which are not in the plane of the triangle (nothing is assumed for the other ones)", "why_tests_cant": "A statement about all pairs of triangles of the space, among which edges in the plane of the other triangle and triangles touching at a vertex or an edge.", "anchors": ["src/geode/inspector/inspection/criterion/intersections/model_intersections.cpp:triangles_intersect", "src/geode/inspector/inspection/criterion/intersections/model_intersections.cpp:triangle_intersects_other"]}
{"id": "C114", "title": "Which edges of a curve are said to intersect a triangle of a surface", "statement": "An edge of a curve and a triangle of a surface are reported exactly when they have a point in common which is not both an end of the edge and a vertex of the triangle; the boolean is true exactly when such a pair exists.", "quantifier": "all non flat triangles and edges of non null length over any ordered field, in the plane and in the space, all exact predicates, all orders of traversal of complete trees", "why_tests_cant": "A statement about all positions of a segment and a triangle, among which segments along an edge or in the plane of the triangle, which tests sample at best.", "anchors": ["src/geode/inspector/inspection/criterion/intersections/surface_curve_intersections.cpp:edge_intersects_triangle", "src/geode/inspector/inspection/criterion/intersections/surface_curve_intersections.cpp:intersecting_elements", "src/geode/inspector/inspection/criterion/intersections/surface_curve_intersections.cpp:meshes_have_intersections"]}
{"id": "C115", "title": "Which edges of Lines are said to intersect a polygon of a BRep", "statement": "The edges of the active Lines embedded in a Block and the polygons of the active Surfaces of a BRep are reported exactly when the edge and a triangle of the fan of the polygon have a point in common which is not both an end of the edge and a vertex of this triangle.", "quantifier": "all polygons of at most 256 vertices and edges over any ordered field, all exact predicates, all orders of traversal of complete trees, all numbers of components", "why_tests_cant": "A statement about all positions of segments and polygons of all models.", "anchors": ["src/geode/inspector/inspection/criterion/intersections/model_intersections.cpp:polygon_edge_intersect", "src/geode/inspector/inspection/criterion/intersections/model_intersections.cpp:add_intersecting_lines_surfaces_elements"]}
{"id": "C116", "title": "Triangles of a BRep are reported exactly when they meet elsewhere than at their common vertices and edge", "statement": "For two triangles of active Surfaces of a BRep in general position (not flat, not in a same plane, no edge of one in the plane of the other but a common one, common unique vertices at the same point), whatever the number of their common unique vertices and the rest of the model: the pair is in the list of intersections, in one order or the other, exactly when the triangles have a point in common which is neither a common vertex nor on their common edge; in this case the boolean test of the model is true.", "quantifier": "all BReps, all pairs of triangles in general position over any ordered field, all numberings and unique vertices, all orders of traversal of trees giving the pairs with a common point, all exact predicates; no empty mesh, distinct uuids, polygons of at most 256 vertices", "why_tests_cant": "A statement about all pairs of triangles of all models, with zero, one or two common vertices.", "anchors": ["src/geode/inspector/inspection/criterion/intersections/model_intersections.cpp:triangles_intersect", "src/geode/inspector/inspection/criterion/intersections/model_intersections.cpp:triangles_intersection_detection", "src/geode/inspector/inspection/criterion/intersections/model_intersections.cpp:model_has_intersecting_surfaces"]}
{"id": "C117", "title": "A surface without adjacency nor manifold defect is an oriented manifold", "statement": "For a surface whose adjacencies are symmetric in the sense that an adjacent polygon exists, whose edges have two different ends and whose walk around a vertex gives the corners reached by turning through adjacencies: the adjacency list and the two manifold lists (edges, vertices) are all empty, and the three boolean tests all false, exactly when the surface is an oriented manifold with boundary: every polygon edge is either the only polygon edge with its two ends, without adjacent, or glued to exactly one other polygon edge with the same ends in the opposite direction, each being adjacent to the other; and the polygons around a vertex are reached from each other by turning through glued edges. A surface declared valid is such a manifold; so is every active Surface of a Section or BRep declared valid, and its border edges are on Lines.", "quantifier": "all surfaces (any number of polygons, of vertices per polygon, any adjacency), all walks around vertices, all orders of iteration, all Sections and BReps; every edge is used by fewer than 256 polygon edges, and the walks around vertices raise only OpenGeode exceptions", "why_tests_cant": "The equivalence ranges over all meshes; a test only shows some defective meshes are reported.", "anchors": ["src/geode/inspector/inspection/criterion/adjacency/surface_adjacency.cpp:polygon_edges_with_wrong_adjacency", "src/geode/inspector/inspection/criterion/manifold/surface_edge_manifold.cpp:non_manifold_edges", "src/geode/inspector/inspection/criterion/manifold/surface_vertex_manifold.cpp:non_manifold_vertices", "src/geode/inspector/inspection/criterion/manifold/surface_edge_manifold.cpp:mesh_edges_are_manifold"]}
{"id": "C118", "title": "A solid without adjacency nor manifold defect is conformal", "statement": "For a solid whose walks around vertices and edges give what is reached through adjacencies: the adjacency list and the three manifold lists (vertices, edges, facets) are all empty exactly when the solid is conformal: every polyhedron facet is either the only one with its vertices, without adjacent, or glued to exactly one other facet, with the same vertices in the opposite order, each polyhedron being adjacent to the other; the polyhedra around a vertex, and around an edge, are reached from each other through glued facets. This is false because of cracks: two polyhedra with the same facet, neither of which is adjacent to the other, are not reported. In a BRep declared valid, the facets of the border and of cracks of each active Block are polygons of Surfaces.", "quantifier": "all solids (any number of polyhedra, facets, vertices, any adjacency), all walks, all orders of iteration, all BReps", "why_tests_cant": "The equivalence ranges over all meshes; the missed cracks need a mesh built for that.", "anchors": ["src/geode/inspector/inspection/criterion/adjacency/solid_adjacency.cpp:polyhedron_facets_with_wrong_adjacency", "src/geode/inspector/inspection/criterion/manifold/solid_facet_manifold.cpp:non_manifold_facets", "src/geode/inspector/inspection/criterion/manifold/solid_edge_manifold.cpp:non_manifold_edges", "src/geode/inspector/inspection/criterion/manifold/solid_vertex_manifold.cpp:non_manifold_vertices"]}
{"id": "C119", "title": "In a model declared valid, vertices share a unique vertex exactly when they are at the same place", "statement": "In a Section declared valid, every vertex of an active component (Corner, Line, Surface) is linked to a unique vertex, and two such vertices have the same unique vertex exactly when they are at the same place; in a BRep declared valid, the vertices of active Corners and Surfaces are linked, and two linked vertices of active components (Blocks included) have the same unique vertex exactly when they are at the same place. Being at the same place is the relation the OpenGeode primitives (colocation search, point comparison) decide.", "quantifier": "all Sections and BReps (any number of components, vertices, links), all pairs of vertices of active components, all schedules and iteration orders; OpenGeode's guarantees on the model hold and the links between vertices and unique vertices are kept both ways", "why_tests_cant": "It combines four inspections (points of unique vertices, colocated unique vertices, bijectivity of links, unlinked vertices) for all pairs of vertices of all models; a test sees a few models.", "anchors": ["src/geode/inspector/inspection/criterion/colocation/unique_vertices_colocation.cpp:unique_vertices_linked_to_different_points", "src/geode/inspector/inspection/criterion/colocation/unique_vertices_colocation.cpp:model_has_colocated_unique_vertices", "src/geode/inspector/validity/section_validity.cpp:is_section_valid", "src/geode/inspector/validity/brep_validity.cpp:is_brep_valid"]}
{"id": "C120", "title": "The triangles of a model declared valid do not overlap", "statement": "With exact geometric primitives: in a Section declared valid, no point is inside two different triangles of active Surfaces; in a BRep declared valid, when two different triangles of active Surfaces are in general position (not in a same plane, and an edge of one in the plane of the other is an edge of both), their common points are common vertices, or are on the edge between two common vertices.", "quantifier": "all Sections and BReps over any ordered field, all pairs of triangles of active Surfaces, all points, all schedules, iteration orders and traversals of the trees", "why_tests_cant": "It ranges over all points and all triangles of all models; the false case (nested triangles) needs a model built for that.", "anchors": ["src/geode/inspector/inspection/criterion/intersections/model_intersections.cpp:model_has_intersecting_surfaces", "src/geode/inspector/validity/section_validity.cpp:is_section_valid", "src/geode/inspector/validity/brep_validity.cpp:is_brep_valid"]}
{"id": "C121", "title": "Inspectors do not undo what the program does with the edges of its meshes", "statement": "In a program which creates, queries and destroys degeneration inspectors on meshes and models, and also enables and disables the edges of meshes itself between these calls: once every inspector is destroyed, the edges of each mesh are enabled exactly if the program asked so last (or were so at the start, if it asked nothing), and the edges the program asked last to enable are never taken away.", "quantifier": "all programs: any number of inspectors and meshes, any interleaving of creations, queries, destructions, enable_edges() and disable_edges(), any order of the parallel tasks", "why_tests_cant": "It is about all histories; a test exercises one inspector on one mesh.", "anchors": ["src/geode/inspector/inspection/criterion/internal/degeneration_impl.cpp:enable_edges_on_mesh", "src/geode/inspector/inspection/criterion/internal/degeneration_impl.cpp:~DegenerationImpl", "src/geode/inspector/inspection/criterion/internal/component_meshes_degeneration.cpp:surfaces_on_which_enable_edges", "src/geode/inspector/inspection/criterion/degeneration/brep_meshes_degeneration.cpp:add_solid_small_elements"]}
{"id": "C122", "title": "The verdict on a model does not depend on the numbers of its unique vertices", "statement": "Two Sections (or two BReps) that are the same but for the numbers given to their unique vertices get the same verdict from the inspection, whatever the executions and the search trees.", "quantifier": "all models, all permutations of the numbers of their unique vertices, all schedules and iteration orders of both inspections, all candidates of the search trees", "why_tests_cant": "A test compares a few numberings of a few models, out of n! for each model.", "anchors": ["src/geode/inspector/inspection/section_inspector.cpp:inspect_section", "src/geode/inspector/inspection/brep_inspector.cpp:inspect_brep", "src/geode/inspector/inspection/topology/brep_topology.cpp", "src/geode/inspector/inspection/topology/section_topology.cpp", "src/geode/inspector/inspection/criterion/colocation/unique_vertices_colocation.cpp", "src/geode/inspector/inspection/criterion/intersections/model_intersections.cpp", "src/geode/inspector/inspection/criterion/manifold/brep_meshes_manifold.cpp"]}
{"id": "C123", "title": "The components of a model declared valid are valid alone", "statement": "If the inspection of a Section or a BRep declares it valid, the inspection of the mesh of any of its active Lines, Surfaces and Blocks, alone, reports nothing except groups of colocated vertices that all have the same unique vertex of the model, and, for Surfaces, intersections (which are tested by vertices in a mesh, and by unique vertices in a model).", "quantifier": "all models, all executions of both inspections, all active components", "why_tests_cant": "It relates two inspections on every model: a test compares them on a few.", "anchors": ["src/geode/inspector/inspection/section_inspector.cpp:inspect_section", "src/geode/inspector/inspection/brep_inspector.cpp:inspect_brep", "src/geode/inspector/inspection/edgedcurve_inspector.cpp:inspect_edged_curve", "src/geode/inspector/inspection/surface_inspector.cpp:inspect_surface", "src/geode/inspector/inspection/solid_inspector.cpp:inspect_solid"]}
{"id": "C124", "title": "Inactive components do not influence the verdict", "statement": "If the meshes of the inactive components of a Section or a BRep are changed, the verdict on the model does not change.", "quantifier": "all models, all other meshes of the inactive components, all executions", "why_tests_cant": "It compares the verdicts on two models, for every change of the meshes of the inactive components.", "anchors": ["src/geode/inspector/inspection/section_inspector.cpp:inspect_section", "src/geode/inspector/inspection/brep_inspector.cpp:inspect_brep", "src/geode/inspector/inspection/topology/internal/topology_helpers.cpp:section_surfaces_are_meshed", "src/geode/inspector/inspection/topology/internal/topology_helpers.cpp:brep_blocks_are_meshed"]}
{"id": "C125", "title": "The boundary of the Blocks of a valid BRep is closed", "statement": "When a BRep is declared valid, any edge of a polygon of an active Surface bounding an active Block is shared by another polygon edge of the active Surfaces bounding this Block: the boundary has no hole.", "quantifier": "all BReps, all executions, all Blocks, all edges of the polygons of the Surfaces bounding them", "why_tests_cant": "It is a consequence of a verdict combining checks of four inspectors (adjacency, Lines, Blocks, unique vertices), for every model.", "anchors": ["src/geode/inspector/inspection/brep_inspector.cpp:inspect_brep", "src/geode/inspector/inspection/topology/brep_blocks_topology.cpp:BRepBlocksTopologyInspector", "src/geode/inspector/inspection/topology/brep_lines_topology.cpp:BRepLinesTopologyInspector", "src/geode/inspector/inspection/criterion/adjacency/brep_meshes_adjacency.cpp:BRepMeshesAdjacency"]}
{"id": "C126", "title": "The border facets of the Blocks of a valid BRep and its Surfaces match", "statement": "When a BRep is declared valid, any border facet of an active Block is on a polygon of a Surface which bounds the Block (and is on no other facet of it) or is inside it (and is on exactly two facets of it), and any polygon of a Surface bounding the Block is on one of its facets.", "quantifier": "all BReps, all executions, all border facets of the Blocks, all polygons of the Surfaces bounding them", "why_tests_cant": "It is a consequence of a verdict combining checks of several inspectors (adjacency, Surfaces, Blocks), for every model.", "anchors": ["src/geode/inspector/inspection/brep_inspector.cpp:inspect_brep", "src/geode/inspector/inspection/topology/brep_surfaces_topology.cpp:BRepSurfacesTopologyInspector", "src/geode/inspector/inspection/topology/brep_blocks_topology.cpp:BRepBlocksTopologyInspector", "src/geode/inspector/inspection/criterion/adjacency/brep_meshes_adjacency.cpp:BRepMeshesAdjacency"]}
{"id": "C127", "title": "The border edges of the Surfaces of a valid model are on Lines related to them", "statement": "When a Section or a BRep is declared valid, any border edge of an active Surface is on an edge of a Line which bounds the Surface (and is on no other edge of it) or is inside it (and is on exactly two edges of it).", "quantifier": "all Sections and BReps, all executions, all border edges of the active Surfaces", "why_tests_cant": "It is a consequence of a verdict combining checks of several inspectors, for every model.", "anchors": ["src/geode/inspector/inspection/section_inspector.cpp:inspect_section", "src/geode/inspector/inspection/brep_inspector.cpp:inspect_brep", "src/geode/inspector/inspection/criterion/internal/component_meshes_adjacency.cpp:ComponentMeshesAdjacency", "src/geode/inspector/inspection/topology/brep_lines_topology.cpp:BRepLinesTopologyInspector"]}
{"id": "C128", "title": "The verdict on a model does not depend on where it is", "statement": "When all the points of a Section or of a BRep are moved (by a translation for instance), and the geometric predicates, the distances and the search of colocated points answer of the moved points what they answered of the points, the model gets the same verdict, in any execution and with any search trees.", "quantifier": "all Sections and BReps, all moves of their points, all libraries answering alike on the points of the model, all executions", "why_tests_cant": "A test compares the verdicts at two places for a few models; the claim is about all models and all moves.", "anchors": ["src/geode/inspector/validity/section_validity.cpp:is_section_valid", "src/geode/inspector/validity/brep_validity.cpp:is_brep_valid", "src/geode/inspector/inspection/section_inspector.cpp:inspect_section", "src/geode/inspector/inspection/brep_inspector.cpp:inspect_brep"]}
{"id": "C129", "title": "A model made of two parts with nothing in common is valid exactly when both parts are", "statement": "When a Section or a BRep is made of two parts which have no component, no unique vertex, no relationship and no place in common, it is declared valid exactly when each of the two parts, inspected alone, is declared valid.", "quantifier": "all Sections and BReps, all their decompositions in two parts which have nothing in common, all executions of the three inspections", "why_tests_cant": "A test compares the verdicts for a few assembled models; the claim is about all models and all ways of assembling them.", "anchors": ["src/geode/inspector/validity/section_validity.cpp:is_section_valid", "src/geode/inspector/validity/brep_validity.cpp:is_brep_valid", "src/geode/inspector/inspection/section_inspector.cpp:inspect_section", "src/geode/inspector/inspection/topology/brep_blocks_topology.cpp:brep_boundaries_are_closed"]}
{"id": "C130", "title": "The inspection of the Blocks ends after a number of rounds bounded by the number of Surfaces", "statement": "Whatever the relationships of the BRep (even incoherent ones) and the answers of its geometry, the loops of the inspection of its Blocks end: the search of the Surfaces which cannot be boundaries after at most one round more than there are Surfaces on Lines, the gathering of linked Surfaces after at most n*n rounds for n Surfaces, hence inspect_brep and is_brep_valid never run forever in these loops.", "quantifier": "all BReps, coherent or not, all answers of the graph and of the geometry, all executions", "why_tests_cant": "A test which ends says nothing of other models; one which does not end says nothing at all.", "anchors": ["src/geode/inspector/inspection/topology/brep_blocks_topology.cpp:find_not_boundary_surfaces", "src/geode/inspector/inspection/topology/brep_blocks_topology.cpp:closed_linked_surfaces", "src/geode/inspector/inspection/topology/brep_blocks_topology.cpp:block_boundaries_are_closed", "src/geode/inspector/inspection/brep_inspector.cpp:inspect_brep"]}
{"id": "C131", "title": "The verdict on a model does not depend on the uuids of its components", "statement": "A Section or a BRep and the same model whose components have other uuids (a clone, or the model saved and rebuilt) get the same verdict from is_section_valid or is_brep_valid, in any two executions: nothing in the inspection compares, orders or excludes components by the value of their uuid beyond equality.", "quantifier": "all models whose data OpenGeode guarantees, all renamings of uuids, all pairs of executions", "why_tests_cant": "Uuids are drawn at random: a test sees one draw at each run, and an order or a hash depending on the value would make it fail rarely.", "anchors": ["src/geode/inspector/validity/section_validity.cpp:is_section_valid", "src/geode/inspector/validity/brep_validity.cpp:is_brep_valid", "src/geode/inspector/inspection/section_inspector.cpp:inspect_section", "src/geode/inspector/inspection/brep_inspector.cpp:inspect_brep"]}
{"id": "C132", "title": "The verdict on a model does not depend on the numbers of the vertices of the meshes of its components", "statement": "A Section or a BRep and the same model in which the vertices of the mesh of each component have other numbers (the points, the polygons, the polyhedra, the links to the unique vertices and the borders being the same through the renumbering) get the same verdict from is_section_valid or is_brep_valid, in any two executions.", "quantifier": "all models whose data OpenGeode guarantees, all renumberings of the vertices of each component, all pairs of executions; the colocation search identifies the vertices at near points, and the comparison of facets only depends on the equality of their vertices", "why_tests_cant": "The numbers come from the order in which a mesh was built or read; a test inspects one order, not all the permutations of the vertices of all the components.", "anchors": ["src/geode/inspector/validity/section_validity.cpp:is_section_valid", "src/geode/inspector/validity/brep_validity.cpp:is_brep_valid", "src/geode/inspector/inspection/criterion/intersections/model_intersections.cpp:triangles_intersect"]}
{"id": "C133", "title": "The verdict on a model does not depend on the numbers and the directions of the edges of its Lines", "statement": "A Section or a BRep and the same model in which the edges of the mesh of each Line have other numbers, some of them being also given from their second vertex to their first one, get the same verdict from is_section_valid or is_brep_valid, in any two executions, although the topology of the Lines of a BRep only looks at the Surfaces around the edge number 0 of each of them.", "quantifier": "all models whose data OpenGeode guarantees (boundary and internal relations being the same as incidences and embeddings), all renumberings and reversals of the edges of each Line, all pairs of executions; the length of a segment and its intersection with a triangle do not depend on its direction", "why_tests_cant": "The edge number 0 is whichever was built first; a test inspects one order of the edges, not all the permutations of those of all the Lines.", "anchors": ["src/geode/inspector/validity/section_validity.cpp:is_section_valid", "src/geode/inspector/validity/brep_validity.cpp:is_brep_valid", "src/geode/inspector/inspection/topology/brep_lines_topology.cpp:brep_lines_topology_is_valid"]}
{"id": "C134", "title": "The verdict on a model does not depend on the numbers of its polygons, polyhedra and edges", "statement": "A Section or a BRep and the same model in which the polygons of the mesh of each Surface, the polyhedra of the mesh of each Block and the edges of these meshes have other numbers get the same verdict from is_section_valid or is_brep_valid, in any two executions, although interior edges are kept from the polygon with the smaller number, turning around an edge starts from the first polyhedron, and the Surfaces of a Block are glued polygon by polygon.", "quantifier": "all models whose data OpenGeode guarantees, all renumberings of the polygons of each Surface, of the polyhedra of each Block and of their edges, all pairs of executions; turning around an edge of a Block is the same from all the polyhedra visited, adjacent polygons exist, and being inside a closed surface does not depend on the order of its polygons", "why_tests_cant": "The order of the elements of a mesh is that of the file or the mesher; a test inspects one order, not all the permutations of the elements of all the meshes.", "anchors": ["src/geode/inspector/validity/section_validity.cpp:is_section_valid", "src/geode/inspector/validity/brep_validity.cpp:is_brep_valid", "src/geode/inspector/inspection/criterion/manifold/brep_meshes_manifold.cpp", "src/geode/inspector/inspection/criterion/manifold/solid_edge_manifold.cpp", "src/geode/inspector/inspection/topology/brep_blocks_topology.cpp:brep_blocks_topology_is_valid"]}
{"id": "C135", "title": "In a valid BRep, boundary Surfaces can enclose a volume and unrelated Surfaces are outside the Blocks", "statement": "If is_brep_valid accepts a BRep which has an active Block, each active Surface which is a boundary belongs to a set of Surfaces in which each boundary Line of a Surface bounds another Surface, and each active Surface which is neither boundary nor internal belongs to no such set and has no polygon in a Block.", "quantifier": "all BReps whose data OpenGeode guarantees and whose unique vertices know their vertices, all executions, all Surfaces and polygons", "why_tests_cant": "A dangling Surface may be in any number of polygons, in any order, and be linked to the rest of the model by any chain of Lines; a test shows a few of them.", "anchors": ["src/geode/inspector/inspection/topology/brep_blocks_topology.cpp:find_dangling_surfaces", "src/geode/inspector/inspection/topology/brep_blocks_topology.cpp:vertex_is_part_of_surface_with_wrong_relationships_to_block", "src/geode/inspector/validity/brep_validity.cpp:is_brep_valid"]}
{"id": "C136", "title": "The Lines of a valid model end at Corners which bound them", "statement": "If is_section_valid or is_brep_valid accepts a model, at each end of an active Line there is a Corner, and each active Corner at the place of a vertex of an active Line bounds this Line (or, in a BRep, is internal to it).", "quantifier": "all Sections and BReps whose data OpenGeode guarantees and whose unique vertices know their vertices, all executions, all Corners, Lines and vertices", "why_tests_cant": "Any number of Lines may meet at any places, with any links and relationships; a test shows a few of them.", "anchors": ["src/geode/inspector/inspection/topology/section_lines_topology.cpp:vertex_has_lines_but_is_not_a_corner", "src/geode/inspector/inspection/topology/brep_lines_topology.cpp:vertex_has_lines_but_is_not_a_corner", "src/geode/inspector/inspection/topology/section_corners_topology.cpp", "src/geode/inspector/inspection/topology/brep_corners_topology.cpp"]}
{"id": "C137", "title": "The Lines of a valid model are on the Surfaces they are related to, and on no other", "statement": "If is_section_valid or is_brep_valid accepts a model, each edge of an active Line joins the same unique vertices as one edge of the polygons of each active Surface it bounds, as two of each active Surface it is internal to, and as none of the other active Surfaces.", "quantifier": "all Sections and BReps whose data OpenGeode guarantees, all executions, all Lines, edges and Surfaces", "why_tests_cant": "Any number of Lines and Surfaces may have any relationships and any common unique vertices; a test shows a few of them.", "anchors": ["src/geode/inspector/inspection/topology/brep_lines_topology.cpp:inspect_lines_topology", "src/geode/inspector/inspection/topology/section_lines_topology.cpp:vertex_is_part_of_invalid_single_line", "src/geode/inspector/validity/brep_validity.cpp:is_brep_valid"]}
{"id": "C138", "title": "The Surfaces of a valid BRep are on the facets of the Blocks they are related to, and of no other", "statement": "If is_brep_valid accepts a BRep, each polygon of an active Surface has the same unique vertices as one facet of each active Block it bounds, as two of each active Block it is internal to, and as none of the other active Blocks.", "quantifier": "all BReps whose data OpenGeode guarantees, all executions, all Surfaces, polygons and Blocks", "why_tests_cant": "Any number of Surfaces and Blocks may have any relationships and any common unique vertices; a test shows a few of them.", "anchors": ["src/geode/inspector/inspection/topology/brep_surfaces_topology.cpp:inspect_surfaces_topology", "src/geode/inspector/validity/brep_validity.cpp:is_brep_valid"]}
{"id": "C139", "title": "Polygons of a valid BRep meet inside a Surface two by two, or along Lines", "statement": "If is_brep_valid accepts a BRep, whenever two different polygons of active Surfaces have edges joining the same unique vertices, either these polygons belong to one Surface and are adjacent by these edges, or an edge of a Line joins the same unique vertices.", "quantifier": "all BReps whose data OpenGeode guarantees, all executions, all pairs of Surfaces and of polygons", "why_tests_cant": "Any polygons of any number of Surfaces may have common unique vertices; the conclusion combines three inspections (adjacencies, borders, edges between Surfaces).", "anchors": ["src/geode/inspector/inspection/criterion/manifold/brep_meshes_manifold.cpp:brep_non_manifold_edges", "src/geode/inspector/inspection/criterion/adjacency/surface_adjacency.cpp", "src/geode/inspector/validity/brep_validity.cpp:is_brep_valid"]}
{"id": "C140", "title": "A valid model does not have the same Line twice", "statement": "If is_section_valid or is_brep_valid accepts a model, no edge of an active Line is at the same place as an edge of another active Line.", "quantifier": "all Sections and BReps whose data OpenGeode guarantees, all executions, all pairs of Lines and of edges", "why_tests_cant": "Any number of Lines may have any common points; a test shows a few of them.", "anchors": ["src/geode/inspector/inspection/topology/section_lines_topology.cpp:vertex_has_lines_but_is_not_a_corner", "src/geode/inspector/inspection/topology/brep_lines_topology.cpp", "src/geode/inspector/validity/brep_validity.cpp:is_brep_valid", "src/geode/inspector/validity/section_validity.cpp:is_section_valid"]}
{"id": "C141", "title": "The Corners of a valid model are at different places", "statement": "If is_section_valid or is_brep_valid accepts a model, every active Corner has a vertex and is part of (a boundary of, or embedded in) some component, and two vertices of active Corners at the same place are the same vertex of the same Corner.", "quantifier": "all Sections and BReps whose data OpenGeode guarantees, all executions, all Corners", "why_tests_cant": "Any number of Corners may be anywhere, with any relationships; a test shows a few of them.", "anchors": ["src/geode/inspector/inspection/topology/section_corners_topology.cpp", "src/geode/inspector/inspection/topology/brep_corners_topology.cpp", "src/geode/inspector/inspection/topology/section_topology.cpp", "src/geode/inspector/validity/brep_validity.cpp:is_brep_valid", "src/geode/inspector/validity/section_validity.cpp:is_section_valid"]}
{"id": "C142", "title": "Where two Surfaces of a valid model meet there is a Line or a Corner", "statement": "If is_brep_valid accepts a BRep, wherever two active Surfaces have vertices at the same place, there is a Line, or a Corner internal to both, with a vertex at this place (if it is active). If is_section_valid accepts a Section, wherever two active Surfaces, and no third one, have vertices at the same place, there is a Line which bounds both, with a vertex at this place (if it is active).", "quantifier": "all Sections and BReps whose data OpenGeode guarantees, all executions, all pairs of Surfaces and of vertices", "why_tests_cant": "Any number of Surfaces may meet anywhere, with any relationships; a test shows a few of them.", "anchors": ["src/geode/inspector/inspection/topology/section_surfaces_topology.cpp", "src/geode/inspector/inspection/topology/brep_surfaces_topology.cpp", "src/geode/inspector/validity/brep_validity.cpp:is_brep_valid", "src/geode/inspector/validity/section_validity.cpp:is_section_valid"]}
{"id": "C143", "title": "Where two Blocks of a valid BRep meet there is a Surface which bounds one of them", "statement": "If is_brep_valid accepts a BRep, wherever two active meshed Blocks, and no third one, have vertices at the same place, there is a Surface which bounds both, or a Surface which bounds one of them and a Line which bounds this Surface; each of them has a vertex at this place if it is active.", "quantifier": "all BReps whose data OpenGeode guarantees, all executions, all pairs of Blocks and of vertices", "why_tests_cant": "Any number of Blocks may meet anywhere, with any relationships; a test shows a few of them.", "anchors": ["src/geode/inspector/inspection/topology/brep_blocks_topology.cpp", "src/geode/inspector/validity/brep_validity.cpp:is_brep_valid"]}
{"id": "C144", "title": "A Surface internal to a Block of a valid BRep has its vertices in this Block", "statement": "If is_brep_valid accepts a BRep all the Blocks of which are meshed, an active Surface embedded in an active Block does not bound it, and each vertex of the Surface is at the same place as a vertex of the Block.", "quantifier": "all BReps with meshed Blocks whose data OpenGeode guarantees, all executions, all Surfaces, Blocks and vertices", "why_tests_cant": "Any number of Surfaces may be embedded in any number of Blocks, with any meshes; a test shows a few of them.", "anchors": ["src/geode/inspector/inspection/topology/brep_surfaces_topology.cpp", "src/geode/inspector/validity/brep_validity.cpp:is_brep_valid"]}
{"id": "C145", "title": "The Surfaces of a valid model are cut along the Lines", "statement": "If is_section_valid accepts a Section the Surfaces of which have polygons, each vertex of an active Surface at the same place as a vertex of an active Line is on the border of the mesh of the Surface. If is_brep_valid accepts a BRep, so is each vertex of an active Surface at the same place as a vertex, having a unique vertex, of an active Line which bounds or is internal to the Surface.", "quantifier": "all Sections and BReps whose data OpenGeode guarantees, all executions, all pairs of a Surface and a Line and of their vertices", "why_tests_cant": "Any number of Lines may meet any number of Surfaces anywhere; a test shows a few of them.", "anchors": ["src/geode/inspector/inspection/topology/section_surfaces_topology.cpp", "src/geode/inspector/inspection/topology/brep_surfaces_topology.cpp", "src/geode/inspector/validity/brep_validity.cpp:is_brep_valid", "src/geode/inspector/validity/section_validity.cpp:is_section_valid"]}
{"id": "C146", "title": "The components of a valid model are meshed and linked, and its Lines are part of something", "statement": "If is_section_valid (is_brep_valid) accepts a model, each active Corner, Line and Surface has vertices (and edges or polygons), and so does each active Block unless none is meshed; all their vertices have unique vertices; each active Line bounds or is internal to some component.", "quantifier": "all Sections and BReps whose data OpenGeode guarantees, all executions, all active components and all their vertices", "why_tests_cant": "Any number of components of any sizes may be there; a test shows a few of them.", "anchors": ["src/geode/inspector/inspection/topology/section_topology.cpp", "src/geode/inspector/inspection/topology/brep_topology.cpp", "src/geode/inspector/inspection/topology/section_lines_topology.cpp", "src/geode/inspector/inspection/topology/brep_blocks_topology.cpp", "src/geode/inspector/validity/brep_validity.cpp:is_brep_valid", "src/geode/inspector/validity/section_validity.cpp:is_section_valid"]}
{"id": "C147", "title": "The Corners of a valid model bound the Lines which reach them", "statement": "If is_section_valid (is_brep_valid) accepts a model, each active Corner at the same place as a vertex, having a unique vertex, of an active Line is a boundary of this Line; being internal to it, if the Line is closed, is not enough. All the vertices of the active Lines have unique vertices unless the inspection of the Lines is lost.", "quantifier": "all Sections and BReps whose data OpenGeode guarantees, all executions, all pairs of a Corner and a Line and of their vertices", "why_tests_cant": "Any number of Lines, of any numbers of vertices, may reach any number of Corners; a test shows a few of them.", "anchors": ["src/geode/inspector/inspection/topology/section_corners_topology.cpp", "src/geode/inspector/inspection/topology/brep_corners_topology.cpp", "src/geode/inspector/validity/brep_validity.cpp:is_brep_valid", "src/geode/inspector/validity/section_validity.cpp:is_section_valid"]}
{"id": "C148", "title": "The Lines of a valid model have their vertices in the components they are internal to", "statement": "If is_section_valid accepts a Section, an active Line internal to an active Surface is internal to nothing else and bounds nothing, and each of its vertices is at the place of a vertex of this Surface. If is_brep_valid accepts a BRep, an active Line internal to an active Surface or Block does not bound it and each of its vertices is at the place of a vertex of it.", "quantifier": "all Sections and BReps whose data OpenGeode guarantees, all executions, all Lines and their vertices", "why_tests_cant": "Any number of Lines, of any numbers of vertices, may be internal to any components; a test shows a few of them.", "anchors": ["src/geode/inspector/inspection/topology/section_lines_topology.cpp", "src/geode/inspector/inspection/topology/brep_lines_topology.cpp", "src/geode/inspector/validity/brep_validity.cpp:is_brep_valid", "src/geode/inspector/validity/section_validity.cpp:is_section_valid"]}
{"id": "C149", "title": "The Corners of a valid model are internal to one component at most, and are at a vertex of it", "statement": "If is_section_valid accepts a Section, each active Corner is internal to one component at most; if is_brep_valid accepts a BRep, an active Corner internal to an active Block is internal to nothing else. The Corner is at the place of a vertex of the component it is internal to.", "quantifier": "all Sections and BReps whose data OpenGeode guarantees, all executions, all Corners", "why_tests_cant": "Any number of Corners may be internal to any components; a test shows a few of them.", "anchors": ["src/geode/inspector/inspection/topology/section_corners_topology.cpp", "src/geode/inspector/inspection/topology/brep_corners_topology.cpp", "src/geode/inspector/validity/brep_validity.cpp:is_brep_valid", "src/geode/inspector/validity/section_validity.cpp:is_section_valid"]}
{"id": "C150", "title": "Away from Lines, the Blocks of a valid BRep are cut along the Surfaces internal to them and nowhere else", "statement": "If is_brep_valid accepts a BRep, at the place of any vertex of an active Block where there is no Line other than Lines internal to a Block, the Block has as many vertices as there are vertices there of Surfaces internal to it and not bounding it, plus as many as there are vertices of Surfaces bounding it, or plus one if there is none.", "quantifier": "all BReps whose data OpenGeode guarantees (a vertex is listed once in its unique vertex) the Surfaces of a Block of which are active, all executions, all Blocks and their vertices", "why_tests_cant": "The Surfaces may meet the Block at any number of vertices; a test shows a few of them.", "anchors": ["src/geode/inspector/inspection/topology/brep_blocks_topology.cpp", "src/geode/inspector/validity/brep_validity.cpp:is_brep_valid"]}
{"id": "C151", "title": "The borders of the Surfaces of a valid model are exactly where its Lines are", "statement": "If is_section_valid accepts a Section all the Lines of which are active and all the Surfaces of which have polygons, a vertex of an active Surface is on the border of its mesh if and only if a vertex of a Line is at the same place. If is_brep_valid accepts a BRep all the Lines of which are active, a vertex of an active Surface is on the border of its mesh if and only if a vertex of a Line which bounds, or is internal to, the Surface is at the same place.", "quantifier": "all Sections and BReps whose data OpenGeode guarantees (edges found by unique vertices, border vertices), all executions, all Surfaces and their vertices", "why_tests_cant": "Surfaces and Lines may have any numbers of vertices and meet anywhere; a test shows a few of them.", "anchors": ["src/geode/inspector/inspection/topology/section_surfaces_topology.cpp", "src/geode/inspector/inspection/topology/brep_surfaces_topology.cpp", "src/geode/inspector/validity/section_validity.cpp:is_section_valid", "src/geode/inspector/validity/brep_validity.cpp:is_brep_valid"]}
{"id": "C152", "title": "The meshes of a valid model do not go through the Lines and Surfaces which bound them", "statement": "If is_brep_valid or is_section_valid accepts a model, an edge of a polygon of an active Surface which is on an edge of an active Line bounding the Surface has no adjacent polygon; if all Blocks of a BRep are meshed, a facet of a polyhedron of an active Block which is on a polygon of an active Surface bounding the Block has no adjacent polyhedron.", "quantifier": "all BReps and Sections whose data OpenGeode guarantees (edges and polygons found by unique vertices; opposite facets have the same vertices), all executions, all Lines and Surfaces, all their edges and polygons", "why_tests_cant": "Meshes may have any numbers of polygons and polyhedra, adjacent in any way; a test shows a few of them.", "anchors": ["src/geode/inspector/inspection/criterion/adjacency/brep_meshes_adjacency.cpp", "src/geode/inspector/inspection/topology/brep_lines_topology.cpp", "src/geode/inspector/inspection/topology/brep_surfaces_topology.cpp", "src/geode/inspector/validity/brep_validity.cpp:is_brep_valid"]}
{"id": "C153", "title": "The Surfaces of a valid model are cut along the Lines inside them", "statement": "If is_brep_valid or is_section_valid accepts a model, an edge of a polygon of an active Surface which is on an edge of an active Line internal to the Surface (and not bounding it) has no adjacent polygon: the Line is between two edges of polygons which are not adjacent to one another.", "quantifier": "all BReps and Sections whose data OpenGeode guarantees (edges found by unique vertices), all executions, all Lines and Surfaces, all their edges and polygons", "why_tests_cant": "Meshes may have any number of polygons, adjacent in any way; a test shows a few of them.", "anchors": ["src/geode/inspector/inspection/criterion/adjacency/brep_meshes_adjacency.cpp", "src/geode/inspector/inspection/topology/brep_lines_topology.cpp", "src/geode/inspector/inspection/topology/section_lines_topology.cpp", "src/geode/inspector/validity/brep_validity.cpp:is_brep_valid", "src/geode/inspector/validity/section_validity.cpp:is_section_valid"]}
