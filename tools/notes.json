{
 "C01": [
  "proved",
  "any history of add_issue/set_description"
 ],
 "C02": [
  "proved",
  "any history of add_issues_to_map; text for any hash iteration order"
 ],
 "C03": [
  "proved",
  "counts are 32 bits; the bound total < 2^32 is shown necessary"
 ],
 "C04": [
  "partial",
  "false in the code: surface_polygons_with_wrong_component_facets_around is neither counted nor printed (witness theorem); holds for the five other lists"
 ],
 "C05": [
  "partial",
  "false in the code: unique_vertices_linked_to_several_lines_but_not_linked_to_a_corner is not counted (witness theorem); holds for the five other lists"
 ],
 "C08": [
  "partial",
  "false in the code for models because of C04/C05 (witnesses); exact characterisation proved; true for the four kinds of mesh"
 ],
 "C55": [
  "partial",
  "false only for the BRep surfaces list of C04 (C04_surfaces_count_and_text_forget_polygons)"
 ],
 "C56": [
  "partial",
  "false only for BReps, because of C04 (C56_brep_text_forgets_a_list)"
 ],
 "C09": [
  "proved",
  "for every answer of the external search satisfying SearchOk"
 ],
 "C10": [
  "proved",
  "32 bits subtraction included"
 ],
 "C11": [
  "proved",
  "filter, Section map and BRep map"
 ],
 "C12": [
  "partial",
  "false in the code for an alternating group of 4 vertices (C12_violated); holds without the pattern, in particular for groups of at most 3 vertices C12_exact_report_partial gives the exact report in all cases."
 ],
 "C13": [
  "proved",
  "boolean and list versions; hypotheses: known component types"
 ],
 "C14": [
  "proved",
  ""
 ],
 "C17": [
  "proved",
  "Section and BRep"
 ],
 "C19": [
  "proved",
  "meshes and models (Section, BRep, thresholds); lengths and heights are external doubles, NaN included"
 ],
 "C21": [
  "proved",
  "second theorem under the hypothesis that the mesh calls degenerated what is at most epsilon"
 ],
 "C22": [
  "proved",
  "every history of any number of inspectors on meshes and models; concurrent tasks of a model query are atomic per surface"
 ],
 "C24": [
  "proved",
  "any hash iteration order; without the bound the counts are modulo 256 (C24_surface_edges_modulo)"
 ],
 "C25": [
  "partial",
  "false in the code: the 8-bit counter wraps, witness mesh with 258 triangles around an edge (C25_false); proved below 256 uses C25_exact_partial gives the exact verdict in all cases (uses modulo 256)."
 ],
 "C26": [
  "proved",
  "any hash iteration orders; for vertices, whenever the list is computed without exception so is the boolean"
 ],
 "C27": [
  "proved",
  "for every answer of the external walks around vertices that raise only OpenGeode exceptions"
 ],
 "C28": [
  "proved",
  "an exception of one walk makes the inspection raise (C28_solid_vertices_raise)"
 ],
 "C29": [
  "proved",
  "turns around edges are external, assumed without repetition; the boolean raises where the list reports"
 ],
 "C30": [
  "proved",
  "the facet normal form is external: any function whose equality is the sameness of facets"
 ],
 "C31": [
  "proved",
  "lists of the model and maps of the components of a BRep"
 ],
 "C32": [
  "proved",
  "signs and volumes are external, NaN included"
 ],
 "C57": [
  "partial",
  "false in the code: line 422 reads the second common point in the first mesh with its index in the second mesh; two witnesses (false intersection reported, read beyond the mesh); proved for two triangles of a same Surface; C57_two_surfaces_partial: the exact answer for two Surfaces in terms of the point that is really read"
 ],
 "C58": [
  "auto",
  "polygons of at most 256 vertices (8 bits count); see C37 for empty meshes"
 ],
 "C59": [
  "auto",
  "also proved: one active Line without edge hides them all"
 ],
 "C60": [
  "auto",
  ""
 ],
 "C61": [
  "partial",
  "false in the code: NO_ID is taken for a common unique vertex, such triangles are always said to intersect (proved); proved when no unique vertex is common"
 ],
 "C62": [
  "partial",
  "BRep: proved for every mesh and linking (polygons of at most 256 vertices); Section: false (witness with a degenerated triangle); C62_section_test_exact gives the exact failures of the test of two triangles, C62_section_no_exception_partial the absence of exception for a whole Section whose compared triangles are comparable"
 ],
 "C33": [
  "auto",
  "for any traversal of the tree (external) meeting only candidates, and all of them unless asked to stop, when the test of two polygons (external) answers on the candidates; when it raises on a candidate, the list raises it (C33_raises)"
 ],
 "C34": [
  "proved",
  "2D and 3D, same hypothesis on traversals as C33"
 ],
 "C35": [
  "partial",
  "proved from 3 to 256 vertices; false beyond (C35_large_polygon: 257 vertices give no triangle) C35_exact_partial: entirely cut exactly up to 256 vertices, and which triangles are made beyond."
 ],
 "C36": [
  "proved",
  "boolean and list specified separately for any traversals; tasks write their own result read in task order (interleavings: C53)"
 ],
 "C37": [
  "partial",
  "false in the code (witness); exact characterisation proved"
 ],
 "C39": [
  "auto",
  ""
 ],
 "C40": [
  "partial",
  "False as stated (C40_false): section_corner_topology_is_valid(v) is false for a Corner with one embedding and several incidences, which no list reports. Partial: exact relation between the boolean and the lists."
 ],
 "C41": [
  "partial",
  "False as stated (C41_false): brep_corner_topology_is_valid(v) is false for an embedded Corner with several incidences, which no list reports. Partial: exact relation between the boolean and the lists."
 ],
 "C42": [
  "auto",
  "For Sections whose Lines are embedded in Surfaces only (what the Section API allows)."
 ],
 "C43": [
  "auto",
  "When the inspection of lines completes; completion conditions in C68_completes, failures in C54 and C64."
 ],
 "C47": [
  "partial",
  "False (C47_false): the function returns at the first active Line without embedding. Partial: exact and order independent when all active Lines at the vertex are embedded; never a false report. C47_exact_partial gives the exact answer in all cases, in terms of the order of the component mesh vertices."
 ],
 "C63": [
  "partial",
  "False (C63_closed_line_false, for every BRep): the vertices of the Corner are counted instead of those of the Line, so such a Corner is always reported. Partial: the other cases."
 ],
 "C64": [
  "partial",
  "False (C64_false): only the edge test is guarded; the relationship test at unique vertices reads edge 0 of any active Line. Partial: no undefined behaviour when the active Lines are fully linked; the only failure left is the exception of C54, exactly when LinesUnreadable."
 ],
 "C65": [
  "auto",
  ""
 ],
 "C66": [
  "auto",
  "The criterion on internal Corners is the one of the code, see C63."
 ],
 "C67": [
  "auto",
  "The list of invalid embedded Lines has no false report and is exact where all the active Lines are embedded (C47)."
 ],
 "C68": [
  "auto",
  "The map of edges is exact for active Lines whose vertices are all linked (the other ones are skipped by the code). C68_completes: completion exactly characterised (LinesUnreadable)."
 ],
 "C44": [
  "auto",
  "Proved for every well-formed Section; also: true when the vertex is on no active surface."
 ],
 "C45": [
  "auto",
  "Proved for every well-formed BRep in which active surfaces are embedded in blocks (the only embedding kind a BRep allows)."
 ],
 "C69": [
  "partial",
  "False (C69_section_false, C69_brep_false): a Section vertex on two inactive Surfaces, and a BRep vertex inside an inactive Surface related to an active Line, are reported although the boolean function is true. Partial theorem: the other per-vertex lists."
 ],
 "C70": [
  "auto",
  ""
 ],
 "C71": [
  "auto",
  ""
 ],
 "C72": [
  "auto",
  "Vertices without unique vertex (NO_ID) are all glued together; C72_glued_iff says it."
 ],
 "C73": [
  "partial",
  "False (C73_false): with ModelBoundaries without items, front()/pop() are called on an empty queue (undefined behaviour). Proved when there is an item."
 ],
 "C49": [
  "auto",
  "The boundary and incidence relations of Lines and Surfaces are supposed to be the same relation (CoherentLines), as OpenGeode maintains. Termination: the result does not depend on the bound on iterations from some bound on."
 ],
 "C50": [
  "auto",
  "C50_block_closed is exact for any box and point-in-surface oracles (only the first part whose box contains the others is tried; exceptions count as outside). C50_block_closed_geometric is the statement itself, when a part inside another has a strictly contained box. One open part is declared closed (holes are the subject of wrong_block_boundary_surface, C75)."
 ],
 "C51": [
  "partial",
  "False (C51_false): the announced number wraps when the count is negative. Proved: the accept/reject decision is exactly the integer count, and the number is right when it is not negative."
 ],
 "C74": [
  "partial",
  "C74_false: the second condition is dead code (dangling surfaces are a subset of the not-boundary surfaces), so an embedded surface outside all blocks is not reported. Partial theorem: exact for the two other conditions."
 ],
 "C75": [
  "auto",
  "Assumes coherent line/surface relations, model boundaries without item only when there are none (C73), at most 2^30 component mesh vertices at a unique vertex; geometry (ray tracing, boxes) is an arbitrary function raising only OpenGeodeException."
 ],
 "C46": [
  "partial",
  "C46_false: brep_blocks_topology_is_valid tests two of the five vertex criteria. Partial theorem: it agrees exactly with these two lists."
 ],
 "C48": [
  "auto",
  "Graph search function is arbitrary among those returning edges between the given vertices (it may miss a parallel edge); assumes coherent line/surface relations."
 ],
 "C76": [
  "auto",
  "Geometry-free part of the code, no bound. Hypotheses: Surfaces embedded in Blocks only, Section Lines in Surfaces only, counts fit in int32. BRep: whenever it answers; it answers unless LinesUnreadable (then C78)."
 ],
 "C77": [
  "partial",
  "False in the code, both ways (C77_false): an active component without mesh is reported but accepted by the boolean; a model without unique vertices is rejected and nothing is reported. Partial: both implications for Sections and for BReps under the hypotheses which exclude these cases; for BReps a valid topology empties the lists that the validity looks at (C77_brep_valid_partial), the others being C46's."
 ],
 "C78": [
  "partial",
  "False (C78_false). Partial: Sections do not raise; BReps raise exactly in the case described (iff)."
 ],
 "C38": [
  "auto",
  "For every interleaving of the tasks and every choice of the rethrown exception, whenever the inspection returns."
 ],
 "C52": [
  "auto",
  "For any model; nothing is assumed on uuids, meshes or unique vertices."
 ],
 "C53": [
  "partial",
  "Tasks write disjoint results, emplace_back modelled as 3 steps for the unprotected case (see the theorems). The lifetime of enable_edges (component_meshes_degeneration.cpp:95-101) is the subject of C106."
 ],
 "C54": [
  "partial",
  "False (C54_false): an OpenGeode exception in one task is logged and the corresponding part of the result is empty, like that of a valid model (witness: an embedded Line in a Block). Partial: each part is the result of its inspection or empty when it failed. An inspection of a BRep with only inactive Blocks also escapes inspect_blocks."
 ],
 "C79": [
  "auto",
  "End to end: the inspector model runs the criterion models on one mesh."
 ],
 "C80": [
  "auto",
  "End to end from the mesh to the verdict."
 ],
 "C81": [
  "partial",
  "BRep: false in the code when the first wrong embedding of the Lines at a unique vertex is in a Block (LinesUnreadable, C54): the Line lists are then empty instead of exact (C81_brep_false); exact in every other case. Sections: exact whenever the inspection returns; it raises exactly when the test of two candidate polygons does (C111)."
 ],
 "C82": [
  "auto",
  "Sections proved; false for BReps (C82_brep_false: a defect is hidden by the exception of C54 and the verdict is valid); C82_brep_partial gives the exact verdict in all cases: right unless LinesUnreadable, and invalid verdicts are always right."
 ],
 "C83": [
  "auto",
  "Section and BRep, no and one common vertex."
 ],
 "C84": [
  "auto",
  ""
 ],
 "C85": [
  "auto",
  "False: only crossings of edges are looked for, so a triangle inside another one is not reported (C85_nested_triangles_false); crossing edges are (C85_crossing_triangles_partial), and with exact predicates overlapping triangles are reported unless one is in the other (C85_overlap_partial)."
 ],
 "C86": [
  "auto",
  "Loaders, extension registration, Abseil and geode_lippincott are parameters of the model. The two files of surface-curve-intersections are loaded in either order (the language leaves it open)."
 ],
 "C87": [
  "auto",
  "Loaders, Abseil and geode_lippincott are parameters of the model."
 ],
 "C88": [
  "partial",
  "Proved for point sets, curves, surfaces, solids, surface/curve, Sections, CrossSections and ImplicitCrossSections. BReps and (implicit) structural models: false in the case LinesUnreadable (C88_brep_false), exact otherwise, as C81."
 ],
 "C89": [
  "partial",
  "False: main returns 0 whatever the number of issues (C89_exit_code_false). Proved instead: code 0 exactly when one report has been printed, another code exactly when none has."
 ],
 "C90": [
  "partial",
  "False: no flag but --input is declared, so that Abseil stops the program with code 1 when the documented option is given (C90_disable_option_false, assuming that Abseil rejects undeclared flags). Proved instead: --input works."
 ],
 "C91": [
  "partial",
  "False: when an extension is registered for triangulated and for polygonal surfaces (as obj, ply, ... may be) only the first reader is tried (C91_shared_extension_false). Proved instead for extensions registered for one kind of surface."
 ],
 "C92": [
  "auto",
  "C92_section_messages_designate needs no hypothesis; C92_brep_messages_designate supposes only that iterating a hash map visits each entry once. The number of the vertex is delimited (introduction before, space after), so it cannot be confused with another."
 ],
 "C93": [
  "partial",
  "False of the code: 'multiple Lines' for one closed Line, 'mutiple Surfaces' for one Surface, 'inexistant mesh vertex' for an existing one (three witnesses). Proved: the exact text of every message with the facts that hold when it is emitted (SectionExplained), and that 'several Corners'/'multiple Lines' are true when no component has two vertices at a unique vertex."
 ],
 "C94": [
  "partial",
  "False of the code: the number of vertices of a closed Line printed beside an internal Corner is that of the Corner; the messages on two edges can be identical (two witnesses). Proved: the exact text of every message with the facts that hold when it is emitted (BRepCornersExplained, BRepLinesExplained)."
 ],
 "C95": [
  "partial",
  "False of the code: a Corner embedded in Blocks only is said to be internal to Surfaces; a negative expected number of vertices is printed as 4294967294 (two witnesses). Proved: the exact text of every message with the facts that hold when it is emitted (BRepExplained), and the expected number is right when it is a 32-bit number."
 ],
 "C96": [
  "auto",
  "All meshes and schedules; positions are printed by a library function left arbitrary."
 ],
 "C97": [
  "auto",
  "For models whose components all have meshes and when no task fails."
 ],
 "C98": [
  "auto",
  "Lists whose texts contain only names of components, the intersections of models (named by free labels), and the edges of C94 are not in the claim."
 ],
 "C99": [
  "partial",
  "False for BReps: a Line whose first wrong embedding at a unique vertex is a Block makes the topology of the Lines unread (C99_brep_false). C99_brep_partial gives the verdict in both cases; C99_section is exact."
 ],
 "C100": [
  "auto",
  "Proved through C99 (both verdicts are the same predicate of the model)."
 ],
 "C101": [
  "auto",
  "Proved from C79: each list is determined by the mesh."
 ],
 "C102": [
  "auto",
  "Proved from C81: each list is determined by the model (also when the topology of the Lines of a BRep is not read)."
 ],
 "C103": [
  "auto",
  "C103_equal_boxes shows that with equal boxes (the hypothesis on boxes fails) the answer depends on the order: only the first part with an enclosing box is tried."
 ],
 "C104": [
  "partial",
  "Proved for Sections (C104_section). For BReps it is false (C104_brep_false: the order of the two embeddings of a Line decides whether the lists on lines are lost, see C54); C104_brep_partial proves it when the wrong embeddings can be described in both orders and the geometry is sound in the sense of C103."
 ],
 "C105": [
  "auto",
  "Spec/TrianglesMeet.lean; now used by C99 and C104 in place of the test of the model. That the point of a Section is looked for with the index of the other Surface is the disagreement of C57."
 ],
 "C106": [
  "auto",
  "False for the edges of the Surfaces (C106_surface_edges_false, for any number of them): enable_edges, declared in the loop, is captured by reference by tasks which may run after it is destroyed. Proved for the tasks on Lines, polygons and intersections (parameters, protected by when_all), and for Surfaces when each task ends before the loop goes on. Exceptions between spawn and when_all are not modelled."
 ],
 "C107": [
  "partial",
  "False of surfaces, solids, Sections and BReps (negative elements, non manifold facets of a BRep, wrong links of unique vertices are not bound) and of the truth value of ObjectValidity (no __bool__): C107_*_false. Proved: the exact table of what each class exposes, and that when all of it is empty the issues are exactly those of the named unbound lists (zero for the classes with nothing unbound)."
 ],
 "C108": [
  "partial",
  "False: no constructor is bound with keep_alive (C108_false). Proved: the exact histories that read a destroyed object, safety of the inspect_* functions, of programs that write each variable once and delete none, and of every program if keep_alive< 1, 2 > were added."
 ],
 "C109": [
  "auto",
  "External behaviour assumed: the search identifies vertices iff two points are near; the distance is symmetric; a walk visits the class of its starting element; facet comparison is insensitive to injective renaming."
 ],
 "C110": [
  "partial",
  "False of the code (C110_false). Proved instead: if a ray raises for a surface which has a polygon and cannot be a boundary, no issue about blocks is reported at all (C110_hidden_partial); rays which raise for any other surface change nothing, the lists are exact (C110_exact_partial)."
 ],
 "C111": [
  "auto",
  "Exact in both directions: C79-C82 without the hypothesis that the tests and walks raise nothing. In a BRep the triangle test never raises (C62), the walks around the vertices of the active Blocks may."
 ],
 "C112": [
  "partial",
  "C112_apart, C112_one_vertex and C112_adjacent are exact. In two different Surfaces, C112_adjacent_surfaces_partial asks that the point read for the second common vertex (at an index of the other Surface, see C57) is the right one: otherwise the claim is false in both directions (C112_false, for every exact geometry)."
 ],
 "C113": [
  "auto",
  "C113_found, C113_one_vertex_found: no miss. C113_apart, C113_one_vertex: exact. C113_adjacent: no false report. Triangles of a same plane are out of the claim: the answers of the external predicate for them are not specified (C105 tells how they are used)."
 ],
 "C114": [
  "partial",
  "False in the plane (C114_plane_false): an edge strictly inside an edge of a triangle is not reported. Exact in the plane in all cases: C114_plane_partial (edge not along an edge of the triangle), C114_plane_along_partial (along: reported iff it goes through a vertex), C114_plane_sound (no false report), C114_plane_list_partial (lists). Exact in the space for edges which are not in the plane of the triangle (C114_space, C114_space_list); C114_space_in_plane_partial tells what is done with those which are, when the external predicate calls them parallel."
 ],
 "C115": [
  "partial",
  "Proved when no edge is in the plane of a triangle of the fan (C115_edge, C115_list). Missing: edges in the plane of a triangle, for which the answer of the external predicate is not specified; when it is parallel, nothing is reported (C115_in_plane_partial), even if the edge crosses the polygon (C115_false)."
 ],
 "C116": [
  "auto",
  "C116_triangles: the test. C116_report: the list and the boolean of the whole model."
 ],
 "C117": [
  "auto",
  "Equivalence for surfaces; consequence of the verdict for surfaces, Sections and BReps."
 ],
 "C118": [
  "partial",
  "Proved up to cracks (ConformalButCracks); C118_false is a valid solid of seven tetrahedra with a crack."
 ],
 "C119": [
  "auto",
  "Consequence of the verdict, for Sections and BReps."
 ],
 "C120": [
  "partial",
  "Proved for BReps. Sections: false (C120_section_false: two Surfaces, one in the other, declared valid); proved that triangles with a common inside point are nested with at most one common vertex, for triangles of one Surface, or of two Surfaces with at most one common vertex."
 ],
 "C121": [
  "partial",
  "Proved for programs which touch the edges of a mesh only while no living inspector has enabled them. Missing: the others, for which it is false (C121_false: the edges enabled by the program after a query are disabled at the destruction of the inspector)."
 ],
 "C122": [
  "auto",
  "Assumes that the colocation search decides the colocation of two unique vertices from their points (`UniqueVerticesNear`) and, for BReps, that `is_point_inside_closed_surface` reads only the mesh it is given."
 ],
 "C123": [
  "auto",
  "Assumes what C79 and C82 assume, and that NO_ID is not the number of a unique vertex."
 ],
 "C124": [
  "partial",
  "False (C124_false): an inactive Surface of a Section without polygon switches off the comparison of embedded Lines with their Surfaces. Proved when the meshes keep their numbers of vertices, stay as empty, have edges (Surfaces: polygons) on the same unique vertices, and, in BReps, the inactive Surfaces keep their polygons and borders."
 ],
 "C125": [
  "partial",
  "False (C125_false): a face of the boundary may be inactive. Proved when the Lines and the Surfaces bounding the Block are active, and the wrong embeddings of the Lines can be described (C54)."
 ],
 "C126": [
  "partial",
  "False for the polygons (C126_polygons_false): nothing is looked for around a polygon without facet, a Surface may bound a Block which is not there. False for the facets when Surfaces are inactive (C126_facets_false). Proved for the facets when all Surfaces are active, all Blocks meshed, and the wrong embeddings of the Lines can be described (C54)."
 ],
 "C127": [
  "partial",
  "False for Sections (C127_section_false): the edges of the Lines are not compared with those of the Surfaces, the Line may bound another Surface only; proved: the edge is on a Line. False for BReps with inactive Lines (C127_brep_false); proved when the Lines are active and their wrong embeddings can be described (C54)."
 ],
 "C128": [
  "auto",
  "Both kinds of models, without restriction on the embeddings of Lines. The vertices of the edges, polygons and links are assumed to exist. Shown to apply to a translation of the plane with exact predicates."
 ],
 "C129": [
  "partial",
  "Proved for Sections whose inactive Surfaces have polygons (C129_section_partial) and for BReps without model boundary whose Blocks are alike in both parts (there are Blocks, meshed ones and empty ones in both or in none), when every embedding is read (C129_brep_partial). False otherwise: C129_section_false (an inactive Surface without polygon in one part hides a defect of the other), C129_brep_false (two valid BReps with model boundaries are invalid together, because all the model boundaries must be linked by Lines), C129_blocks_false (a closed Surface without Block is valid, unless there is a Block elsewhere)."
 ],
 "C130": [
  "auto",
  "No assumption on the model for the loops and for the stability of the result; C130_verdict assumes the guarantees of OpenGeode (BRepOk) to conclude that there is a verdict."
 ],
 "C131": [
  "auto",
  "The renaming is any bijection of uuids. OpenGeode's guarantees are assumed of the original model only: those of the renamed model are proved."
 ],
 "C132": [
  "partial",
  "Proved for BReps. For Sections it is proved when the Surfaces are renumbered in the same way (C132_section_partial) and false otherwise (C132_section_false): two adjacent triangles of two Surfaces become intersecting when the first two vertices of one of them exchange their numbers, the second common vertex being read in the first Surface by its number in the second one (C57)."
 ],
 "C133": [
  "auto",
  "Proved for Sections and BReps."
 ],
 "C134": [
  "partial",
  "Proved for all Sections. For BReps it is false (C134_brep_false): a Surface which is neither boundary nor internal is declared outside the Blocks from the barycentre of its polygon number 0 only, so a Surface crossing the boundary of a Block is accepted or not according to which polygon has this number. C134_brep_partial proves it when no Surface crosses the boundary of a Block (OnOneSide)."
 ],
 "C135": [
  "partial",
  "C135_boundary proves the part on boundary Surfaces. For the others it is false (C135_false): only the barycentre of the polygon number 0 is looked for in the Blocks, so a Surface that crosses a Block may be accepted. C135_apart_partial proves it of the polygon number 0, and C135_apart_whole_partial of all polygons when no Surface crosses the boundary of a Block."
 ],
 "C136": [
  "partial",
  "False (C136_false): an end of a Line at which no other Line is needs no Corner, as that of a Line which ends inside a Surface. C136_section_partial and C136_brep_partial prove that there is a Corner wherever two vertices of Lines are at the same place, C136_section_corners and C136_brep_corners_partial that Corners bound the Lines at their place. For BReps, no active Line is in a Block (otherwise the inspection of the Lines may end without result, C54)."
 ],
 "C137": [
  "partial",
  "C137_brep_partial proves it of the BReps for which the inspection of the Lines ends (not LinesUnreadable); otherwise it is false (C137_brep_false). It is false for Sections (C137_section_false: the vertices of the Lines are considered one by one, and those where two Lines meet are not compared with the Surfaces); C137_section_partial proves what holds at the vertices which are on one Line."
 ],
 "C138": [
  "partial",
  "C138_partial proves it of the BReps whose Blocks are all meshed, even if the inspection of the Lines is lost, except that a polygon may be on no facet (C126_polygons_false shows a Surface bounding a Block without being on it). C138_false: with a Block without polyhedra, even inactive, facets of Blocks unrelated to the Surface are accepted."
 ],
 "C139": [
  "auto",
  "Assumes that the Line edges found by OpenGeode between two unique vertices exist, and that adjacent polygons exist."
 ],
 "C140": [
  "partial",
  "False (C140_false): a triangle one edge of which is two Lines is declared valid, as a Section and as a BRep. C140_section_partial and C140_brep_partial prove that the ends of a common edge are at Corners which bound (or are internal to) both Lines, so only such edges can be repeated."
 ],
 "C141": [
  "auto",
  "C141_section, C141_brep (all BReps, those the Lines of which cannot be inspected included). CornersApart and the data of the Corners are enough to read the statement."
 ],
 "C142": [
  "auto",
  "C142_section, C142_brep (all BReps, those the Lines of which cannot be inspected included). Inactive Lines and Corners are accepted by the code, whatever their place."
 ],
 "C143": [
  "auto",
  "C143_brep (all BReps, those the Lines of which cannot be inspected included)."
 ],
 "C144": [
  "auto",
  "C144_brep (all BReps with meshed Blocks, those the Lines of which cannot be inspected included)."
 ],
 "C145": [
  "auto",
  "C145_section, C145_brep (all BReps). The vertices of active Lines have unique vertices unless the inspection of the Lines is lost (C54). Without the hypothesis on the polygons nothing is looked for in Sections (C124)."
 ],
 "C146": [
  "partial",
  "C146_section proves all of it of Sections, C146_brep_partial that of BReps but for Lines which are part of nothing; C146_false: a BRep with such a Line is accepted. The Lines of a BRep are shown meshed unless their inspection is lost (C54)."
 ],
 "C147": [
  "auto",
  "C147_section, C147_brep (all BReps). The exception for Corners internal to closed Lines, in the code, counts the vertices of the Corner and not those of the Line (C63), and a Corner with two vertices there is refused for another reason: it never applies."
 ],
 "C148": [
  "partial",
  "False: C148_section_false (the end of a Line internal to a Surface may be out of the Surface if a Line internal to nothing ends there and is stored before), C148_brep_false (a Line internal to a Block may be out of it: describing the defect raises an exception, which loses it, see C54). C148_section_partial proves it of the vertices where no Line internal to nothing is, C148_brep_partial of the BReps the wrong embeddings of which can be described."
 ],
 "C149": [
  "partial",
  "C149_section_partial and C149_brep_partial (all BReps) prove the first part; the second one is false: C149_section_false, C149_brep_false (a Corner out of the Surface or Block it is internal to is accepted)."
 ],
 "C150": [
  "proved",
  ""
 ],
 "C151": [
  "partial",
  "C151_section (all of them), C151_brep_partial (the BReps the wrong embeddings of the Lines of which can be described, see C54)."
 ],
 "C152": [
  "partial",
  "C152_blocks (all of them), C152_surfaces_partial (the BReps the wrong embeddings of the Lines of which can be described, see C54); C152_section_false: a valid Section with a Line bounding a Surface between two adjacent polygons of it."
 ],
 "C153": [
  "partial",
  "False: C153_brep_false and C153_section_false are a square of two adjacent triangles, valid with a Line inside it on its diagonal. C153_brep_partial: there are exactly two such edges in a BRep, both without adjacent polygon or adjacent to one another (BReps the wrong embeddings of the Lines of which can be described, see C54)."
 ]
}