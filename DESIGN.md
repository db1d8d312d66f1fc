# A Lean 4 model of OpenGeode-Inspector

The project under study is read as text from /repo (C++). Nothing of it is built or run. The model
is in `lean/Verif/Model`, small independent specifications in `lean/Verif/Spec`, helper lemmas in
`lean/Verif/Proofs`, and the property theorems, nothing else, in `lean/Verif/Props`. A property
`Cnn` of `properties.jsonl` is settled by the theorems named `Cnn_...`, listed in `MANIFEST.json`.

## Trusted base

* Lean 4.33.0 kernel. Axioms used by the theorems: at most `propext`, `Classical.choice`,
  `Quot.sound`; `AXIOMS.md` (written by `tools/axioms.py` from `#print axioms`) gives them theorem by theorem. No axiom is declared, nothing is left unproved, no
  `native_decide`/`bv_decide`.
* The reading of the C++ source into `lean/Verif/Model`: every definition cites the file and lines
  it models, and says what is simplified. `Model/Results.lean` and `Model/Validity.lean` were
  produced from the C++ text by a script and then re-read.
* The statements in `lean/Verif/Props` and the definitions of `lean/Verif/Spec`.

### Conventions of the model

* **External code** (OpenGeode meshes, BRep/Section queries, geometry predicates, colocation search,
  AABB tree, async++): functions that the inspector only *calls* are fields of a structure (`SurfaceMesh`,
  `SolidMesh`, `BRepView`, ...), universally quantified in the theorems. A hypothesis about them is
  explicit in the theorem that needs it. Nothing is assumed about floating point arithmetic: the
  inspector only compares doubles computed elsewhere (`Dbl`: NaN or a position in the IEEE order).
* **Loops** are folds or structural recursion over the same sequence as in C++.
* **Counters**: `index_t` is `UInt32`, `uint8` is `UInt8` wherever a wrap-around can be observed; plain
  indices are natural numbers.
* **Hash containers**: lookups are functions of the content; any function that *iterates* one takes
  the iteration order as a parameter or is proved order independent.
* **Exceptions** are `Except`/`Option` results; undefined behaviour is a distinct outcome.
* **Parallelism** (`async::parallel_invoke`, `async::spawn`, `parallel_for`, `when_all`): all tasks run, in an
  arbitrary order given by a schedule (a list of numbers, universally quantified); if some throw, one of their
  exceptions, arbitrarily chosen, is rethrown. Tasks write disjoint results; the one place where they share a container
  without lock (`emplace_back` in the intersections, C53) is modelled with three interleavable steps per call. Data
  races at the level of the memory model are not modelled.
* **While loops** whose termination is not structural take a bound on the iterations (`fuel`); theorems say that from
  some bound on the result is the stated one, so termination is part of what is proved.

### Hypotheses about external code, and where they are stated

Each one is an explicit hypothesis (a structure or definition of `lean/Verif/Spec`), never an axiom.

* `SearchOk`: the colocation search returns a mapping over the given points whose representatives are fixed points.
* `IsTraversal`, `TreeOk`, `ModelTreesOk`: an AABB tree traversal visits candidate pairs, each once, in any order, until
  it is asked to stop; the pairs that intersect are among the candidates; pairs of Surfaces given by the model tree are
  pairs of active Surfaces.
* `RuntimeOk`, `ModelRuntimeOk`: an iteration over a hash map visits every entry once; the exception rethrown by several
  tasks is one of theirs.
* `WellFormed`, `AroundWellFormed`, `CoherentLines`: uuids of a kind are distinct; a component mesh vertex of a unique
  vertex belongs to a component of the model; boundary and incidence relations of Lines and Surfaces are converse.
  Looking up an unknown uuid raises an `OpenGeodeException`.
* `EdgeFinder`: the graph query used for dangling Surfaces returns an edge between the given vertices, or none when there is none.
* `PositionsOk` (C57, C62, C83-C85, C105, and part of `MeshesOk` in C81, C82, C99 to C104): `position_to_index` of an edge or vertex position is in range.
* `CountsFit`, bounds `< 2 ^ 32`: sizes fit in the counters of the code. Where the bound can be exceeded by an actual
  input, a theorem shows what then goes wrong (C03, C25, C35, C51).
* `RejectsUndeclared`, `AcceptsInput` (C90, C91): what Abseil does with declared and undeclared options;
  `geode_lippincott` never returns 0 (C89).
* Reading the two vertices of an edge of an empty mesh, or `component_mesh_edges` of a vertex that is not linked, is
  undefined behaviour (a distinct outcome of the model, C64).

### What is not modelled

* Python bindings (they only name the classes), CMake, the `common.cpp` library registration, logging (`Logger`, except
  the one report printed by the tools), and the exact wording of the messages of the topology checks (kept shorter).
* OpenGeode itself: mesh data structures, geometry predicates, NNSearch, AABB trees, input and output of files.
* Memory model level data races, lifetimes other than those of the variables captured by spawned tasks (C106), and
  performance.

### Resistance to wrong programs

The model is mutated outside /verif by a script: one definition is edited as a bug would, the modules above it are rebuilt
and the theorems that no longer prove are collected. `seeded/LOG.jsonl` has one line per attempt. Conditions that the
C++ writes twice (in a boolean function and in the corresponding list function) are written twice in the model, so that a
bug in one of them is not hidden by sharing.

## Plan, property by property

* **C01** `Issues` is the object, `Issues.run` any history of calls; induction on the history. The two text forms are told apart by their first character (digit / `n`).
* **C02** `IssuesMap.addAll` over any list of additions; induction with a lookup invariant. Text under any iteration order.
* **C03** All result structures generated with their C++ field names; `nb_issues` as the 32 bits sum in the source order, `lists…` in `Spec/Results.lean` enumerates the declared fields. Counter-example at 2^32.
* **C04** False in the code: witness theorem, and the part that holds (`_partial`).
* **C05** False in the code: witness theorem, and the part that holds (`_partial`).
* **C06** `is_*_valid` modelled `if` by `if`; verdict compared with `Spec.VerdictInOrder`.
* **C07** Same for Section and BRep (BRep: texts up to permutation since Blocks lists are visited in another order).
* **C08** False for models because of C04/C05: witnesses, and exact characterisation (`_partial`); true for meshes.
* **C09** `colocated_points_groups` with the mapping of the colocation search as parameter; invariant of the bucket filling loop.
* **C10** Same parameters; the number of unique points is the number of classes of the mapping (hypothesis on NNSearch, stated).
* **C11** The filter loop modelled with its flag array; loop invariant on the flags.
* **C12** False in the code (off by one in the flag array): witness, and the part that holds for groups of at most 3 vertices / the characterisation of the output.
* **C13** Model of the `Impl` constructor and loops over unique vertices with arbitrary component mesh vertices, activity and `inexact_equal`.
* **C14** Model of `delete_vertices` renumbering (external, by its contract) and of the mapping back.
* **C15** `SurfaceMesh` view; list equal to the filter of the specification predicate over lexicographically ordered edges.
* **C16** Same for solids with `is_opposite` of oriented cycles.
* **C17** Model-level fold over active Surfaces, exceptions of `polygon_edge` unique vertices as `Except`.
* **C18** Model-level fold over active Blocks.
* **C19** Filters over `Range` with `<`/`<=` on `Dbl` (NaN never reported).
* **C20** Order lemmas on `Dbl` lifted to sublists.
* **C21** Boolean versions are separate loops; agreement under the stated meaning of the mesh predicate.
* **C22** State machine: edges flag of the mesh and flags of any number of live inspectors; invariant over every history.
* **C23** State machine over all the meshes of the model.
* **C24** Fold building the edge map with `UInt8` counters; relation with occurrence counts when < 256.
* **C25** False in the code (8 bits counter): witness mesh with 258 polygons around an edge; `_partial` below 256.
* **C26** Booleans and lists are separate loops over the same data.
* **C27** `polygons_around_vertex` (external, may throw) compared to the list of corners built by the code.
* **C28** Same for solids.
* **C29** Fold with the set of already checked edges.
* **C30** Fold building the facet map; counts up to rotation/reversal (`VertexCycle` as a quotient key function).
* **C31** Fold building the edge map over surfaces, then the final filter.
* **C32** Filters over `Range`, dimension as a parameter.
* **C33** AABB traversal = arbitrary list of visited pairs (external); action modelled; early stop semantics for the boolean. The polygon test (external) may raise: the exactness has "it answers on the candidates" as a hypothesis and C33_raises says what happens otherwise.
* **C34** Same.
* **C35** `polygon_fan_triangles` as list recursion.
* **C36** Tasks = arbitrary interleavings of per-pair results.
* **C37** False in the code: witness, and `_partial` when no active Surface is empty.
* **C38** Loops over unique vertices with arbitrary links.
* **C39** Filter over vertices.
* **C40** Per-vertex decision functions over an arbitrary model view; comparison of the boolean with the reports. False in one case: witness + `_partial`.
* **C41** Same for BRep corners.
* **C42** Same for Section lines.
* **C43** Same for BRep lines.
* **C44** Same for Section surfaces.
* **C45** Same for BRep surfaces.
* **C46** Same for BRep blocks.
* **C47** False in the code (early return): witness; `_partial` when every active line has an embedding.
* **C48** Work-list modelled with fuel = number of remaining surfaces; greatest fixpoint characterisation.
* **C49** Queue with skip counter as a well-founded recursion; connected components as reachability.
* **C50** Decision over the linked parts with arbitrary containment predicate; UB of `front()` on an empty queue as an outcome.
* **C51** Arithmetic over `UInt32`/`Nat`.
* **C52** Corollaries of the per-component folds.
* **C53** Permutations of task completions over a record of fields.
* **C54** Model of the `try`/`catch` of `inspect_*_topology`.
* **C55** `string()` of each result structure: generic lemma about the `if nb_issues then append` pattern.
* **C56** `string()` of mesh and model results: containment of each list text; false for BRep because of C04 (witness + `_partial`).
* **C57** `triangles_intersect` for two common vertices in 2D, with the wrong mesh of line 422 as written: false, three witnesses (false report, missed overlap, read out of bounds); `_partial` for one Surface, and the exact answer for two Surfaces.
* **C58** Composition of the traversal, of the fan triangulation and of the triangle test; exact set of pairs.
* **C59** Same for Lines and Surfaces in a BRep; hidden by an empty mesh (C37).
* **C60** Case of three common vertices of `triangles_intersect`.
* **C61** False: `NO_ID` is a common vertex. Witness, `_partial` without common vertex.
* **C62** `Except` version of the tests: no failure reachable in BReps; witness in Sections, and the exact condition for a failure.
* **C63** False: the count is on the Corner mesh. Proved for every BRep, `_partial` for the other Corners.
* **C64** False: witness reaching undefined behaviour; `_partial` when Lines are linked.
* **C65-C68, C70, C71, C75** One statement per list of the topology results: `Exactly`/`MapReports` of a predicate written in terms of the relations of the model.
* **C69** False: witnesses with inactive components; `_partial` for the other lists.
* **C72** The fused mesh of boundary Surfaces as a quotient by unique vertices; invariant of the filling loop.
* **C73** Decision over the ModelBoundaries; undefined behaviour without item.
* **C74** False: dead condition; `_partial` for the two others.
* **C76** Composition of the booleans of C40-C46.
* **C77, C78** Boolean against report, exceptions; witnesses and `_partial`.
* **C79, C80** The inspectors run on one mesh (`Model/Whole.lean`): end to end statements from the mesh to lists and to the verdict.
* **C81, C82** Same for Sections and BReps (`Model/WholeModel.lean`); false for BReps with a Line wrongly embedded in a Block, whose reports and verdict are still determined exactly.
* **C83, C84** `triangles_intersect` without or with one common vertex, and BRep triangles sharing an edge: equivalence with a position-only specification.
* **C85** False: nested triangles; `_partial` for crossing edges.
* **C86-C88** The tools as programs over a state (initialized libraries, printed texts) that may throw (`Model/Tools.lean`): contract determining the outcome of every run, then composition with C79 and C81.
* **C89-C91** False: exit code, documented options, shared extensions; witnesses and `_partial`.
* **C92** One message per issue, designating it (`SectionDesignates`, `BRepDesignates` in `Spec/TopologyMessages.lean`), for every list of the topology results.
* **C93-C95** The exact text of every message of the topology inspections is in the model; `Spec/TopologyMessages.lean` pairs each text with the facts it should state, by one inductive predicate per list. False for some texts: witnesses and `_partial`.
* **C96** `Told` (`Spec/MeshMessages.lean`): a list has its description, and its messages pair with its issues by a text predicate of its own; proved through the whole inspection of a mesh, from C53 and the loops that fill each list.
* **C97** `ToldMap`: same for each component of a Section or BRep, with the component named in the description.
* **C98** From the texts of C92, C96 and C97: a number followed by something else than a digit can be read back (`Proofs/Identify.lean`), hence equal messages have equal issues.
* **C99** `Spec/Plain.lean` says the defects of a Section or BRep on the fields of `ModelData` only (no view, no criterion input); `Proofs/Plain.lean` proves each view defect of C82 equivalent to a plain one. Exact for Sections; for BReps false in the same case as C82 (witness), the exact verdict being given in both cases.
* **C100** Corollary of C99: the plain defects do not mention the execution.
* **C101**, **C102** `Spec/SameLists.lean` compares two results list by list; lists specified by C79/C81 as *exactly* the elements with a property are equal (ordered ones) or permutations of one another, classes are unique up to order, maps have the same keys in the same order (`Proofs/SameLists.lean`).
* **C103** `Spec/Closed.lean` defines a closed boundary from sets only (pieces by reflexive-transitive closure of sharing a line, gluing by unique vertices, no part lists); `Proofs/Closed.lean` shows that the parts of C49 are these pieces and that fewer than two parts means all linked; C50 then gives the equivalence, which is invariant when lists are permuted. `C103_equal_boxes`: without the hypothesis on boxes the order matters.
* **C104** `Spec/Stored.lean` (`StoredOtherwise`): two models with permuted components and relationships. Each predicate of `Spec/Plain.lean` (C99) is shown invariant (`Proofs/Stored.lean`), so are the verdicts. BReps: false (`C104_brep_false`), partial theorem under readability of the embeddings (C54) and sound geometry (C103).
- **C105** (comparison of triangles, complete). Spec/TrianglesMeet.lean: the common vertices of two triangles as a relation
  (shared vertices of the first one in order, each with the first partner of the second one), and one clause per number
  of them. Proved for all triangles, repeated vertices included, by uniqueness of the relation and cases on its length.
  C99 and C104 are stated with these predicates, no longer with the test of the model.
- **C106** (lifetimes of captured variables). Model/Lifetimes.lean: the spawner as a list of steps (enter, spawn, leave,
  wait, return), tasks as lists of reads, a schedule as a list of threads; reading a dead variable is undefined. Proved
  by an invariant on the phase of the spawner; false for `enable_edges`, for any number of Surfaces.
- **C107** (Python view). `Model/Python.lean` models, class by class, the attributes and methods bound with pybind11
  (`bindings/python/src`), as a tree of attributes; `Spec/Python.lean` defines reading a path of attributes and `Silent`
  (every list that can be read is empty). Proved for each of the 26 bound classes: the exact table of attributes, and
  that a silent result has exactly the issues of its unbound lists. False for surfaces, solids, Sections, BReps (witness:
  inspection of a mesh with negative elements only) and for the truth value of `ObjectValidity`. pybind11 itself, the
  conversion of element types and assignments through `def_readwrite` are not modelled.
- **C108** (lifetimes in Python). `Model/PythonObjects.lean`: a Python program as a list of statements on numbered variables,
  with the objects ever created, the variables that name them, and reference counting; inspectors hold a bare C++ reference
  (36 constructors `pybind11::init< const X& >()`, none with `keep_alive`). False (four statements). Proved by induction on the
  program: the exact condition, and three families of safe programs. Other references (containers, exceptions, closures) and
  the garbage collector are not modelled.
* C109 (renumbering): `Spec/Renumber` says what it means for a mesh to be another one with other numbers (permutations
  of vertices, edges, polygons/polyhedra, turned polygons, reversed edges) and what a renumbered result is; the walks
  around vertices and edges are assumed to visit the class of the element they begin at, nothing being assumed on where
  they begin. Proved by transporting each defect through the permutations, then through C79/C80.
* C110 (a failure of the ray tracing hides the issues of the blocks; false): `is_point_inside_block`, called by
  `find_dangling_surfaces`, is a parameter which may raise; `RaysAnswer` (Spec/NotBoundarySurfaces) says that it does
  not for the surfaces it is called for, and is a hypothesis of the exact theorems about blocks (C46, C75, C77, C81,
  C82, C88, C95). Props/RayFailure gives the witness and the two general statements.
* C111 (`Props/Raises`): `SurfaceDataKnown`, `SectionKnown`, `SolidDataKnown`, `BRepKnown` are the hypotheses of C79-C82 without those saying that the external test or walk raises nothing.  If a candidate raises, `runTraversal`/`foldlM` propagate it (`Proofs/Raises`) and, all other criteria returning, the task rethrown is that one; otherwise C79-C82 apply.
* C112 (`Props/PlaneTriangles`): `ExactPlane` (`Spec/Plane`) states, over any ordered field, what exact predicates answer: it is an assumption on OpenGeode, shown to be satisfiable (`exactGeometry`).  `Proofs/Plane`: barycentric coordinates; a walk leaving a triangle crosses its border; two triangles which overlap and whose borders only meet at a common vertex are nested; collinear edges which meet have an end on which an edge of the other triangle turns, so that parallel answers hide no crossing; adjacent triangles overlap exactly when two free edges cross or a free vertex is in the other.  `Proofs/PlaneTriangles` connects this with C83 and C57.
* C113 (geometric meaning for the triangles of a BRep): the points of the space are triples over any ordered field, the predicate deciding whether a segment meets a triangle is a parameter, assumed exact (`ExactSpace`) only for segments which are not in the plane of the triangle; `exactSpaceGeometry` satisfies it. Proof: the line common to the two planes is directed by the cross product of the normals; following it from a common point it leaves the triangles through an edge which is not in the plane of the other one, hence a segment test sees it; barycentric coordinates are written with the normal. For one common vertex the same is done away from that vertex. Triangles of a same plane are out of the claim.
* C114, C115 (geometric meaning for edges of curves and Lines): same points as C112/C113; the assumptions on the external predicates are `ExactCrossing`, `ExactSpaceCrossing`, `SoundPoints`, all met by `exactPoint`, `exactSegments`, `exactSegmentTriangle`, `exactSpacePoint`. Plane: a segment through the interior of the triangle either has an end in the interior, or leaves it through an edge at a point which is not one of its ends, unless it joins two vertices; along an edge only the two other edges can see it, at their common vertex. Space: direct, the common point being unique. The lists follow from C34 and C59 when the trees give all the pairs with a common point.
* C116 (report on the triangles of a BRep, with their common part put aside): from C113 by cases on the common vertices (three of them would put the triangles in a same plane), and from C36 for the list; only the pair of triangles is assumed in general position, not the rest of the model.
* C117 (silent adjacency and manifold inspections mean an oriented manifold): the specification (`Spec/OrientedManifold.lean`) speaks of glued polygon edges and of corners reached by turning through glued edges, not of counts of uses; the equivalence is combinatorial (at most two uses of an edge + right adjacency = glued to exactly one, opposite). The walk of OpenGeode around a vertex is assumed to give the corners reached by turning, or to raise.
* C118 (the same for solids, up to cracks): same method with facets; `C118_false` is a conformal-looking solid of seven tetrahedra with one crack, declared valid; on BReps the crack must lie on a Surface (`C118_brep`).
* C119 (same unique vertex iff same place, in valid models): consequence of C82; the silent inspections of unique vertices, of their colocation, of bijectivity and of unlinked vertices are combined; `PlacesOk` says that the colocation search and the point comparison decide one equivalence relation, `LinksKept` that the unique vertex of a vertex lists it.
* C120 (no overlap of triangles in valid models): C82 + C119 (vertices with the same unique vertex are the common vertices of the triangles as sets of points) + C112 (plane) or C116 (space); examples are models over the rationals with exact primitives, two triangles of a Section and the four faces of a tetrahedron.
* C121 (edges managed by the program): histories of C22 with two more actions, `enable_edges()` and `disable_edges()` of a mesh by the program; the ghost `Asked` is what the program asked last; the invariant of C22 with this moving reference is preserved as long as the program does not touch a mesh in use.
* C122 (numbers of unique vertices): `withNumbers σ m` (Spec/Numbers) is the model with permuted numbers; each defect of C99 is shown to be transported by the permutation (`Moved` for the topology, `moveSurface` and `moveFused` for the intermediate structures), and the verdicts follow by C82 and C99.
* C123 (components alone): what C79 says of the lists of the inspection of a mesh is compared with the absence of defect given by C82 for a valid model; the defects of meshes are the same predicates but for the colocated vertices.
* C124 (inactive components): each disjunct of the plain defects of C99 is shown the same for two models related component by component, the active ones being equal; the counterexample is computed.
* C125 (closed boundary): the edge has an adjacent polygon (C18), or is on a Line (C18), around which the numbers of polygon edges are right and which is on another Surface of the boundary (C82); OpenGeode's searches by unique vertices are assumed exact.
* C126 (skin): the facet is on a polygon found by its unique vertices (C18), around which the numbers of facets are right (C82); both counterexamples are computed.
* C127 (border edges): as C126, one dimension lower; a Section does not count the edges around its Lines, hence the counterexample.
* C128 (other place): `PointsMoved` maps the points of a model, `AnswersFollow` says that the predicates answer alike on the points of the model; each disjunct of the plain defects (C99) is transported. The measures of the meshes (heights, signs, volumes) are those of the model, hence unchanged.
* C129 (two parts): `MadeOf` says that a model is made of two parts with nothing in common, `FarApart` that they are not near each other; each disjunct of the plain defects (C99) of the whole is a defect of one of the parts, and conversely. For BReps, `Sides` (Proofs/PartsBRep.lean) relates the topology of the whole and of a part; every criterion, up to the gathering of linked Surfaces and the fused mesh, is carried over it.
* C130 (rounds): explicit bounds on the fuel of the three `while` loops, by a measure which decreases at each round (distinct Surfaces of the remaining graph edges; length of the queue and skipped Surfaces), without any assumption on the model.
* C131 (uuids): `withIds ρ m` renames every uuid given to and answered by the model; each criterion of the plain specification (C99) and each guarantee of OpenGeode is transported along `ρ`, so both models have the same verdict.
* C132 (numbers of vertices): `withVertices σ m` gives other numbers to the vertices of each component; each criterion of the plain specification (C99) is transported along `σ`, and so are OpenGeode's guarantees (`Vertices.sectionOk`, `Vertices.brepOk`). Missing for Sections: different renumberings of two Surfaces, for which it is false (`C132_section_false`, by the defect of C57).
* C133 (edges of Lines): `withLineEdges τ turn m` gives other numbers and directions to the edges of each Line. The only reader of a given edge is the rule on the Surfaces around edge 0; if no edge of the Line is wrong by the rule on each edge, edge 0 is wrong exactly when a Surface both embeds the Line and is bounded by it (`LineEdges.firstEdge_iff`), which does not depend on the edge. The rest is transported as for C132.
* C134 (polygons, polyhedra and their edges): `withElements π ε m` gives them other numbers. Each defect is transported by the permutation of the elements of its mesh; an edge of a Surface interior to two Blocks is counted from the polygon of smaller number, so `Polygons.twice_moved` follows it to the other polygon of the pair when the order is reversed (no edge of the Surface being wrong or used three times, otherwise both verdicts are invalid already); a bad turn around an edge is bad from some polyhedron for any numbering (`Polygons.badTurn`, by C109's `TurnsAround`); the fusion of the Surfaces of a Block gets its polygons in another order (`Polygons.encloses`). For BReps `withElementsIn` also tells which polygon is looked for in the Blocks (the polygon number 0); `OnOneSide` says all polygons of a Surface are on the same side of each Block, and `C134_brep_false` (Props/PolygonsFalse.lean) is the counterexample without it.
* C135 (Surfaces and Blocks of a valid BRep): the exact verdict (C82) excludes `SurfaceWrongForBlocks` at the unique vertex of vertex 0 of each active Surface, which exists since the Surface is meshed and linked; unfolding it gives the closable set or its absence. `C135_false` reuses the model of `C134_brep_false`.
* C136 (Corners and Lines at the same place): C119 (`correspond`) turns places into unique vertices; at the common one, the exact verdict (C82) excludes `LinesWithoutCorner` and `CornerNotBoundaryOfLine` / `CornerNotOnLine`. `C136_false`: a triangle cut along a Line which ends at its centre.
* C137 (Lines on Surfaces): the exact verdict (C82) excludes `EdgeIsWrong` at each edge of an active Line; with the meaning of the searches of edges (`EdgesFound`) its first two cases give the number of edges of each active Surface on it. Counterexamples: the exchanged Lines of `C127_section_false`, and a BRep whose Line inspection is lost (C54).
* C138 (Surfaces on Blocks): the exact verdict, in both cases of C82, excludes `FacetIsWrong` at each polygon of an active Surface when all Blocks are meshed; with the meaning of the searches of facets (`PolygonsFound`) it gives the number of facets of each active Block on it, or none. Counterexample: the tetrahedron whose faces are told to bound another Block, inactive and without polyhedra.
* C139 (polygons meet along Lines): a border edge of a Surface without wrong border edges is on a Line; an interior edge without wrong adjacency has a side counted in `interiorUses`, whose length is less than 2 in a valid BRep (in both cases of C82).
* C140 (repeated Lines): C136 applied to both ends of the common edge; counterexample: the triangle with a Line repeated.
* C141 (Corners apart): C82 excludes a unique vertex with two Corners or with a Corner alone; by the correspondence of C132 the vertices at one place have one unique vertex.
* C142 (Surfaces meet): as C141, from the absence of a unique vertex with several Surfaces and neither Line nor internal Corner (BReps) or with two Surfaces and no Line bounding both (Sections).
* C143 (Blocks meet), C144 (internal Surfaces): as C142, from the criteria on the Blocks and on the embedded Surfaces at each unique vertex, and from the correspondence of places and unique vertices.
* C145 (Surfaces cut along Lines): as C142, from the criterion on the borders at each unique vertex.
* C146 (meshed components): read off C82 and the links kept; the free Line of a BRep is shown to be accepted by running the model.
* C147 (Corners on Lines): C136, without its hypothesis on the embeddings of Lines, and with internal Corners excluded: two links of a
  Corner with a unique vertex are reported as several Corners.
* C148 (internal Lines): from the criterion on embedded Lines at each unique vertex, and C119; counterexamples by running the model.
* C149 (internal Corners): from the criteria on Corners at each unique vertex; counterexamples by running the model.
* C150 (cut Blocks): from the criterion on the number of block vertices at each unique vertex, with no Line counted there; each list of
  vertices at the unique vertex is identified with the vertices at the place (C142 and following).
* C151 (borders and Lines): from C127 (border edges are on Lines) and C145 (Surfaces are cut along Lines), with what OpenGeode tells
  border vertices.
* C152 (meshes separated): the adjacent element would have another edge or facet at the same place (no wrong adjacency), which C137 and
  C138 exclude.
  Sections: false (`C152_section_false`).
* C153 (Surfaces cut along internal Lines): false, by the square of two triangles with a Line on its diagonal, which both checks accept;
  partial: C137 counts two edges at the Line, and no adjacency is wrong, so the two are adjacent to one another or both free.

## Disagreements between the code and the properties (findings)

Each is a theorem with a concrete model or mesh, and is also described in the notes of `MANIFEST.json`.

* C04, C55, C56: `BRepSurfacesTopologyInspectionResult` neither counts nor prints `surface_polygons_with_wrong_component_facets_around`.
* C05, C08: `SectionLinesTopologyInspectionResult::nb_issues` omits `unique_vertices_linked_to_several_lines_but_not_linked_to_a_corner`; hence a model can be invalid with zero issues.
* C12: the filter of colocated groups keeps two vertices with the same unique vertex in an alternating group of four.
* C25: the number of polygons around an edge is counted on 8 bits; with 258 polygons the edge is not reported.
* C35: a polygon of 257 vertices is split into no triangle (8 bits range), its intersections are not seen.
* C37, C59: one active Surface (Line) with an empty mesh makes the intersection criterion return nothing.
* C40, C41: the boolean rejects a Corner embedded once with several incidences, no list reports it.
* C46: `brep_blocks_topology_is_valid` tests two of the five vertex criteria.
* C47: the check of embedded Lines stops at the first Line without embedding.
* C51: the announced number of vertices wraps below zero.
* C53: intersections of pairs of Surfaces are appended by tasks without lock.
* C54, C82: an exception in a topology task empties that part of the result; a wrong embedding of a Line in a Block raises one (exactly characterised by `LinesUnreadable`, `Spec/Topology.lean`), so that all the defects of Lines are hidden and the BRep may be declared valid.
* C106: `enable_edges`, local to a loop body, is captured by reference by tasks that may run after it is destroyed
  (component_meshes_degeneration.cpp:95-101).
* C107: the Python bindings expose neither the negative elements, nor the non manifold facets of a BRep, nor the wrong links of
  unique vertices; `ObjectValidity` has no `__bool__`, hence is always true in Python.
* C108: no Python constructor of an inspector keeps the inspected object alive.
* C110: an OpenGeode exception of the ray tracing in `find_dangling_surfaces` is swallowed by
  `inspect_brep_topology`, whose result then has no issue about blocks at all.
* C114: in the plane, an edge of a curve strictly inside an edge of a triangle is not reported: the segments are aligned, so that
  `segment_segment_intersection_detection` answers parallel, which `edge_intersects_triangle<2>` ignores (the space version has a
  branch for parallel segments).
* C118: a crack of a solid (a facet common to two polyhedra, neither adjacent to the other) is not reported: `C118_false`.
* C120: a Section of two Surfaces, one inside the other, is declared valid: `C120_section_false`.
* C121: an inspector which has enabled the edges of a mesh disables them at its destruction even if the program asked for them in between: `C121_false`.
* C124: `section_surfaces_are_meshed` and `brep_blocks_are_meshed` (topology_helpers.cpp:39-61) count the inactive components: one inactive Surface (Block) without polygon (polyhedron) hides the wrong embeddings of all the active Lines (`C124_false`).
* C126: the checks around a polygon only look at the facets found on it (brep_surfaces_topology.cpp): a closed set of Surfaces bounding a Block without any facet of the Block on them is accepted (`C126_polygons_false`).
* C127: in Sections nothing relates the Line found on a border edge to its Surface: two Lines may exchange their Surfaces (`C127_section_false`); BReps are checked (brep_lines_topology.cpp).
* C129: two BReps which are valid and have nothing in common are invalid together when they have model boundaries: `brep_boundaries_are_closed` follows the Surfaces of all model boundaries from one of them, and reports the Surfaces it has not reached. In a Section, an inactive Surface without polygon in one part hides a defect of the other part (topology_helpers.cpp:51-61). The faces of a tetrahedron without Block are a valid BRep, but not beside a Block (`inspect_blocks` returns at once without active Block).
* C134: `find_dangling_surfaces` (brep_blocks_topology.cpp:246-276) looks for the barycentre of the polygon number 0 only: whether a Surface which crosses a Block without relation with it is reported depends on the numbers of its polygons.
* C136: the end of a Line at which no other Line is needs no Corner (`vertex_has_lines_but_is_not_a_corner` counts the Lines).
* C137: in a Section, a Line may bound a Surface without being on its border (`section_lines_topology.cpp` considers vertices, not edges).
* C138: one Block without polyhedra, even inactive, disables the comparison of the polygons of all Surfaces with the facets of all Blocks.
* C140: a Line may be repeated between the same Corners: neither the Lines at a Corner nor their edges are compared with each other.
* C146: a Line which is part of nothing is accepted in a BRep, as it is not in a Section.
* C148: a Line which leaves the Surface it is internal to, or is out of the Block it is internal to, may be accepted.
* C149: a Corner out of the Surface or Block it is internal to is accepted (compare C144, C148: Surfaces and Lines are looked for).
* C152, C153: a Line may be on an edge which two adjacent polygons of the Surface share: neither check compares the adjacencies of a
  Surface with the Lines inside it, and the check of Sections does not with those bounding it.
* C57: the second common point is read in the wrong mesh (false report, missed overlap, or read out of bounds).
* C61: vertices without unique vertex are taken for common vertices, such triangles are always reported.
* C62: a degenerated triangle of a Section makes the inspection throw.
* C63: a Corner internal to a closed Line is always reported.
* C64: the surroundings of an unlinked Line are read (undefined behaviour).
* C69: inactive Surfaces are in the reports of their vertices.
* C73: ModelBoundaries without items: `front()` of an empty queue.
* C74: the condition on embedded Surfaces is never reached.
* C77, C78: the topology boolean disagrees with the report, and throws where the report does not.
* C85: a triangle of a Section inside another one is not reported.
* C89: the tools return 0 for invalid objects. C90: the documented `--noXXX` options are not declared. C91: only the first kind of reader registered for an extension is tried.
* C93: "multiple Lines" said of one closed Line, "mutiple Surfaces" of one Surface, "inexistant mesh vertex" of a vertex linked elsewhere. C94: the number of vertices of the Corner is printed as that of the Line; some messages on edges do not tell the edge. C95: "internal to Surfaces" said of a Corner embedded in Blocks; a negative number printed as 4294967294.
* Not a theorem: the degeneration of the edges of Blocks is not looked for in BReps (`inspect_edges_degeneration`, by design or oversight); one open boundary part is declared closed (C50).
