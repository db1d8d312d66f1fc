import Verif.Proofs.Identify
import Verif.Props.MeshMessages
import Verif.Props.MeshMessagesModel
import Verif.Props.TopologyMessages
/-
Property C98: the messages of a list tell its issues apart.
-/
namespace Inspector
open Spec
variable {P : Type}

/-- **C98** (point sets). -/
theorem C98_point_set (lib : Library P) (points : List P) (r : PointSetInspectionResult)
    (h : inspectPointSetMesh lib points = .ok r) : ToldApart r.colocated_points_groups :=
  toldApart_told (identifies_colocated lib points) (C96_point_set lib points r h)

/-- **C98** (curves). -/
theorem C98_edged_curve (lib : Library P) (rt : Runtime) (hrt : RuntimeOk rt) (mesh : CurveData P)
    (r : EdgedCurveInspectionResult) (h : inspectCurveMesh lib rt mesh = .ok r) : CurveToldApart r :=
  have hm := C96_edged_curve lib rt hrt mesh r h
  ⟨toldApart_told (identifies_colocated lib _) hm.colocation, toldApart_told (identifies_curveEdge mesh) hm.edges⟩

theorem identifies_polygonsIntersect : Identifies id fun (x : ElementPair) t =>
    t = "Polygons " ++ toString x.1 ++ " and " ++ toString x.2 ++ " intersect" := by
  intro x y t hx hy
  have h := hx.symm.trans hy
  simp only [String.append_assoc] at h
  obtain ⟨h1, h2⟩ := two_numbers ⟨' ', rfl, by decide⟩ (noDigit_of ⟨' ', rfl, by decide⟩)
    (noDigit_of ⟨' ', rfl, by decide⟩) h
  exact Prod.ext h1 h2

/-- **C98** (surfaces). -/
theorem C98_surface (dimension : Nat) (lib : Library P) (rt : Runtime) (hrt : RuntimeOk rt) (mesh : SurfaceData P)
    (r : SurfaceInspectionResult) (h : inspectSurfaceMesh dimension lib rt mesh = .ok r) : SurfaceToldApart mesh r :=
  have hm := C96_surface dimension lib rt hrt mesh r h
  { adjacency := toldApart_told identifies_polygonEdge hm.adjacency
    colocation := toldApart_told (identifies_colocated lib _) hm.colocation
    edges := toldApart_told (identifies_smallEdge lib _ _) hm.edges
    polygons := toldApart_told (identifies_last _) hm.polygons
    manifoldEdges := toldApart_told (identifies_surfaceEdge _) hm.manifoldEdges
    manifoldVertices := toldApart_told (identifies_vertex lib _) hm.manifoldVertices
    intersecting := toldApart_told identifies_polygonsIntersect hm.intersecting
    negative := toldApart_told (identifies_last _) hm.negative }

/-- **C98** (solids). -/
theorem C98_solid (lib : Library P) (rt : Runtime) (hrt : RuntimeOk rt) (mesh : SolidData P)
    (r : SolidInspectionResult) (h : inspectSolidMesh lib rt mesh = .ok r) : SolidToldApart mesh r :=
  have hm := C96_solid lib rt hrt mesh r h
  { adjacency := toldApart_told identifies_polyhedronFacet hm.adjacency
    colocation := toldApart_told (identifies_colocated lib _) hm.colocation
    edges := toldApart_told (identifies_smallEdge lib _ _) hm.edges
    polyhedra := toldApart_told (identifies_last _) hm.polyhedra
    manifoldVertices := toldApart_told (identifies_vertex lib _) hm.manifoldVertices
    manifoldEdges := toldApart_told (identifies_solidEdge _) hm.manifoldEdges
    manifoldFacets := toldApart_told identifies_solidFacet hm.manifoldFacets
    negative := toldApart_told (identifies_last _) hm.negative }

theorem vertices_apart {s : Issues Index} (h : Explained s DesignatesVertex) : ToldApart s :=
  toldApart_of identifies_designated h

theorem meshVertices_apart {map : IssuesMap Index} {d : Uuid → String} (h : ExplainedMap map d GivesMeshVertex) :
    ToldApartMap map := fun e he => toldApart_of (identifies_meshVertex e.1) (h e he).2

/-- **C98** (topology of Sections). -/
theorem C98_section_topology (m : TopologyModel) (choose : List Failure → Failure) (schedule : List Nat)
    (r : SectionTopologyInspectionResult) (h : inspectSectionTopology m choose schedule = .ok r) :
    SectionTopologyToldApart r := by
  obtain ⟨⟨_, c1, c2, c3, c4, c5⟩, ⟨_, l1, l2, l3, l4, l5⟩, ⟨_, s1, s2, s3⟩, k1, k2, k3⟩ :=
    C92_section_messages_designate m choose schedule r h
  exact ⟨⟨meshVertices_apart c1, vertices_apart c2, vertices_apart c3, vertices_apart c4, vertices_apart c5⟩,
    ⟨meshVertices_apart l1, vertices_apart l2, vertices_apart l3, vertices_apart l4, vertices_apart l5⟩,
    ⟨meshVertices_apart s1, vertices_apart s2, vertices_apart s3⟩,
    ⟨vertices_apart k1, vertices_apart k2, vertices_apart k3⟩⟩

/-- **C98** (topology of BReps). -/
theorem C98_brep_topology (m : TopologyModel) (hit : ∀ map, (m.iterate map).Perm map) (o : BlocksOracle)
    (fuel : Nat) (choose : List Failure → Failure) (schedule : List Nat) (r : BRepTopologyInspectionResult)
    (h : inspectBRepTopology m o fuel choose schedule = .ok r) : BRepTopologyToldApart r := by
  obtain ⟨⟨_, c1, c2, c3, c4, c5⟩, ⟨_, l1, _, l2, l3, l4, l5⟩, ⟨_, s1, _, s2, s3, s4⟩,
    ⟨_, b1, _, _, b2, b3, b4, b5, b6⟩, k1, k2, k3⟩ := C92_brep_messages_designate m hit o fuel choose schedule r h
  exact ⟨⟨meshVertices_apart c1, vertices_apart c2, vertices_apart c3, vertices_apart c4, vertices_apart c5⟩,
    ⟨meshVertices_apart l1, vertices_apart l2, vertices_apart l3, vertices_apart l4, vertices_apart l5⟩,
    ⟨meshVertices_apart s1, vertices_apart s2, vertices_apart s3, vertices_apart s4⟩,
    ⟨meshVertices_apart b1, vertices_apart b2, vertices_apart b3, vertices_apart b4, vertices_apart b5,
      vertices_apart b6⟩,
    ⟨vertices_apart k1, vertices_apart k2, vertices_apart k3⟩⟩

theorem lineTold_apart {α : Type} {m : ModelData P} {ending : String} {claim : LineData P → α → String → Prop}
    (hc : ∀ l, Identifies id (claim l)) {i : Uuid} {s : Issues α} (h : LineTold m ending claim i s) : ToldApart s := by
  obtain ⟨l, _, _, _, h⟩ := h; exact toldApart_told (hc l) h

theorem faceTold_apart {α : Type} {m : ModelData P} {ending : String} {claim : FaceData P → α → String → Prop}
    (hc : ∀ l, Identifies id (claim l)) {i : Uuid} {s : Issues α} (h : FaceTold m ending claim i s) : ToldApart s := by
  obtain ⟨l, _, _, _, h⟩ := h; exact toldApart_told (hc l) h

theorem volumeTold_apart {α : Type} {m : ModelData P} {ending : String} {claim : VolumeData P → α → String → Prop}
    (hc : ∀ l, Identifies id (claim l)) {i : Uuid} {s : Issues α} (h : VolumeTold m ending claim i s) : ToldApart s := by
  obtain ⟨l, _, _, _, h⟩ := h; exact toldApart_told (hc l) h

/-- **C98** (meshes of Sections). -/
theorem C98_section_meshes (lib : ModelLibrary P) (rt : ModelRuntime) (hrt : ModelRuntimeOk rt) (m : ModelData P)
    (hm : MeshesOk lib m) (hk : KnownTypes false (m.uniqueVertices lib))
    (ho : ∀ ss ∈ m.overlappingSurfaces, ss.1 ∈ m.surfaces ∧ ss.2 ∈ m.surfaces) (r : SectionMeshesInspectionResult)
    (h : inspectSectionMeshesOf lib rt m = .ok r) : SectionMeshesToldApart r :=
  have hr := C97_section lib rt hrt m hm hk ho r h
  { uniqueVertices := ⟨toldApart_told (identifies_uniqueColocated lib m) hr.uniqueVertices.colocated,
      toldApart_told identifies_differentPoints hr.uniqueVertices.points⟩
    colocation := fun e he => (hr.colocation.2 e he).elim
      (lineTold_apart fun _ => identifies_componentColocated lib _ _ _)
      (faceTold_apart fun _ => identifies_componentColocated lib _ _ _)
    adjacency := fun e he => faceTold_apart (identifies_modelPolygonEdge m) (hr.adjacency.2 e he)
    polygons := fun e he => faceTold_apart (fun _ => identifies_last _) (hr.polygons.2 e he)
    manifoldVertices := fun e he => faceTold_apart (fun _ => identifies_vertex _ _) (hr.manifoldVertices.2 e he)
    manifoldEdges := fun e he => faceTold_apart (fun _ => identifies_surfaceEdge _) (hr.manifoldEdges.2 e he)
    negative := fun e he => faceTold_apart (fun _ => identifies_last _) (hr.negative.2 e he) }

/-- **C98** (meshes of BReps). -/
theorem C98_brep_meshes (lib : ModelLibrary P) (rt : ModelRuntime) (hrt : ModelRuntimeOk rt) (m : ModelData P)
    (hm : MeshesOk lib m) (hk : KnownTypes true (m.uniqueVertices lib))
    (ho : ∀ ss ∈ m.overlappingSurfaces, ss.1 ∈ m.surfaces ∧ ss.2 ∈ m.surfaces) (r : BRepMeshesInspectionResult)
    (h : inspectBRepMeshesOf lib rt m = .ok r) : BRepMeshesToldApart r :=
  have hr := C97_brep lib rt hrt m hm hk ho r h
  { uniqueVertices := ⟨toldApart_told (identifies_uniqueColocated lib m) hr.uniqueVertices.colocated,
      toldApart_told identifies_differentPoints hr.uniqueVertices.points⟩
    colocation := fun e he => (hr.colocation.2 e he).elim
      (lineTold_apart fun _ => identifies_componentColocated lib _ _ _)
      (fun h => h.elim (faceTold_apart fun _ => identifies_componentColocated lib _ _ _)
        (volumeTold_apart fun _ => identifies_componentColocated lib _ _ _))
    adjacency := fun e he => faceTold_apart (identifies_modelPolygonEdge m) (hr.adjacency.2 e he)
    facetsAdjacency := fun e he => volumeTold_apart (identifies_modelFacet lib m) (hr.facetsAdjacency.2 e he)
    polygons := fun e he => faceTold_apart (fun _ => identifies_last _) (hr.polygons.2 e he)
    polyhedra := fun e he => volumeTold_apart (fun _ => identifies_last _) (hr.polyhedra.2 e he)
    manifoldVertices := fun e he => (hr.manifoldVertices.2 e he).elim
      (faceTold_apart fun _ => identifies_vertex _ _) (volumeTold_apart fun _ => identifies_vertex _ _)
    manifoldEdges := fun e he => (hr.manifoldEdges.2 e he).elim
      (faceTold_apart fun _ => identifies_surfaceEdge _) (volumeTold_apart fun _ => identifies_solidEdge _)
    manifoldFacets := fun e he => volumeTold_apart (fun _ => identifies_solidFacet) (hr.manifoldFacets.2 e he)
    modelEdges := toldApart_told (identifies_modelEdges lib m) hr.modelEdges
    modelFacets := toldApart_told (identifies_modelFacets lib m) hr.modelFacets
    negative := fun e he => volumeTold_apart (fun _ => identifies_last _) (hr.negative.2 e he) }

/-- two short edges -/
example : ∃ r, inspectCurveMesh (exampleLibrary fourPoints) exampleRuntime (exampleCurveData [10, 10, 10, 30]) = .ok r ∧
    CurveToldApart r ∧
    r.degenerated_edges.messages = ["degenerated edge 0, at position []", "degenerated edge 1, at position []"] :=
  ⟨_, rfl, C98_edged_curve (exampleLibrary fourPoints) _ exampleRuntime_ok (exampleCurveData [10, 10, 10, 30]) _ rfl,
    by decide +kernel⟩

/-- a vertex without component -/
example : ∃ r, inspectSectionTopology wrongLinks.toModel rethrowFirst [] = .ok r ∧ SectionTopologyToldApart r ∧
    r.unique_vertices_not_linked_to_any_component.messages = ["unique vertex 0 is not linked to any mesh vertex."] :=
  ⟨_, rfl, C98_section_topology wrongLinks.toModel rethrowFirst [] _ rfl, by decide +kernel⟩

example : ∃ r, inspectBRepMeshesOf modelLibrary modelRuntime (exampleModel tetrahedronBRep (10 * ·) .negative) = .ok r ∧
    BRepMeshesToldApart r ∧ r.meshes_negative_elements.negative_polyhedra.entries.map (fun e => e.2.messages) =
      [["negative polyhedron 0"]] :=
  ⟨_, rfl, C98_brep_meshes modelLibrary _ modelRuntime_ok (exampleModel tetrahedronBRep (10 * ·) .negative)
    (tetrahedronBRep_ok .negative).meshes
    (tetrahedronBRep_ok .negative).types (fun _ h => (by cases h)) _ rfl, by decide +kernel⟩

/-- short edges between the same vertices are not told apart -/
example : ∃ (lib : Library Nat) (points : List Nat) (edgeVertices : Index → Index × Index) (e f : Index) (t : String),
    SmallEdgeSays lib points edgeVertices e t ∧ SmallEdgeSays lib points edgeVertices f t ∧ e ≠ f :=
  ⟨exampleLibrary fourPoints, [], fun _ => (0, 1), 0, 1, _, rfl, rfl, by decide⟩

end Inspector
