import Verif.Proofs.MeshMessagesModel
import Verif.Props.WholeModel
/-
Property C97: descriptions and messages of the inspection of the meshes of Sections and BReps.
-/
namespace Inspector
open Spec
variable {P : Type}

theorem orFail_ok {α : Type} {o : Option α} {x : α} (h : orFail o = .ok x) : o = some x := by
  cases o with
  | none => cases h
  | some y => obtain rfl := Except.ok.inj h; rfl

theorem colocation_result {o : Option (IssuesMap (List Index))} {r : MeshesColocationInspectionResult}
    (h : orFail (o.map fun map => ({ colocated_points_groups := map } : MeshesColocationInspectionResult)) = .ok r) :
    o = some r.colocated_points_groups := by
  cases o with
  | none => cases h
  | some y => obtain rfl := Except.ok.inj h; rfl

/-- **C97** (Sections). -/
theorem C97_section (lib : ModelLibrary P) (rt : ModelRuntime) (hrt : ModelRuntimeOk rt) (m : ModelData P)
    (hm : MeshesOk lib m) (hk : KnownTypes false (m.uniqueVertices lib))
    (ho : ∀ ss ∈ m.overlappingSurfaces, ss.1 ∈ m.surfaces ∧ ss.2 ∈ m.surfaces) (r : SectionMeshesInspectionResult)
    (h : inspectSectionMeshesOf lib rt m = .ok r) : SectionMeshesMessages lib m r := by
  unfold inspectSectionMeshesOf at h
  obtain ⟨h1, h2, h3, h4, h5, h6, h7⟩ := ((C53_section_meshes_partial rt.choose hrt.choose rt.meshesSchedule _).1 r).1 h
  simp only [] at h1 h2 h3 h4 h5 h6 h7
  have h3 := Except.ok.inj h3
  have h4 := Except.ok.inj h4
  have h7 := Except.ok.inj h7
  unfold inspectSectionManifold at h6
  simp only [] at h6
  split at h6
  · cases h6
  rename_i vertices hv
  have h6 := Except.ok.inj h6
  exact
    { uniqueVertices := uniqueVertices_told false lib m hk hm.uniqueVertices (orFail_ok h1)
      colocation := by
        have h2 := colocation_result h2
        unfold inspectMeshesPointColocationsSection at h2
        simp only [] at h2
        refine componentsColocation_told lib "Surface " _ m.surfacePoints ?_ ?_ ?_ h2
        · intro m0 h0
          refine componentsColocation_told lib "Line " _ m.linePoints ?_ ?_ ?_ h0
          · intro m1 h1; obtain rfl := Option.some.inj h1; exact toldMap_new _ _
          · intro c hc _
            obtain ⟨l, hl, rfl⟩ := List.mem_map.1 hc
            exact (hm.lines l hl).search
          · intro c hc ha s hs
            obtain ⟨l, hl, rfl⟩ := List.mem_map.1 hc
            exact Or.inl ⟨l, hl, ha, rfl, hs⟩
        · intro c hc _
          obtain ⟨l, hl, rfl⟩ := List.mem_map.1 hc
          exact (hm.surfaces l hl).1
        · intro c hc ha s hs
          obtain ⟨l, hl, rfl⟩ := List.mem_map.1 hc
          exact Or.inr ⟨l, hl, ha, rfl, hs⟩
      adjacency := h3 ▸ addSurfacesEdges_told m (toldMap_new _ _)
      edges := h4 ▸ addSmallEdges_told lib m (toldMap_new _ _) (fun _ _ h => Or.inl h) (fun _ _ h => Or.inr h) _
      polygons := h4 ▸ addSmallHeightPolygons_told lib m (toldMap_new _ _) _
      intersections := intersections_told_section m lib ho h5
      manifoldVertices := h6 ▸ surfacesVertices_told m lib (toldMap_new _ _) (fun _ _ h => h) hv
      manifoldEdges := h6 ▸ surfacesEdges_told m lib _ hrt.surfaceEdges (toldMap_new _ _) (fun _ _ h => h)
      negative := by
        rw [← h7]
        refine toldMap_foldl _ _ _ _ (toldMap_new _ _) fun s hs => ?_
        obtain ⟨h1, h2⟩ := List.mem_filter.1 hs
        obtain ⟨f, hf, rfl⟩ := List.mem_map.1 h1
        exact ⟨f, hf, h2, rfl, told_setDescription _ (negativePolygons_told _ _)⟩ }

/-- **C97** (`inspect_surfaces_self_intersections`, Sections and BReps). -/
theorem C97_self_intersections (m : ModelData P) (lib : ModelLibrary P) (brep : Bool)
    (ho : ∀ ss ∈ m.overlappingSurfaces, ss.1 ∈ m.surfaces ∧ ss.2 ∈ m.surfaces)
    (r : ElementsIntersectionsInspectionResult)
    (h : inspectSurfacesSelfIntersections (m.intersections lib brep) = .ok r) :
    Told r.elements_intersections "intersections" (SelfIntersectsSays m) :=
  selfIntersections_told m lib brep ho h

/-- a triangle drawn twice in a surface -/
def doubledModel : ModelData Nat where
  __ := exampleModel triangleSection (10 * ·) .positive
  surfaces := (exampleModel triangleSection (10 * ·) .positive).surfaces.map fun s =>
    { s with
      nbPolygons := 2
      label := "fault" }
  selfTree _ _ := [(0, 1)]

example : (∀ ss ∈ doubledModel.overlappingSurfaces, ss.1 ∈ doubledModel.surfaces ∧ ss.2 ∈ doubledModel.surfaces) ∧
    ∃ r, inspectSurfacesSelfIntersections (doubledModel.intersections modelLibrary false) = .ok r ∧
      r.elements_intersections.messages = ["Surface fault has a self intersection on polygons 0and 1"] :=
  ⟨fun _ h => (by cases h), _, rfl, by decide +kernel⟩

/-- **C97** (BReps). -/
theorem C97_brep (lib : ModelLibrary P) (rt : ModelRuntime) (hrt : ModelRuntimeOk rt) (m : ModelData P)
    (hm : MeshesOk lib m) (hk : KnownTypes true (m.uniqueVertices lib))
    (ho : ∀ ss ∈ m.overlappingSurfaces, ss.1 ∈ m.surfaces ∧ ss.2 ∈ m.surfaces) (r : BRepMeshesInspectionResult)
    (h : inspectBRepMeshesOf lib rt m = .ok r) : BRepMeshesMessages lib m r := by
  unfold inspectBRepMeshesOf at h
  obtain ⟨h1, h2, h3, h4, h5, h6, h7⟩ := ((C53_brep_meshes_partial rt.choose hrt.choose rt.meshesSchedule _).1 r).1 h
  simp only [] at h1 h2 h3 h4 h5 h6 h7
  have h3 := Except.ok.inj h3
  have h4 := Except.ok.inj h4
  have h7 := Except.ok.inj h7
  unfold inspectBRepManifold at h6
  simp only [] at h6
  split at h6
  · cases h6
  rename_i vertices hv
  split at h6
  · cases h6
  rename_i vertices' hv'
  split at h6
  · cases h6
  rename_i edges he
  have h6 := Except.ok.inj h6
  have hsolid := addSolidSmall_told lib m
    (maps := (addSmallEdges (m.degeneration lib) lib.eps (IssuesMap.new "degenerated edges"),
      IssuesMap.new "degenerated polyhedra"))
    (told := fun id s =>
      LineTold m " small edges" (fun l => CurveEdgeSays l.toCurveData) id s ∨
      FaceTold m " small facet edges" (fun f => SmallEdgeSays lib.toLibrary f.points f.edgeVertices) id s ∨
      VolumeTold m " small edges polyhedra" (fun b => SmallEdgeSays lib.toLibrary b.points b.edgeVertices) id s)
    (addSmallEdges_told lib m (toldMap_new _ _) (fun _ _ h => Or.inl h) (fun _ _ h => Or.inr (Or.inl h)) _)
    (fun _ _ h => Or.inr (Or.inr h)) (toldMap_new _ _) lib.eps
  exact
    { uniqueVertices := uniqueVertices_told true lib m hk hm.uniqueVertices (orFail_ok h1)
      colocation := by
        have h2 := colocation_result h2
        unfold inspectMeshesPointColocationsBRep at h2
        simp only [] at h2
        refine componentsColocation_told lib "Block " _ m.blockPoints ?_ ?_ ?_ h2
        · intro m2 h2
          refine componentsColocation_told lib "Surface " _ m.surfacePoints ?_ ?_ ?_ h2
          · intro m0 h0
            refine componentsColocation_told lib "Line " _ m.linePoints ?_ ?_ ?_ h0
            · intro m1 h1; obtain rfl := Option.some.inj h1; exact toldMap_new _ _
            · intro c hc _
              obtain ⟨l, hl, rfl⟩ := List.mem_map.1 hc
              exact (hm.lines l hl).search
            · intro c hc ha s hs
              obtain ⟨l, hl, rfl⟩ := List.mem_map.1 hc
              exact Or.inl ⟨l, hl, ha, rfl, hs⟩
          · intro c hc _
            obtain ⟨l, hl, rfl⟩ := List.mem_map.1 hc
            exact (hm.surfaces l hl).1
          · intro c hc ha s hs
            obtain ⟨l, hl, rfl⟩ := List.mem_map.1 hc
            exact Or.inr (Or.inl ⟨l, hl, ha, rfl, hs⟩)
        · intro c hc _
          obtain ⟨l, hl, rfl⟩ := List.mem_map.1 hc
          exact (hm.blocks l hl).search
        · intro c hc ha s hs
          obtain ⟨l, hl, rfl⟩ := List.mem_map.1 hc
          exact Or.inr (Or.inr ⟨l, hl, ha, rfl, hs⟩)
      adjacency := h3 ▸ addSurfacesEdges_told m (toldMap_new _ _)
      facetsAdjacency := h3 ▸ addBlocksFacets_told lib m (toldMap_new _ _)
      edges := h4 ▸ hsolid.1
      polygons := h4 ▸ addSmallHeightPolygons_told lib m (toldMap_new _ _) _
      polyhedra := h4 ▸ hsolid.2
      intersections := intersections_told_brep m lib ho h5
      manifoldVertices := h6 ▸ blocksVertices_told m lib
        (surfacesVertices_told m lib (toldMap_new _ _) (fun _ _ h => Or.inl h) hv) (fun _ _ h => Or.inr h) hv'
      manifoldEdges := h6 ▸ blocksEdges_told m lib
        (surfacesEdges_told m lib _ hrt.surfaceEdges (toldMap_new _ _) (fun _ _ h => Or.inl h)) (fun _ _ h => Or.inr h) he
      manifoldFacets := h6 ▸ blocksFacets_told m lib _ (toldMap_new _ _)
      modelEdges := h6 ▸ modelEdges_told m lib _ hrt.modelEdges (told_new _ _)
      modelFacets := h6 ▸ modelFacets_told m lib (told_new _ _)
      negative := by
        rw [← h7]
        refine toldMap_foldl _ _ _ _ (toldMap_new _ _) fun s hs => ?_
        obtain ⟨h1, h2⟩ := List.mem_filter.1 hs
        obtain ⟨f, hf, rfl⟩ := List.mem_map.1 h1
        exact ⟨f, hf, h2, rfl, told_setDescription _ (negativePolyhedra_told _)⟩ }

/-- a Section whose triangle is negative, and a BRep whose tetrahedron is negative -/
example : ∃ r, inspectSectionMeshesOf modelLibrary modelRuntime (exampleModel triangleSection (10 * ·) .negative) = .ok r ∧
    SectionMeshesMessages modelLibrary (exampleModel triangleSection (10 * ·) .negative) r ∧
    r.meshes_negative_elements.negative_polygons.entries.map (fun e => e.2.messages) = [["negative polygon 0"]] := by
  refine ⟨_, rfl, C97_section _ _ modelRuntime_ok _ (triangleSection_ok .negative).meshes
    (triangleSection_ok .negative).types (fun _ h => (by cases h)) _ rfl, by decide +kernel⟩

example : ∃ r, inspectBRepMeshesOf modelLibrary modelRuntime (exampleModel tetrahedronBRep (10 * ·) .negative) = .ok r ∧
    BRepMeshesMessages modelLibrary (exampleModel tetrahedronBRep (10 * ·) .negative) r ∧
    r.meshes_negative_elements.negative_polyhedra.entries.map (fun e => (e.2.description, e.2.messages)) =
      [("Block tetrahedron negative polyhedra", ["negative polyhedron 0"])] := by
  refine ⟨_, rfl, C97_brep _ _ modelRuntime_ok _ (tetrahedronBRep_ok .negative).meshes
    (tetrahedronBRep_ok .negative).types (fun _ h => (by cases h)) _ rfl, by decide +kernel⟩

end Inspector
