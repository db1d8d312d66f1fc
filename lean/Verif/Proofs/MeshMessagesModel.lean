import Verif.Proofs.MeshMessages
import Verif.Proofs.WholeModel
/-
Lemmas for the messages of the inspection of the meshes of a model (C97).
-/
namespace Inspector
open Spec
variable {P : Type}

/-! ### colocation -/

theorem filtered_head (search : List P → ColocatedInfo P) (ps : P → String) (c : PointComponent P)
    (hs : SearchOk (search c.mesh.points) c.mesh.points.length) {s : Issues (List Index)}
    (h : colocatedPointsGroups search ps c.mesh = some s) (g : List Index)
    (hg : g ∈ filterColocatedPoints c.uniqueVertex s.issues) :
    ∃ first rest p, g = first :: rest ∧ c.mesh.points[first]? = some p := by
  obtain ⟨s', h1, h2⟩ := C09_colocated_points_groups search ps c.mesh hs
  rw [h] at h1
  cases h1
  rw [filterColocatedPoints_eq, List.mem_filterMap] at hg
  obtain ⟨g', hg', hf⟩ := hg
  have hr := filterGroup_represents hf
  match hgg : g with
  | [] =>
    have := (h2.1 g' hg').1
    match hg2 : g', this with
    | a :: _, _ => exact absurd (hr.2.1 a rfl) (by simp)
  | first :: rest =>
    have hlt := (h2.1 g' hg').2.2 first (hr.1 first (by simp))
    exact ⟨first, rest, c.mesh.points[first], rfl, List.getElem?_eq_getElem hlt⟩

theorem componentColocation_told (lib : ModelLibrary P) (kind d : String) (c : PointComponent P)
    (hs : SearchOk (lib.search c.mesh.points) c.mesh.points.length) {told : Uuid → Issues (List Index) → Prop}
    {map map' : IssuesMap (List Index)} (hm : ToldMap map d told)
    (ht : ∀ s, Told s (kind ++ c.label ++ " colocated vertices")
      (ComponentColocatedSays lib kind c.label c.mesh.points) → told c.id s)
    (h : addComponentColocation lib.search lib.pointString kind c map = some map') : ToldMap map' d told := by
  unfold addComponentColocation at h
  split at h
  · cases h
  · rename_i groups hg
    simp only [] at h
    split at h
    · obtain rfl := Option.some.inj h; exact hm
    · obtain rfl := Option.some.inj h
      refine toldMap_add hm (ht _ ?_)
      refine told_foldl (fun g => g) _ _ _ (told_new _ _) fun g hgm => ?_
      obtain ⟨first, rest, p, rfl, hp⟩ := filtered_head lib.search lib.pointString c hs hg g hgm
      refine ⟨first, rest, p, rfl, hp, ?_⟩
      rw [groupString_eq, List.headD_cons, hp]
      rfl

theorem bind_fold_none {α β : Type} (f : β → α → Option α) (l : List β) :
    l.foldl (fun map c => map.bind fun map => f c map) none = none := by
  induction l with
  | nil => rfl
  | cons x l ih => exact ih

theorem componentsColocation_told (lib : ModelLibrary P) (kind d : String) (cs : List (PointComponent P))
    {told : Uuid → Issues (List Index) → Prop} {map : Option (IssuesMap (List Index))} {map' : IssuesMap (List Index)}
    (hm : ∀ m, map = some m → ToldMap m d told)
    (hs : ∀ c ∈ cs, c.active = true → SearchOk (lib.search c.mesh.points) c.mesh.points.length)
    (ht : ∀ c ∈ cs, c.active = true → ∀ s, Told s (kind ++ c.label ++ " colocated vertices")
      (ComponentColocatedSays lib kind c.label c.mesh.points) → told c.id s)
    (h : addComponentsColocation lib.search lib.pointString kind cs map = some map') : ToldMap map' d told := by
  unfold addComponentsColocation at h
  have hs : ∀ c ∈ cs.filter fun c => c.active, SearchOk (lib.search c.mesh.points) c.mesh.points.length := fun c hc =>
    hs c (List.mem_filter.1 hc).1 (List.mem_filter.1 hc).2
  have ht : ∀ c ∈ cs.filter fun c => c.active, ∀ s, Told s (kind ++ c.label ++ " colocated vertices")
      (ComponentColocatedSays lib kind c.label c.mesh.points) → told c.id s := fun c hc =>
    ht c (List.mem_filter.1 hc).1 (List.mem_filter.1 hc).2
  generalize cs.filter (fun c => c.active) = l at h hs ht
  induction l generalizing map with
  | nil => exact hm _ h
  | cons c l ih =>
    rw [List.foldl_cons] at h
    refine ih (map := map.bind fun map => addComponentColocation lib.search lib.pointString kind c map) ?_ h
      (fun c' hc' => hs c' (by simp [hc'])) fun c' hc' => ht c' (by simp [hc'])
    intro m hmm
    obtain ⟨m0, h0, h1⟩ := Option.bind_eq_some_iff.1 hmm
    exact componentColocation_told lib kind d c (hs c (by simp)) (hm m0 h0) (ht c (by simp)) h1

/-! ### unique vertices -/

theorem addUvs_told (brep : Bool) (ie : P → P → Bool) (m : UVModel P) (u : UVColocation P) (l : List Index) {d : String}
    {issues s : Issues Index}
    (hi : Told issues d fun uv t => t = "unique vertex " ++ toString uv ++
      " is linked to several mesh vertices on different positions")
    (h : addUvsLinkedToDifferentPoints brep ie m u l issues = some s) :
    Told s d fun uv t => t = "unique vertex " ++ toString uv ++
      " is linked to several mesh vertices on different positions" := by
  induction l generalizing issues with
  | nil => obtain rfl := Option.some.inj h; exact hi
  | cons x l ih =>
    unfold addUvsLinkedToDifferentPoints at h
    split at h
    · cases h
    · exact ih (told_add hi rfl) h
    · exact ih hi h

theorem addFixedGroups_told (brep : Bool) (lib : ModelLibrary P) (m : ModelData P)
    (hk : KnownTypes brep (m.uniqueVertices lib)) (gs : List (List Index))
    (hg : ∀ g ∈ gs, g ≠ [] ∧ ∀ i ∈ g, i < (activeUvs (m.uniqueVertices lib)).length) {d : String}
    {issues s : Issues (List Index)} (hi : Told issues d (ColocatedUniqueVerticesSays lib m))
    (h : addFixedGroups lib.pointString (UVColocation.create brep lib.origin (m.uniqueVertices lib)) gs issues = some s) :
    Told s d (ColocatedUniqueVerticesSays lib m) := by
  induction gs generalizing issues with
  | nil => obtain rfl := Option.some.inj h; exact hi
  | cons g gs ih =>
    unfold addFixedGroups at h
    obtain ⟨hne, hlt⟩ := hg g (by simp)
    obtain ⟨f, h1, h2⟩ := fixPointGroup_eq brep lib.origin (m.uniqueVertices lib) hk g hlt
    rw [h1] at h
    refine ih (fun g' hg' => hg g' (by simp [hg'])) (told_add hi ?_) h
    match g, hne with
    | a :: rest, _ =>
      have ha := hlt a (by simp)
      obtain ⟨cmv, others, hc, hp⟩ := activePositions_get (m.uniqueVertices lib) a _ (List.getElem?_eq_getElem ha)
      refine ⟨(activeUvs (m.uniqueVertices lib))[a], rest.map fun a => ((activeUvs (m.uniqueVertices lib))[a]?).getD 0,
        cmv, others, ?_, hc, ?_⟩
      · rw [h2, List.map_cons, List.getElem?_eq_getElem ha]; rfl
      · rw [groupString_eq, List.headD_cons, create_points _ _ _ hk, hp]
        rfl

theorem uniqueVertices_told (brep : Bool) (lib : ModelLibrary P) (m : ModelData P)
    (hk : KnownTypes brep (m.uniqueVertices lib))
    (hs : SearchOk (lib.search (activePositions (m.uniqueVertices lib))) (activeUvs (m.uniqueVertices lib)).length)
    {r : UniqueVerticesInspectionResult}
    (h : inspectUniqueVertices brep lib.origin lib.inexactEqual lib.search lib.pointString (m.uniqueVertices lib) =
      some r) : UniqueVerticesMessages lib m r := by
  unfold inspectUniqueVertices at h
  simp only [] at h
  split at h
  · rename_i groups different hg hd
    obtain rfl := Option.some.inj h
    refine ⟨?_, addUvs_told _ _ _ _ _ (told_new _ _) hd⟩
    unfold addColocatedUvGroups at hg
    split at hg
    · cases hg
    · rename_i s hsg
      rw [create_points _ _ _ hk] at hsg
      rw [← activePositions_length] at hs
      obtain ⟨s', h1, h2⟩ := C09_colocated_points_groups lib.search lib.pointString ⟨activePositions (m.uniqueVertices lib)⟩ hs
      rw [hsg] at h1
      cases h1
      refine addFixedGroups_told brep lib m hk _ (fun g hg => ?_) (told_new _ _) hg
      obtain ⟨hl, _, hlt⟩ := h2.1 g hg
      rw [activePositions_length] at hlt
      exact ⟨fun hn => (by rw [hn] at hl; simp at hl), hlt⟩
  · cases h

/-! ### adjacency -/

theorem surfaceAdjacencyIssues_told (m : ModelData P) (f : FaceData P) :
    Told (surfaceAdjacencyIssues m.adjacency (m.adjacencySurface f))
      ("Surface " ++ f.label ++ " polygon edges adjacency issues") (ModelPolygonEdgeSays m f) := by
  have h : Told (polygonEdgesWithWrongAdjacency f.label f.toSurfaceMesh) _ (ModelPolygonEdgeSays m f) :=
    told_collect _ _ _ _ fun x hx hb => .wrong ((wrongEdge_iff f.toSurfaceMesh x).1 ⟨hx, hb⟩)
  exact told_collectFrom _ _ _ _ _ (told_setDescription _ h) fun x hx hb =>
    .border ((borderEdge_iff m.adjacency (m.adjacencySurface f) x).1 ⟨hx, hb⟩)

theorem blockAdjacencyIssues_told (lib : ModelLibrary P) (m : ModelData P) (b : VolumeData P) :
    Told (blockAdjacencyIssues lib.isOpposite m.adjacency (m.adjacencyBlock b))
      ("Block " ++ b.label ++ " polyhedron facets adjacencies issues") (ModelPolyhedronFacetSays lib m b) := by
  have h : Told (polyhedronFacetsWithWrongAdjacency lib.isOpposite b.label b.toSolidMesh) _
      (ModelPolyhedronFacetSays lib m b) :=
    told_collect _ _ _ _ fun x hx hb => .wrong ((wrongFacet_iff lib.isOpposite b.toSolidMesh x).1 ⟨hx, hb⟩)
  exact told_collectFrom _ _ _ _ _ (told_setDescription _ h) fun x hx hb =>
    .border ((borderFacet_iff m.adjacency (m.adjacencyBlock b) x).1 ⟨hx, hb⟩)

theorem addSurfacesEdges_told (m : ModelData P) {d : String} {map : IssuesMap PolygonEdge}
    (hm : ToldMap map d (FaceTold m " polygon edges adjacency issues" (ModelPolygonEdgeSays m))) :
    ToldMap (addSurfacesEdgesWithWrongAdjacencies m.adjacency map) d
      (FaceTold m " polygon edges adjacency issues" (ModelPolygonEdgeSays m)) := by
  refine toldMap_foldl _ _ _ _ hm fun s hs => ?_
  obtain ⟨h1, h2⟩ := List.mem_filter.1 hs
  obtain ⟨f, hf, rfl⟩ := List.mem_map.1 h1
  exact ⟨f, hf, h2, rfl, surfaceAdjacencyIssues_told m f⟩

theorem addBlocksFacets_told (lib : ModelLibrary P) (m : ModelData P) {d : String} {map : IssuesMap PolyhedronFacet}
    (hm : ToldMap map d (VolumeTold m " polyhedron facets adjacencies issues" (ModelPolyhedronFacetSays lib m))) :
    ToldMap (addBlocksFacetsWithWrongAdjacencies lib.isOpposite m.adjacency map) d
      (VolumeTold m " polyhedron facets adjacencies issues" (ModelPolyhedronFacetSays lib m)) := by
  refine toldMap_foldl _ _ _ _ hm fun s hs => ?_
  obtain ⟨h1, h2⟩ := List.mem_filter.1 hs
  obtain ⟨b, hb, rfl⟩ := List.mem_map.1 h1
  exact ⟨b, hb, h2, rfl, blockAdjacencyIssues_told lib m b⟩

/-! ### degeneration -/

theorem addSmallEdges_told (lib : ModelLibrary P) (m : ModelData P) {d : String} {map : IssuesMap Index}
    {told : Uuid → Issues Index → Prop} (hm : ToldMap map d told)
    (hl : ∀ id s, LineTold m " small edges" (fun l => CurveEdgeSays l.toCurveData) id s → told id s)
    (hf : ∀ id s, FaceTold m " small facet edges" (fun f => SmallEdgeSays lib.toLibrary f.points f.edgeVertices) id s →
      told id s) (threshold : Dbl) : ToldMap (addSmallEdges (m.degeneration lib) threshold map) d told := by
  unfold addSmallEdges
  refine toldMap_foldl _ _ _ _ (toldMap_foldl _ _ _ _ hm fun s hs => ?_) fun s hs => ?_
  · obtain ⟨h1, h2⟩ := List.mem_filter.1 hs
    obtain ⟨l, hl', rfl⟩ := List.mem_map.1 h1
    exact hl _ _ ⟨l, hl', h2, rfl, told_setDescription _ (curveSmallEdges_told lib.toLibrary l.toCurveData _)⟩
  · obtain ⟨h1, h2⟩ := List.mem_filter.1 hs
    obtain ⟨f, hf', rfl⟩ := List.mem_map.1 h1
    exact hf _ _ ⟨f, hf', h2, rfl, told_setDescription _
      (smallEdges_told lib.toLibrary f.points (f.measures lib.toLibrary) _ rfl)⟩

theorem addSmallHeightPolygons_told (lib : ModelLibrary P) (m : ModelData P) {d : String} {map : IssuesMap Index}
    (hm : ToldMap map d (FaceTold m " small height polygons" fun _ p t => t = "degenerated polygons " ++ toString p))
    (threshold : Dbl) : ToldMap (addSmallHeightPolygons (m.degeneration lib) threshold map) d
      (FaceTold m " small height polygons" fun _ p t => t = "degenerated polygons " ++ toString p) := by
  refine toldMap_foldl _ _ _ _ hm fun s hs => ?_
  obtain ⟨h1, h2⟩ := List.mem_filter.1 hs
  obtain ⟨f, hf', rfl⟩ := List.mem_map.1 h1
  exact ⟨f, hf', h2, rfl, told_setDescription _ (smallHeightPolygons_told _ _)⟩

theorem addSolidSmall_told (lib : ModelLibrary P) (m : ModelData P) {d d' : String}
    {maps : IssuesMap Index × IssuesMap Index} {told : Uuid → Issues Index → Prop} (hm : ToldMap maps.1 d told)
    (hb : ∀ id s, VolumeTold m " small edges polyhedra" (fun b => SmallEdgeSays lib.toLibrary b.points b.edgeVertices)
      id s → told id s)
    (hm' : ToldMap maps.2 d' (VolumeTold m " small height polyhedra" fun _ p t =>
      t = "degenerated polyhedra " ++ toString p)) (threshold : Dbl) :
    ToldMap (addSolidSmallElements (m.degeneration lib) threshold maps).1 d told ∧
    ToldMap (addSolidSmallElements (m.degeneration lib) threshold maps).2 d'
      (VolumeTold m " small height polyhedra" fun _ p t => t = "degenerated polyhedra " ++ toString p) := by
  unfold addSolidSmallElements
  refine foldl_keep (fun maps : IssuesMap Index × IssuesMap Index => ToldMap maps.1 d told ∧
    ToldMap maps.2 d' (VolumeTold m " small height polyhedra" fun _ p t => t = "degenerated polyhedra " ++ toString p))
    _ _ (fun maps x hx h => ?_) maps ⟨hm, hm'⟩
  obtain ⟨h1, h2⟩ := List.mem_filter.1 hx
  obtain ⟨b, hb', rfl⟩ := List.mem_map.1 h1
  exact ⟨toldMap_add h.1 (hb _ _ ⟨b, hb', h2, rfl, told_setDescription _
      (smallEdges_told lib.toLibrary b.points (b.measures lib.toLibrary) _ rfl)⟩),
    toldMap_add h.2 ⟨b, hb', h2, rfl, told_setDescription _ (smallHeightPolyhedra_told _ _)⟩⟩

/-! ### intersections -/

theorem surfaceLabel_found (m : ModelData P) (lib : ModelLibrary P) (brep : Bool) (f : FaceData P) (hf : f ∈ m.surfaces) :
    ∃ g ∈ m.surfaces, g.id = f.id ∧ (m.intersections lib brep).surfaceLabel f.id = g.label := by
  cases hx : m.surfaces.find? fun s => s.id == f.id with
  | none => exact absurd (List.find?_eq_none.1 hx f hf) (by simp)
  | some g =>
    refine ⟨g, List.mem_of_find?_eq_some hx, (by simpa using List.find?_some hx), ?_⟩
    show ((m.surfaces.find? fun s => s.id == f.id).map (·.label)).getD "" = g.label
    rw [hx]; rfl

theorem lineLabel_found (m : ModelData P) (lib : ModelLibrary P) (brep : Bool) (l : LineData P) (hl : l ∈ m.lines) :
    ∃ g ∈ m.lines, g.id = l.id ∧ (m.intersections lib brep).lineLabel l.id = g.label := by
  cases hx : m.lines.find? fun s => s.id == l.id with
  | none => exact absurd (List.find?_eq_none.1 hx l hl) (by simp)
  | some g =>
    refine ⟨g, List.mem_of_find?_eq_some hx, (by simpa using List.find?_some hx), ?_⟩
    show ((m.lines.find? fun s => s.id == l.id).map (·.label)).getD "" = g.label
    rw [hx]; rfl

theorem modelPolygons_surfaces (m : ModelData P) (lib : ModelLibrary P) (brep : Bool) (action : PolygonsAction)
    (ho : ∀ ss ∈ m.overlappingSurfaces, ss.1 ∈ m.surfaces ∧ ss.2 ∈ m.surfaces)
    {l : List (ComponentMeshElement × ComponentMeshElement)}
    (h : intersectingModelPolygons (m.intersections lib brep) action = .ok l) :
    ∀ x ∈ l, ∃ f ∈ m.surfaces, ∃ g ∈ m.surfaces, x.1.component_id = ⟨.surface, f.id⟩ ∧
      x.2.component_id = ⟨.surface, g.id⟩ := by
  unfold intersectingModelPolygons at h
  split at h
  · obtain rfl := Except.ok.inj h; simp
  · refine foldlM_keep (fun l => ∀ x ∈ l, ∃ f ∈ m.surfaces, ∃ g ∈ m.surfaces, x.1.component_id = ⟨.surface, f.id⟩ ∧
      x.2.component_id = ⟨.surface, g.id⟩) _ _ (fun r task ht r' hr he => ?_) [] l (by simp) h
    have hts : ∃ f ∈ m.surfaces, ∃ g ∈ m.surfaces, task.1.1.id = f.id ∧ task.1.2.id = g.id := by
      unfold intersectionTasks at ht
      rcases List.mem_append.1 ht with ht | ht
      · obtain ⟨s, hs, rfl⟩ := List.mem_map.1 ht
        obtain ⟨f, hf, rfl⟩ := List.mem_map.1 (List.mem_filter.1 hs).1
        exact ⟨f, hf, f, hf, rfl, rfl⟩
      · obtain ⟨s, hs, rfl⟩ := List.mem_map.1 ht
        obtain ⟨ss, hss, rfl⟩ := List.mem_map.1 hs
        exact ⟨ss.1, (ho ss hss).1, ss.2, (ho ss hss).2, rfl, rfl⟩
    obtain ⟨f, hf, g, hg, h1, h2⟩ := hts
    split at he
    · cases he
    · rename_i res hres
      obtain rfl := Except.ok.inj he
      unfold runIntersectionTask at hres
      split at hres
      · cases hres
      · obtain rfl := Except.ok.inj hres
        intro x hx
        rcases List.mem_append.1 hx with hx | hx
        · exact hr x hx
        · obtain ⟨p, _, rfl⟩ := List.mem_map.1 hx
          exact ⟨f, hf, g, hg, by simp [h1], by simp [h2]⟩

theorem linesSurfaces_components (m : ModelData P) (lib : ModelLibrary P) (brep : Bool)
    {l : List (ComponentMeshElement × ComponentMeshElement)}
    (h : intersectingLinesSurfaces (m.intersections lib brep) = .ok l) :
    ∀ x ∈ l, ∃ f ∈ m.surfaces, ∃ g ∈ m.lines, x.1.component_id = ⟨.surface, f.id⟩ ∧
      x.2.component_id = ⟨.line, g.id⟩ := by
  unfold intersectingLinesSurfaces at h
  split at h
  · obtain rfl := Except.ok.inj h; simp
  · split at h
    · obtain rfl := Except.ok.inj h; simp
    · refine foldlM_keep (fun l => ∀ x ∈ l, ∃ f ∈ m.surfaces, ∃ g ∈ m.lines, x.1.component_id = ⟨.surface, f.id⟩ ∧
        x.2.component_id = ⟨.line, g.id⟩) _ _ (fun r s hs r' hr he => ?_) [] l (by simp) h
      refine foldlM_keep (fun l => ∀ x ∈ l, ∃ f ∈ m.surfaces, ∃ g ∈ m.lines, x.1.component_id = ⟨.surface, f.id⟩ ∧
        x.2.component_id = ⟨.line, g.id⟩) _ _ (fun r ln hln r' hr he => ?_) r r' hr he
      obtain ⟨f, hf, rfl⟩ := List.mem_map.1 (List.mem_filter.1 hs).1
      obtain ⟨g, hg, rfl⟩ := List.mem_map.1 (List.mem_filter.1 hln).1
      split at he
      · obtain rfl := Except.ok.inj he; exact hr
      · split at he
        · cases he
        · obtain rfl := Except.ok.inj he
          intro x hx
          rcases List.mem_append.1 hx with hx | hx
          · exact hr x hx
          · obtain ⟨p, _, rfl⟩ := List.mem_map.1 hx
            exact ⟨f, hf, g, hg, rfl, rfl⟩

theorem runTraversal_met (traverse : Traversal) (action : ElementPair → Except Failure (Bool × Bool))
    {l : List ElementPair} (h : runTraversal traverse action = .ok l) : ∀ x ∈ l, ∃ s, action x = .ok (true, s) := by
  refine foldlM_keep (fun l => ∀ x ∈ l, ∃ s, action x = .ok (true, s)) _ _ (fun r x _ r' hr he => ?_) [] l (by simp) h
  cases ha : action x with
  | error f => simp only [ha] at he; cases he
  | ok y =>
    simp only [ha] at he
    obtain rfl := Except.ok.inj he
    intro z hz
    split at hz
    · rename_i hy
      rcases List.mem_append.1 hz with hz | hz
      · exact hr z hz
      · obtain rfl := List.mem_singleton.1 hz
        exact ⟨y.2, by rw [ha, ← hy]⟩
    · exact hr z hz

theorem selfPolygons_surfaces (im : IntersectionModel P)
    {l : List (ComponentMeshElement × ComponentMeshElement)}
    (h : intersectingModelPolygons im autoModelAction = .ok l) :
    ∀ x ∈ l, x.1.component_id = x.2.component_id := by
  unfold intersectingModelPolygons at h
  split at h
  · obtain rfl := Except.ok.inj h; simp
  · refine foldlM_keep (fun l => ∀ x ∈ l, x.1.component_id = x.2.component_id) _ _
      (fun r task ht r' hr he => ?_) [] l (by simp) h
    split at he
    · cases he
    · rename_i res hres
      obtain rfl := Except.ok.inj he
      unfold runIntersectionTask at hres
      split at hres
      · cases hres
      · rename_i pairs hp
        obtain rfl := Except.ok.inj hres
        intro x hx
        rcases List.mem_append.1 hx with hx | hx
        · exact hr x hx
        · obtain ⟨p, hpm, rfl⟩ := List.mem_map.1 hx
          obtain ⟨s, hs⟩ := runTraversal_met _ _ hp p hpm
          unfold autoModelAction at hs
          by_cases hid : task.1.1.id = task.1.2.id
          · simp [hid]
          · rw [if_pos (by simpa using hid)] at hs
            cases hs

theorem selfIntersections_told (m : ModelData P) (lib : ModelLibrary P) (brep : Bool)
    (ho : ∀ ss ∈ m.overlappingSurfaces, ss.1 ∈ m.surfaces ∧ ss.2 ∈ m.surfaces)
    {r : ElementsIntersectionsInspectionResult}
    (h : inspectSurfacesSelfIntersections (m.intersections lib brep) = .ok r) :
    Told r.elements_intersections "intersections" (SelfIntersectsSays m) := by
  unfold inspectSurfacesSelfIntersections at h
  simp only [] at h
  split at h
  · cases h
  · rename_i s hs
    obtain rfl := Except.ok.inj h
    unfold addSurfaceAutoIntersectingElements at hs
    split at hs
    · cases hs
    · rename_i l hl
      obtain rfl := Except.ok.inj hs
      refine told_foldl (fun x => x) _ _ _ (told_new _ _) fun x hx => ?_
      obtain ⟨f, hf, g, hg, h1, h2⟩ := modelPolygons_surfaces m lib brep _ ho hl x hx
      have he := selfPolygons_surfaces _ hl x hx
      obtain ⟨f', hf', h1', h1''⟩ := surfaceLabel_found m lib brep f hf
      rw [h1, h1'']
      exact .surface f' hf' (by rw [h1, h1']) (by rw [← he, h1, h1'])

theorem surfacesIntersect_told (m : ModelData P) (lib : ModelLibrary P) (brep : Bool)
    (ho : ∀ ss ∈ m.overlappingSurfaces, ss.1 ∈ m.surfaces ∧ ss.2 ∈ m.surfaces) {d : String}
    {issues s : Issues (ComponentMeshElement × ComponentMeshElement)} (hi : Told issues d (SurfacesIntersectSays m))
    (h : addIntersectingSurfacesElements (m.intersections lib brep) issues = .ok s) :
    Told s d (SurfacesIntersectSays m) := by
  unfold addIntersectingSurfacesElements at h
  split at h
  · cases h
  · rename_i l hl
    obtain rfl := Except.ok.inj h
    refine told_foldl (fun x => x) _ _ _ hi fun x hx => ?_
    obtain ⟨f, hf, g, hg, h1, h2⟩ := modelPolygons_surfaces m lib brep _ ho hl x hx
    obtain ⟨f', hf', h1', h1''⟩ := surfaceLabel_found m lib brep f hf
    obtain ⟨g', hg', h2', h2''⟩ := surfaceLabel_found m lib brep g hg
    rw [h1, h2, h1'', h2'']
    exact .surfaces f' g' hf' hg' (by rw [h1, h1']) (by rw [h2, h2'])

theorem intersections_told_section (m : ModelData P) (lib : ModelLibrary P)
    (ho : ∀ ss ∈ m.overlappingSurfaces, ss.1 ∈ m.surfaces ∧ ss.2 ∈ m.surfaces)
    {r : ElementsIntersectionsInspectionResult} (h : inspectIntersections 2 (m.intersections lib false) = .ok r) :
    Told r.elements_intersections "intersections" (SurfacesIntersectSays m) := by
  unfold inspectIntersections at h
  simp only [] at h
  split at h
  · cases h
  · rename_i s hs
    obtain rfl := Except.ok.inj h
    exact surfacesIntersect_told m lib false ho (told_new _ _) hs

theorem intersections_told_brep (m : ModelData P) (lib : ModelLibrary P)
    (ho : ∀ ss ∈ m.overlappingSurfaces, ss.1 ∈ m.surfaces ∧ ss.2 ∈ m.surfaces)
    {r : ElementsIntersectionsInspectionResult} (h : inspectIntersections 3 (m.intersections lib true) = .ok r) :
    Told r.elements_intersections "intersections" fun x t => SurfacesIntersectSays m x t ∨ LineIntersectsSays m x t := by
  unfold inspectIntersections at h
  simp only [] at h
  split at h
  · cases h
  · rename_i s hs
    have hs := told_mono (surfacesIntersect_told m lib true ho (told_new _ _) hs)
      (claim' := fun x t => SurfacesIntersectSays m x t ∨ LineIntersectsSays m x t) fun _ _ h => Or.inl h
    split at h
    · cases h
    · rename_i s' hs'
      obtain rfl := Except.ok.inj h
      unfold addIntersectingLinesSurfacesElements at hs'
      rw [if_pos (by decide)] at hs'
      split at hs'
      · cases hs'
      · rename_i l hl
        obtain rfl := Except.ok.inj hs'
        refine told_foldl (fun x => x) _ _ _ hs fun x hx => ?_
        obtain ⟨f, hf, g, hg, h1, h2⟩ := linesSurfaces_components m lib true hl x hx
        obtain ⟨f', hf', h1', h1''⟩ := surfaceLabel_found m lib true f hf
        obtain ⟨g', hg', h2', h2''⟩ := lineLabel_found m lib true g hg
        rw [h1, h2, h1'', h2'']
        exact Or.inr (.line f' g' hf' hg' (by rw [h1, h1']) (by rw [h2, h2']))

/-! ### manifold -/

theorem surfacesVertices_told (m : ModelData P) (lib : ModelLibrary P) {d : String} {map map' : IssuesMap Index}
    {told : Uuid → Issues Index → Prop} (hm : ToldMap map d told)
    (hf : ∀ id s, FaceTold m " non manifold vertices" (fun f => VertexSays lib.toLibrary f.points) id s → told id s)
    (h : addSurfacesNonManifoldVertices (m.manifold lib) map = .ok map') : ToldMap map' d told := by
  refine foldlM_keep (fun map => ToldMap map d told) _ _ (fun r x hx r' hr he => ?_) map map' hm h
  obtain ⟨h1, h2⟩ := List.mem_filter.1 hx
  obtain ⟨f, hf', rfl⟩ := List.mem_map.1 h1
  split at he
  · cases he
  · rename_i s hs
    obtain rfl := Except.ok.inj he
    exact toldMap_add hr (hf _ _ ⟨f, hf', h2, rfl, told_setDescription _
      (surfaceVertices_told lib.toLibrary f.points (f.topo lib.toLibrary) rfl hs)⟩)

theorem surfacesEdges_told (m : ModelData P) (lib : ModelLibrary P)
    (iterate : Uuid → HMap (Index × Index) (UInt8 × Bool) → HMap (Index × Index) (UInt8 × Bool))
    (hi : ∀ u map, (iterate u map).Perm map) {d : String} {map : IssuesMap (Index × Index)}
    {told : Uuid → Issues (Index × Index) → Prop} (hm : ToldMap map d told)
    (hf : ∀ id s, FaceTold m " non manifold edges" (fun f => SurfaceEdgeSays f.toSurfaceMesh) id s → told id s) :
    ToldMap (addSurfacesNonManifoldEdges iterate (m.manifold lib) map) d told := by
  refine toldMap_foldl _ _ _ _ hm fun s hs => ?_
  obtain ⟨h1, h2⟩ := List.mem_filter.1 hs
  obtain ⟨f, hf', rfl⟩ := List.mem_map.1 h1
  exact hf _ _ ⟨f, hf', h2, rfl, told_setDescription _ (surfaceEdges_told _ (hi f.id) f.toSurfaceMesh)⟩

theorem blocksVertices_told (m : ModelData P) (lib : ModelLibrary P) {d : String} {map map' : IssuesMap Index}
    {told : Uuid → Issues Index → Prop} (hm : ToldMap map d told)
    (hf : ∀ id s, VolumeTold m " non manifold vertices" (fun b => VertexSays lib.toLibrary b.points) id s → told id s)
    (h : addBlocksNonManifoldVertices (m.manifold lib) map = .ok map') : ToldMap map' d told := by
  refine foldlM_keep (fun map => ToldMap map d told) _ _ (fun r x hx r' hr he => ?_) map map' hm h
  obtain ⟨h1, h2⟩ := List.mem_filter.1 hx
  obtain ⟨b, hb, rfl⟩ := List.mem_map.1 h1
  split at he
  · cases he
  · rename_i s hs
    obtain rfl := Except.ok.inj he
    exact toldMap_add hr (hf _ _ ⟨b, hb, h2, rfl, told_setDescription _
      (solidVertices_told lib.toLibrary b.points (b.topo lib.toLibrary) rfl hs)⟩)

theorem blocksEdges_told (m : ModelData P) (lib : ModelLibrary P) {d : String} {map map' : IssuesMap (Index × Index)}
    {told : Uuid → Issues (Index × Index) → Prop} (hm : ToldMap map d told)
    (hf : ∀ id s, VolumeTold m " non manifold edges" (fun b => SolidEdgeSays (b.topo lib.toLibrary)) id s → told id s)
    (h : addBlocksNonManifoldEdges (m.manifold lib) map = .ok map') : ToldMap map' d told := by
  refine foldlM_keep (fun map => ToldMap map d told) _ _ (fun r x hx r' hr he => ?_) map map' hm h
  obtain ⟨h1, h2⟩ := List.mem_filter.1 hx
  obtain ⟨b, hb, rfl⟩ := List.mem_map.1 h1
  split at he
  · cases he
  · rename_i s hs
    obtain rfl := Except.ok.inj he
    exact toldMap_add hr (hf _ _ ⟨b, hb, h2, rfl, told_setDescription _ (solidEdges_told _ hs)⟩)

theorem blocksFacets_told (m : ModelData P) (lib : ModelLibrary P)
    (iterate : Uuid → HMap (List Index) UInt32 → HMap (List Index) UInt32) {d : String} {map : IssuesMap (List Index)}
    (hm : ToldMap map d (VolumeTold m " non manifold facets" fun _ => SolidFacetSays)) :
    ToldMap (addBlocksNonManifoldFacets iterate lib.cycle (m.manifold lib) map) d
      (VolumeTold m " non manifold facets" fun _ => SolidFacetSays) := by
  refine toldMap_foldl _ _ _ _ hm fun s hs => ?_
  obtain ⟨h1, h2⟩ := List.mem_filter.1 hs
  obtain ⟨b, hb, rfl⟩ := List.mem_map.1 h1
  exact ⟨b, hb, h2, rfl, told_setDescription _ (solidFacets_told _ _ _)⟩

theorem manifoldLabel_found (m : ModelData P) (lib : ModelLibrary P) (id : Uuid) (f : FaceData P) (hf : f ∈ m.surfaces)
    (hid : f.id = id) : ∃ g ∈ m.surfaces, g.id = id ∧ (m.manifold lib).surfaceLabel id = g.label := by
  have hmap : (m.manifold lib).surfaceLabel id = (m.surfaces.find? fun s => s.id == id).elim "" fun s => s.label := by
    show ((m.surfaces.map (m.manifoldSurface lib)).find? fun s => s.id == id).elim "" ManifoldSurface.label = _
    rw [List.find?_map]
    cases hx : m.surfaces.find? fun s => s.id == id with
    | none =>
      have : m.surfaces.find? ((fun s : ManifoldSurface => s.id == id) ∘ m.manifoldSurface lib) = none := hx
      rw [this]; rfl
    | some g =>
      have : m.surfaces.find? ((fun s : ManifoldSurface => s.id == id) ∘ m.manifoldSurface lib) = some g := hx
      rw [this]; rfl
  cases hx : m.surfaces.find? fun s => s.id == id with
  | none => exact absurd (List.find?_eq_none.1 hx f hf) (by simp [hid])
  | some g =>
    exact ⟨g, List.mem_of_find?_eq_some hx, (by simpa using List.find?_some hx), (by rw [hmap, hx]; rfl)⟩

theorem labels_of (m : ModelData P) (lib : ModelLibrary P) (ids : List Uuid)
    (h : ∀ id ∈ ids, ∃ f ∈ m.surfaces, f.id = id) :
    Labels m ids (String.join (ids.map fun id => (m.manifold lib).surfaceLabel id ++ ", ")) := by
  induction ids with
  | nil => rw [List.map_nil, String.join_nil]; exact .nil
  | cons id ids ih =>
    obtain ⟨f, hf, hid⟩ := h id (by simp)
    obtain ⟨g, hg, hgid, hlab⟩ := manifoldLabel_found m lib id f hf hid
    rw [List.map_cons, String.join_cons, hlab, ← hgid]
    exact .cons g ids _ hg (ih fun x hx => h x (by simp [hx]))

theorem modelEdges_told (m : ModelData P) (lib : ModelLibrary P)
    (iterate : HMap (Index × Index) (List Uuid) → HMap (Index × Index) (List Uuid))
    (hi : ∀ map, (iterate map).Perm map) {d : String} {issues : Issues ((Index × Index) × List Uuid)}
    (h : Told issues d (ModelEdgeSays lib m)) :
    Told (addModelNonManifoldEdges iterate (m.manifold lib) issues) d (ModelEdgeSays lib m) := by
  unfold addModelNonManifoldEdges
  refine told_collectFrom _ _ _ _ _ (told_collectFrom _ _ _ _ _ h fun x hx hb => ?_) fun l hl hb => ?_
  · obtain ⟨e, ids⟩ := x
    have hx := (hi _).mem_iff.1 hx
    obtain ⟨_, _, rfl⟩ := (mem_modelEdges _ _ _).1 hx
    have hl : 2 ≤ (interiorUses (m.manifold lib) e).length := Nat.lt_of_not_le (by simpa using hb)
    have hf : (fun (message : String) surface_uuid => message ++ (m.manifold lib).surfaceLabel surface_uuid ++ ", ") =
        fun message surface_uuid => message ++ ((m.manifold lib).surfaceLabel surface_uuid ++ ", ") := by
      funext a b; rw [String.append_assoc]
    simp only []
    rw [hf, foldl_join]
    refine .surfaces _ hl (labels_of m lib _ fun id hid => ?_)
    unfold interiorUses at hid
    obtain ⟨s, hs, hid⟩ := List.mem_flatMap.1 hid
    obtain ⟨f, hf, rfl⟩ := List.mem_map.1 (List.mem_filter.1 hs).1
    obtain ⟨_, _, rfl⟩ := List.mem_map.1 hid
    exact ⟨f, hf, rfl⟩
  · obtain ⟨h1, h2⟩ := List.mem_filter.1 hl
    have hiso := isolatedLine_iff (m.manifold lib) l
    rw [h2, Bool.true_and] at hiso
    rw [hb] at hiso
    obtain ⟨ld, hld, rfl⟩ := List.mem_map.1 h1
    exact .line ld hld rfl (by simpa using hiso.symm)

theorem modelFacets_told (m : ModelData P) (lib : ModelLibrary P) {d : String}
    {issues : Issues (List Index × List Uuid)} (h : Told issues d (ModelFacetSays lib m)) :
    Told (addModelNonManifoldFacets (m.manifold lib) issues) d (ModelFacetSays lib m) := by
  unfold addModelNonManifoldFacets
  refine told_collectFrom _ _ _ _ _ h fun s hs hb => ?_
  obtain ⟨h1, h2⟩ := List.mem_filter.1 hs
  have hiso := isolatedSurface_iff (m.manifold lib) s
  rw [h2, Bool.true_and] at hiso
  rw [hb] at hiso
  obtain ⟨f, hf, rfl⟩ := List.mem_map.1 h1
  have hj : (fun (message : String) (polygon_vertex : Index) => message ++ toString polygon_vertex ++ " ") =
      fun message polygon_vertex => message ++ (toString polygon_vertex ++ " ") := by
    funext a b; rw [String.append_assoc]
  rw [hj, foldl_join]
  exact .surface f hf rfl (by simpa using hiso.symm)

end Inspector
