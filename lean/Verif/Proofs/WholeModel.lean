import Verif.Spec.WholeModel
import Verif.Proofs.Whole
import Verif.Props.TopologyInspector
import Verif.Props.TopologyLines
import Verif.Props.TopologyBlocks
/-
Lemmas for whole inspections of Sections and BReps (C81, C82).
-/
namespace Inspector
open Spec
variable {P : Type}

/-! ### maps -/

theorem mapReports_ofMap {C D α : Type} {map : IssuesMap α} {l : List D} {f : D → C} {id : C → Uuid}
    {exp : C → List α → Prop} (h : MapReports map (l.map f) id exp) :
    MapReports map l (fun d => id (f d)) (fun d => exp (f d)) := by
  refine ⟨?_, fun d hd => h.2 (f d) (List.mem_map_of_mem hd)⟩
  have := h.1
  rwa [List.map_map] at this

theorem mapReports_congr {C α : Type} {map : IssuesMap α} {l : List C} {id : C → Uuid}
    {exp exp' : C → List α → Prop} (h : MapReports map l id exp) (he : ∀ c ∈ l, ∀ x, exp c x → exp' c x) :
    MapReports map l id exp' := by
  refine ⟨h.1, fun c hc => ?_⟩
  obtain ⟨x, h1, h2, h3⟩ := h.2 c hc
  exact ⟨x, he c hc x h1, h2, h3⟩

theorem mapReports_ne_nil {C α : Type} {map : IssuesMap α} {comps : List C} {id : C → Uuid}
    {exp : C → List α → Prop} (h : MapReports map comps id exp) (D : C → Prop)
    (hD : ∀ c ∈ comps, ∀ l, exp c l → (l ≠ [] ↔ D c)) : map.entries ≠ [] ↔ ∃ c ∈ comps, D c := by
  constructor
  · intro hne
    obtain ⟨e, he⟩ := List.exists_mem_of_ne_nil _ hne
    obtain ⟨c, hc, hid⟩ := List.mem_map.1 (h.1.subset (List.mem_map_of_mem (f := Prod.fst) he))
    obtain ⟨l, h1, h2, _⟩ := h.2 c hc
    refine ⟨c, hc, (hD c hc l h1).1 fun hl => h2 hl e.2 ?_⟩
    rw [hid]
    exact he
  · rintro ⟨c, hc, hd⟩
    obtain ⟨l, h1, _, h3⟩ := h.2 c hc
    obtain ⟨s, hs, _⟩ := h3 ((hD c hc l h1).2 hd)
    exact List.ne_nil_of_mem hs

theorem mapReports_exactly {C α : Type} {map : IssuesMap α} {comps : List C} {id : C → Uuid}
    {lt : α → α → Prop} {p : C → α → Prop} (h : MapReports map comps id (fun c l => Exactly lt (p c) l)) :
    map.entries ≠ [] ↔ ∃ c ∈ comps, ∃ x, p c x :=
  mapReports_ne_nil h _ fun _ _ _ hl => exactly_nil_iff hl

theorem mapReports_length {C α : Type} {map : IssuesMap α} {comps : List C} {id : C → Uuid}
    {exp : C → List α → Prop} (h : MapReports map comps id exp) : map.entries.length ≤ comps.length := by
  simpa using h.1.length_le

theorem countMap_zero {α : Type} (s : IssuesMap α) : (reportMap s).count = 0 ↔ ¬ s.entries ≠ [] := by
  unfold reportMap
  simp [List.length_eq_zero_iff]

/-! ### components of a model -/

theorem ids_nodup {m : ModelData P} {lib : ModelLibrary P} (h : MeshesKnown lib m) :
    (m.lines.map LineData.id ++ m.surfaces.map FaceData.id ++ m.blocks.map VolumeData.id).Nodup := by
  refine h.ids.sublist ?_
  rw [List.append_assoc, List.append_assoc, List.append_assoc]
  exact List.sublist_append_right _ _

theorem surfaceIds_nodup {m : ModelData P} {lib : ModelLibrary P} (h : MeshesOk lib m) :
    (m.surfaces.map FaceData.id).Nodup :=
  (ids_nodup h.toMeshesKnown).sublist (((List.sublist_append_right _ _)).trans (List.sublist_append_left _ _))

theorem blockIds_nodup {m : ModelData P} {lib : ModelLibrary P} (h : MeshesOk lib m) :
    (m.blocks.map VolumeData.id).Nodup :=
  (ids_nodup h.toMeshesKnown).sublist (List.sublist_append_right _ _)

/-! ### unique vertices -/

theorem uniqueVertices_report (lib : ModelLibrary P) (m : ModelData P) (brep : Bool) (h : MeshesKnown lib m)
    (hk : KnownTypes brep (m.uniqueVertices lib)) :
    ∃ r, orFail (inspectUniqueVertices brep lib.origin lib.inexactEqual lib.search lib.pointString
        (m.uniqueVertices lib)) = .ok r ∧ UniqueVerticesReport lib m r := by
  obtain ⟨r, h1, h2, h3⟩ := C13_inspect_unique_vertices brep lib.origin lib.inexactEqual lib.search lib.pointString
    (m.uniqueVertices lib) hk h.uniqueVertices
  obtain ⟨r', h1', h4, h5, h6, _⟩ := C14_colocated_unique_vertices brep lib.origin lib.inexactEqual lib.search
    lib.pointString (m.uniqueVertices lib) hk h.uniqueVertices
  rw [h1] at h1'
  cases h1'
  exact ⟨r, by rw [h1]; rfl, ⟨h2, h3⟩, h4, h5, h6⟩

theorem colocatedUvs_ne_nil {lib : ModelLibrary P} {m : ModelData P} {groups : List (List Index)}
    (h : ColocatedUniqueVerticesReport lib m groups) : groups ≠ [] ↔ HasColocatedUniqueVertices lib m := by
  constructor
  · intro hne
    obtain ⟨g, hg⟩ := List.exists_mem_of_ne_nil _ hne
    obtain ⟨hl, hs, hm⟩ := h.1 g hg
    match g, hl with
    | a :: b :: rest, _ =>
      have hab : a < b := List.rel_of_pairwise_cons hs (by simp)
      obtain ⟨i, hi⟩ := List.getElem?_of_mem (hm a (by simp))
      obtain ⟨j, hj⟩ := List.getElem?_of_mem (hm b (by simp))
      exact ⟨i, j, a, b, hi, hj, Nat.ne_of_lt hab, (h.2.2 i j a b hi hj (Nat.ne_of_lt hab)).1
        ⟨_, hg, by simp, by simp⟩⟩
  · rintro ⟨i, j, a, b, hi, hj, hne, hc⟩
    obtain ⟨g, hg, _⟩ := (h.2.2 i j a b hi hj hne).2 hc
    exact List.ne_nil_of_mem hg

/-- A list of disjoint non-empty groups of numbers below `n` has at most `n` groups. -/
theorem groups_length {n : Nat} {groups : List (List Index)} (h1 : ∀ g ∈ groups, g ≠ [] ∧ ∀ x ∈ g, x < n)
    (h2 : groups.Pairwise fun g g' => ∀ x ∈ g, x ∉ g') : groups.length ≤ n := by
  have hn : (groups.map fun g => g.headD 0).Nodup := by
    rw [List.Nodup, List.pairwise_map]
    refine h2.imp_of_mem ?_
    intro a b ha hb hab he
    match a, b, (h1 a ha).1, (h1 b hb).1 with
    | x :: _, y :: _, _, _ =>
      simp only [List.headD_cons] at he
      subst he
      exact hab x (by simp) (by simp)
  have hs : (groups.map fun g => g.headD 0) ⊆ List.range n := by
    intro x hx
    obtain ⟨g, hg, rfl⟩ := List.mem_map.1 hx
    match g, h1 g hg with
    | y :: _, hy => exact List.mem_range.2 (hy.2 y (by simp))
  have := (hn.subperm hs).length_le
  simpa using this

theorem colocatedUvs_length {lib : ModelLibrary P} {m : ModelData P} {groups : List (List Index)}
    (h : ColocatedUniqueVerticesReport lib m groups) : groups.length ≤ m.nbUniqueVertices := by
  refine groups_length (fun g hg => ⟨?_, ?_⟩) h.2.1
  · intro hn
    have := (h.1 g hg).1
    rw [hn] at this
    simp at this
  · intro x hx
    exact List.mem_range.1 (List.mem_of_mem_filter ((h.1 g hg).2.2 x hx))

/-! ### colocation -/

theorem colocationMap_ne_nil {search : List P → ColocatedInfo P} {comps : List (PointComponent P)}
    {map : IssuesMap (List Index)} (h : ColocationMapOk search comps map) :
    map.entries ≠ [] ↔ ∃ c ∈ comps, ∃ i j, i < c.mesh.points.length ∧ j < c.mesh.points.length ∧
        Colocated (search c.mesh.points) i j ∧ c.uniqueVertex i ≠ c.uniqueVertex j := by
  constructor
  · intro hne
    obtain ⟨e, he⟩ := List.exists_mem_of_ne_nil _ hne
    obtain ⟨c, hc, hid⟩ := List.mem_map.1 (h.1.subset (List.mem_map_of_mem (f := Prod.fst) he))
    refine ⟨c, hc, (h.2.2 c hc).1.1 ⟨e.2, ?_⟩⟩
    rw [hid]
    exact he
  · rintro ⟨c, hc, hx⟩
    obtain ⟨s, hs⟩ := (h.2.2 c hc).1.2 hx
    exact List.ne_nil_of_mem hs

/-! ### degenerations -/

theorem lineEdges_eq (lib : ModelLibrary P) (m : ModelData P) :
    lineEdgeReports (m.degeneration lib).lines lib.eps = shortLineEdges lib m := by
  unfold lineEdgeReports shortLineEdges ModelData.degeneration
  simp only [List.filter_map, List.map_map]
  refine List.map_congr_left fun l _ => ?_
  simp only [Function.comp_apply, Prod.mk.injEq, true_and]
  funext e
  exact propext (and_congr Iff.rfl (vertexDistance_atMost lib.toLibrary l.points (l.edgeVertices e)))

theorem surfaceEdges_eq (lib : ModelLibrary P) (m : ModelData P) :
    elementEdgeReports (m.degeneration lib).surfaces lib.eps = shortSurfaceEdges lib m := by
  unfold elementEdgeReports shortSurfaceEdges ModelData.degeneration
  simp only [List.filter_map, List.map_map]
  refine List.map_congr_left fun s _ => ?_
  simp only [Function.comp_apply, Prod.mk.injEq, true_and]
  funext e
  exact propext (and_congr Iff.rfl (vertexDistance_below lib.toLibrary s.points (s.edgeVertices e)))

theorem blockEdges_eq (lib : ModelLibrary P) (m : ModelData P) :
    elementEdgeReports (m.degeneration lib).blocks lib.eps = shortBlockEdges lib m := by
  unfold elementEdgeReports shortBlockEdges ModelData.degeneration
  simp only [List.filter_map, List.map_map]
  refine List.map_congr_left fun s _ => ?_
  simp only [Function.comp_apply, Prod.mk.injEq, true_and]
  funext e
  exact propext (and_congr Iff.rfl (vertexDistance_below lib.toLibrary s.points (s.edgeVertices e)))

theorem polygons_eq (lib : ModelLibrary P) (m : ModelData P) :
    heightReports (m.degeneration lib).surfaces lib.eps = flatPolygons lib m := by
  unfold heightReports flatPolygons ModelData.degeneration
  simp only [List.filter_map, List.map_map]
  rfl

theorem polyhedra_eq (lib : ModelLibrary P) (m : ModelData P) :
    heightReports (m.degeneration lib).blocks lib.eps = flatPolyhedra lib m := by
  unfold heightReports flatPolyhedra ModelData.degeneration
  simp only [List.filter_map, List.map_map]
  rfl

theorem degenerationIds {lib : ModelLibrary P} {m : ModelData P} (h : MeshesOk lib m) :
    (allIds (m.degeneration lib)).Nodup ∧ SizesOk (m.degeneration lib) := by
  constructor
  · have := ids_nodup h.toMeshesKnown
    unfold allIds ModelData.degeneration
    simp only [List.map_map]
    exact this
  · refine ⟨?_, ?_, ?_⟩
    · intro c hc
      obtain ⟨l, hl, rfl⟩ := List.mem_map.1 hc
      exact (h.lines l hl).nbEdges
    · intro c hc
      obtain ⟨s, hs, rfl⟩ := List.mem_map.1 hc
      exact ⟨(h.surfaces s hs).2.1, (h.surfaces s hs).2.2.1⟩
    · intro c hc
      obtain ⟨b, hb, rfl⟩ := List.mem_map.1 hc
      exact ⟨(h.blocks b hb).nbEdges, (h.blocks b hb).nbPolyhedra⟩

/-! ### intersections -/

theorem allSmall {lib : ModelLibrary P} {m : ModelData P} (h : MeshesKnown lib m) (brep : Bool) {c : Candidates P}
    (ht : ModelTreesOk (m.intersections lib brep) c) : AllSmall (m.intersections lib brep) := by
  have key : ∀ s ∈ (m.intersections lib brep).surfaces, SmallPolygons s := by
    intro s hs p
    obtain ⟨f, hf, rfl⟩ := List.mem_map.1 hs
    show (f.polygonVertices p).length ≤ 256
    unfold SurfaceData.polygonVertices
    rw [List.length_map, List.length_range]
    exact h.smallPolygons f hf p
  refine ⟨key, fun ss hss => ?_⟩
  obtain ⟨h1, _, h2, _⟩ := ht.surfaces (ss, c.other ss.1 ss.2)
    (List.mem_append_right _ (List.mem_map_of_mem (f := fun ss => (ss, c.other ss.1 ss.2)) hss))
  exact ⟨key _ h1, key _ h2⟩

theorem meetingPolygons_ne_nil {im : IntersectionModel P} {c : Candidates P} (h : ModelTreesOk im c) :
    meetingPolygons im c ≠ [] ↔ ∃ s1 s2 p q, SurfacesIntersect im s1 s2 p q := by
  constructor
  · intro hne
    obtain ⟨e, he⟩ := List.exists_mem_of_ne_nil _ hne
    obtain ⟨x, hx, he⟩ := List.mem_flatMap.1 he
    obtain ⟨p, hp, _⟩ := List.mem_map.1 he
    obtain ⟨hp, hm⟩ := List.mem_filter.1 hp
    obtain ⟨h1, h2, h3, h4, h5⟩ := h.surfaces x hx
    exact ⟨x.1.1, x.1.2, p.1, p.2, h1, h2, h3, h4, (h5 p hp).1, (h5 p hp).2, of_decide_eq_true hm⟩
  · rintro ⟨s1, s2, p, q, hs⟩
    obtain ⟨x, hx, hc⟩ := h.complete s1 s2 p q hs
    have : ∃ y ∈ x.2, PolygonsMeet im x.1.1 x.1.2 y := by
      rcases hc with ⟨e, hm⟩ | ⟨e, hm, hp⟩
      · exact ⟨(p, q), hm, by rw [e]; exact hs.2.2.2.2.2.2⟩
      · exact ⟨(q, p), hm, by rw [e]; exact hp⟩
    obtain ⟨y, hy, hp⟩ := this
    exact List.ne_nil_of_mem (List.mem_flatMap.2 ⟨x, hx, List.mem_map_of_mem (List.mem_filter.2 ⟨hy, decide_eq_true hp⟩)⟩)

theorem meetingEdges_ne_nil {im : IntersectionModel P} {c : Candidates P} (h : ModelTreesOk im c) :
    meetingEdges im c ≠ [] ↔ ∃ s l p e, LineMeetsSurface im s l p e := by
  constructor
  · intro hne
    obtain ⟨e, he⟩ := List.exists_mem_of_ne_nil _ hne
    obtain ⟨s, hs, he⟩ := List.mem_flatMap.1 he
    obtain ⟨l, hl, he⟩ := List.mem_flatMap.1 he
    obtain ⟨p, hp, _⟩ := List.mem_map.1 he
    obtain ⟨hp, hm⟩ := List.mem_filter.1 hp
    obtain ⟨hs, hsa⟩ := List.mem_filter.1 hs
    obtain ⟨hl, hla⟩ := List.mem_filter.1 hl
    rw [Bool.and_eq_true, decide_eq_true_eq] at hla
    obtain ⟨h1, h2⟩ := h.lines s l p hp
    exact ⟨s, l, p.1, p.2, hs, hsa, hl, hla.1, hla.2, h1, h2, of_decide_eq_true hm⟩
  · rintro ⟨s, l, p, e, hx⟩
    obtain ⟨hs, hsa, hl, hla, hlb, h1, h2, hm⟩ := id hx
    refine List.ne_nil_of_mem (a := _) (List.mem_flatMap.2 ⟨s, List.mem_filter.2 ⟨hs, hsa⟩, List.mem_flatMap.2
      ⟨l, List.mem_filter.2 ⟨hl, ?_⟩, List.mem_map_of_mem (List.mem_filter.2
        ⟨h.linesComplete s l p e hx, decide_eq_true hm⟩)⟩⟩)
    rw [Bool.and_eq_true, decide_eq_true_eq]
    exact ⟨hla, hlb⟩


theorem noEmptySection_ok {lib : ModelLibrary P} {m : ModelData P} {c : Candidates P} (h : MeshesOk lib m)
    (ht : ModelTreesOk (m.intersections lib false) c)
    (htests : NoEmptySurface (m.intersections lib false) → TestsOk (m.intersections lib false) c) :
    ∃ r, inspectIntersections 2 (m.intersections lib false) = .ok r ∧
      (open Classical in if NoEmptySurface (m.intersections lib false) then
        r.elements_intersections.issues.Perm (meetingPolygons (m.intersections lib false) c)
        else r.elements_intersections.issues = []) := by
  by_cases hne : NoEmptySurface (m.intersections lib false)
  · obtain ⟨_, r, _, h1, h2, _⟩ := C36_section_list _ c ht.trees (allSmall h.toMeshesKnown false ht) (htests hne) hne
    exact ⟨r, h1, by rw [if_pos hne]; exact h2⟩
  · obtain ⟨r, h1, h2⟩ := (emptyModel_none _ hne).2.1 2
    exact ⟨r, h1, by rw [if_neg hne]; exact h2⟩

theorem noEmptyBRep_ok {lib : ModelLibrary P} {m : ModelData P} {c : Candidates P} (h : MeshesKnown lib m)
    (ht : ModelTreesOk (m.intersections lib true) c) :
    ∃ r, inspectIntersections 3 (m.intersections lib true) = .ok r ∧
      (open Classical in if NoEmptySurface (m.intersections lib true) then
        r.elements_intersections.issues.Perm (meetingPolygons (m.intersections lib true) c ++
          if NoEmptyLine (m.intersections lib true) then meetingEdges (m.intersections lib true) c else [])
        else r.elements_intersections.issues = []) := by
  have htests : TestsOk (m.intersections lib true) c := brepTestsOk _ _ rfl
  by_cases hne : NoEmptySurface (m.intersections lib true)
  · by_cases hnl : NoEmptyLine (m.intersections lib true)
    · obtain ⟨_, r, _, h1, h2, _⟩ := C36_brep_list _ c ht.trees (allSmall h true ht) htests hne hnl
      exact ⟨r, h1, by rw [if_pos hne, if_pos hnl]; exact h2⟩
    · obtain ⟨_, ⟨l', hl', hp⟩, _⟩ := modelIntersections_ok _ c ht.trees (allSmall h true ht) htests hne
      refine ⟨_, by
        unfold inspectIntersections addIntersectingSurfacesElements
        rw [hl']
        simp only
        rw [C59_empty_line_hides _ hnl], ?_⟩
      rw [if_pos hne, if_neg hnl, List.append_nil, foldl_add_pairs]
      exact hp
  · obtain ⟨r, h1, h2⟩ := (emptyModel_none _ hne).2.1 3
    exact ⟨r, h1, by rw [if_neg hne]; exact h2⟩

/-! ### meshes of a Section -/

/-- all the criteria of the meshes but the intersections, of which `x` is right -/
theorem section_meshes_but (lib : ModelLibrary P) (rt : ModelRuntime) (hrt : ModelRuntimeOk rt) (m : ModelData P)
    (c : Candidates P) (h : MeshesOk lib m) (hk : KnownTypes false (m.uniqueVertices lib)) :
    (∀ f, inspectSectionMeshesOf lib rt m = .error f → inspectIntersections 2 (m.intersections lib false) = .error f) ∧
    ∀ x, inspectIntersections 2 (m.intersections lib false) = .ok x →
      (open Classical in if NoEmptySurface (m.intersections lib false) then
        x.elements_intersections.issues.Perm (meetingPolygons (m.intersections lib false) c)
        else x.elements_intersections.issues = []) →
      ∃ r, inspectSectionMeshesOf lib rt m = .ok r ∧ SectionMeshesReport lib m c r := by
  obtain ⟨u, hu, hur⟩ := uniqueVertices_report lib m false h.toMeshesKnown hk
  obtain ⟨map, hmap, hmapr⟩ := C11_section lib.search lib.pointString m.linePoints m.surfacePoints
    (fun x hx _ => by
      rcases List.mem_append.1 hx with hx | hx
      · obtain ⟨l, hl, rfl⟩ := List.mem_map.1 hx
        exact (h.lines l hl).search
      · obtain ⟨s, hs, rfl⟩ := List.mem_map.1 hx
        exact (h.surfaces s hs).1)
    (by
      have := (ids_nodup h.toMeshesKnown).sublist (List.sublist_append_left _ _)
      simpa [ModelData.linePoints, ModelData.surfacePoints, Function.comp_def] using this)
  have hadj := C17_section_surface_adjacency m.adjacency
    (by simpa [ModelData.adjacency, ModelData.adjacencySurface, Function.comp_def] using surfaceIds_nodup h)
    (fun s hs => by
      obtain ⟨f, hf, rfl⟩ := List.mem_map.1 hs
      exact (h.surfaces f hf).2.2.2)
  have hdeg := C19_section lib.eps (m.degeneration lib) (degenerationIds h).1 (degenerationIds h).2
  rw [lineEdges_eq, surfaceEdges_eq, polygons_eq] at hdeg
  obtain ⟨w, hw, hwv, hwe⟩ := C27_section_maps rt.orders.surfaceEdges hrt.surfaceEdges (m.manifold lib)
    (by simpa [ModelData.manifold, ModelData.manifoldSurface, Function.comp_def] using surfaceIds_nodup h)
    (fun s hs => by
      obtain ⟨f, hf, rfl⟩ := List.mem_map.1 (List.mem_of_mem_filter hs)
      exact h.walks f hf)
  have hneg := C32_section m.signedSurfaces
    (by simpa [ModelData.signedSurfaces, Function.comp_def] using surfaceIds_nodup h)
    (fun s hs => by
      obtain ⟨f, hf, rfl⟩ := List.mem_map.1 hs
      exact (h.surfaces f hf).2.2.1)
  have hmapr : ColocationMapOk lib.search ((m.linePoints ++ m.surfacePoints).filter fun x => x.active) map := hmapr
  constructor
  · intro f hf
    unfold inspectSectionMeshesOf at hf
    rcases (C53_section_meshes_partial rt.choose hrt.choose rt.meshesSchedule _).2 f hf with
      h | h | h | h | h | h | h
    · rw [hu] at h; cases h
    · simp only [hmap] at h; cases h
    · cases h
    · cases h
    · exact h
    · rw [hw] at h; cases h
    · cases h
  intro x hx hxr
  refine ⟨⟨u, { colocated_points_groups := map }, inspectSectionMeshesAdjacencies m.adjacency,
    inspectSectionDegeneration lib.eps (m.degeneration lib), x, w, inspectSectionNegativeElements m.signedSurfaces⟩,
    ?_, ⟨hur, hmapr, ?_, hdeg.1, hdeg.2, hxr, ?_, ?_, ?_⟩⟩
  · unfold inspectSectionMeshesOf
    rw [(C53_section_meshes_partial rt.choose hrt.choose rt.meshesSchedule _).1]
    exact ⟨hu, by simp only [hmap]; rfl, rfl, rfl, hx, hw, rfl⟩
  · have h1 : (m.adjacency.surfaces.filter fun s => s.active)
        = (m.surfaces.filter fun s => s.active).map m.adjacencySurface := by
      unfold ModelData.adjacency
      rw [List.filter_map]
      rfl
    rw [h1] at hadj
    have h2 := mapReports_ofMap hadj
    exact h2
  · unfold activeSurfaces ModelData.manifold at hwv
    simp only [List.filter_map] at hwv
    have h2 := mapReports_ofMap hwv
    exact h2
  · unfold activeSurfaces ModelData.manifold at hwe
    simp only [List.filter_map] at hwe
    have h2 := mapReports_ofMap hwe
    exact h2
  · unfold ModelData.signedSurfaces at hneg
    simp only [List.filter_map] at hneg
    have h2 := mapReports_ofMap hneg
    exact h2

theorem section_meshes (lib : ModelLibrary P) (rt : ModelRuntime) (hrt : ModelRuntimeOk rt) (m : ModelData P)
    (c : Candidates P) (h : MeshesOk lib m) (hk : KnownTypes false (m.uniqueVertices lib))
    (ht : ModelTreesOk (m.intersections lib false) c)
    (htests : NoEmptySurface (m.intersections lib false) → TestsOk (m.intersections lib false) c) :
    ∃ r, inspectSectionMeshesOf lib rt m = .ok r ∧ SectionMeshesReport lib m c r := by
  obtain ⟨x, hx, hxr⟩ := noEmptySection_ok h ht htests
  exact (section_meshes_but lib rt hrt m c h hk).2 x hx hxr

/-! ### topology -/

theorem uniqueIds_topology {lib : ModelLibrary P} {m : ModelData P} (h : MeshesKnown lib m) (rt : ModelRuntime) :
    UniqueIds (m.topology rt) := by
  have hn : ((m.topology rt).components .corner ++ (m.topology rt).components .line ++
      (m.topology rt).components .surface ++ (m.topology rt).components .block).map TopologyComponent.id |>.Nodup := by
    have := h.ids
    simpa [ModelData.topology, Function.comp_def] using this
  simp only [List.map_append, List.nodup_append] at hn
  obtain ⟨⟨⟨n1, n2, d12⟩, n3, d123⟩, n4, d1234⟩ := hn
  have inj : ∀ {l : List TopologyComponent}, (l.map TopologyComponent.id).Nodup → ∀ c ∈ l, ∀ c' ∈ l,
      c.id = c'.id → c = c' := fun hl c hc c' hc' he => List.inj_on_of_nodup_map hl hc hc' he
  have mm : ∀ {l : List TopologyComponent} {c}, c ∈ l → c.id ∈ l.map TopologyComponent.id :=
    fun hc => List.mem_map_of_mem hc
  have e12 : ∀ c ∈ (m.topology rt).components .corner, ∀ c' ∈ (m.topology rt).components .line, c.id ≠ c'.id :=
    fun c hc c' hc' => d12 _ (mm hc) _ (mm hc')
  have e13 : ∀ c ∈ (m.topology rt).components .corner, ∀ c' ∈ (m.topology rt).components .surface, c.id ≠ c'.id :=
    fun c hc c' hc' => d123 _ (List.mem_append_left _ (mm hc)) _ (mm hc')
  have e23 : ∀ c ∈ (m.topology rt).components .line, ∀ c' ∈ (m.topology rt).components .surface, c.id ≠ c'.id :=
    fun c hc c' hc' => d123 _ (List.mem_append_right _ (mm hc)) _ (mm hc')
  have e14 : ∀ c ∈ (m.topology rt).components .corner, ∀ c' ∈ (m.topology rt).components .block, c.id ≠ c'.id :=
    fun c hc c' hc' => d1234 _ (List.mem_append_left _ (List.mem_append_left _ (mm hc))) _ (mm hc')
  have e24 : ∀ c ∈ (m.topology rt).components .line, ∀ c' ∈ (m.topology rt).components .block, c.id ≠ c'.id :=
    fun c hc c' hc' => d1234 _ (List.mem_append_left _ (List.mem_append_right _ (mm hc))) _ (mm hc')
  have e34 : ∀ c ∈ (m.topology rt).components .surface, ∀ c' ∈ (m.topology rt).components .block, c.id ≠ c'.id :=
    fun c hc c' hc' => d1234 _ (List.mem_append_right _ (mm hc)) _ (mm hc')
  intro k hk k' hk' c hc c' hc' he
  simp only [brepKinds, List.mem_cons, List.not_mem_nil, or_false] at hk hk'
  rcases hk with rfl | rfl | rfl | rfl <;> rcases hk' with rfl | rfl | rfl | rfl
  · exact ⟨rfl, inj n1 c hc c' hc' he⟩
  · exact absurd he (e12 c hc c' hc')
  · exact absurd he (e13 c hc c' hc')
  · exact absurd he (e14 c hc c' hc')
  · exact absurd he.symm (e12 c' hc' c hc)
  · exact ⟨rfl, inj n2 c hc c' hc' he⟩
  · exact absurd he (e23 c hc c' hc')
  · exact absurd he (e24 c hc c' hc')
  · exact absurd he.symm (e13 c' hc' c hc)
  · exact absurd he.symm (e23 c' hc' c hc)
  · exact ⟨rfl, inj n3 c hc c' hc' he⟩
  · exact absurd he (e34 c hc c' hc')
  · exact absurd he.symm (e14 c' hc' c hc)
  · exact absurd he.symm (e24 c' hc' c hc)
  · exact absurd he.symm (e34 c' hc' c hc)
  · exact ⟨rfl, inj n4 c hc c' hc' he⟩

theorem componentSizes {lib : ModelLibrary P} {m : ModelData P} (h : MeshesKnown lib m) (rt : ModelRuntime)
    (kind : ComponentType) :
    ∀ c ∈ (m.topology rt).components kind, c.nbVertices < 2 ^ 32 ∧ c.nbElements < 2 ^ 32 := by
  intro c hc
  cases kind <;> simp only [ModelData.topology, List.mem_map, List.not_mem_nil] at hc
  · obtain ⟨x, hx, rfl⟩ := hc
    exact ⟨h.corners x hx, by simp⟩
  · obtain ⟨x, hx, rfl⟩ := hc
    exact ⟨(h.lines x hx).search.2.1, (h.lines x hx).nbEdges⟩
  · obtain ⟨x, hx, rfl⟩ := hc
    exact ⟨(h.surfaces x hx).1.2.1, (h.surfaces x hx).2.2.1⟩
  · obtain ⟨x, hx, rfl⟩ := hc
    exact ⟨(h.blocks x hx).search.2.1, (h.blocks x hx).nbPolyhedra⟩

theorem section_topology (lib : ModelLibrary P) (rt : ModelRuntime) (hrt : ModelRuntimeOk rt) (m : ModelData P)
    (h : MeshesOk lib m) (wf : WellFormed (m.topology rt))
    (hs : ∀ id, Active (m.topology rt) .line id → ∀ e ∈ m.embeddings id, e.type = .surface) :
    ∃ r, inspectSectionTopology (m.topology rt) rt.choose rt.topologySchedule = .ok r ∧
      SectionTopologyReport (m.topology rt) r := by
  obtain ⟨c, hc, hcr⟩ := sectionInspectCorners_spec wf fun x hx => (componentSizes h.toMeshesKnown rt .corner x hx).1
  obtain ⟨l, hl, hlr⟩ := sectionInspectLines_spec wf hs fun x hx => (componentSizes h.toMeshesKnown rt .line x hx).1
  obtain ⟨s, hs, hsr⟩ := sectionInspectSurfaces_spec wf fun x hx => (componentSizes h.toMeshesKnown rt .surface x hx).1
  have hp := C54_section_partial (m.topology rt) (uniqueIds_topology h.toMeshesKnown rt) rt.choose hrt.choose rt.topologySchedule
  obtain ⟨r, hr⟩ := hp.2 (by
    rintro f (hf | hf | hf)
    · rw [hc] at hf; cases hf
    · rw [hl] at hf; cases hf
    · rw [hs] at hf; cases hf)
  obtain ⟨e1, e2, e3⟩ := hp.1 r hr
  refine ⟨r, hr, (C38_section_links _ (uniqueIds_topology h.toMeshesKnown rt) _ _ r hr).1, ?_, ?_, ?_⟩
  · rw [e1.1 c hc]; exact hcr
  · rw [e2.1 l hl]; exact hlr
  · rw [e3.1 s hs]; exact hsr

/-! ### BReps -/

/-- all the criteria of the meshes of a BRep but the manifold one raise nothing -/
theorem brep_meshes_error (lib : ModelLibrary P) (rt : ModelRuntime) (hrt : ModelRuntimeOk rt) (m : ModelData P)
    (c : Candidates P) (h : MeshesKnown lib m) (hk : KnownTypes true (m.uniqueVertices lib))
    (ht : ModelTreesOk (m.intersections lib true) c) (f : Failure) (hf : inspectBRepMeshesOf lib rt m = .error f) :
    inspectBRepManifold rt.orders lib.cycle (m.manifold lib) = .error f := by
  obtain ⟨u, hu, _⟩ := uniqueVertices_report lib m true h hk
  obtain ⟨map, hmap, _⟩ := C11_brep lib.search lib.pointString m.linePoints m.surfacePoints m.blockPoints
    (fun x hx _ => by
      rcases List.mem_append.1 hx with hx | hx
      · rcases List.mem_append.1 hx with hx | hx
        · obtain ⟨l, hl, rfl⟩ := List.mem_map.1 hx
          exact (h.lines l hl).search
        · obtain ⟨s, hs, rfl⟩ := List.mem_map.1 hx
          exact (h.surfaces s hs).1
      · obtain ⟨b, hb, rfl⟩ := List.mem_map.1 hx
        exact (h.blocks b hb).search)
    (by
      have := ids_nodup h
      simpa [ModelData.linePoints, ModelData.surfacePoints, ModelData.blockPoints, Function.comp_def] using this)
  obtain ⟨x, hx, _⟩ := noEmptyBRep_ok h ht
  unfold inspectBRepMeshesOf at hf
  rcases (C53_brep_meshes_partial rt.choose hrt.choose rt.meshesSchedule _).2 f hf with
    h | h | h | h | h | h | h
  · rw [hu] at h; cases h
  · simp only [hmap] at h; cases h
  · cases h
  · cases h
  · rw [hx] at h; cases h
  · exact h
  · cases h

theorem brep_meshes (lib : ModelLibrary P) (rt : ModelRuntime) (hrt : ModelRuntimeOk rt) (m : ModelData P)
    (c : Candidates P) (h : MeshesOk lib m) (hk : KnownTypes true (m.uniqueVertices lib))
    (ht : ModelTreesOk (m.intersections lib true) c) :
    ∃ r, inspectBRepMeshesOf lib rt m = .ok r ∧ BRepMeshesReport lib m c r := by
  obtain ⟨u, hu, hur⟩ := uniqueVertices_report lib m true h.toMeshesKnown hk
  obtain ⟨map, hmap, hmapr⟩ := C11_brep lib.search lib.pointString m.linePoints m.surfacePoints m.blockPoints
    (fun x hx _ => by
      rcases List.mem_append.1 hx with hx | hx
      · rcases List.mem_append.1 hx with hx | hx
        · obtain ⟨l, hl, rfl⟩ := List.mem_map.1 hx
          exact (h.lines l hl).search
        · obtain ⟨s, hs, rfl⟩ := List.mem_map.1 hx
          exact (h.surfaces s hs).1
      · obtain ⟨b, hb, rfl⟩ := List.mem_map.1 hx
        exact (h.blocks b hb).search)
    (by
      have := ids_nodup h.toMeshesKnown
      simpa [ModelData.linePoints, ModelData.surfacePoints, ModelData.blockPoints, Function.comp_def] using this)
  have hadj := C17_brep_surface_adjacency lib.isOpposite m.adjacency
    (by simpa [ModelData.adjacency, ModelData.adjacencySurface, Function.comp_def] using surfaceIds_nodup h)
    (fun s hs => by
      obtain ⟨f, hf, rfl⟩ := List.mem_map.1 hs
      exact (h.surfaces f hf).2.2.2)
  have hbadj := C18_brep_block_adjacency lib.isOpposite m.adjacency
    (by simpa [ModelData.adjacency, ModelData.adjacencyBlock, Function.comp_def] using blockIds_nodup h)
    (fun b hb => by
      obtain ⟨f, hf, rfl⟩ := List.mem_map.1 hb
      exact (h.blocks f hf).nbFacets)
  have hdeg := C19_brep lib.eps (m.degeneration lib) (degenerationIds h).1 (degenerationIds h).2
  rw [lineEdges_eq, surfaceEdges_eq, blockEdges_eq, polygons_eq, polyhedra_eq] at hdeg
  obtain ⟨x, hx, hxr⟩ := noEmptyBRep_ok h.toMeshesKnown ht
  obtain ⟨w, hw, hwv, hwe, hwf, hwm, hwz⟩ := C31_brep_maps rt.orders hrt.surfaceEdges hrt.facets hrt.modelEdges lib.cycle
    (m.manifold lib)
    (by
      have : (m.surfaces.map FaceData.id ++ m.blocks.map VolumeData.id).Nodup := by
        refine (ids_nodup h.toMeshesKnown).sublist ?_
        rw [List.append_assoc]
        exact List.sublist_append_right _ _
      simpa [ModelData.manifold, ModelData.manifoldSurface, Function.comp_def] using this)
    (fun s hs => by
      obtain ⟨f, hf, rfl⟩ := List.mem_map.1 (List.mem_of_mem_filter hs)
      exact h.walks f hf)
    (fun b hb => by
      have hact := (List.mem_filter.1 hb).2
      obtain ⟨f, hf, rfl⟩ := List.mem_map.1 (List.mem_of_mem_filter hb)
      have ho := h.blocks f hf
      have huse : ∀ x ∈ solidEdgeUses (f.topo lib.toLibrary), x.1 < f.nbPolyhedra ∧
          x.2 ∈ f.polyhedronEdgesVertices x.1 := by
        intro x hx
        unfold solidEdgeUses at hx
        obtain ⟨p, hp, hx⟩ := List.mem_flatMap.1 hx
        obtain ⟨e, he, rfl⟩ := List.mem_map.1 hx
        exact ⟨List.mem_range.1 hp, he⟩
      refine ⟨ho.vertices, h.blockWalks f hf hact, fun x hx f => ho.turns x.1 x.2 f (huse x hx).1 (huse x hx).2,
        fun x hx f => ho.turnsOnce x.1 x.2 f (huse x hx).1 (huse x hx).2, ho.search.2.1, ?_, ?_⟩
      · have := ho.nbPolyhedronEdges
        simpa [solidEdgeUses, List.length_flatMap, SolidData.topo] using this
      · rw [pairs_length]
        exact ho.nbFacets)
  have hneg := C32_brep m.signedBlocks
    (by simpa [ModelData.signedBlocks, Function.comp_def] using blockIds_nodup h)
    (fun s hs => by
      obtain ⟨f, hf, rfl⟩ := List.mem_map.1 hs
      exact (h.blocks f hf).nbPolyhedra)
  have hsur : activeSurfaces (m.manifold lib) = (m.surfaces.filter fun s => s.active).map (m.manifoldSurface lib) := by
    unfold activeSurfaces ModelData.manifold
    rw [List.filter_map]
    rfl
  have hblo : activeBlocks (m.manifold lib) = (m.blocks.filter fun s => s.active).map
      (fun b => ⟨b.id, b.active, b.label, b.topo lib.toLibrary⟩) := by
    unfold activeBlocks ModelData.manifold
    rw [List.filter_map]
    rfl
  rw [hsur, hblo] at hwv hwe
  rw [hblo] at hwf
  simp only [List.map_map] at hwv hwe
  refine ⟨⟨u, { colocated_points_groups := map }, inspectBRepMeshesAdjacencies lib.isOpposite m.adjacency,
    inspectBRepDegeneration lib.eps (m.degeneration lib), x, w, inspectBRepNegativeElements m.signedBlocks⟩,
    ?_, ⟨hur, hmapr, ?_, ?_, hdeg.1, hdeg.2.1, hdeg.2.2, hxr, hwv, hwe, ?_, ?_, ?_, ?_⟩⟩
  · unfold inspectBRepMeshesOf
    rw [(C53_brep_meshes_partial rt.choose hrt.choose rt.meshesSchedule _).1]
    exact ⟨hu, by simp only [hmap]; rfl, rfl, rfl, hx, hw, rfl⟩
  · have h1 : (m.adjacency.surfaces.filter fun s => s.active)
        = (m.surfaces.filter fun s => s.active).map m.adjacencySurface := by
      unfold ModelData.adjacency
      rw [List.filter_map]
      rfl
    rw [h1] at hadj
    have h2 := mapReports_ofMap hadj
    exact h2
  · have h1 : (m.adjacency.blocks.filter fun s => s.active)
        = (m.blocks.filter fun s => s.active).map m.adjacencyBlock := by
      unfold ModelData.adjacency
      rw [List.filter_map]
      rfl
    rw [h1] at hbadj
    have h2 := mapReports_ofMap hbadj
    exact h2
  · have h2 := mapReports_ofMap hwf
    exact h2
  · obtain ⟨a, ha, hae⟩ := hwm
    refine ⟨a, ?_, hae⟩
    rw [ha]
    congr 1
    unfold ModelData.manifold
    simp only [List.filter_map, List.map_map]
    rfl
  · rw [hwz]
    unfold ModelData.manifold
    simp only [List.filter_map, List.map_map]
    refine List.map_congr_left fun s _ => ?_
    simp only [Function.comp_apply, SurfaceData.polygonVertices, List.map_map]
    rfl
  · unfold ModelData.signedBlocks at hneg
    simp only [List.filter_map] at hneg
    have h2 := mapReports_ofMap hneg
    exact h2

theorem brep_topology (lib : ModelLibrary P) (rt : ModelRuntime) (hrt : ModelRuntimeOk rt) (m : ModelData P)
    (c : Candidates P) (h : BRepKnown lib rt m c) :
    ∃ r N, (∀ fuel ≥ N, inspectBRepTopology (m.topology rt) m.blocksOracle fuel rt.choose rt.topologySchedule = .ok r) ∧
      BRepTopologyReport (m.topology rt) m.blocksOracle r := by
  obtain ⟨c, hc, hcr⟩ := brepInspectCorners_spec h.topology fun x hx => (componentSizes h.meshesKnown rt .corner x hx).1
  have hfirst : ∀ x ∈ (m.topology rt).components .line, x.active = true → x.nbElements ≠ 0 →
      ∀ v ∈ (m.topology rt).lineEdgeVertices x.id 0, (m.topology rt).uniqueVertex ⟨⟨.line, x.id⟩, v⟩ ≠ none := by
      intro x hx hxa hxe v hv
      have hx' : x ∈ m.lines.map fun c => (⟨c.id, c.active, c.points.length, c.nbEdges⟩ : TopologyComponent) := hx
      obtain ⟨y, hy, rfl⟩ := List.mem_map.1 hx'
      refine h.firstEdges y hy hxa hxe v ?_
      have hfind : m.lines.find? (fun l => l.id == y.id) = some y := by
        have hn : (m.lines.map LineData.id).Nodup := ((ids_nodup h.meshesKnown).sublist
          ((List.sublist_append_left _ _).trans (List.sublist_append_left _ _)))
        cases hf : m.lines.find? (fun l => l.id == y.id) with
        | none => exact absurd (List.find?_eq_none.1 hf y hy) (by simp)
        | some z =>
          have hz := List.mem_of_find?_eq_some hf
          have hid := List.find?_some hf
          rw [beq_iff_eq] at hid
          rw [List.inj_on_of_nodup_map hn hz hy hid]
      have hv' : v ∈ ((m.lines.find? fun l => l.id == y.id).map fun l =>
        [(l.edgeVertices 0).1, (l.edgeVertices 0).2]).getD [] := hv
      rw [hfind] at hv'
      exact hv'
  have hcomp := C68_completes (m.topology rt) h.topology h.around (componentSizes h.meshesKnown rt .line) hfirst
  have hlines : ∃ l : BRepLinesTopologyInspectionResult, valueOr {} (brepInspectLines (m.topology rt)) = l ∧
      (∀ f ∈ failureOf (brepInspectLines (m.topology rt)), f = .openGeodeException) ∧
      (¬ LinesUnreadable (m.topology rt) → brepInspectLines (m.topology rt) = .ok l) ∧
      (LinesUnreadable (m.topology rt) → l = {}) := by
    by_cases hu : LinesUnreadable (m.topology rt)
    · refine ⟨{}, ?_, ?_, fun hx => absurd hu hx, fun _ => rfl⟩
      · rw [hcomp.2.2 hu]; rfl
      · rw [hcomp.2.2 hu]
        intro f hf
        simpa [failureOf] using hf
    · obtain ⟨l, hl⟩ := hcomp.1.2 hu
      refine ⟨l, by rw [hl]; rfl, ?_, fun _ => hl, fun hx => absurd hx hu⟩
      rw [hl]
      intro f hf
      simp [failureOf] at hf
  obtain ⟨l, hlv, hlf, hl, hln⟩ := hlines
  have hlr := fun hu => brepInspectLines_exact h.topology h.around (componentSizes h.meshesKnown rt .line) (hl hu)
  obtain ⟨s, hs, hsr⟩ := brepInspectSurfaces_spec h.topology h.around h.surfaceEmbeddings
    (componentSizes h.meshesKnown rt .surface)
  have hblocks : ∃ b N, (∀ fuel ≥ N, brepInspectBlocks (m.topology rt) m.blocksOracle fuel = .ok b) ∧
      ((∃ c ∈ (m.topology rt).components .block, c.active = true) → BlocksReport (m.topology rt) m.blocksOracle b) ∧
      ((∀ c ∈ (m.topology rt).components .block, c.active = false) → b = {}) := by
    by_cases hact : ∃ c ∈ (m.topology rt).components .block, c.active = true
    · obtain ⟨b, N, h1, h2⟩ := C75_block_reports (m.topology rt) h.topology h.coherent m.blocksOracle h.graph h.geometry h.rays
        h.modelBoundaries (fun x hx => (componentSizes h.meshesKnown rt .block x hx).1) h.counts hact
      refine ⟨b, N, h1, fun _ => h2, fun hno => ?_⟩
      obtain ⟨c, hc, hca⟩ := hact
      rw [hno c hc] at hca
      cases hca
    · have hno : ∀ c ∈ (m.topology rt).components .block, c.active = false := by
        intro c hc
        rw [← Bool.not_eq_true]
        exact fun hca => hact ⟨c, hc, hca⟩
      exact ⟨{}, 0, fun fuel _ => C75_no_active_block _ _ fuel hno, fun hx => absurd hx hact, fun _ => rfl⟩
  obtain ⟨b, N, hb, hbr, hbn⟩ := hblocks
  obtain ⟨r, hr, e1, e2, e3, e4, _⟩ := brepAddLinks_spec (uniqueIds_topology h.meshesKnown rt)
    { corners := c, lines := l, surfaces := s, blocks := b } rfl rfl rfl
  have hall : ∀ fuel ≥ N, inspectBRepTopology (m.topology rt) m.blocksOracle fuel rt.choose rt.topologySchedule
      = .ok r := by
    intro fuel hfuel
    unfold inspectBRepTopology
    rw [brepInvoke, uncaught_none hrt.choose]
    · rw [hc, hlv, hs, hb fuel hfuel]
      exact hr
    · intro f hf
      rw [hc, hs, hb fuel hfuel] at hf
      refine hlf f ?_
      simpa [failureOf] using hf
  refine ⟨r, N, hall, (C38_brep_links _ (uniqueIds_topology h.meshesKnown rt) _ N _ _ r (hall N (Nat.le_refl N))).1,
    ?_, ?_, ?_, ?_, ?_, ?_⟩
  · rw [e1]; exact hcr
  · intro hu
    have hlr := hlr hu
    rw [e2]; exact ⟨hlr.1.1, hlr.1.2.1, hlr.1.2.2, hlr.2⟩
  · rw [e2]; exact hln
  · rw [e3]; exact ⟨hsr.1.1, hsr.1.2.1, hsr.1.2.2, hsr.2⟩
  · rw [e4]; exact hbr
  · rw [e4]; exact hbn

end Inspector
