import Verif.Spec.MeshMessages
import Verif.Proofs.TopologyMessages
import Verif.Proofs.Whole
/-
Lemmas for the messages of the inspection of meshes (C96).
-/
namespace Inspector
open Spec
variable {P : Type}

/-! ### texts -/

theorem foldl_join {α : Type} (g : α → String) (l : List α) (acc : String) :
    l.foldl (fun s x => s ++ g x) acc = acc ++ String.join (l.map g) := by
  induction l generalizing acc with
  | nil => simp [String.join_nil]
  | cons x xs ih => rw [List.foldl_cons, ih]; simp [String.join_cons, String.append_assoc]

theorem groupString_eq (l : List Index) : groupString l = spaced l := by
  unfold groupString spaced
  have h : (fun (s : String) (i : Index) => s ++ " " ++ toString i) = fun s i => s ++ (" " ++ toString i) := by
    funext s i; rw [String.append_assoc]
  rw [h, foldl_join, String.empty_append]

/-! ### lists and maps -/

theorem told_new {α : Type} (d : String) (claim : α → String → Prop) : Told (Issues.new d) d claim :=
  ⟨rfl, explained_new d claim⟩

theorem told_add {α : Type} {s : Issues α} {d : String} {claim : α → String → Prop} {x : α} {t : String}
    (h : Told s d claim) (hx : claim x t) : Told (s.add x t) d claim := ⟨h.1, explained_add h.2 hx⟩

theorem told_collectFrom {α β : Type} {claim : β → String → Prop} {d : String} (bad : α → Bool) (issue : α → β)
    (message : α → String) (l : List α) (init : Issues β) (hi : Told init d claim)
    (h : ∀ x ∈ l, bad x = true → claim (issue x) (message x)) : Told (collectFrom init l bad issue message) d claim :=
  ⟨(collectFrom_description ..).trans hi.1, explained_collectFrom bad issue message l init hi.2 h⟩

theorem told_collect {α : Type} {claim : α → String → Prop} (d : String) (l : List α) (bad : α → Bool)
    (message : α → String) (h : ∀ x ∈ l, bad x = true → claim x (message x)) : Told (collect d l bad message) d claim :=
  told_collectFrom bad id message l _ (told_new d claim) h

theorem told_collectFromM {α β : Type} {claim : β → String → Prop} {d : String} (bad : α → Except Failure Bool)
    (issue : α → β) (message : α → String) (l : List α) (init s : Issues β) (hi : Told init d claim)
    (hs : collectFromM init bad issue message l = .ok s)
    (h : ∀ x ∈ l, bad x = .ok true → claim (issue x) (message x)) : Told s d claim := by
  induction l generalizing init with
  | nil => cases hs; exact hi
  | cons x l ih =>
    unfold collectFromM at hs
    split at hs
    · cases hs
    · rename_i hx
      exact ih _ (told_add hi (h x (by simp) hx)) hs fun y hy => h y (by simp [hy])
    · exact ih _ hi hs fun y hy => h y (by simp [hy])

theorem told_foldl {α β : Type} {claim : β → String → Prop} {d : String} (f : α → β) (msg : α → String) (l : List α)
    (init : Issues β) (hi : Told init d claim) (h : ∀ x ∈ l, claim (f x) (msg x)) :
    Told (l.foldl (fun issues x => issues.add (f x) (msg x)) init) d claim := by
  induction l generalizing init with
  | nil => exact hi
  | cons x l ih =>
    rw [List.foldl_cons]
    exact ih _ (told_add hi (h x (by simp))) fun y hy => h y (by simp [hy])

theorem told_setDescription {α : Type} {s : Issues α} {d : String} {claim : α → String → Prop} (d' : String)
    (h : Told s d claim) : Told (s.setDescription d') d' claim := ⟨rfl, h.2⟩

theorem toldMap_new {α : Type} (d : String) (told : Uuid → Issues α → Prop) : ToldMap (IssuesMap.new d) d told :=
  ⟨rfl, fun e he => absurd he (by simp [IssuesMap.new])⟩

theorem toldMap_add {α : Type} {map : IssuesMap α} {d : String} {told : Uuid → Issues α → Prop} {id : Uuid}
    {s : Issues α} (h : ToldMap map d told) (hs : told id s) : ToldMap (map.addIssues id s) d told := by
  unfold IssuesMap.addIssues
  split
  · exact h
  · split
    · exact h
    · refine ⟨h.1, fun e he => ?_⟩
      simp only [List.mem_append, List.mem_singleton] at he
      rcases he with he | rfl
      · exact h.2 e he
      · exact hs

theorem toldMap_foldl {α β : Type} {d : String} {told : Uuid → Issues α → Prop} (id : β → Uuid) (issues : β → Issues α)
    (l : List β) (map : IssuesMap α) (h : ToldMap map d told) (hs : ∀ x ∈ l, told (id x) (issues x)) :
    ToldMap (l.foldl (fun map x => map.addIssues (id x) (issues x)) map) d told := by
  induction l generalizing map with
  | nil => exact h
  | cons x l ih =>
    rw [List.foldl_cons]
    exact ih _ (toldMap_add h (hs x (by simp))) fun y hy => hs y (by simp [hy])

theorem toldMap_mono {α : Type} {map : IssuesMap α} {d : String} {told told' : Uuid → Issues α → Prop}
    (h : ToldMap map d told) (hi : ∀ id s, told id s → told' id s) : ToldMap map d told' :=
  ⟨h.1, fun e he => hi _ _ (h.2 e he)⟩

theorem told_mono {α : Type} {s : Issues α} {d : String} {claim claim' : α → String → Prop}
    (h : Told s d claim) (hi : ∀ x t, claim x t → claim' x t) : Told s d claim' :=
  ⟨h.1, List.Forall₂.imp hi h.2⟩

/-! ### colocation -/

theorem fillBuckets_lt (m : List Nat) (s : Nat) (b b' : List (List Nat)) (h : fillBuckets m s b = some b') :
    ∀ u ∈ m, u < b.length := by
  induction m generalizing s b with
  | nil => intro u hu; cases hu
  | cons x r ih =>
    unfold fillBuckets pushAt at h
    by_cases hx : x < b.length
    · rw [if_pos hx] at h
      simp only [] at h
      intro u hu
      rcases List.mem_cons.1 hu with rfl | hu
      · exact hx
      · have := ih _ _ h u hu
        rwa [List.length_modify] at this
    · rw [if_neg hx] at h
      cases h

theorem search_lt (search : List P → ColocatedInfo P) (ps : P → String) (points : List P)
    {s : Issues (List Index)} (h : colocatedPointsGroups search ps ⟨points⟩ = some s) :
    ∀ u ∈ (search points).colocated_mapping, u < (search points).unique_points.length := by
  unfold colocatedPointsGroups at h
  simp only [meshPointsColocatedInfo, ColocatedInfo.nbUniquePoints] at h
  split at h
  · cases h
  · rename_i b hb
    have := fillBuckets_lt _ _ _ _ hb
    simpa using this

/-- a group of the search: its first vertex, and where the search puts it -/
theorem group_first (info : ColocatedInfo P) (g : List Index)
    (hg : g ∈ bigClasses info.colocated_mapping info.unique_points.length) :
    ∃ first second rest u p, g = first :: second :: rest ∧ info.colocated_mapping[first]? = some u ∧
      info.unique_points[u]? = some p := by
  obtain ⟨⟨u, hu, rfl⟩, hl⟩ := (mem_bigClasses _ _ _).1 hg
  match ho : occ info.colocated_mapping 0 u with
  | [] => rw [ho] at hl; simp at hl
  | [_] => rw [ho] at hl; simp at hl
  | a :: b :: rest =>
    have ha := ((mem_occ info.colocated_mapping 0 u a).1 (by rw [ho]; simp)).2
    exact ⟨a, b, rest, u, _, rfl, by simpa using ha, List.getElem?_eq_getElem hu⟩

theorem colocatedPointsGroups_told (search : List P → ColocatedInfo P) (ps : P → String) (points : List P)
    {s : Issues (List Index)} (h : colocatedPointsGroups search ps ⟨points⟩ = some s) :
    Told s "groups of colocated points" fun group t =>
      ∃ first rest u p, group = first :: rest ∧ (search points).colocated_mapping[first]? = some u ∧
        (search points).unique_points[u]? = some p ∧
        t = "vertices " ++ spaced group ++ " are colocated at the position [" ++ ps p ++ "]" := by
  have hlt := search_lt search ps points h
  unfold colocatedPointsGroups at h
  simp only [meshPointsColocatedInfo, ColocatedInfo.nbUniquePoints] at h
  rw [fillBuckets_eq _ _ _ (by simpa using hlt)] at h
  have h := Option.some.inj h
  subst h
  have hc : (List.map (fun u => ((List.replicate (search points).unique_points.length ([] : List Nat))[u]?).getD [] ++
      occ (search points).colocated_mapping 0 u)
      (List.range (List.replicate (search points).unique_points.length ([] : List Nat)).length)) =
      classes (search points).colocated_mapping (search points).unique_points.length := by
    unfold classes
    simp only [List.length_replicate]
    apply List.map_congr_left
    intro u hu
    rw [List.mem_range] at hu
    simp [hu]
  rw [hc]
  refine told_foldl (fun x => x) _ _ _ (told_new _ _) fun g hg => ?_
  obtain ⟨first, second, rest, u, p, rfl, hu, hp⟩ := group_first (search points) g hg
  refine ⟨first, _, u, p, rfl, hu, hp, ?_⟩
  have h1 : ((first :: second :: rest).headD 0) = first := rfl
  rw [groupString_eq, h1, hu, Option.getD_some, hp]
  rfl

theorem meshColocated_told (lib : Library P) (points : List P) {s : Issues (List Index)}
    (h : meshColocatedPointsGroups lib points = .ok s) :
    Told s "groups of colocated points" (ColocatedSays lib points) := by
  unfold meshColocatedPointsGroups at h
  split at h
  · rename_i s' hs
    obtain rfl := Except.ok.inj h
    exact colocatedPointsGroups_told lib.search lib.pointString points hs
  · cases h

/-! ### degeneration, negative elements, adjacency, intersections -/

theorem curveSmallEdges_told (lib : Library P) (mesh : CurveData P) (threshold : Dbl) :
    Told (curveSmallEdges (mesh.measures lib) threshold) "degenerated edges." (CurveEdgeSays mesh) :=
  told_collect _ _ _ _ fun _ _ _ => rfl

theorem pointText_eq (lib : Library P) (points : List P) (v : Index) : lib.pointText points v = positionText lib points v := by
  unfold Library.pointText positionText
  cases points[v]? <;> rfl

theorem smallEdges_told (lib : Library P) (points : List P) (mesh : ElementMeasures) (threshold : Dbl)
    (hp : mesh.pointText = lib.pointText points) :
    Told (smallEdges mesh threshold) "degenerated edges" (SmallEdgeSays lib points mesh.edgeVertices) :=
  told_collect _ _ _ _ fun e _ _ => (by unfold SmallEdgeSays; rw [← pointText_eq, hp])

theorem smallHeightPolygons_told (mesh : ElementMeasures) (threshold : Dbl) :
    Told (smallHeightPolygons mesh threshold) "Degenerated Polygons." fun p t =>
      t = "degenerated polygons " ++ toString p := told_collect _ _ _ _ fun _ _ _ => rfl

theorem smallHeightPolyhedra_told (mesh : ElementMeasures) (threshold : Dbl) :
    Told (smallHeightPolyhedra mesh threshold) "Degenerated Polyhedra." fun p t =>
      t = "degenerated polyhedra " ++ toString p := told_collect _ _ _ _ fun _ _ _ => rfl

theorem negativePolygons_told (dimension : Nat) (mesh : SignedSurface) :
    Told (negativePolygons dimension mesh) "negative area polygons" fun p t => t = "negative polygon " ++ toString p := by
  unfold negativePolygons
  split
  · exact told_collect _ _ _ _ fun _ _ _ => rfl
  · exact told_new _ _

theorem negativePolyhedra_told (mesh : SignedSolid) :
    Told (negativePolyhedra mesh) "negative volume polyhedra" fun p t => t = "negative polyhedron " ++ toString p :=
  told_collect _ _ _ _ fun _ _ _ => rfl

theorem surfaceAdjacency_told (name : String) (mesh : SurfaceMesh) :
    Told (polygonEdgesWithWrongAdjacency name mesh) ("Surface " ++ name ++ " polygon edges adjacencies issues")
      PolygonEdgeSays := told_collect _ _ _ _ fun _ _ _ => rfl

theorem solidAdjacency_told (opposite : List Index → List Index → Bool) (name : String) (mesh : SolidMesh) :
    Told (polyhedronFacetsWithWrongAdjacency opposite name mesh)
      ("Solid " ++ name ++ " polyhedron facets adjacencies issues") PolyhedronFacetSays :=
  told_collect _ _ _ _ fun _ _ _ => rfl

theorem surfaceIntersecting_told (traverse : Traversal) (mesh : IntersectionSurface) {s : Issues ElementPair}
    (h : surfaceIntersectingElements traverse mesh = .ok s) :
    Told s "intersections between polygons" fun x t =>
      t = "Polygons " ++ toString x.1 ++ " and " ++ toString x.2 ++ " intersect" := by
  unfold surfaceIntersectingElements at h
  split at h
  · cases h
  · obtain rfl := Except.ok.inj h
    exact told_foldl (fun x => x) _ _ _ (told_new _ _) fun _ _ => rfl

/-! ### manifold -/

theorem surfaceEdges_told
    (iterate : HMap (Index × Index) (UInt8 × Bool) → HMap (Index × Index) (UInt8 × Bool))
    (hi : ∀ m, (iterate m).Perm m) (mesh : SurfaceMesh) :
    Told (surfaceNonManifoldEdges iterate mesh) "non manifold edges" (SurfaceEdgeSays mesh) := by
  unfold surfaceNonManifoldEdges
  have hmem : ∀ x ∈ iterate (edgeToPolygonsAround mesh), x ∈ edgeToPolygonsAround mesh := fun x hx =>
    (hi _).mem_iff.1 hx
  generalize iterate (edgeToPolygonsAround mesh) = l at hmem
  refine foldl_keep (fun s => Told s "non manifold edges" (SurfaceEdgeSays mesh)) _ l ?_ _ (told_new _ _)
  rintro s ⟨e, c, b⟩ hx hs
  obtain ⟨_, _, hv⟩ := (mem_edgeMap mesh e (c, b)).1 (hmem _ hx)
  obtain ⟨rfl, rfl⟩ := Prod.mk.inj hv
  have hb : ((usesOfEdge mesh e).any fun x => (mesh.polygonAdjacent x).isNone) = true ↔ DeclaredBorder mesh e := by
    unfold DeclaredBorder
    rw [List.any_eq_true]
    constructor
    · rintro ⟨x, hx, h⟩
      exact ⟨x, hx, Option.isNone_iff_eq_none.1 h⟩
    · rintro ⟨x, hx, h⟩
      exact ⟨x, hx, by rw [h]; rfl⟩
  have hc : ∀ k : Nat, k < 256 → (UInt8.ofNat (usesOfEdge mesh e).length = UInt8.ofNat k ↔
      (usesOfEdge mesh e).length % 256 = k) := by
    intro k hk
    rw [← UInt8.toNat_inj]
    simp only [UInt8.toNat_ofNat']
    rw [Nat.mod_eq_of_lt (by simpa using hk : k < 2 ^ 8)]
  have h1 := hc 1 (by decide)
  have h2 := hc 2 (by decide)
  have h1' : UInt8.ofNat 1 = 1 := rfl
  have h2' : UInt8.ofNat 2 = 2 := rfl
  rw [h1'] at h1
  rw [h2'] at h2
  simp only []
  by_cases hd : DeclaredBorder mesh e
  · rw [hb.2 hd]
    simp only [Bool.true_and, Bool.not_true, Bool.false_and, Bool.false_eq_true, if_false]
    split
    · rename_i hne
      refine told_add hs (.border hd fun hm => ?_)
      exact (bne_iff_ne.1 hne) (h1.2 hm)
    · exact hs
  · have hf : ((usesOfEdge mesh e).any fun x => (mesh.polygonAdjacent x).isNone) = false := by
      rw [← Bool.not_eq_true, hb]; exact hd
    rw [hf]
    simp only [Bool.false_and, Bool.not_false, Bool.true_and, Bool.false_eq_true, if_false]
    split
    · rename_i hne
      refine told_add hs (.inside hd fun hm => ?_)
      exact (bne_iff_ne.1 hne) (h2.2 hm)
    · exact hs

theorem surfaceVertices_told (lib : Library P) (points : List P) (mesh : SurfaceTopo)
    (hp : mesh.pointText = lib.pointText points) {s : Issues Index} (h : surfaceNonManifoldVertices mesh = .ok s) :
    Told s "non manifold vertices" (VertexSays lib points) := by
  unfold surfaceNonManifoldVertices at h
  split at h
  · cases h
  · exact told_collectFromM _ _ _ _ _ _ (told_new _ _) h fun v _ _ => (by unfold VertexSays; rw [← pointText_eq, hp]; rfl)

theorem solidVertices_told (lib : Library P) (points : List P) (mesh : SolidTopo)
    (hp : mesh.pointText = lib.pointText points) {s : Issues Index} (h : solidNonManifoldVertices mesh = .ok s) :
    Told s "non manifold vertices" (VertexSays lib points) := by
  unfold solidNonManifoldVertices at h
  split at h
  · cases h
  · exact told_collectFromM _ _ _ _ _ _ (told_new _ _) h fun v _ _ => (by unfold VertexSays; rw [← pointText_eq, hp]; rfl)

theorem solidEdgesLoop_told (mesh : SolidTopo) (l : List (Index × (Index × Index))) (before : List (Index × (Index × Index)))
    (checked : List (Index × Index)) (init s : Issues (Index × Index))
    (hl : solidEdgeUses mesh = before ++ l) (hc : ∀ y ∈ before, edgeCycle y.2 ∈ checked)
    (hi : Told init "Non manifold edges" (SolidEdgeSays mesh))
    (h : solidNonManifoldEdgesLoop mesh (edgesToPolyhedraAround mesh) l checked init = .ok s) :
    Told s "Non manifold edges" (SolidEdgeSays mesh) := by
  induction l generalizing before checked init with
  | nil => obtain rfl := Except.ok.inj h; exact hi
  | cons x l ih =>
    have hl' : solidEdgeUses mesh = (before ++ [x]) ++ l := by rw [hl]; simp
    unfold solidNonManifoldEdgesLoop at h
    simp only [] at h
    split at h
    · rename_i hcon
      refine ih _ checked init hl' ?_ hi h
      intro y hy
      rcases List.mem_append.1 hy with hy | hy
      · exact hc y hy
      · rw [List.mem_singleton] at hy; subst hy; simpa using hcon
    · rename_i hcon
      have hc' : ∀ y ∈ before ++ [x], edgeCycle y.2 ∈ edgeCycle x.2 :: checked := by
        intro y hy
        rcases List.mem_append.1 hy with hy | hy
        · exact List.mem_cons_of_mem _ (hc y hy)
        · rw [List.mem_singleton] at hy; subst hy; simp
      have hfirst : FirstUse mesh x.1 x.2 := by
        refine ⟨before, l, hl, fun y hy hsame => hcon ?_⟩
        rw [← edgeCycle_eq_edgeCycle] at hsame
        simpa [hsame] using hc y hy
      split at h
      · rename_i hwalk
        exact ih _ _ _ hl' hc' (told_add hi (.notFound x.1 hfirst hwalk)) h
      · cases h
      · rename_i fan hwalk
        split at h
        · cases h
        · refine ih _ _ _ hl' hc' ?_ h
          split
          · exact told_add hi (.found x.1 fan hfirst hwalk)
          · exact hi

theorem solidEdges_told (mesh : SolidTopo) {s : Issues (Index × Index)} (h : solidNonManifoldEdges mesh = .ok s) :
    Told s "Non manifold edges" (SolidEdgeSays mesh) :=
  solidEdgesLoop_told mesh _ [] [] _ s rfl (fun y hy => (by cases hy)) (told_new _ _) h

theorem solidFacets_told (iterate : HMap (List Index) UInt32 → HMap (List Index) UInt32)
    (cycle : List Index → List Index) (mesh : SolidMesh) :
    Told (solidNonManifoldFacets iterate cycle mesh) "non manifold facets" SolidFacetSays := by
  refine told_collectFrom _ _ _ _ _ (told_new _ _) fun f _ _ => ?_
  unfold SolidFacetSays
  have h : (fun (m : String) (v : Index) => m ++ toString v ++ ", ") = fun m v => m ++ (toString v ++ ", ") := by
    funext m v; rw [String.append_assoc]
  rw [h, foldl_join]

end Inspector
