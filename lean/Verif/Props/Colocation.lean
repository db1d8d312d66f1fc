import Mathlib.Data.List.Nodup
import Verif.Proofs.Colocation
/-
Properties C09 - C14: colocation, for every mesh / model and every answer of the external
colocation search.
-/
namespace Inspector
open Spec

/-- an example of search result: points 0, 2, 4 on unique point 0, points 1, 3 on unique point 1 and
point 5 alone -/
def exampleInfo : ColocatedInfo Nat := ⟨[0, 1, 0, 1, 0, 2], [10, 11, 12]⟩
def exampleMesh : PointMesh Nat := ⟨[10, 11, 10, 11, 10, 12]⟩

theorem exampleInfo_ok : SearchOk exampleInfo exampleMesh.points.length := by
  refine ⟨rfl, by decide, by decide, ?_⟩
  intro u hu
  have : u < 3 := hu
  match u, this with
  | 0, _ | 1, _ | 2, _ => decide

/-! ### C09, C10 -/

/-- **C09.** `colocated_points_groups` returns the classes of the colocation relation that have at
least two elements, each sorted. -/
theorem C09_colocated_points_groups {P : Type} (search : List P → ColocatedInfo P)
    (pointString : P → String) (mesh : PointMesh P)
    (h : SearchOk (search mesh.points) mesh.points.length) :
    ∃ s, colocatedPointsGroups search pointString mesh = some s ∧
      AreClasses s.issues mesh.points.length (Colocated (search mesh.points)) := by
  obtain ⟨s, h1, h2⟩ := colocatedPointsGroups_eq search pointString mesh h.2.2.1
  exact ⟨s, h1, by rw [h2]; exact bigClasses_areClasses _ _ _ h.1 h.2.2.1⟩

example : ∃ s, colocatedPointsGroups (fun _ => exampleInfo) toString exampleMesh = some s ∧
    s.issues = [[0, 2, 4], [1, 3]] := ⟨_, rfl, rfl⟩

/-- **C10.** `mesh_has_colocated_points` is true exactly when there is a group. -/
theorem C10_mesh_has_colocated_points {P : Type} (search : List P → ColocatedInfo P)
    (pointString : P → String) (mesh : PointMesh P)
    (h : SearchOk (search mesh.points) mesh.points.length) :
    ∃ s, colocatedPointsGroups search pointString mesh = some s ∧
      (meshHasColocatedPoints search mesh = true ↔ s.issues ≠ []) := by
  obtain ⟨s, h1, h2⟩ := colocatedPointsGroups_eq search pointString mesh h.2.2.1
  refine ⟨s, h1, ?_⟩
  rw [h2]
  obtain ⟨hle, hiff⟩ := bigClasses_ne_nil_iff _ _ h.2.2.1 h.2.2.2
  rw [← hiff]
  unfold meshHasColocatedPoints ColocatedInfo.nbColocatedPoints ColocatedInfo.nbUniquePoints
    meshPointsColocatedInfo
  rw [decide_eq_true_iff]
  have hn : (search mesh.points).colocated_mapping.length < 2 ^ 32 := by rw [h.1]; exact h.2.1
  rw [gt_iff_lt, UInt32.lt_iff_toNat_lt, UInt32.toNat_sub]
  simp only [UInt32.toNat_ofNat', UInt32.toNat_zero]
  rw [Nat.mod_eq_of_lt (a := (search mesh.points).colocated_mapping.length) hn,
    Nat.mod_eq_of_lt (a := (search mesh.points).unique_points.length) (by omega)]
  omega

example : meshHasColocatedPoints (fun _ => exampleInfo) exampleMesh = true := by decide
/-- without colocated points both are empty -/
example : meshHasColocatedPoints (fun _ => (⟨[0, 1], [5, 6]⟩ : ColocatedInfo Nat)) ⟨[5, 6]⟩ = false := by
  decide

/-! ### C11: the filter on unique vertices -/

/-- **C11** (filter).  A group is kept exactly when it is split, and what is kept represents it. -/
theorem C11_filter (uv : Index → Index) (groups : List (List Index)) :
    ReportsSplitGroups uv groups (filterColocatedPoints uv groups) :=
  filterColocatedPoints_reports uv groups

example : filterColocatedPoints (fun v => v % 2) [[0, 2, 4], [1, 2, 3, 5], [7, 8]]
    = [[2, 1], [8, 7]] := by decide

/-- What a component map says about colocated points, component by component. -/
theorem components_entries {P : Type} (search : List P → ColocatedInfo P)
    (comps : List (PointComponent P)) (map : IssuesMap (List Index))
    (h : ∀ c ∈ comps, SearchOk (search c.mesh.points) c.mesh.points.length)
    (hn : (comps.map PointComponent.id).Nodup)
    (he : map.entries.map (fun e => (e.1, e.2.issues))
      = (comps.map (fun c => (c.id, componentGroups search c))).filter (fun p => !p.2.isEmpty)) :
    (map.entries.map Prod.fst).Sublist (comps.map PointComponent.id) ∧
    (∀ e ∈ map.entries, e.2.issues ≠ []) ∧
    ∀ c ∈ comps,
      ((∃ s, (c.id, s) ∈ map.entries) ↔
        ∃ i j, i < c.mesh.points.length ∧ j < c.mesh.points.length ∧
          Colocated (search c.mesh.points) i j ∧ c.uniqueVertex i ≠ c.uniqueVertex j) ∧
      ∀ s, (c.id, s) ∈ map.entries → ∃ groups,
        AreClasses groups c.mesh.points.length (Colocated (search c.mesh.points)) ∧
        ReportsSplitGroups c.uniqueVertex groups s.issues := by
  have hmem : ∀ id (l : List (List Index)), (∃ s : Issues (List Index), (id, s) ∈ map.entries ∧ s.issues = l)
      ↔ ∃ c ∈ comps, c.id = id ∧ componentGroups search c = l ∧ l ≠ [] := by
    intro id l
    have : (∃ s : Issues (List Index), (id, s) ∈ map.entries ∧ s.issues = l)
        ↔ (id, l) ∈ map.entries.map (fun e => (e.1, e.2.issues)) := by
      rw [List.mem_map]
      constructor
      · rintro ⟨s, hs, rfl⟩; exact ⟨(id, s), hs, rfl⟩
      · rintro ⟨⟨id', s⟩, hs, heq⟩
        simp only [Prod.mk.injEq] at heq
        obtain ⟨rfl, rfl⟩ := heq
        exact ⟨s, hs, rfl⟩
    rw [this, he, List.mem_filter, List.mem_map]
    constructor
    · rintro ⟨⟨c, hc, heq⟩, hne⟩
      simp only [Prod.mk.injEq] at heq
      exact ⟨c, hc, heq.1, heq.2, by simpa using hne⟩
    · rintro ⟨c, hc, h1, h2, h3⟩
      exact ⟨⟨c, hc, by rw [h1, h2]⟩, by simpa using h3⟩
  have huniq : ∀ c ∈ comps, ∀ c' ∈ comps, c.id = c'.id → c = c' := by
    intro c hc c' hc' heq
    exact List.inj_on_of_nodup_map hn hc hc' heq
  refine ⟨?_, ?_, ?_⟩
  · have h1 : map.entries.map Prod.fst = (map.entries.map (fun e => (e.1, e.2.issues))).map Prod.fst := by
      simp [Function.comp_def]
    have h2 : comps.map PointComponent.id
        = (comps.map (fun c => (c.id, componentGroups search c))).map Prod.fst := by
      simp [Function.comp_def]
    rw [h1, he, h2]
    exact List.filter_sublist.map _
  · rintro ⟨id, s⟩ hs
    obtain ⟨c, _, _, _, hne⟩ := (hmem id s.issues).1 ⟨s, hs, rfl⟩
    exact hne
  · intro c hc
    have hok := h c hc
    have hcl := bigClasses_areClasses (search c.mesh.points).colocated_mapping
      (search c.mesh.points).unique_points.length c.mesh.points.length hok.1 hok.2.2.1
    have hrep := filterColocatedPoints_reports c.uniqueVertex
      (bigClasses (search c.mesh.points).colocated_mapping (search c.mesh.points).unique_points.length)
    change ReportsSplitGroups _ _ (componentGroups search c) at hrep
    constructor
    · have hiff : componentGroups search c ≠ [] ↔ ∃ g ∈ bigClasses (search c.mesh.points).colocated_mapping
          (search c.mesh.points).unique_points.length, SplitGroup c.uniqueVertex g := by
        obtain ⟨split, hsub, hin, hfa⟩ := hrep
        have hlen := hfa.length_eq
        constructor
        · intro hne
          have : split ≠ [] := by
            rintro rfl
            exact hne (List.length_eq_zero_iff.1 (by simpa using hlen.symm))
          obtain ⟨g, hg⟩ := List.exists_mem_of_ne_nil _ this
          exact ⟨g, hsub.subset hg, (hin g (hsub.subset hg)).1 hg⟩
        · rintro ⟨g, hg, hs⟩ hnil
          have := (hin g hg).2 hs
          rw [hnil] at hlen
          have hsp : split = [] := List.length_eq_zero_iff.1 (by simpa using hlen)
          rw [hsp] at this
          simp at this
      constructor
      · rintro ⟨s, hs⟩
        obtain ⟨c', hc', hid, heq, hne⟩ := (hmem c.id s.issues).1 ⟨s, hs, rfl⟩
        obtain rfl := huniq c' hc' c hc hid
        rw [← heq] at hne
        obtain ⟨g, hg, i, hi, j, hj, hij⟩ := hiff.1 hne
        have hi' := (hcl.1 g hg).2.2 i hi
        have hj' := (hcl.1 g hg).2.2 j hj
        refine ⟨i, j, hi', hj', (hcl.2.2 i j hi' hj' ?_).1 ⟨g, hg, hi, hj⟩, hij⟩
        rintro rfl
        exact hij rfl
      · rintro ⟨i, j, hi, hj, hcol, hij⟩
        obtain ⟨g, hg, hgi, hgj⟩ := (hcl.2.2 i j hi hj (by rintro rfl; exact hij rfl)).2 hcol
        have hne := hiff.2 ⟨g, hg, i, hgi, j, hgj, hij⟩
        obtain ⟨s, hs, _⟩ := (hmem c.id (componentGroups search c)).2 ⟨c, hc, rfl, rfl, hne⟩
        exact ⟨s, hs⟩
    · intro s hs
      obtain ⟨c', hc', hid, heq, hne⟩ := (hmem c.id s.issues).1 ⟨s, hs, rfl⟩
      obtain rfl := huniq c' hc' c hc hid
      exact ⟨_, hcl, by rw [← heq]; exact hrep⟩

/-- **C11** (Section). -/
theorem C11_section {P : Type} (search : List P → ColocatedInfo P) (pointString : P → String)
    (lines surfaces : List (PointComponent P))
    (h : ∀ c ∈ lines ++ surfaces, c.active = true →
      SearchOk (search c.mesh.points) c.mesh.points.length)
    (hn : ((lines ++ surfaces).map PointComponent.id).Nodup) :
    ∃ map, inspectMeshesPointColocationsSection search pointString lines surfaces = some map ∧
      ColocationMapOk search ((lines ++ surfaces).filter fun c => c.active) map := by
  obtain ⟨a1, e1, m1⟩ := addComponentsColocation_eq search pointString "Line " lines
    (IssuesMap.new "colocated points") (fun c hc => h c (by simp [hc]))
  obtain ⟨a2, e2, m2⟩ := addComponentsColocation_eq search pointString "Surface " surfaces
    ((IssuesMap.new "colocated points").addAll a1) (fun c hc => h c (by simp [hc]))
  have hok : ∀ c ∈ (lines ++ surfaces).filter (fun c => c.active),
      SearchOk (search c.mesh.points) c.mesh.points.length := by
    intro c hc
    exact h c (List.mem_filter.1 hc).1 (List.mem_filter.1 hc).2
  have hnd : (((lines ++ surfaces).filter fun c => c.active).map PointComponent.id).Nodup :=
    hn.sublist (List.filter_sublist.map _)
  refine ⟨_, ?_, components_entries search _ _ hok hnd
    (entries_of_adds search "colocated points" _ (a1 ++ a2) hok hnd ?_)⟩
  · unfold inspectMeshesPointColocationsSection
    rw [m1]
    simp only [m2, IssuesMap.addAll_append]
  · rw [List.filter_append, List.map_append, List.map_append, e1, e2]

/-- **C11** (BRep). -/
theorem C11_brep {P : Type} (search : List P → ColocatedInfo P) (pointString : P → String)
    (lines surfaces blocks : List (PointComponent P))
    (h : ∀ c ∈ lines ++ surfaces ++ blocks, c.active = true →
      SearchOk (search c.mesh.points) c.mesh.points.length)
    (hn : ((lines ++ surfaces ++ blocks).map PointComponent.id).Nodup) :
    ∃ map, inspectMeshesPointColocationsBRep search pointString lines surfaces blocks = some map ∧
      ColocationMapOk search ((lines ++ surfaces ++ blocks).filter fun c => c.active) map := by
  obtain ⟨a1, e1, m1⟩ := addComponentsColocation_eq search pointString "Line " lines
    (IssuesMap.new "colocated points") (fun c hc => h c (by simp [hc]))
  obtain ⟨a2, e2, m2⟩ := addComponentsColocation_eq search pointString "Surface " surfaces
    ((IssuesMap.new "colocated points").addAll a1) (fun c hc => h c (by simp [hc]))
  obtain ⟨a3, e3, m3⟩ := addComponentsColocation_eq search pointString "Block " blocks
    (((IssuesMap.new "colocated points").addAll a1).addAll a2) (fun c hc => h c (by simp [hc]))
  have hok : ∀ c ∈ (lines ++ surfaces ++ blocks).filter (fun c => c.active),
      SearchOk (search c.mesh.points) c.mesh.points.length := by
    intro c hc
    exact h c (List.mem_filter.1 hc).1 (List.mem_filter.1 hc).2
  have hnd : (((lines ++ surfaces ++ blocks).filter fun c => c.active).map PointComponent.id).Nodup :=
    hn.sublist (List.filter_sublist.map _)
  refine ⟨_, ?_, components_entries search _ _ hok hnd
    (entries_of_adds search "colocated points" _ (a1 ++ a2 ++ a3) hok hnd ?_)⟩
  · unfold inspectMeshesPointColocationsBRep
    rw [m1]
    simp only [m2, m3]
    simp only [IssuesMap.addAll_append]
  · rw [List.filter_append, List.filter_append, List.map_append, List.map_append, List.map_append,
      List.map_append, e1, e2, e3]

/-- two components sharing the example mesh: the first has its colocated vertices linked to
different unique vertices, the second to the same ones -/
example : ∃ map, inspectMeshesPointColocationsSection (fun _ => exampleInfo) toString
      [⟨7, true, "l", exampleMesh, fun v => v⟩] [⟨8, true, "s", exampleMesh, fun _ => 3⟩,
        ⟨9, false, "t", exampleMesh, fun v => v⟩] = some map ∧
    map.entries.map (fun e => (e.1, e.2.issues)) = [(7, [[2, 4, 0], [3, 1]])] := ⟨_, rfl, rfl⟩

/-! ### C12: one vertex per unique vertex (false in general) -/

/-- **C12 is false**: for a group of four colocated vertices linked to unique vertices 5, 6, 5, 6 the
reported group contains two vertices (1 and 3) linked to the same unique vertex. -/
theorem C12_violated : ∃ (uv : Index → Index) (group reported : List Index),
    group.Nodup ∧ filterColocatedPoints uv [group] = [reported] ∧
    ∃ i ∈ reported, ∃ j ∈ reported, i ≠ j ∧ uv i = uv j :=
  ⟨fun v => 5 + v % 2, [0, 1, 2, 3], [1, 3, 0], by decide, by decide, 1, by decide, 3, by decide,
    by decide, by decide⟩

/-- **C12** holds for groups without the alternating pattern `k < i < i + 1 < j` where `k` and `i + 1`
share a unique vertex and `i` and `j` share a unique vertex. -/
theorem C12_one_vertex_per_unique_vertex_partial (uv : Index → Index) (group reported : List Index)
    (hnd : group.Nodup)
    (hpat : ∀ k i j, k < i → i + 1 < j → j < group.length →
      uv (group.getD k 0) = uv (group.getD (i + 1) 0) → uv (group.getD i 0) = uv (group.getD j 0) →
      False)
    (h : filterColocatedPoints uv [group] = [reported]) :
    reported.Nodup ∧ ∀ i ∈ reported, ∀ j ∈ reported, i ≠ j → uv i ≠ uv j := by
  have hf : filterGroup uv group = some reported := by
    rw [filterColocatedPoints_eq] at h
    cases hg : filterGroup uv group with
    | none => simp [List.filterMap_cons, hg] at h
    | some r => simpa [List.filterMap_cons, hg] using h
  have hinj : ∀ p q, p < group.length → q < group.length → p ≠ q → group.getD p 0 ≠ group.getD q 0 := by
    intro p q hp hq hpq
    rw [List.getD_eq_getElem?_getD, List.getD_eq_getElem?_getD, List.getElem?_eq_getElem hp,
      List.getElem?_eq_getElem hq]
    simp only [Option.getD_some]
    exact fun e => hpq ((List.Nodup.getElem_inj_iff hnd).1 e)
  -- two positions of kept vertices never share a unique vertex
  have key : ∀ p k, k ∈ kept uv group → p < k + 1 →
      uv (group.getD p 0) ≠ uv (group.getD (k + 1) 0) := by
    intro p k hk hp he
    obtain ⟨h1, h2⟩ := (mem_kept uv group k).1 hk
    have := flagsAt_complete uv group p k (group.length - 1) h1 (by omega) (by omega) he
      (fun hlt i' hi' he' => hpat i' p (k + 1) hi' (by omega) (by omega) he' he)
    rw [this] at h2
    simp at h2
  constructor
  · rw [filterGroup_eq] at hf
    split at hf
    · simp at hf
    · obtain rfl := Option.some.inj hf
      have hklt : ∀ k ∈ kept uv group, k < group.length - 1 := fun k hk => ((mem_kept uv group k).1 hk).1
      rw [List.nodup_append]
      refine ⟨?_, by simp, ?_⟩
      · rw [List.nodup_iff_pairwise_ne, List.pairwise_map]
        have hkn : (kept uv group).Nodup := (List.nodup_range).filter _
        refine List.Pairwise.imp_of_mem ?_ hkn
        intro a b ha hb hab
        have := hklt a ha
        have := hklt b hb
        exact hinj _ _ (by omega) (by omega) (by omega)
      · intro x hx y hy
        obtain ⟨k, hk, rfl⟩ := List.mem_map.1 hx
        rw [List.mem_singleton] at hy
        subst hy
        have := hklt k hk
        exact hinj _ _ (by omega) (by omega) (by omega)
  · intro i hi j hj hij
    rcases (mem_filterGroup hf i).1 hi with rfl | ⟨k, hk, rfl⟩
    · rcases (mem_filterGroup hf j).1 hj with rfl | ⟨k', hk', rfl⟩
      · exact absurd rfl hij
      · exact key 0 k' hk' (by omega)
    · rcases (mem_filterGroup hf j).1 hj with rfl | ⟨k', hk', rfl⟩
      · exact fun e => key 0 k hk (by omega) e.symm
      · rcases Nat.lt_trichotomy k k' with hlt | heq | hgt
        · exact key (k + 1) k' hk' (by omega)
        · subst heq; exact absurd rfl hij
        · exact fun e => key (k' + 1) k hk (by omega) e.symm

open Classical in
/-- **C12**, the exact report: the places of the group which are kept, from place 1 on, then the first place; nothing
when no place is kept. -/
theorem C12_exact_report_partial (uv : Index → Index) (group : List Index) :
    filterColocatedPoints uv [group] =
      let keptPlaces := (List.range' 1 (group.length - 1)).filter
        fun j => decide (Kept (fun p => uv (group.getD p 0)) j)
      if keptPlaces = [] then [] else [keptPlaces.map (fun j => group.getD j 0) ++ [group.getD 0 0]] := by
  have hk : (kept uv group).map (· + 1) = (List.range' 1 (group.length - 1)).filter
      fun j => decide (Kept (fun p => uv (group.getD p 0)) j) := by
    have hr : List.range' 1 (group.length - 1) = (List.range (group.length - 1)).map (· + 1) := by
      rw [List.range_eq_range']
      exact (List.map_add_range' (a := 1) (s := 0) (n := group.length - 1) (step := 1) ▸
        List.map_congr_left fun x _ => Nat.add_comm 1 x)
    rw [hr, List.filter_map]
    refine congrArg _ (List.filter_congr fun k hk => ?_)
    rw [List.mem_range] at hk
    rw [filterFlags_eq, Bool.eq_iff_iff, flagsAt_iff uv group _ k (Nat.le_refl _) hk]
    simp only [Function.comp, decide_eq_true_eq]
    unfold Kept
    exact ⟨fun h i hi => h i (by omega) (by omega), fun h i _ hi => h i (by omega)⟩
  have hnil : kept uv group = [] ↔ (kept uv group).map (· + 1) = [] := by simp
  rw [filterColocatedPoints_eq]
  simp only [← hk]
  by_cases h : kept uv group = []
  · rw [if_pos (hnil.1 h)]
    simp [filterGroup_eq, h]
  · rw [if_neg (fun h' => h (hnil.2 h'))]
    simp [filterGroup_eq, h]

/-- in the group of `C12_violated` place 1 is compared with no other one, so that places 1 and 3 are kept -/
example : ¬ Compared (fun p => 5 + p % 2) 1 ∧ Kept (fun p => 5 + p % 2) 1 ∧ Kept (fun p => 5 + p % 2) 3 := by
  have h0 : Compared (fun p => 5 + p % 2) 0 := by
    rw [Compared]; intro i hi; exact absurd hi (Nat.not_lt_zero i)
  have h1 : ¬ Compared (fun p => 5 + p % 2) 1 := by
    rw [Compared]; intro h; exact h 0 (by omega) rfl h0
  refine ⟨h1, ?_, ?_⟩
  · intro i hi _
    obtain rfl : i = 0 := by omega
    decide
  · intro i hi hc
    have : i = 0 ∨ i = 1 ∨ i = 2 := by omega
    rcases this with rfl | rfl | rfl
    · decide
    · exact absurd hc h1
    · decide

/-- groups of at most three vertices have no such pattern -/
theorem C12_small_groups_partial (uv : Index → Index) (group reported : List Index)
    (hnd : group.Nodup) (hlen : group.length ≤ 3)
    (h : filterColocatedPoints uv [group] = [reported]) :
    reported.Nodup ∧ ∀ i ∈ reported, ∀ j ∈ reported, i ≠ j → uv i ≠ uv j :=
  C12_one_vertex_per_unique_vertex_partial uv group reported hnd
    (fun k i j h1 h2 h3 _ _ => by omega) h

example : filterColocatedPoints (fun v => v / 4) [[1, 2, 5]] = [[5, 1]] := by decide

/-! ### C13, C14: unique vertices -/

/-- a model with four unique vertices: number 0 has an active Line vertex and an inactive Block
vertex, number 1 only an inactive one, numbers 2 and 3 have active Surface vertices -/
def exampleUVModel : UVModel Nat where
  nbUniqueVertices := 4
  componentMeshVertices uv :=
    if uv = 0 then [⟨⟨.block, 9⟩, 0⟩, ⟨⟨.line, 1⟩, 5⟩]
    else if uv = 1 then [⟨⟨.block, 9⟩, 1⟩]
    else [⟨⟨.surface, 2⟩, uv⟩, ⟨⟨.surface, 2⟩, uv + 2⟩]
  isActive id := id != 9
  cornerPoint _ v := v
  linePoint _ v := v
  surfacePoint _ v := if v < 4 then 7 else v
  blockPoint _ v := v

theorem exampleUVModel_known : KnownTypes true exampleUVModel := by
  intro uv cmv h
  simp only [exampleUVModel] at h
  split at h
  · simp at h; rcases h with rfl | rfl <;> simp
  · split at h
    · simp at h; subst h; simp
    · simp at h; rcases h with rfl | rfl <;> simp

/-- **C13.** The reported unique vertices are, in increasing order, those with an active component
mesh vertex away from the first one; the boolean version agrees; nothing fails. -/
theorem C13_linked_to_different_points {P : Type} (d : String) (brep : Bool) (origin : P)
    (inexactEqual : P → P → Bool) (m : UVModel P) (hk : KnownTypes brep m) :
    ∃ b out,
      hasUvsLinkedToDifferentPoints brep inexactEqual m (UVColocation.create brep origin m)
        (List.range m.nbUniqueVertices) = some b ∧
      addUvsLinkedToDifferentPoints brep inexactEqual m (UVColocation.create brep origin m)
        (List.range m.nbUniqueVertices)
        (Issues.new d) = some out ∧
      (b = true ↔ out.issues ≠ []) ∧
      out.issues.Pairwise (· < ·) ∧
      ∀ uv, uv ∈ out.issues ↔ uv < m.nbUniqueVertices ∧ DifferentPoints inexactEqual m uv := by
  obtain ⟨b, hb, hiff⟩ := hasUvs_eq brep origin inexactEqual m hk (List.range m.nbUniqueVertices)
    (fun uv h => List.mem_range.1 h)
  obtain ⟨out, rep, h1, h2, h3, h4⟩ := addUvs_eq brep origin inexactEqual m hk
    (List.range m.nbUniqueVertices) (fun uv h => List.mem_range.1 h)
    (Issues.new d)
  have h2' : out.issues = rep := by simpa [Issues.new] using h2
  refine ⟨b, out, hb, h1, ?_, ?_, ?_⟩
  · rw [hiff, h2']
    constructor
    · rintro ⟨uv, hm, hd⟩ hnil
      have := (h4 uv).2 ⟨hm, hd⟩
      rw [hnil] at this
      simp at this
    · intro hne
      obtain ⟨uv, hu⟩ := List.exists_mem_of_ne_nil _ hne
      exact ⟨uv, (h4 uv).1 hu⟩
  · rw [h2']
    exact List.pairwise_lt_range.sublist h3
  · intro uv
    rw [h2', h4, List.mem_range]

/-- in the example model unique vertices 2 and 3 are linked to different points -/
example : (addUvsLinkedToDifferentPoints true (fun a b => a == b) exampleUVModel
    (UVColocation.create true 0 exampleUVModel) [0, 1, 2, 3] (Issues.new "d")).map Issues.issues
    = some [2, 3] := by decide

/-- **C14.** The groups of `inspect_unique_vertices` are made of unique vertices of the model with an
active component mesh vertex; two different ones are in a common group exactly when the search finds
their positions colocated; `model_has_colocated_unique_vertices` agrees. -/
theorem C14_colocated_unique_vertices {P : Type} (brep : Bool) (origin : P)
    (inexactEqual : P → P → Bool) (search : List P → ColocatedInfo P) (pointString : P → String)
    (m : UVModel P) (hk : KnownTypes brep m)
    (h : SearchOk (search (activePositions m)) (activeUvs m).length) :
    ∃ result, inspectUniqueVertices brep origin inexactEqual search pointString m = some result ∧
      (∀ g ∈ result.colocated_unique_vertices_groups.issues, 2 ≤ g.length ∧ g.Pairwise (· < ·) ∧
        ∀ uv ∈ g, uv ∈ activeUvs m) ∧
      result.colocated_unique_vertices_groups.issues.Pairwise (fun g g' => ∀ uv ∈ g, uv ∉ g') ∧
      (∀ a b uva uvb, (activeUvs m)[a]? = some uva → (activeUvs m)[b]? = some uvb → uva ≠ uvb →
        ((∃ g ∈ result.colocated_unique_vertices_groups.issues, uva ∈ g ∧ uvb ∈ g)
          ↔ Colocated (search (activePositions m)) a b)) ∧
      (hasColocatedUvs search (UVColocation.create brep origin m) = true
        ↔ result.colocated_unique_vertices_groups.issues ≠ []) := by
  have hpts := create_points brep origin m hk
  have h' : SearchOk (search (activePositions m)) (activePositions m).length := by
    rw [activePositions_length]; exact h
  obtain ⟨s, hs, hcl⟩ := C09_colocated_points_groups search pointString ⟨activePositions m⟩ h'
  obtain ⟨s', hs', hbool⟩ := C10_mesh_has_colocated_points search pointString ⟨activePositions m⟩ h'
  rw [hs] at hs'
  obtain rfl := Option.some.inj hs'
  have hlt : ∀ g ∈ s.issues, ∀ i ∈ g, i < (activeUvs m).length := by
    intro g hg i hi
    rw [← activePositions_length]
    exact (hcl.1 g hg).2.2 i hi
  obtain ⟨out, h1, h2⟩ := addFixedGroups_eq brep origin pointString m hk s.issues hlt
    ({} : UniqueVerticesInspectionResult).colocated_unique_vertices_groups
  obtain ⟨out2, rep, h3, -⟩ := addUvs_eq brep origin inexactEqual m hk
    (List.range m.nbUniqueVertices) (fun uv h => List.mem_range.1 h)
    ({} : UniqueVerticesInspectionResult).unique_vertices_linked_to_different_points
  have h2' : out.issues = s.issues.map fun g => g.map fun a => ((activeUvs m)[a]?).getD 0 := by
    rw [h2]
    have : (({} : UniqueVerticesInspectionResult).colocated_unique_vertices_groups).issues = [] := rfl
    rw [this, List.nil_append]
  refine ⟨⟨out, out2⟩, ?_, ?_, ?_, ?_, ?_⟩
  · unfold inspectUniqueVertices addColocatedUvGroups
    simp only [hpts, hs, h1, h3]
  · simp only [h2']
    intro g' hg'
    obtain ⟨g, hg, rfl⟩ := List.mem_map.1 hg'
    obtain ⟨k1, k2, k3⟩ := hcl.1 g hg
    have hsorted : (activeUvs m).Pairwise (· < ·) := List.pairwise_lt_range.filter _
    refine ⟨by simpa using k1, ?_, ?_⟩
    · rw [List.pairwise_map]
      refine List.Pairwise.imp_of_mem ?_ k2
      intro a b ha hb hab
      have ha' := hlt g hg a ha
      have hb' := hlt g hg b hb
      rw [List.getElem?_eq_getElem ha', List.getElem?_eq_getElem hb']
      exact List.pairwise_iff_getElem.1 hsorted a b ha' hb' hab
    · intro uv huv
      obtain ⟨a, ha, rfl⟩ := List.mem_map.1 huv
      rw [List.getElem?_eq_getElem (hlt g hg a ha)]
      exact List.getElem_mem _
  · simp only [h2']
    rw [List.pairwise_map]
    refine List.Pairwise.imp_of_mem ?_ hcl.2.1
    intro g g' hg hg' hd uv hu hu'
    obtain ⟨a, ha, hae⟩ := List.mem_map.1 hu
    obtain ⟨b, hb, hbe⟩ := List.mem_map.1 hu'
    have ha' := hlt g hg a ha
    have hb' := hlt g' hg' b hb
    rw [List.getElem?_eq_getElem ha', Option.getD_some] at hae
    rw [List.getElem?_eq_getElem hb', Option.getD_some] at hbe
    have := (List.Nodup.getElem_inj_iff (activeUvs_nodup m)).1 (hae.trans hbe.symm)
    subst this
    exact hd a ha hb
  · intro a b uva uvb ha hb hne
    simp only [h2']
    obtain ⟨ha', hae⟩ := List.getElem?_eq_some_iff.1 ha
    obtain ⟨hb', hbe⟩ := List.getElem?_eq_some_iff.1 hb
    have hab : a ≠ b := by
      rintro rfl
      exact hne (hae.symm.trans hbe)
    rw [← hcl.2.2 a b (by rw [activePositions_length]; exact ha')
      (by rw [activePositions_length]; exact hb') hab]
    have hback : ∀ g ∈ s.issues, ∀ x (hx : x < (activeUvs m).length),
        ((activeUvs m)[x] ∈ g.map (fun a => ((activeUvs m)[a]?).getD 0) ↔ x ∈ g) := by
      intro g hg x hx
      rw [List.mem_map]
      constructor
      · rintro ⟨y, hy, hye⟩
        have hy' := hlt g hg y hy
        rw [List.getElem?_eq_getElem hy', Option.getD_some] at hye
        have := (List.Nodup.getElem_inj_iff (activeUvs_nodup m)).1 hye
        exact this ▸ hy
      · intro hxg
        exact ⟨x, hxg, by rw [List.getElem?_eq_getElem hx]; rfl⟩
    constructor
    · rintro ⟨g', hg', m1, m2⟩
      obtain ⟨g, hg, rfl⟩ := List.mem_map.1 hg'
      rw [← hae, hback g hg a ha'] at m1
      rw [← hbe, hback g hg b hb'] at m2
      exact ⟨g, hg, m1, m2⟩
    · rintro ⟨g, hg, m1, m2⟩
      refine ⟨_, List.mem_map.2 ⟨g, hg, rfl⟩, ?_, ?_⟩
      · rw [← hae, hback g hg a ha']; exact m1
      · rw [← hbe, hback g hg b hb']; exact m2
  · unfold hasColocatedUvs
    rw [hpts, hbool]
    simp only [h2']
    simp

/-- **C13** (through `inspect_unique_vertices`). -/
theorem C13_inspect_unique_vertices {P : Type} (brep : Bool) (origin : P)
    (inexactEqual : P → P → Bool) (search : List P → ColocatedInfo P) (pointString : P → String)
    (m : UVModel P) (hk : KnownTypes brep m)
    (h : SearchOk (search (activePositions m)) (activeUvs m).length) :
    ∃ result, inspectUniqueVertices brep origin inexactEqual search pointString m = some result ∧
      result.unique_vertices_linked_to_different_points.issues.Pairwise (· < ·) ∧
      ∀ uv, uv ∈ result.unique_vertices_linked_to_different_points.issues
        ↔ uv < m.nbUniqueVertices ∧ DifferentPoints inexactEqual m uv := by
  obtain ⟨result, hr, -⟩ := C14_colocated_unique_vertices brep origin inexactEqual search pointString m hk h
  obtain ⟨b, out, -, hout, -, h1, h2⟩ := C13_linked_to_different_points
    "unique vertex refering multiple positions" brep origin inexactEqual m hk
  have : result.unique_vertices_linked_to_different_points = out := by
    have hr' := hr
    unfold inspectUniqueVertices at hr'
    simp only at hr'
    change (match _, addUvsLinkedToDifferentPoints brep inexactEqual m (UVColocation.create brep origin m)
      (List.range m.nbUniqueVertices) (Issues.new "unique vertex refering multiple positions") with
      | some groups, some different => some (UniqueVerticesInspectionResult.mk groups different)
      | _, _ => none) = some result at hr'
    rw [hout] at hr'
    split at hr'
    · rename_i heq
      obtain rfl := Option.some.inj heq
      rw [← Option.some.inj hr']
    · simp at hr'
  exact ⟨result, hr, by rw [this]; exact h1, by rw [this]; exact h2⟩

/-- in the example model, unique vertex 1 is skipped and the group is `2 3` in the model numbering
(`1 2` among the active ones) -/
example : activeUvs exampleUVModel = [0, 2, 3] ∧ activePositions exampleUVModel = [5, 7, 7] ∧
    (inspectUniqueVertices true 0 (fun a b => a == b) (fun _ => (⟨[0, 1, 1], [5, 7]⟩ : ColocatedInfo Nat))
      toString exampleUVModel).map (fun r => r.colocated_unique_vertices_groups.issues)
    = some [[2, 3]] := by decide

end Inspector
