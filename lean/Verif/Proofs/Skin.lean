import Verif.Proofs.Watertight
/-
Lemmas for C126 and C127.
-/
namespace Inspector.Skin
open Inspector Spec
variable {P : Type} {m : ModelData P}

theorem all_some {α β : Type} (f : α → Option β) (l : List α) (h : ∀ a ∈ l, ∃ b, f a = some b) :
    ∃ bs : List β, l.map f = bs.map some := by
  induction l with
  | nil => exact ⟨[], rfl⟩
  | cons a l ih =>
    obtain ⟨b, hb⟩ := h a (by simp)
    obtain ⟨bs, hbs⟩ := ih fun a ha => h a (List.mem_cons_of_mem _ ha)
    exact ⟨b :: bs, by simp [hb, hbs]⟩

/-- the facets of a Block on a polygon are finitely many -/
theorem listed (b : VolumeData P) (s : FaceData P) (p : Index) :
    ∃ xs : List PolyhedronFacet, xs.Nodup ∧ ∀ x, x ∈ xs ↔ FacetOn m b x s p := by
  classical
  refine ⟨(pairs b.nbPolyhedra b.nbPolyhedronFacets).filter fun x => decide (FacetOn m b x s p),
    (pairs_nodup _ _).filter _, fun x => ?_⟩
  rw [List.mem_filter, decide_eq_true_eq]
  exact ⟨fun h => h.2, fun h => ⟨(mem_pairs ..).2 h.1, h⟩⟩

/-- no defect of the BRep makes the border facets of its Blocks be on Surfaces related to them -/
theorem skinned {lib : ModelLibrary P} {rt : ModelRuntime} (hf : PolygonsFound m) (hsound : FacetsSound m)
    (hd : ¬ BRepDefect lib rt m) {b : VolumeData P} (hb : b ∈ m.blocks) (hba : b.active = true) (hall : AllKnown m)
    {x : PolyhedronFacet} (hx : IsPolyhedronFacet b.toSolidMesh x) (hnone : b.polyhedronAdjacent x = none) :
    Skinned m b x := by
  unfold BRepDefect at hd
  simp only [not_or] at hd
  obtain ⟨_, _, _, _, hbl, _, _, _, _, _, hdt⟩ := hd
  unfold BRepTopologyDefect at hdt
  simp only [not_or] at hdt
  obtain ⟨_, _, hul, _, _, hdf, hdb⟩ := hdt
  have hbm : ¬ BlockMeshDefect lib m b := fun hh => hbl ⟨b, hb, hba, hh⟩
  unfold BlockMeshDefect at hbm
  simp only [not_or] at hbm
  obtain ⟨_, _, hborder, _⟩ := hbm
  have hbin : (⟨b.id, b.active, b.points.length, b.nbPolyhedra⟩ : TopologyComponent) ∈
      (m.topology rt).components .block := List.mem_map.2 ⟨b, hb, rfl⟩
  have huv : ∀ k ∈ b.polyhedronFacetVertices x, ∃ u, m.uniqueVertex ⟨⟨.block, b.id⟩, k⟩ = some u := by
    intro k hk
    have hlt := hsound b hb x hx k hk
    cases hu : m.uniqueVertex ⟨⟨.block, b.id⟩, k⟩ with
    | some u => exact ⟨u, rfl⟩
    | none =>
      exact absurd (Or.inr (Or.inl ⟨_, hbin, hba, ⟨Nat.ne_of_gt (Nat.lt_of_le_of_lt (Nat.zero_le _) hlt),
        hall.2 b hb⟩, k, hlt, hu⟩)) hdb
  obtain ⟨uvs, huvs⟩ := all_some _ _ huv
  have hp : m.surfaceComponentMeshPolygons uvs ≠ [] := fun hh => hborder ⟨x, hx, hnone, uvs, huvs, hh⟩
  obtain ⟨s, hs, p, hsp⟩ := hf.polygons uvs hp
  have hon : FacetOn m b x s p := ⟨hx, uvs, huvs, hsp⟩
  have hsin : (⟨s.id, s.active, s.points.length, s.nbPolygons⟩ : TopologyComponent) ∈
      (m.topology rt).components .surface := List.mem_map.2 ⟨s, hs, rfl⟩
  have hnw : ¬ FacetIsWrong (m.topology rt) s.id p := by
    intro hw
    refine hdf ⟨_, hsin, hall.1 s hs, fun v hv => hul ⟨.surface, by decide, _, hsin, hall.1 s hs, v, hv⟩, ?_, p, hsp.1, hw⟩
    intro c hc
    obtain ⟨b', hb', rfl⟩ := List.mem_map.1 hc
    exact hall.2 b' hb'
  obtain ⟨xs, hnd, hxs⟩ := listed (m := m) b s p
  have hxin := (hxs x).2 hon
  have hmem : (b.id, xs.length) ∈ m.blockPolygons s.id p :=
    (hf.blocks s hs p hsp.1 b hb _).2
      ⟨fun h0 => (by rw [List.length_eq_zero_iff.1 h0] at hxin; cases hxin), xs, hnd, rfl, hxs⟩
  have hcase : (m.isBoundary s.id b.id = true ∧ xs.length = 1) ∨
      (m.isBoundary s.id b.id = false ∧ m.isInternal s.id b.id = true ∧ xs.length = 2) := by
    by_contra hc
    rw [not_or] at hc
    exact hnw ⟨b.id, xs.length, hmem, ⟨_, hbin, rfl, hba⟩, hc.1, hc.2⟩
  refine ⟨s, hs, p, hon, hcase.imp ?_ ?_⟩
  · rintro ⟨h1, h2⟩
    refine ⟨h1, fun y hy => ?_⟩
    have hy := (hxs y).2 hy
    match xs, h2 with
    | [a], _ => rw [List.mem_singleton] at hy hxin; rw [hy, hxin]
  · rintro ⟨h1, h2, h3⟩
    refine ⟨h1, h2, ?_⟩
    obtain ⟨y, hy, hne⟩ := Watertight.another hnd h3 hxin
    refine ⟨y, hne, (hxs y).1 hy, fun z hz => ?_⟩
    have hz := (hxs z).2 hz
    match xs, h3 with
    | [a, c], _ =>
      simp only [List.mem_cons, List.not_mem_nil, or_false] at hz hy hxin
      rcases hxin with rfl | rfl <;> rcases hy with rfl | rfl <;> rcases hz with rfl | rfl <;>
        first | exact .inl rfl | exact .inr rfl | exact absurd rfl hne

/-- the Surface has no wrong border edge: its border edges are on Lines -/
theorem onLine {lib : ModelLibrary P} (hf : LineEdgesFound m) {s : FaceData P} (hds : ¬ SurfaceMeshDefect lib m s)
    {x : PolygonEdge} (hx : IsPolygonEdge s.toSurfaceMesh x) (hnone : s.polygonAdjacent x = none) : OnLineEdge m s x := by
  unfold SurfaceMeshDefect at hds
  simp only [not_or] at hds
  obtain ⟨_, _, hborder, _⟩ := hds
  have hon : ∃ a b u v, EdgeFromTo s.toSurfaceMesh x.1 x.2 a b ∧ m.uniqueVertex ⟨⟨.surface, s.id⟩, a⟩ = some u ∧
      m.uniqueVertex ⟨⟨.surface, s.id⟩, b⟩ = some v ∧ u < m.nbUniqueVertices ∧ v < m.nbUniqueVertices ∧
      m.lineComponentMeshEdges u v ≠ [] := by
    by_contra hn
    exact hborder ⟨x, hx, hnone, hn⟩
  obtain ⟨a, b, u, v, hab, hu, hv, _, _, hle⟩ := hon
  exact ⟨u, v, ⟨hx, a, b, hab, hu, hv⟩, hf u v hle⟩

/-- no defect of the BRep makes the border edges of its Surfaces be on Lines related to them -/
theorem edged {lib : ModelLibrary P} {rt : ModelRuntime} (hf : EdgesFound m) (hd : ¬ BRepDefect lib rt m)
    (hact : ∀ l ∈ m.lines, l.active = true) {s : FaceData P} (hs : s ∈ m.surfaces) (hsa : s.active = true)
    {x : PolygonEdge} (hx : IsPolygonEdge s.toSurfaceMesh x) (hnone : s.polygonAdjacent x = none) : Edged m s x := by
  unfold BRepDefect at hd
  simp only [not_or] at hd
  obtain ⟨_, _, _, hds, _, _, _, _, _, _, hdt⟩ := hd
  unfold BRepTopologyDefect at hdt
  simp only [not_or] at hdt
  obtain ⟨_, _, hul, _, hde, _, _⟩ := hdt
  obtain ⟨u, v, hedge, l, hl, e, he⟩ := onLine hf.lines (fun hh => hds ⟨s, hs, hsa, hh⟩) hx hnone
  have hla := hact l hl
  have hlt : e < l.nbEdges := by rcases he with he | he <;> exact he.1
  have hlin : (⟨l.id, l.active, l.points.length, l.nbEdges⟩ : TopologyComponent) ∈ (m.topology rt).components .line :=
    List.mem_map.2 ⟨l, hl, rfl⟩
  have hnw : ¬ EdgeIsWrong (m.topology rt) l.id e := fun hw =>
    hde ⟨_, hlin, hla, fun v hv => hul ⟨.line, by decide, _, hlin, hla, v, hv⟩, e, hlt, hw⟩
  unfold EdgeIsWrong at hnw
  simp only [not_or] at hnw
  obtain ⟨xs, hnd, hxs⟩ := Watertight.listed (m := m) s u v
  have hxin : x ∈ xs := (hxs x).2 (Or.inl hedge)
  have hmem : (s.id, xs.length) ∈ m.surfaceEdges l.id e :=
    (Watertight.found hf hl he hs _).2
      ⟨fun h0 => (by rw [List.length_eq_zero_iff.1 h0] at hxin; cases hxin), xs, hnd, rfl, hxs⟩
  have hcase : (m.isBoundary l.id s.id = true ∧ xs.length = 1) ∨
      (m.isBoundary l.id s.id = false ∧ m.isInternal l.id s.id = true ∧ xs.length = 2) := by
    by_contra hc
    rw [not_or] at hc
    exact hnw.1 ⟨s.id, xs.length, hmem, ⟨_, List.mem_map.2 ⟨s, hs, rfl⟩, rfl, hsa⟩, hc.1, hc.2⟩
  refine ⟨u, v, hedge, l, hl, ⟨e, he⟩, hcase.imp ?_ ?_⟩
  · rintro ⟨h1, h2⟩
    refine ⟨h1, fun y hy => ?_⟩
    have hy := (hxs y).2 hy
    match xs, h2 with
    | [a], _ => rw [List.mem_singleton] at hy hxin; rw [hy, hxin]
  · rintro ⟨h1, h2, h3⟩
    refine ⟨h1, h2, ?_⟩
    obtain ⟨y, hy, hne⟩ := Watertight.another hnd h3 hxin
    refine ⟨y, hne, (hxs y).1 hy, fun z hz => ?_⟩
    have hz := (hxs z).2 hz
    match xs, h3 with
    | [a, c], _ =>
      simp only [List.mem_cons, List.not_mem_nil, or_false] at hz hy hxin
      rcases hxin with rfl | rfl <;> rcases hy with rfl | rfl <;> rcases hz with rfl | rfl <;>
        first | exact .inl rfl | exact .inr rfl | exact absurd rfl hne

end Inspector.Skin
