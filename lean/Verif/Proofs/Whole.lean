import Verif.Spec.Whole
import Verif.Props.Colocation
import Verif.Props.Adjacency
import Verif.Props.Degeneration
import Verif.Props.Manifold
import Verif.Props.Intersections
import Verif.Props.Negative
import Verif.Props.Concurrency
import Verif.Props.Validity
/-
Lemmas for whole mesh inspections (C79, C80).
-/
namespace Inspector
open Spec

theorem exactly_congr {α : Type} {lt : α → α → Prop} {p q : α → Prop} {l : List α} (h : Exactly lt p l)
    (hpq : ∀ x, p x ↔ q x) : Exactly lt q l := ⟨h.1, fun x => (h.2 x).trans (hpq x)⟩

theorem vertexDistance_below {P : Type} (lib : Library P) (points : List P) (e : Index × Index) :
    Below (lib.vertexDistance points e.1 e.2) lib.eps ↔ EdgeBelowEps lib points e := by
  unfold Library.vertexDistance EdgeBelowEps
  cases h1 : points[e.1]? with
  | none => simp [Below]
  | some p =>
    cases h2 : points[e.2]? with
    | none => simp [Below]
    | some q => simp

theorem vertexDistance_atMost {P : Type} (lib : Library P) (points : List P) (e : Index × Index) :
    AtMost (lib.vertexDistance points e.1 e.2) lib.eps ↔ EdgeAtMostEps lib points e := by
  unfold Library.vertexDistance EdgeAtMostEps
  cases h1 : points[e.1]? with
  | none => simp [AtMost]
  | some p =>
    cases h2 : points[e.2]? with
    | none => simp [AtMost]
    | some q => simp

theorem meshColocated_ok {P : Type} (lib : Library P) (points : List P)
    (h : SearchOk (lib.search points) points.length) :
    ∃ s, meshColocatedPointsGroups lib points = .ok s ∧ s.issues.length < 2 ^ 32 ∧
      AreClasses s.issues points.length (Colocated (lib.search points)) := by
  obtain ⟨s, h1, h2⟩ := colocatedPointsGroups_eq lib.search lib.pointString ⟨points⟩ h.2.2.1
  obtain ⟨s', h1', h3⟩ := C09_colocated_points_groups lib.search lib.pointString ⟨points⟩ h
  obtain rfl : s = s' := by rw [h1] at h1'; injection h1'
  refine ⟨s, by unfold meshColocatedPointsGroups; rw [h1], ?_, h3⟩
  rw [h2]
  have := (bigClasses_ne_nil_iff _ _ h.2.2.1 h.2.2.2).1
  rw [h.1] at this
  exact Nat.lt_of_le_of_lt (bigClasses_length _ _) (Nat.lt_of_le_of_lt this h.2.1)

theorem classes_ne_nil {P : Type} (lib : Library P) (points : List P) (groups : List (List Index))
    (h : AreClasses groups points.length (Colocated (lib.search points))) :
    groups ≠ [] ↔ HasColocatedVertices lib points := by
  obtain ⟨h1, _, h3⟩ := h
  constructor
  · intro hne
    obtain ⟨g, hg⟩ := List.exists_mem_of_ne_nil _ hne
    obtain ⟨hl, hs, hb⟩ := h1 g hg
    match g, hl with
    | a :: b :: rest, _ =>
      have hab : a < b := by
        rw [List.pairwise_cons] at hs
        exact hs.1 b (by simp)
      exact ⟨a, b, hab, hb b (by simp), (h3 a b (hb a (by simp)) (hb b (by simp)) (Nat.ne_of_lt hab)).1
        ⟨_, hg, by simp, by simp⟩⟩
  · rintro ⟨i, j, hij, hj, hc⟩
    obtain ⟨g, hg, _⟩ := (h3 i j (Nat.lt_trans hij hj) hj (Nat.ne_of_lt hij)).2 hc
    exact List.ne_nil_of_mem hg

theorem count_zero {α : Type} (s : Issues α) : (report s).count = 0 ↔ ¬ s.issues ≠ [] := by
  simp [report]

/-! ### curves -/

theorem curve_whole {P : Type} (lib : Library P) (rt : Runtime) (hrt : RuntimeOk rt) (mesh : CurveData P)
    (h : CurveDataOk lib mesh) :
    ∃ r, inspectCurveMesh lib rt mesh = .ok r ∧ CurveReport lib mesh r ∧
      ∀ l ∈ listsEdgedCurveInspectionResult r, l.count < 2 ^ 32 := by
  obtain ⟨g, hg, hgl, hgc⟩ := meshColocated_ok lib mesh.points h.search
  have he := C19_curve_degenerated_edges lib.eps (mesh.measures lib)
  refine ⟨⟨g, curveDegeneratedEdges lib.eps (mesh.measures lib)⟩, ?_, ⟨hgc, ?_⟩, ?_⟩
  · unfold inspectCurveMesh
    rw [(C53_edged_curve_partial rt.choose hrt.choose rt.schedule _).1]
    exact ⟨hg, rfl⟩
  · exact exactly_congr he fun e => and_congr_right fun _ => vertexDistance_atMost lib mesh.points _
  · simp only [listsEdgedCurveInspectionResult, List.forall_mem_cons, report, List.not_mem_nil, false_implies,
      implies_true, and_true]
    exact ⟨hgl, Nat.lt_of_le_of_lt (exactly_lt_length he) h.nbEdges⟩

/-! ### surfaces -/

theorem negativePolygons_exactly (dimension : Nat) (mesh : SignedSurface) :
    Exactly (· < ·) (fun p => dimension = 2 ∧ p < mesh.nbPolygons ∧ mesh.polygonAreaSign p = .negative)
      (negativePolygons dimension mesh).issues := by
  by_cases h : dimension = 2
  · subst h
    exact exactly_congr (C32_negative_polygons mesh).1 fun p => by simp [NegativePolygon]
  · have : (negativePolygons dimension mesh).issues = [] := by
      simp [negativePolygons, h, Issues.new]
    rw [this]
    exact ⟨List.Pairwise.nil, fun x => by simp [h]⟩

theorem answers_ok {P : Type} {mesh : SurfaceData P} {candidates : List ElementPair}
    (h : ∀ x ∈ candidates, ∀ f, ¬ PolygonTestRaises mesh x f) :
    ∀ x ∈ candidates, PolygonTestAnswers mesh.intersections x := by
  intro x hx hne
  cases hb : mesh.intersections.polygonsIntersect (mesh.intersections.polygonVertices x.1)
      (mesh.intersections.polygonVertices x.2) with
  | ok b => exact ⟨b, rfl⟩
  | error f => exact absurd ⟨hne, hb⟩ (h x hx f)

theorem surface_whole {P : Type} (dimension : Nat) (lib : Library P) (rt : Runtime) (hrt : RuntimeOk rt)
    (mesh : SurfaceData P) (candidates : List ElementPair) (h : SurfaceDataOk lib mesh candidates) :
    ∃ r, inspectSurfaceMesh dimension lib rt mesh = .ok r ∧ SurfaceReport dimension lib mesh r ∧
      ∀ l ∈ listsSurfaceInspectionResult r, l.count < 2 ^ 32 := by
  obtain ⟨g, hg, hgl, hgc⟩ := meshColocated_ok lib mesh.points h.search
  have hadj := (C15_surface_adjacency mesh.label mesh.toSurfaceMesh).1
  have hadjl : (polygonEdgesWithWrongAdjacency mesh.label mesh.toSurfaceMesh).issues.length < 2 ^ 32 := by
    rw [polygonEdgesWithWrongAdjacency, collect_issues]
    exact Nat.lt_of_le_of_lt (List.length_filter_le ..) (by rw [pairs_length]; exact h.nbPolygonEdges)
  have he := C19_degenerated_edges lib.eps (mesh.measures lib)
  have hp := C19_degenerated_polygons lib.eps (mesh.measures lib)
  have hme := C24_surface_edges rt.edgeOrder hrt.edgeOrder mesh.toSurfaceMesh h.uses
  obtain ⟨v, hv, hvb⟩ := C27_surface_vertices (mesh.topo lib) h.vertices h.walks
  obtain ⟨x, _, hx, _, hxp, _, _⟩ := C33_surface_self_intersections mesh.intersections candidates mesh.traverse
    mesh.traverse h.tree.traversal h.tree.traversal (answers_ok h.answers)
  have hn := negativePolygons_exactly dimension mesh.signed
  have hsub : ∀ p ∈ x.issues, PolygonsIntersect mesh p.1 p.2 := by
    intro p hp
    have := List.mem_filter.1 (hxp.mem_iff.1 hp)
    have hb := h.tree.polygons p this.1
    have hs := of_decide_eq_true this.2
    exact ⟨hb.1, hb.2, hs.1, hs.2⟩
  refine ⟨⟨polygonEdgesWithWrongAdjacency mesh.label mesh.toSurfaceMesh, g, degeneratedEdges lib.eps (mesh.measures lib),
    degeneratedPolygons lib.eps (mesh.measures lib), surfaceNonManifoldEdges rt.edgeOrder mesh.toSurfaceMesh, v, x,
    negativePolygons dimension mesh.signed⟩, ?_, ⟨hadj, hgc, ?_, hp, hme, hvb, hsub, ?_, hn⟩, ?_⟩
  · unfold inspectSurfaceMesh
    rw [(C53_surface_partial rt.choose hrt.choose rt.schedule _).1]
    exact ⟨rfl, hg, rfl, rfl, rfl, hv, hx, rfl⟩
  · exact exactly_congr he fun e => and_congr_right fun _ => vertexDistance_below lib mesh.points _
  · intro p q hpq
    obtain ⟨y, hy, hor, hi⟩ := h.tree.complete p q hpq
    have hm : y ∈ x.issues := hxp.mem_iff.2 (List.mem_filter.2 ⟨hy, decide_eq_true ⟨hi.2.2.1, hi.2.2.2⟩⟩)
    rcases hor with rfl | rfl
    · exact Or.inl hm
    · exact Or.inr hm
  · simp only [listsSurfaceInspectionResult, List.forall_mem_cons, report, List.not_mem_nil, false_implies,
      implies_true, and_true]
    refine ⟨hadjl, hgl, Nat.lt_of_le_of_lt (exactly_lt_length he) h.nbEdges,
      Nat.lt_of_le_of_lt (exactly_lt_length hp) h.nbPolygons, ?_, ?_, ?_, ?_⟩
    · refine Nat.lt_of_le_of_lt (edges_length mesh.toSurfaceMesh _ hme.1 fun e hem => ?_) (?_ : _ < 2 ^ 32)
      · have := (hme.2 e).1 hem
        exact ⟨this.1, this.2.1⟩
      · rw [polygonEdges, pairs_length]; exact h.nbPolygonEdges
    · exact Nat.lt_of_le_of_lt (exactly_lt_length hvb) h.search.2.1
    · exact Nat.lt_of_le_of_lt (hxp.length_eq ▸ List.length_filter_le ..) h.tree.length
    · exact Nat.lt_of_le_of_lt (exactly_lt_length (exactly_congr hn fun p =>
        (by constructor
            · rintro ⟨a, b, c⟩; exact ⟨b, a, c⟩
            · rintro ⟨b, a, c⟩; exact ⟨a, b, c⟩ :
          _ ↔ p < mesh.nbPolygons ∧ dimension = 2 ∧ mesh.polygonAreaSign p = .negative))) h.nbPolygons

/-! ### solids -/

theorem solid_whole {P : Type} (lib : Library P) (rt : Runtime) (hrt : RuntimeOk rt) (mesh : SolidData P)
    (h : SolidDataOk lib mesh) :
    ∃ r, inspectSolidMesh lib rt mesh = .ok r ∧ SolidReport lib mesh r ∧
      ∀ l ∈ listsSolidInspectionResult r, l.count < 2 ^ 32 := by
  obtain ⟨g, hg, hgl, hgc⟩ := meshColocated_ok lib mesh.points h.search
  have hadj := (C16_solid_adjacency lib.isOpposite mesh.label mesh.toSolidMesh).1
  have hadjl : (polyhedronFacetsWithWrongAdjacency lib.isOpposite mesh.label mesh.toSolidMesh).issues.length < 2 ^ 32 := by
    rw [polyhedronFacetsWithWrongAdjacency, collect_issues]
    exact Nat.lt_of_le_of_lt (List.length_filter_le ..) (by rw [pairs_length]; exact h.nbFacets)
  have he := C19_degenerated_edges lib.eps (mesh.measures lib)
  have hp := C19_degenerated_polyhedra lib.eps (mesh.measures lib)
  obtain ⟨v, hv, hvb⟩ := C28_solid_vertices (mesh.topo lib) h.vertices h.walks
  have huse : ∀ x ∈ solidEdgeUses (mesh.topo lib), x.1 < mesh.nbPolyhedra ∧ x.2 ∈ mesh.polyhedronEdgesVertices x.1 := by
    intro x hx
    unfold solidEdgeUses at hx
    obtain ⟨p, hp, hx⟩ := List.mem_flatMap.1 hx
    obtain ⟨e, he, rfl⟩ := List.mem_map.1 hx
    exact ⟨List.mem_range.1 hp, he⟩
  have ht := fun x hx f => h.turns x.1 x.2 f (huse x hx).1 (huse x hx).2
  have ho := fun x hx f => h.turnsOnce x.1 x.2 f (huse x hx).1 (huse x hx).2
  obtain ⟨t, ht1, ht2, ht3, _⟩ := C29_solid_edges (mesh.topo lib) ht ho
  obtain ⟨t', ht1', _, ht4, _⟩ := solidEdges_ok (mesh.topo lib) ht ho
  obtain rfl : t = t' := by rw [ht1] at ht1'; injection ht1'
  have hsz : (pairs mesh.nbPolyhedra mesh.nbPolyhedronFacets).length < 2 ^ 32 := by
    rw [pairs_length]; exact h.nbFacets
  have hmf := facetsExactly rt.facetOrder hrt.facetOrder lib.cycle mesh.toSolidMesh hsz
  have hn := (C32_negative_polyhedra mesh.signed).1
  refine ⟨⟨polyhedronFacetsWithWrongAdjacency lib.isOpposite mesh.label mesh.toSolidMesh, g,
    degeneratedEdges lib.eps (mesh.measures lib), degeneratedPolyhedra lib.eps (mesh.measures lib), v, t,
    solidNonManifoldFacets rt.facetOrder lib.cycle mesh.toSolidMesh, negativePolyhedra mesh.signed⟩, ?_, ⟨hadj, hgc, ?_, hp, hvb, ⟨ht2, ht3⟩, hmf, hn⟩, ?_⟩
  · unfold inspectSolidMesh
    rw [(C53_solid_partial rt.choose hrt.choose rt.schedule _).1]
    exact ⟨rfl, hg, rfl, rfl, hv, ht1, rfl, rfl⟩
  · exact exactly_congr he fun e => and_congr_right fun _ => vertexDistance_below lib mesh.points _
  · simp only [listsSolidInspectionResult, List.forall_mem_cons, report, List.not_mem_nil, false_implies,
      implies_true, and_true]
    refine ⟨hadjl, hgl, Nat.lt_of_le_of_lt (exactly_lt_length he) h.nbEdges,
      Nat.lt_of_le_of_lt (exactly_lt_length hp) h.nbPolyhedra, ?_, ?_, ?_, ?_⟩
    · exact Nat.lt_of_le_of_lt (exactly_lt_length hvb) h.search.2.1
    · have hlen : (solidEdgeUses (mesh.topo lib)).length < 2 ^ 32 := by
        have := h.nbPolyhedronEdges
        simpa [solidEdgeUses, List.length_flatMap, SolidData.topo] using this
      refine Nat.lt_of_le_of_lt ?_ hlen
      simpa using ht4.length_le
    · refine Nat.lt_of_le_of_lt (facets_length lib.cycle mesh.toSolidMesh _ hmf.1 fun f hf => ?_) hsz
      have h2 : 2 < (usesOfFacet lib.cycle mesh.toSolidMesh f).length := (hmf.2 f).1 hf
      intro hnil
      rw [hnil] at h2
      simp at h2
    · exact Nat.lt_of_le_of_lt (exactly_lt_length hn) h.nbPolyhedra

end Inspector
