import Verif.Spec.Adjacency
import Verif.Proofs.Common
/-! Helper lemmas about adjacency. -/
namespace Inspector
open Spec

theorem pairs_length (n : Nat) (m : Nat → Nat) :
    (pairs n m).length = ((List.range n).map m).sum := by
  simp [pairs, List.length_flatMap]

theorem polygonEdgeVertex_zero (m : SurfaceMesh) (x : PolygonEdge) (h : x.2 < m.nbPolygonVertices x.1) :
    m.polygonEdgeVertex x 0 = m.polygonVertex x := by
  simp [SurfaceMesh.polygonEdgeVertex, Nat.mod_eq_of_lt h]

theorem wrongEdge_iff (m : SurfaceMesh) (x : PolygonEdge) :
    (x ∈ pairs m.nbPolygons m.nbPolygonEdges ∧
      (!m.isEdgeOnBorder x && !polygonEdgeHasRightAdjacency m x) = true) ↔ WrongEdge m x := by
  rw [mem_pairs]
  unfold WrongEdge
  change (IsPolygonEdge m x ∧ _) ↔ _
  refine and_congr_right ?_
  intro hx
  rw [Bool.and_eq_true, Bool.not_eq_true', Bool.not_eq_true']
  unfold SurfaceMesh.isEdgeOnBorder polygonEdgeHasRightAdjacency
  cases hadj : m.polygonAdjacent x with
  | none => simp
  | some q =>
    simp only [Option.isNone_some, true_and, Option.some.injEq, exists_eq_left']
    rw [← Bool.not_eq_true, loopAny_iff]
    refine not_congr ?_
    simp only [List.mem_range, polygonEdgeVertex_zero m x hx.2]
    constructor
    · rintro ⟨e', he', hc⟩
      split at hc
      · rename_i h1
        rw [Bool.and_eq_true, beq_iff_eq, beq_iff_eq] at hc
        rw [beq_iff_eq] at h1
        exact ⟨e', m.polygonVertex x, m.polygonEdgeVertex x 1, he', ⟨rfl, rfl⟩, ⟨h1, hc.1⟩, hc.2⟩
      · simp at hc
    · rintro ⟨e', a, b, he', ⟨rfl, rfl⟩, ⟨h1, h2⟩, h3⟩
      refine ⟨e', he', ?_⟩
      rw [if_pos (by rw [beq_iff_eq]; exact h1), Bool.and_eq_true, beq_iff_eq, beq_iff_eq]
      exact ⟨h2, h3⟩

theorem wrongFacet_iff (opp : List Index → List Index → Bool) (m : SolidMesh) (x : PolyhedronFacet) :
    (x ∈ pairs m.nbPolyhedra m.nbPolyhedronFacets ∧
      (!m.isPolyhedronFacetOnBorder x && !polyhedronFacetHasRightAdjacency opp m x) = true)
      ↔ WrongFacet opp m x := by
  rw [mem_pairs]
  unfold WrongFacet
  change (IsPolyhedronFacet m x ∧ _) ↔ _
  refine and_congr_right ?_
  intro hx
  rw [Bool.and_eq_true, Bool.not_eq_true', Bool.not_eq_true']
  unfold SolidMesh.isPolyhedronFacetOnBorder polyhedronFacetHasRightAdjacency
  cases hadj : m.polyhedronAdjacent x with
  | none => simp
  | some q =>
    simp only [Option.isNone_some, true_and, Option.some.injEq, exists_eq_left']
    rw [← Bool.not_eq_true, loopAny_iff]
    refine not_congr ?_
    simp only [List.mem_range, Bool.and_eq_true, beq_iff_eq]

theorem borderEdge_iff (model : AdjacencyModel) (s : SurfaceComponent) (x : PolygonEdge) :
    (x ∈ pairs s.mesh.nbPolygons s.mesh.nbPolygonEdges ∧ surfaceBorderEdgeIssue model s x = true)
      ↔ BorderEdgeNotOnLine model s x := by
  rw [mem_pairs]
  unfold BorderEdgeNotOnLine
  change (IsPolygonEdge s.mesh x ∧ _) ↔ _
  refine and_congr_right ?_
  intro hx
  unfold surfaceBorderEdgeIssue SurfaceMesh.isEdgeOnBorder polygonEdgeIsOnALine
  cases hadj : s.mesh.polygonAdjacent x with
  | some q => simp
  | none =>
    simp only [Option.isNone_none, if_true, true_and, polygonEdgeVertex_zero s.mesh x hx.2]
    cases hu : s.uniqueVertex (s.mesh.polygonVertex x) with
    | none =>
      simp only [MonadExcept.throw, throwThe, MonadExceptOf.throw, true_iff]
      rintro ⟨a, b, u, v, ⟨rfl, rfl⟩, h1, _⟩
      rw [hu] at h1; simp at h1
    | some u =>
      cases hv : s.uniqueVertex (s.mesh.polygonEdgeVertex x 1) with
      | none =>
        simp only [MonadExcept.throw, throwThe, MonadExceptOf.throw, true_iff]
        rintro ⟨a, b, u, v, ⟨rfl, rfl⟩, _, h1, _⟩
        have h1' : s.uniqueVertex (s.mesh.polygonEdgeVertex x 1) = some v := h1
        rw [hv] at h1'; simp at h1'
      | some v =>
        have key : (∃ a b u v, EdgeFromTo s.mesh x.1 x.2 a b ∧ s.uniqueVertex a = some u ∧
            s.uniqueVertex b = some v ∧ u < model.nbUniqueVertices ∧ v < model.nbUniqueVertices ∧
            model.lineComponentMeshEdges u v ≠ [])
            ↔ u < model.nbUniqueVertices ∧ v < model.nbUniqueVertices ∧
              model.lineComponentMeshEdges u v ≠ [] := by
          constructor
          · rintro ⟨a, b, u', v', ⟨rfl, rfl⟩, h1, h2, h3⟩
            have h1' : s.uniqueVertex (s.mesh.polygonVertex x) = some u' := h1
            have h2' : s.uniqueVertex (s.mesh.polygonEdgeVertex x 1) = some v' := h2
            rw [hu] at h1'; rw [hv] at h2'
            obtain rfl := Option.some.inj h1'
            obtain rfl := Option.some.inj h2'
            exact h3
          · intro h3
            exact ⟨_, _, u, v, ⟨rfl, rfl⟩, hu, hv, h3⟩
        rw [key]
        simp only
        by_cases hlt : (u < model.nbUniqueVertices && v < model.nbUniqueVertices) = true
        · rw [if_pos hlt]
          rw [Bool.and_eq_true, decide_eq_true_iff, decide_eq_true_iff] at hlt
          simp only [hlt, true_and, pure, Except.pure]
          cases model.lineComponentMeshEdges u v <;> simp
        · rw [if_neg hlt]
          rw [Bool.and_eq_true, decide_eq_true_iff, decide_eq_true_iff] at hlt
          simp only [MonadExcept.throw, throwThe, MonadExceptOf.throw, true_iff]
          rintro ⟨h1, h2, _⟩
          exact hlt ⟨h1, h2⟩

theorem map_filterMap_id (l : List (Option Index)) (h : l.contains none = false) :
    l = (l.filterMap fun u => u).map some := by
  induction l with
  | nil => rfl
  | cons x l ih =>
    cases x with
    | none => simp at h
    | some a =>
      have : l.contains none = false := by simpa using h
      simpa using ih this

theorem borderFacet_iff (model : AdjacencyModel) (b : BlockComponent) (x : PolyhedronFacet) :
    (x ∈ pairs b.mesh.nbPolyhedra b.mesh.nbPolyhedronFacets ∧ blockBorderFacetIssue model b x = true)
      ↔ BorderFacetNotOnSurface model b x := by
  rw [mem_pairs]
  unfold BorderFacetNotOnSurface
  change (IsPolyhedronFacet b.mesh x ∧ _) ↔ _
  refine and_congr_right ?_
  intro hx
  unfold blockBorderFacetIssue SolidMesh.isPolyhedronFacetOnBorder polyhedronFacetIsOnASurface
  cases hadj : b.mesh.polyhedronAdjacent x with
  | some q => simp
  | none =>
    simp only [Option.isNone_none, Bool.not_true, Bool.false_eq_true, if_false, true_and]
    generalize (b.mesh.polyhedronFacetVertices x).map b.uniqueVertex = l
    by_cases hc : l.contains none = true
    · rw [if_pos hc]
      simp only [Bool.false_eq_true, false_iff]
      rintro ⟨uvs, rfl, _⟩
      simp at hc
    · rw [if_neg hc]
      have hl := map_filterMap_id l (by simpa using hc)
      constructor
      · intro h
        exact ⟨_, hl, by simpa using h⟩
      · rintro ⟨uvs, rfl, h⟩
        simpa using h

theorem surfaceAdjacencyIssues_ok (model : AdjacencyModel) (s : SurfaceComponent) :
    ExpectedSurfaceIssues model s (surfaceAdjacencyIssues model s).issues := by
  refine ⟨_, _, ?_, exactly_filter (pairs_pairwise ..) _ _ (wrongEdge_iff s.mesh),
    exactly_filter (pairs_pairwise ..) _ _ (borderEdge_iff model s)⟩
  simp [surfaceAdjacencyIssues, polygonEdgesWithWrongAdjacency, Issues.setDescription, collectFrom_issues]

theorem surfaceAdjacencyIssues_length (model : AdjacencyModel) (s : SurfaceComponent) :
    (surfaceAdjacencyIssues model s).issues.length ≤ totalPolygonEdges s.mesh := by
  have hi : (surfaceAdjacencyIssues model s).issues
      = (pairs s.mesh.nbPolygons s.mesh.nbPolygonEdges).filter
          (fun e => !s.mesh.isEdgeOnBorder e && !polygonEdgeHasRightAdjacency s.mesh e)
        ++ (pairs s.mesh.nbPolygons s.mesh.nbPolygonEdges).filter (surfaceBorderEdgeIssue model s) := by
    simp [surfaceAdjacencyIssues, polygonEdgesWithWrongAdjacency, Issues.setDescription, collectFrom_issues]
  have hlen : totalPolygonEdges s.mesh = (pairs s.mesh.nbPolygons s.mesh.nbPolygonEdges).length :=
    (pairs_length _ _).symm
  rw [hi, List.length_append, hlen]
  apply filter_append_length
  intro x _ hx
  rw [Bool.and_eq_true, Bool.not_eq_true'] at hx
  simp [surfaceBorderEdgeIssue, hx.1]

theorem blockAdjacencyIssues_ok (opp : List Index → List Index → Bool) (model : AdjacencyModel)
    (b : BlockComponent) :
    ExpectedBlockIssues opp model b (blockAdjacencyIssues opp model b).issues := by
  refine ⟨_, _, ?_, exactly_filter (pairs_pairwise ..) _ _ (wrongFacet_iff opp b.mesh),
    exactly_filter (pairs_pairwise ..) _ _ (borderFacet_iff model b)⟩
  simp [blockAdjacencyIssues, polyhedronFacetsWithWrongAdjacency, Issues.setDescription, collectFrom_issues]

theorem blockAdjacencyIssues_length (opp : List Index → List Index → Bool) (model : AdjacencyModel)
    (b : BlockComponent) :
    (blockAdjacencyIssues opp model b).issues.length ≤ totalPolyhedronFacets b.mesh := by
  have hi : (blockAdjacencyIssues opp model b).issues
      = (pairs b.mesh.nbPolyhedra b.mesh.nbPolyhedronFacets).filter
          (fun e => !b.mesh.isPolyhedronFacetOnBorder e && !polyhedronFacetHasRightAdjacency opp b.mesh e)
        ++ (pairs b.mesh.nbPolyhedra b.mesh.nbPolyhedronFacets).filter (blockBorderFacetIssue model b) := by
    simp [blockAdjacencyIssues, polyhedronFacetsWithWrongAdjacency, Issues.setDescription, collectFrom_issues]
  have hlen : totalPolyhedronFacets b.mesh = (pairs b.mesh.nbPolyhedra b.mesh.nbPolyhedronFacets).length :=
    (pairs_length _ _).symm
  rw [hi, List.length_append, hlen]
  apply filter_append_length
  intro x _ hx
  rw [Bool.and_eq_true, Bool.not_eq_true'] at hx
  simp [blockBorderFacetIssue, hx.1]

end Inspector
