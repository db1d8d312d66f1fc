import Verif.Proofs.Manifold
import Verif.Proofs.Degeneration
/-
Properties C24 - C31: manifold criteria.  `iterate` is the order in which a hash map is traversed: any
permutation.
-/
namespace Inspector
open Spec

abbrev EdgeMap := HMap (Index × Index) (UInt8 × Bool)
abbrev FacetMap := HMap (List Index) UInt32

/-- three triangles around edge 0-1 -/
def exampleBook : SurfaceTopo where
  nbPolygons := 3
  nbPolygonVertices _ := 3
  polygonVertex x := ([0, 1, 2 + x.1].getD x.2 0)
  polygonAdjacent x := if x.2 = 0 then some 1 else none
  nbVertices := 5
  polygonsAroundVertex v :=
    if v = 0 then .ok [(0, 0), (1, 0)]
    else if v = 1 then .ok [(2, 1), (0, 1), (1, 1)]
    else if v = 4 then .error .openGeodeException
    else .ok [(v - 2, 2)]

/-- **C24.** -/
theorem C24_surface_edges (iterate : EdgeMap → EdgeMap) (hi : ∀ m, (iterate m).Perm m) (mesh : SurfaceMesh)
    (h256 : ∀ e, (usesOfEdge mesh e).length < 256) :
    Exactly (· ≠ ·) (NonManifoldEdge mesh) (surfaceNonManifoldEdges iterate mesh).issues := by
  have h := surfaceNonManifoldEdges_mod iterate hi mesh
  refine ⟨h.1, fun e => (h.2 e).trans ?_⟩
  unfold NonManifoldEdge
  simp only [Nat.mod_eq_of_lt (h256 e)]

example : (∀ e, (usesOfEdge exampleBook.toSurfaceMesh e).length < 256) ∧
    (surfaceNonManifoldEdges List.reverse exampleBook.toSurfaceMesh).issues = [(0, 1)] ∧
    NonManifoldEdge exampleBook.toSurfaceMesh (0, 1) := by
  refine ⟨fun e => ?_, by decide, by decide, by decide, Or.inr ⟨?_, by decide⟩⟩
  · exact Nat.lt_of_le_of_lt (List.length_filter_le ..) (by decide)
  · rintro ⟨x, hx, hn⟩
    revert x
    decide

/-- **C24** (without bound on the number of uses): the numbers are taken modulo 256. -/
theorem C24_surface_edges_modulo (iterate : EdgeMap → EdgeMap) (hi : ∀ m, (iterate m).Perm m)
    (mesh : SurfaceMesh) :
    Exactly (· ≠ ·) (fun e => e.1 ≤ e.2 ∧ usesOfEdge mesh e ≠ [] ∧
      ((DeclaredBorder mesh e ∧ (usesOfEdge mesh e).length % 256 ≠ 1) ∨
       (¬ DeclaredBorder mesh e ∧ (usesOfEdge mesh e).length % 256 ≠ 2)))
      (surfaceNonManifoldEdges iterate mesh).issues := surfaceNonManifoldEdges_mod iterate hi mesh

/-- 258 triangles around edge 0-1, each with an adjacent there -/
def bigBook : SurfaceMesh where
  nbPolygons := 258
  nbPolygonVertices _ := 3
  polygonVertex x := ([0, 1, 2 + x.1].getD x.2 0)
  polygonAdjacent x := if x.2 = 0 then some ((x.1 + 1) % 258) else none

/-- The C25 claim: a non border edge with more than two uses makes the mesh not manifold. -/
def C25Claim : Prop :=
  ∀ (iterate : EdgeMap → EdgeMap), (∀ m, (iterate m).Perm m) → ∀ (mesh : SurfaceMesh) (e : Index × Index),
    e.1 ≤ e.2 → ¬ DeclaredBorder mesh e → 2 < (usesOfEdge mesh e).length →
    surfaceEdgesAreManifold iterate mesh = false

theorem bigBook_uses (e : Index × Index) (x : PolygonEdge) : x ∈ usesOfEdge bigBook e ↔
    x.1 < 258 ∧ ((x.2 = 0 ∧ SameEdge (0, 1) e) ∨ (x.2 = 1 ∧ SameEdge (1, 2 + x.1) e) ∨
      (x.2 = 2 ∧ SameEdge (2 + x.1, 0) e)) := by
  unfold usesOfEdge polygonEdges
  rw [List.mem_filter, decide_eq_true_iff, mem_pairs]
  obtain ⟨p, k⟩ := x
  show (p < 258 ∧ k < 3) ∧ SameEdge ([0, 1, 2 + p].getD k 0, [0, 1, 2 + p].getD ((k + 1) % 3) 0) e ↔ _
  constructor
  · rintro ⟨⟨hp, hk⟩, h⟩
    refine ⟨hp, ?_⟩
    obtain rfl | rfl | rfl : k = 0 ∨ k = 1 ∨ k = 2 := by omega
    · exact Or.inl ⟨rfl, h⟩
    · exact Or.inr (Or.inl ⟨rfl, h⟩)
    · exact Or.inr (Or.inr ⟨rfl, h⟩)
  · rintro ⟨hp, ⟨h, h'⟩ | ⟨h, h'⟩ | ⟨h, h'⟩⟩
    all_goals
      have h : k = _ := h
      subst h
      exact ⟨⟨hp, by decide⟩, h'⟩

theorem bigBook_nodup (e : Index × Index) : (usesOfEdge bigBook e).Nodup :=
  (pairs_nodup _ _).sublist List.filter_sublist

theorem bigBook_spine : (usesOfEdge bigBook (0, 1)).length = 258 ∧ ¬ DeclaredBorder bigBook (0, 1) := by
  have hmem : ∀ x : PolygonEdge, x ∈ usesOfEdge bigBook (0, 1) ↔ x.1 < 258 ∧ x.2 = 0 := by
    intro x
    rw [bigBook_uses]
    refine and_congr_right fun _ => ?_
    constructor
    · rintro (⟨h, _⟩ | ⟨_, h⟩ | ⟨_, h⟩)
      · exact h
      · simp [SameEdge] at h
      · simp only [SameEdge, Prod.mk.injEq] at h
        unfold Index at *
        omega
    · exact fun h => Or.inl ⟨h, Or.inl rfl⟩
  constructor
  · have hp : (usesOfEdge bigBook (0, 1)).Perm ((List.range 258).map fun p => (p, 0)) := by
      refine (List.perm_ext_iff_of_nodup (bigBook_nodup _) ?_).2 ?_
      · refine (List.nodup_range).map ?_
        intro a b h
        exact (Prod.mk.inj h).1
      · rintro ⟨p, k⟩
        rw [hmem]
        constructor
        · rintro ⟨h, h'⟩
          exact List.mem_map.2 ⟨p, List.mem_range.2 h, by rw [show k = 0 from h']⟩
        · intro h
          obtain ⟨q, hq, heq⟩ := List.mem_map.1 h
          obtain ⟨rfl, rfl⟩ := Prod.mk.inj heq
          exact ⟨List.mem_range.1 hq, rfl⟩
    rw [hp.length_eq]
    simp
  · rintro ⟨x, hx, hn⟩
    rw [hmem] at hx
    simp [bigBook, hx.2] at hn

theorem bigBook_page (e : Index × Index) (x : PolygonEdge) (hx : x ∈ usesOfEdge bigBook e) (h0 : x.2 ≠ 0) :
    (usesOfEdge bigBook e).length = 1 ∧ DeclaredBorder bigBook e := by
  have hone : ∀ y, y ∈ usesOfEdge bigBook e ↔ y ∈ [x] := by
    intro y
    rw [List.mem_singleton]
    refine ⟨fun hy => ?_, fun h => h ▸ hx⟩
    rw [bigBook_uses] at hx hy
    obtain ⟨p, k⟩ := x
    obtain ⟨q, j⟩ := y
    obtain ⟨a, b⟩ := e
    simp only [SameEdge, Prod.mk.injEq] at hx hy ⊢
    simp only at h0
    unfold Index at *
    omega
  constructor
  · rw [((List.perm_ext_iff_of_nodup (bigBook_nodup e) (by simp)).2 hone).length_eq]
    rfl
  · exact ⟨x, hx, by simp [bigBook, h0]⟩

/-- **C25 is false**: the 8-bit counter wraps, 258 triangles around one edge are "manifold". -/
theorem C25_false : ¬ C25Claim := by
  intro h
  have h1 := h id (fun m => List.Perm.refl m) bigBook (0, 1) (by decide) bigBook_spine.2
    (by rw [bigBook_spine.1]; decide)
  have h2 : surfaceEdgesAreManifold id bigBook = true := by
    rw [surfaceEdgesAreManifold_iff id id (fun m => List.Perm.refl m) (fun m => List.Perm.refl m)]
    rw [List.eq_nil_iff_forall_not_mem]
    intro e he
    obtain ⟨hle, hne, hor⟩ := ((surfaceNonManifoldEdges_mod id (fun m => List.Perm.refl m) bigBook).2 e).1 he
    obtain ⟨x, hx⟩ := List.exists_mem_of_ne_nil _ hne
    by_cases h0 : x.2 = 0
    · have he01 : e = (0, 1) := by
        rw [bigBook_uses] at hx
        obtain ⟨a, b⟩ := e
        simp only [SameEdge, h0, Prod.mk.injEq] at hx hle ⊢
        unfold Index at *
        omega
      subst he01
      rcases hor with ⟨hb, _⟩ | ⟨_, hl⟩
      · exact bigBook_spine.2 hb
      · rw [bigBook_spine.1] at hl
        exact hl rfl
    · have hp := bigBook_page e x hx h0
      rcases hor with ⟨_, hl⟩ | ⟨hb, _⟩
      · rw [hp.1] at hl
        exact hl rfl
      · exact hb hp.2
  rw [h2] at h1
  cases h1

/-- **C25**, below 256 uses of the edge. -/
theorem C25_partial (iterate : EdgeMap → EdgeMap) (hi : ∀ m, (iterate m).Perm m) (mesh : SurfaceMesh)
    (e : Index × Index) (he : e.1 ≤ e.2) (hb : ¬ DeclaredBorder mesh e)
    (h2 : 2 < (usesOfEdge mesh e).length) (h256 : (usesOfEdge mesh e).length < 256) :
    surfaceEdgesAreManifold iterate mesh = false := by
  rw [← Bool.not_eq_true, surfaceEdgesAreManifold_iff iterate iterate hi hi mesh]
  intro hnil
  have h := ((surfaceNonManifoldEdges_mod iterate hi mesh).2 e).2
    ⟨he, by intro hn; rw [hn] at h2; simp at h2, Or.inr ⟨hb, by rw [Nat.mod_eq_of_lt h256]; omega⟩⟩
  rw [hnil] at h
  simp at h

/-- **C25**, the exact verdict: uses are counted modulo 256. -/
theorem C25_exact_partial (iterate : EdgeMap → EdgeMap) (hi : ∀ m, (iterate m).Perm m) (mesh : SurfaceMesh) :
    surfaceEdgesAreManifold iterate mesh = true ↔ ∀ e : Index × Index, e.1 ≤ e.2 → usesOfEdge mesh e ≠ [] →
      (DeclaredBorder mesh e → (usesOfEdge mesh e).length % 256 = 1) ∧
      (¬ DeclaredBorder mesh e → (usesOfEdge mesh e).length % 256 = 2) := by
  rw [surfaceEdgesAreManifold_iff iterate iterate hi hi mesh]
  have h := (surfaceNonManifoldEdges_mod iterate hi mesh).2
  constructor
  · intro hnil e he hu
    have hn : e ∉ (surfaceNonManifoldEdges iterate mesh).issues := by rw [hnil]; simp
    rw [h e] at hn
    constructor
    · intro hb
      by_contra hne
      exact hn ⟨he, hu, .inl ⟨hb, hne⟩⟩
    · intro hb
      by_contra hne
      exact hn ⟨he, hu, .inr ⟨hb, hne⟩⟩
  · intro hall
    refine List.eq_nil_iff_forall_not_mem.2 fun e he => ?_
    obtain ⟨h1, h2, h3⟩ := (h e).1 he
    rcases h3 with ⟨hb, hne⟩ | ⟨hb, hne⟩
    · exact hne ((hall e h1 h2).1 hb)
    · exact hne ((hall e h1 h2).2 hb)

example : surfaceEdgesAreManifold id exampleBook.toSurfaceMesh = false ∧
    2 < (usesOfEdge exampleBook.toSurfaceMesh (0, 1)).length := by decide

/-- **C26** (surface edges). -/
theorem C26_surface_edges (iterate iterate' : EdgeMap → EdgeMap)
    (hi : ∀ m, (iterate m).Perm m) (hi' : ∀ m, (iterate' m).Perm m) (mesh : SurfaceMesh) :
    surfaceEdgesAreManifold iterate mesh = true ↔ (surfaceNonManifoldEdges iterate' mesh).issues = [] :=
  surfaceEdgesAreManifold_iff iterate iterate' hi hi' mesh

/-- **C26** (surface vertices): when the list is computed without exception, so is the boolean. -/
theorem C26_surface_vertices (mesh : SurfaceTopo) (s : Issues Index)
    (h : surfaceNonManifoldVertices mesh = .ok s) :
    ∃ b, surfaceVerticesAreManifold mesh = .ok b ∧ (b = true ↔ s.issues = []) :=
  ⟨_, surfaceVertices_agree mesh s h, List.isEmpty_iff⟩

/-- **C26** (solid vertices). -/
theorem C26_solid_vertices (mesh : SolidTopo) (s : Issues Index)
    (h : solidNonManifoldVertices mesh = .ok s) :
    ∃ b, solidVerticesAreManifold mesh = .ok b ∧ (b = true ↔ s.issues = []) :=
  ⟨_, solidVertices_agree mesh s h, List.isEmpty_iff⟩

/-- **C26** (solid facets). -/
theorem C26_solid_facets (iterate iterate' : FacetMap → FacetMap)
    (hi : ∀ m, (iterate m).Perm m) (hi' : ∀ m, (iterate' m).Perm m)
    (cycle : List Index → List Index) (mesh : SolidMesh) :
    solidFacetsAreManifold iterate cycle mesh = true
      ↔ (solidNonManifoldFacets iterate' cycle mesh).issues = [] :=
  solidFacets_agree iterate iterate' hi hi' cycle mesh

/-- **C27.** -/
theorem C27_surface_vertices (mesh : SurfaceTopo) (hv : VerticesExist mesh)
    (hf : ∀ v, v < mesh.nbVertices → ∀ f, mesh.polygonsAroundVertex v = .error f → f = .openGeodeException) :
    ∃ s, surfaceNonManifoldVertices mesh = .ok s ∧ Exactly (· < ·) (BrokenFan mesh) s.issues := by
  obtain ⟨s, b, h1, _, h3, _⟩ := surfaceVertices_ok mesh
    (fun x hx => by have := (mem_pairs ..).1 hx; exact hv x.1 x.2 this.1 this.2) hf
  exact ⟨s, h1, h3⟩

/-- vertices 0 (two corners walked out of three) is reported; 1 has its whole fan in another order, the
walk fails at 4 -/
example : VerticesExist exampleBook ∧
    (∀ v, v < exampleBook.nbVertices → ∀ f, exampleBook.polygonsAroundVertex v = .error f
      → f = .openGeodeException) ∧
    (∃ s, surfaceNonManifoldVertices exampleBook = .ok s ∧ s.issues = [0]) := by
  refine ⟨?_, ?_, ⟨_, rfl, by decide⟩⟩
  · intro p k hp hk
    have hp : p < 3 := hp
    have hk : k < 3 := hk
    show [0, 1, 2 + p].getD k 0 < 5
    obtain rfl | rfl | rfl : k = 0 ∨ k = 1 ∨ k = 2 := by omega
    all_goals simp
    omega
  · intro v _ f hf
    unfold exampleBook at hf
    simp only at hf
    split at hf
    · cases hf
    · split at hf
      · cases hf
      · split at hf
        · injection hf with hf; exact hf.symm
        · cases hf

/-- **C28.** -/
theorem C28_solid_vertices (mesh : SolidTopo) (hv : SolidVerticesExist mesh)
    (hf : ∀ v, v < mesh.nbVertices → ∃ fan, mesh.polyhedraAroundVertex v = .ok fan) :
    ∃ s, solidNonManifoldVertices mesh = .ok s ∧ Exactly (· < ·) (BrokenSolidFan mesh) s.issues := by
  let fan : Index → List (Nat × Nat) := fun v =>
    match mesh.polyhedraAroundVertex v with | .ok l => l | .error _ => []
  have hfan : ∀ v, v < mesh.nbVertices → mesh.polyhedraAroundVertex v = .ok (fan v) := by
    intro v hv
    obtain ⟨l, hl⟩ := hf v hv
    simp only [fan, hl]
  obtain ⟨s, b, h1, _, h3, _⟩ := solidVertices_ok mesh
    (fun x hx => by have := (mem_pairs ..).1 hx; exact hv x.1 x.2 this.1 this.2) fan hfan
  refine ⟨s, h1, h3.1, fun v => (h3.2 v).trans (and_congr_right fun hlt => ?_)⟩
  rw [hfan v hlt]
  simp

/-- **C28**: if the walk around a vertex raises, the whole inspection does. -/
theorem C28_solid_vertices_raise (mesh : SolidTopo) (v : Index) (hlt : v < mesh.nbVertices) (f : Failure)
    (hf : mesh.polyhedraAroundVertex v = .error f) : ∃ f', solidNonManifoldVertices mesh = .error f' := by
  unfold solidNonManifoldVertices
  cases polyhedraAroundVertices mesh with
  | error g => exact ⟨g, rfl⟩
  | ok r => exact collectFromM_error _ _ _ _ _ v (List.mem_range.2 hlt) f (by simp only [hf])

/-- two tetrahedra 0-1-2-3 and 0-4-5-6 sharing only vertex 0, and three tetrahedra on facet 7-8-9 -/
def exampleTets : SolidTopo where
  nbPolyhedra := 5
  nbPolyhedronFacets _ := 4
  polyhedronFacetVertices x :=
    let v := [[0, 1, 2, 3], [0, 4, 5, 6], [7, 8, 9, 10], [8, 7, 9, 11], [9, 8, 7, 12]].getD x.1 []
    v.eraseIdx (3 - x.2)
  polyhedronAdjacent _ := none
  nbVertices := 13
  nbPolyhedronVertices _ := 4
  polyhedronVertex x :=
    ([[0, 1, 2, 3], [0, 4, 5, 6], [7, 8, 9, 10], [8, 7, 9, 11], [9, 8, 7, 12]].getD x.1 []).getD x.2 0
  polyhedraAroundVertex v :=
    if v = 0 then .ok [(0, 0)]
    else if v < 4 then .ok [(0, v)]
    else if v < 7 then .ok [(1, v - 3)]
    else if v = 7 then .ok [(2, 0), (3, 1), (4, 2)]
    else if v = 8 then .ok [(4, 1), (2, 1), (3, 0)]
    else if v = 9 then .ok [(4, 0), (3, 2), (2, 2)]
    else .ok [(v - 8, 3)]
  polyhedronEdgesVertices p := if p < 2 then [] else
    if p = 2 then [(7, 8), (7, 10)] else if p = 3 then [(8, 7), (8, 11)] else [(7, 12)]
  polyhedraAroundEdge e _ :=
    if e = (7, 8) then .ok [2] else if e = (7, 10) then .ok [2] else if e = (8, 11) then .ok [3]
    else .error .openGeodeException

example : SolidVerticesExist exampleTets ∧
    (∃ s, solidNonManifoldVertices exampleTets = .ok s ∧ s.issues = [0]) := by
  refine ⟨?_, ⟨_, rfl, by decide⟩⟩
  intro p k hp hk
  have : ∀ p, p < 5 → ∀ k, k < 4 → exampleTets.polyhedronVertex (p, k) < 13 := by decide
  exact this p hp k hk

/-- **C29.** Each edge is reported at most once, exactly when turning around it from its first use does
not give the polyhedra having it, or raises an OpenGeode exception. -/
theorem C29_solid_edges (mesh : SolidTopo)
    (hf : ∀ x ∈ solidEdgeUses mesh, ∀ f, mesh.polyhedraAroundEdge x.2 x.1 = .error f → f = .openGeodeException)
    (hn : ∀ x ∈ solidEdgeUses mesh, ∀ fan, mesh.polyhedraAroundEdge x.2 x.1 = .ok fan → fan.Nodup) :
    ∃ s, solidNonManifoldEdges mesh = .ok s ∧
      s.issues.Pairwise (fun a b => ¬ SameEdge a b) ∧
      (∀ e, e ∈ s.issues ↔ ∃ p, FirstUse mesh p e ∧ BadTurn mesh p e) ∧
      (solidEdgesAreManifold mesh = .ok true ↔ s.issues = []) := by
  obtain ⟨s, h1, h2, _, h4, h5⟩ := solidEdges_ok mesh hf hn
  refine ⟨s, h1, ?_, h4, h5⟩
  have := List.pairwise_map.1 h2
  exact this.imp (fun h => by rwa [ne_eq, edgeCycle_eq_edgeCycle] at h)

/-- the edge 7-8 is seen alone around itself but is in two polyhedra; turning around 7-12 fails -/
example : (∀ x ∈ solidEdgeUses exampleTets, ∀ f, exampleTets.polyhedraAroundEdge x.2 x.1 = .error f
      → f = .openGeodeException) ∧
    (∃ s, solidNonManifoldEdges exampleTets = .ok s ∧ s.issues = [(7, 8), (7, 12)]) := by
  refine ⟨?_, ⟨_, rfl, by decide⟩⟩
  intro x _ f hf
  unfold exampleTets at hf
  simp only at hf
  split at hf
  · cases hf
  · split at hf
    · cases hf
    · split at hf
      · cases hf
      · injection hf with hf; exact hf.symm

/-- **C29**: the boolean raises where the list reports "could not check". -/
theorem C29_bool_raises : solidEdgesAreManifold
      { exampleTets with polyhedronEdgesVertices := fun p => if p = 4 then [(7, 12)] else [] }
      = .error .openGeodeException := by decide

/-- **C30.** `cycle` normalises a facet: two facets have the same normal form when they are the `same`. -/
theorem C30_solid_facets (iterate : FacetMap → FacetMap) (hi : ∀ m, (iterate m).Perm m)
    (cycle : List Index → List Index) (same : List Index → List Index → Bool)
    (hc : ∀ a b, cycle a = cycle b ↔ same a b = true) (mesh : SolidMesh)
    (hsz : (pairs mesh.nbPolyhedra mesh.nbPolyhedronFacets).length < 2 ^ 32) :
    Exactly (· ≠ ·) (fun f => ∃ x ∈ pairs mesh.nbPolyhedra mesh.nbPolyhedronFacets,
        f = cycle (mesh.polyhedronFacetVertices x) ∧
        2 < ((pairs mesh.nbPolyhedra mesh.nbPolyhedronFacets).filter fun y =>
          same (mesh.polyhedronFacetVertices y) (mesh.polyhedronFacetVertices x)).length)
      (solidNonManifoldFacets iterate cycle mesh).issues := by
  have h := facetsExactly iterate hi cycle mesh hsz
  refine ⟨h.1, fun f => (h.2 f).trans ?_⟩
  have hsame : ∀ x, (pairs mesh.nbPolyhedra mesh.nbPolyhedronFacets).filter (fun y =>
      same (mesh.polyhedronFacetVertices y) (mesh.polyhedronFacetVertices x))
      = usesOfFacet cycle mesh (cycle (mesh.polyhedronFacetVertices x)) := by
    intro x
    unfold usesOfFacet
    apply List.filter_congr
    intro y _
    rw [Bool.eq_iff_iff, decide_eq_true_iff, hc]
  constructor
  · intro hlt
    have hlt : 2 < (usesOfFacet cycle mesh f).length := hlt
    have hne : usesOfFacet cycle mesh f ≠ [] := by intro hn; rw [hn] at hlt; simp at hlt
    obtain ⟨x, hx⟩ := List.exists_mem_of_ne_nil _ hne
    unfold usesOfFacet at hx
    rw [List.mem_filter, decide_eq_true_iff] at hx
    refine ⟨x, hx.1, hx.2.symm, ?_⟩
    rw [hsame, hx.2]
    exact hlt
  · rintro ⟨x, _, rfl, hlt⟩
    rw [hsame] at hlt
    exact hlt

/-- a normal form of facets: the sorted vertices -/
def exampleCycle (l : List Index) : List Index := (List.range 13).filter l.contains

example : (solidNonManifoldFacets List.reverse exampleCycle exampleTets.toSolidMesh).issues = [[7, 8, 9]] ∧
    (pairs exampleTets.nbPolyhedra exampleTets.nbPolyhedronFacets).length < 2 ^ 32 := by
  decide +kernel

/-- **C31** (edges): first the edges seen as interior at least twice, each once with the Surfaces that
see it, then the isolated embedded Lines made of one edge. -/
theorem C31_model_edges (iterate : HMap (Index × Index) (List Uuid) → HMap (Index × Index) (List Uuid))
    (hi : ∀ m, (iterate m).Perm m) (d : String) (model : ManifoldModel) :
    ∃ a, (addModelNonManifoldEdges iterate model (Issues.new d)).issues
        = a ++ (model.lines.filter fun l => decide (IsolatedEdgeLine model l)).map (fun l =>
            ((l.uniqueVertex (l.edgeVertex 0), l.uniqueVertex (l.edgeVertex 1)), [l.id])) ∧
      Exactly (fun x y => x.1 ≠ y.1) (fun x : (Index × Index) × List Uuid =>
        x.1.1 ≤ x.1.2 ∧ 2 ≤ (interiorUses model x.1).length ∧ x.2 = interiorUses model x.1) a := by
  let edges := (model.surfaces.filter fun s => s.active).foldl (fun edges surface =>
    surfaceModelEdges surface edges) []
  refine ⟨((iterate edges).filter fun edge => !decide (edge.2.length ≤ 1)).map
    (fun edge => (edge.1, edge.2)), ?_, ?_, ?_⟩
  · unfold addModelNonManifoldEdges
    simp only [collectFrom_issues, Issues.new, List.nil_append]
    congr 1
    rw [List.filter_filter]
    congr 2
    funext l
    rw [Bool.and_comm]
    exact isolatedLine_iff model l
  · have hn : (edges.map Prod.fst).Nodup := by
      simp only [edges]
      rw [modelEdges_eq]
      exact HMap.nodup_build _ _ _ _ (by simp)
    have h' : ((iterate edges).map Prod.fst).Nodup := ((hi edges).map _).nodup_iff.2 hn
    have h2 := List.pairwise_map.1 h'
    simp only [List.map_id']
    exact (h2.filter _)
  · rintro ⟨e, v⟩
    simp only [List.map_id', List.mem_filter, (hi edges).mem_iff]
    simp only [edges]
    rw [mem_modelEdges]
    simp only [Bool.not_eq_true', decide_eq_false_iff_not, Nat.not_le]
    constructor
    · rintro ⟨⟨h1, _, rfl⟩, h3⟩
      exact ⟨h1, h3, rfl⟩
    · rintro ⟨h1, h2, rfl⟩
      exact ⟨⟨h1, by intro hn; rw [hn] at h2; simp at h2, rfl⟩, h2⟩

/-- **C31** (facets): the isolated embedded Surfaces made of one polygon. -/
theorem C31_model_facets (d : String) (model : ManifoldModel) :
    (addModelNonManifoldFacets model (Issues.new d)).issues =
      (model.surfaces.filter fun s => decide (IsolatedFacetSurface model s)).map (fun s =>
        ((List.range (s.mesh.nbPolygonVertices 0)).map fun v => s.uniqueVertex (s.mesh.polygonVertex (0, v)),
          [s.id])) := by
  unfold addModelNonManifoldFacets
  simp only [collectFrom_issues, Issues.new, List.nil_append]
  rw [List.filter_filter]
  have : (fun a : ManifoldSurface =>
      (if (a.mesh.nbPolygons != 1 || a.nbEmbeddingBlocks == 0) = true then false
        else !severalCmvsOnOneVertex model (polygonUniqueVertices a)) && a.active)
      = fun s => decide (IsolatedFacetSurface model s) := by
    funext s
    rw [Bool.and_comm]
    exact isolatedSurface_iff model s
  rw [this]
  rfl

/-- two triangles 0-1-2 and 2-1-3 sharing an edge -/
def exampleTwoTriangles : SurfaceMesh where
  nbPolygons := 2
  nbPolygonVertices _ := 3
  polygonVertex x := (([[0, 1, 2], [2, 1, 3]].getD x.1 []).getD x.2 0)
  polygonAdjacent x := if x = (0, 1) then some 1 else if x = (1, 0) then some 0 else none

/-- two surfaces seeing edge 1-2 as interior, an isolated Line and an isolated Surface -/
def exampleManifoldModel : ManifoldModel where
  lines := [
    { id := 10, active := true, label := "l", nbEdges := 1, edgeVertex := id, uniqueVertex := fun v => 50 + v,
      nbEmbeddingSurfaces := 1 },
    { id := 11, active := true, label := "l", nbEdges := 1, edgeVertex := id, uniqueVertex := fun v => 60 + v,
      nbEmbeddingSurfaces := 0 }]
  surfaces := [
    { id := 20, active := true, label := "s", mesh := ⟨exampleTwoTriangles, 4, fun _ => .ok [], fun _ => ""⟩,
      uniqueVertex := id, nbEmbeddingBlocks := 0 },
    { id := 21, active := true, label := "s", mesh := ⟨exampleTwoTriangles, 4, fun _ => .ok [], fun _ => ""⟩,
      uniqueVertex := id, nbEmbeddingBlocks := 0 },
    { id := 22, active := true, label := "s",
      mesh := ⟨{ exampleTwoTriangles with nbPolygons := 1 }, 3, fun _ => .ok [], fun _ => ""⟩,
      uniqueVertex := fun v => 70 + v, nbEmbeddingBlocks := 2 }]
  nbComponentMeshVertices v := if v < 50 then 2 else 1

example : (addModelNonManifoldEdges List.reverse exampleManifoldModel (Issues.new "d")).issues
      = [((1, 2), [20, 21]), ((50, 51), [10])] ∧
    (addModelNonManifoldFacets exampleManifoldModel (Issues.new "d")).issues = [([70, 71, 72], [22])] := by
  decide +kernel

/-! ### components of models -/

theorem surfaceEdges_length (iterate : EdgeMap → EdgeMap) (hi : ∀ m, (iterate m).Perm m) (s : ManifoldSurface)
    (hs : SurfaceOk s) : (surfaceNonManifoldEdges iterate s.mesh.toSurfaceMesh).issues.length < 2 ^ 32 := by
  have h := C24_surface_edges iterate hi s.mesh.toSurfaceMesh hs.uses
  refine Nat.lt_of_le_of_lt (edges_length s.mesh.toSurfaceMesh _ h.1 (fun e he => ?_)) hs.nbEdges
  have := (h.2 e).1 he
  exact ⟨this.1, this.2.1⟩

/-- **C26, C27** (Section): vertices and edges of each active Surface, under its id, and nothing else. -/
theorem C27_section_maps (iterate : Uuid → EdgeMap → EdgeMap) (hi : ∀ u m, (iterate u m).Perm m)
    (model : ManifoldModel) (hn : (model.surfaces.map ManifoldSurface.id).Nodup)
    (hs : ∀ s ∈ activeSurfaces model, SurfaceOk s) :
    ∃ r, inspectSectionManifold iterate model = .ok r ∧
      MapReports r.meshes_non_manifold_vertices (activeSurfaces model) ManifoldSurface.id
        (fun s l => Exactly (· < ·) (BrokenFan s.mesh) l) ∧
      MapReports r.meshes_non_manifold_edges (activeSurfaces model) ManifoldSurface.id
        (fun s l => Exactly (· ≠ ·) (NonManifoldEdge s.mesh.toSurfaceMesh) l) := by
  have hn' : ((activeSurfaces model).map ManifoldSurface.id).Nodup := hn.sublist (List.filter_sublist.map _)
  have hv := fun s (h : s ∈ activeSurfaces model) => C27_surface_vertices s.mesh (hs s h).vertices (hs s h).walks
  let val : ManifoldSurface → Issues Index := fun s =>
    match surfaceNonManifoldVertices s.mesh with | .ok i => i | .error _ => Issues.new ""
  have hval : ∀ s ∈ activeSurfaces model, surfaceNonManifoldVertices s.mesh = .ok (val s) ∧
      Exactly (· < ·) (BrokenFan s.mesh) (val s).issues := by
    intro s h
    obtain ⟨i, h1, h2⟩ := hv s h
    simp only [val, h1]
    exact ⟨trivial, h2⟩
  refine ⟨{
      meshes_non_manifold_vertices := (activeSurfaces model).foldl
        (fun map surface => map.addIssues surface.id ((val surface).setDescription
          ("Surface " ++ surface.label ++ " non manifold vertices")))
        ({} : SectionMeshesManifoldInspectionResult).meshes_non_manifold_vertices,
      meshes_non_manifold_edges := addSurfacesNonManifoldEdges iterate model
        ({} : SectionMeshesManifoldInspectionResult).meshes_non_manifold_edges }, ?_, ?_, ?_⟩
  · unfold inspectSectionManifold
    simp only
    unfold addSurfacesNonManifoldVertices
    rw [foldlM_ok _ (fun (map : IssuesMap Index) (surface : ManifoldSurface) =>
      map.addIssues surface.id ((val surface).setDescription
        ("Surface " ++ surface.label ++ " non manifold vertices")))]
    · rfl
    · intro s h m
      rw [(hval s h).1]
  · refine mapReports_of_adds _ _ _ _ _ hn' (fun s h => ?_) (fun s h => (hval s h).2)
    exact Nat.lt_of_le_of_lt (exactly_lt_length
      (p := fun v => ∃ fan, s.mesh.polygonsAroundVertex v = .ok fan ∧ ¬ IsWholeFan s.mesh.toSurfaceMesh v fan)
      (hval s h).2) (hs s h).nbVertices
  · refine mapReports_of_adds _ _ _ _ _ hn' (fun s h => ?_) (fun s h => ?_)
    · exact surfaceEdges_length _ (hi _) s (hs s h)
    · exact C24_surface_edges _ (hi _) _ (hs s h).uses

/-- **C28-C31** (BRep): the vertices and edges of the active Surfaces then Blocks, the facets of the
active Blocks, and the non manifold edges and facets of the model; nothing else. -/
theorem C31_brep_maps (orders : ManifoldOrders) (hi : ∀ u m, (orders.surfaceEdges u m).Perm m)
    (hi' : ∀ u m, (orders.facets u m).Perm m)
    (hi'' : ∀ m, (orders.modelEdges m).Perm m) (cycle : List Index → List Index) (model : ManifoldModel)
    (hn : (model.surfaces.map ManifoldSurface.id ++ model.blocks.map MeasuredComponent.id).Nodup)
    (hs : ∀ s ∈ activeSurfaces model, SurfaceOk s) (hb : ∀ b ∈ activeBlocks model, BlockOk b) :
    ∃ r, inspectBRepManifold orders cycle model = .ok r ∧
      MapReports r.meshes_non_manifold_vertices
        ((activeSurfaces model).map (fun s => (s.id, fun l => Exactly (· < ·) (BrokenFan s.mesh) l)) ++
         (activeBlocks model).map (fun b => (b.id, fun l => Exactly (· < ·) (BrokenSolidFan b.mesh) l)))
        Prod.fst (fun x => x.2) ∧
      MapReports r.meshes_non_manifold_edges
        ((activeSurfaces model).map (fun s =>
            (s.id, fun l => Exactly (· ≠ ·) (NonManifoldEdge s.mesh.toSurfaceMesh) l)) ++
         (activeBlocks model).map (fun b => (b.id, fun l => l.Pairwise (fun e e' => ¬ SameEdge e e') ∧
            ∀ e, e ∈ l ↔ ∃ p, FirstUse b.mesh p e ∧ BadTurn b.mesh p e)))
        Prod.fst (fun x => x.2) ∧
      MapReports r.meshes_non_manifold_facets (activeBlocks model) MeasuredComponent.id
        (fun b l => Exactly (· ≠ ·) (fun f => 2 < (usesOfFacet cycle b.mesh.toSolidMesh f).length) l) ∧
      (∃ a, r.brep_non_manifold_edges.issues
          = a ++ (model.lines.filter fun l => decide (IsolatedEdgeLine model l)).map (fun l =>
            ((l.uniqueVertex (l.edgeVertex 0), l.uniqueVertex (l.edgeVertex 1)), [l.id])) ∧
        Exactly (fun x y => x.1 ≠ y.1) (fun x : (Index × Index) × List Uuid =>
          x.1.1 ≤ x.1.2 ∧ 2 ≤ (interiorUses model x.1).length ∧ x.2 = interiorUses model x.1) a) ∧
      r.brep_non_manifold_facets.issues =
        (model.surfaces.filter fun s => decide (IsolatedFacetSurface model s)).map (fun s =>
          ((List.range (s.mesh.nbPolygonVertices 0)).map fun v => s.uniqueVertex (s.mesh.polygonVertex (0, v)),
            [s.id])) := by
  have hn' : ((activeSurfaces model).map ManifoldSurface.id ++
      (activeBlocks model).map MeasuredComponent.id).Nodup :=
    hn.sublist ((List.filter_sublist.map _).append (List.filter_sublist.map _))
  let valS : ManifoldSurface → Issues Index := fun s =>
    match surfaceNonManifoldVertices s.mesh with | .ok i => i | .error _ => Issues.new ""
  have hvalS : ∀ s ∈ activeSurfaces model, surfaceNonManifoldVertices s.mesh = .ok (valS s) ∧
      Exactly (· < ·) (BrokenFan s.mesh) (valS s).issues := by
    intro s h
    obtain ⟨i, h1, h2⟩ := C27_surface_vertices s.mesh (hs s h).vertices (hs s h).walks
    simp only [valS, h1]
    exact ⟨trivial, h2⟩
  let valB : MeasuredComponent SolidTopo → Issues Index := fun b =>
    match solidNonManifoldVertices b.mesh with | .ok i => i | .error _ => Issues.new ""
  have hvalB : ∀ b ∈ activeBlocks model, solidNonManifoldVertices b.mesh = .ok (valB b) ∧
      Exactly (· < ·) (BrokenSolidFan b.mesh) (valB b).issues := by
    intro b h
    obtain ⟨i, h1, h2⟩ := C28_solid_vertices b.mesh (hb b h).vertices (hb b h).walks
    simp only [valB, h1]
    exact ⟨trivial, h2⟩
  let valE : MeasuredComponent SolidTopo → Issues (Index × Index) := fun b =>
    match solidNonManifoldEdges b.mesh with | .ok i => i | .error _ => Issues.new ""
  have hvalE : ∀ b ∈ activeBlocks model, solidNonManifoldEdges b.mesh = .ok (valE b) ∧
      (valE b).issues.length ≤ (solidEdgeUses b.mesh).length ∧
      (valE b).issues.Pairwise (fun e e' => ¬ SameEdge e e') ∧
      ∀ e, e ∈ (valE b).issues ↔ ∃ p, FirstUse b.mesh p e ∧ BadTurn b.mesh p e := by
    intro b h
    obtain ⟨i, h1, _, h3, _⟩ := solidEdges_ok b.mesh (hb b h).turns (hb b h).turnsOnce
    obtain ⟨i', h1', h4, h5, _⟩ := C29_solid_edges b.mesh (hb b h).turns (hb b h).turnsOnce
    obtain rfl : i = i' := by rw [h1] at h1'; injection h1'
    simp only [valE, h1]
    exact ⟨trivial, by simpa using h3.length_le, h4, h5⟩
  have e1 : addSurfacesNonManifoldVertices model ({} : BRepMeshesManifoldInspectionResult).meshes_non_manifold_vertices
      = .ok ((activeSurfaces model).foldl (fun map surface => map.addIssues surface.id
          ((valS surface).setDescription ("Surface " ++ surface.label ++ " non manifold vertices")))
          ({} : BRepMeshesManifoldInspectionResult).meshes_non_manifold_vertices) := by
    unfold addSurfacesNonManifoldVertices
    exact foldlM_ok _ _ _ _ (fun s h m => by rw [(hvalS s h).1])
  have e2 : ∀ m, addBlocksNonManifoldVertices model m
      = .ok ((activeBlocks model).foldl (fun map b => map.addIssues b.id
          ((valB b).setDescription ("Block " ++ b.label ++ " non manifold vertices"))) m) := by
    intro m
    unfold addBlocksNonManifoldVertices
    exact foldlM_ok _ _ _ _ (fun s h m => by rw [(hvalB s h).1])
  have e3 : ∀ m, addBlocksNonManifoldEdges model m
      = .ok ((activeBlocks model).foldl (fun map b => map.addIssues b.id
          ((valE b).setDescription ("Block " ++ b.label ++ " non manifold edges"))) m) := by
    intro m
    unfold addBlocksNonManifoldEdges
    exact foldlM_ok _ _ _ _ (fun s h m => by rw [(hvalE s h).1])
  refine ⟨_, (by unfold inspectBRepManifold; simp only [e1, e2, e3]; rfl), ?_, ?_, ?_,
    C31_model_edges _ hi'' _ model, C31_model_facets _ model⟩
  · refine mapReports_of_two _ _ _ _ _ (fun s => (valS s).setDescription _) (fun b => (valB b).setDescription _) _ _
      hn' (fun s h => ⟨?_, (hvalS s h).2⟩) (fun b h => ⟨?_, (hvalB b h).2⟩)
    · exact Nat.lt_of_le_of_lt (exactly_lt_length
        (p := fun v => ∃ fan, s.mesh.polygonsAroundVertex v = .ok fan ∧ ¬ IsWholeFan s.mesh.toSurfaceMesh v fan)
        (hvalS s h).2) (hs s h).nbVertices
    · exact Nat.lt_of_le_of_lt (exactly_lt_length
        (p := fun v => ∃ fan, b.mesh.polyhedraAroundVertex v = .ok fan ∧ ¬ IsWholeSolidFan b.mesh v fan)
        (hvalB b h).2) (hb b h).nbVertices
  · refine mapReports_of_two _ _ _ _ _ (fun s => (surfaceNonManifoldEdges _ _).setDescription _)
      (fun b => (valE b).setDescription _) _ _
      hn' (fun s h => ⟨?_, ?_⟩) (fun b h => ⟨?_, (hvalE b h).2.2⟩)
    · exact surfaceEdges_length _ (hi _) s (hs s h)
    · exact C24_surface_edges _ (hi _) _ (hs s h).uses
    · exact Nat.lt_of_le_of_lt (hvalE b h).2.1 (hb b h).nbEdges
  · refine mapReports_of_adds _ _ _ _ _ (List.nodup_append.1 hn').2.1 (fun b h => ?_) (fun b h => ?_)
    · have hf := facetsExactly _ (hi' b.id) cycle b.mesh.toSolidMesh (hb b h).nbFacets
      refine Nat.lt_of_le_of_lt (facets_length cycle b.mesh.toSolidMesh _ hf.1 (fun f hf' hnil => ?_)) (hb b h).nbFacets
      have h2 : 2 < (usesOfFacet cycle b.mesh.toSolidMesh f).length := (hf.2 f).1 hf'
      rw [hnil] at h2
      simp at h2
    · exact facetsExactly _ (hi' b.id) cycle b.mesh.toSolidMesh (hb b h).nbFacets

/-- a BRep with the Surface `exampleBook` and the Block `exampleTets` -/
def exampleManifoldBRep : ManifoldModel where
  lines := []
  surfaces := [⟨1, true, "s", exampleBook, id, 0⟩]
  blocks := [⟨2, true, "b", exampleTets⟩]
  nbComponentMeshVertices _ := 1

/-- the hypotheses of `C31_brep_maps` are met by a BRep with issues in each map -/
example : (∀ s ∈ activeSurfaces exampleManifoldBRep, SurfaceOk s) ∧
    (∀ b ∈ activeBlocks exampleManifoldBRep, BlockOk b) ∧
    (exampleManifoldBRep.surfaces.map ManifoldSurface.id ++
      exampleManifoldBRep.blocks.map MeasuredComponent.id).Nodup ∧
    (∃ r, inspectBRepManifold ⟨fun _ => id, fun _ => id, id⟩ exampleCycle exampleManifoldBRep = .ok r ∧
        r.meshes_non_manifold_vertices.entries.map (fun e => (e.1, e.2.issues)) = [(1, [0]), (2, [0])] ∧
        r.meshes_non_manifold_edges.entries.map (fun e => (e.1, e.2.issues))
          = [(1, [(0, 1)]), (2, [(7, 8), (7, 12)])] ∧
        r.meshes_non_manifold_facets.entries.map (fun e => (e.1, e.2.issues)) = [(2, [[7, 8, 9]])]) := by
  refine ⟨?_, ?_, by decide, ⟨_, rfl, by decide +kernel⟩⟩
  · intro s hs
    obtain rfl := List.mem_singleton.1 hs
    refine ⟨?_, ?_, by decide, by decide, fun e => ?_⟩
    · intro p k hp hk
      have : ∀ p, p < 3 → ∀ k, k < 3 → exampleBook.polygonVertex (p, k) < 5 := by decide
      exact this p hp k hk
    · intro v hv f hf
      have : ∀ v, v < 5 → (match exampleBook.polygonsAroundVertex v with
        | .error .openGeodeException => true | .error _ => false | .ok _ => true) = true := by decide
      have := this v hv
      rw [show exampleBook.polygonsAroundVertex v = .error f from hf] at this
      cases f <;> first | rfl | exact absurd this (by simp)
    · exact Nat.lt_of_le_of_lt (List.length_filter_le ..) (by decide)
  · intro b hb
    obtain rfl := List.mem_singleton.1 hb
    refine ⟨?_, ?_, ?_, ?_, by decide, by decide, by decide⟩
    · intro p k hp hk
      have : ∀ p, p < 5 → ∀ k, k < 4 → exampleTets.polyhedronVertex (p, k) < 13 := by decide
      exact this p hp k hk
    · intro v hv
      have : ∀ v, v < 13 → (match exampleTets.polyhedraAroundVertex v with
        | .error _ => false | .ok _ => true) = true := by decide
      have := this v hv
      cases h : exampleTets.polyhedraAroundVertex v with
      | ok l => exact ⟨l, rfl⟩
      | error f => rw [h] at this; simp at this
    · have : ∀ x ∈ solidEdgeUses exampleTets, (match exampleTets.polyhedraAroundEdge x.2 x.1 with
        | .error .openGeodeException => true | .error _ => false | .ok l => true) = true := by decide
      intro x hx f hf
      have := this x hx
      rw [show exampleTets.polyhedraAroundEdge x.2 x.1 = .error f from hf] at this
      cases f <;> first | rfl | exact absurd this (by simp)
    · have : ∀ x ∈ solidEdgeUses exampleTets, (match exampleTets.polyhedraAroundEdge x.2 x.1 with
        | .error _ => true | .ok l => decide l.Nodup) = true := by decide
      intro x hx f hf
      have := this x hx
      rw [show exampleTets.polyhedraAroundEdge x.2 x.1 = .ok f from hf] at this
      exact of_decide_eq_true this

end Inspector
