import Verif.Spec.OrientedManifold
import Verif.Proofs.Manifold
import Verif.Proofs.Adjacency
/-! Helper lemmas about C117 and C118. -/
namespace Inspector.Oriented
open Spec

/-! ### surfaces -/

theorem sameEdge_symm {a b : Index × Index} (h : SameEdge a b) : SameEdge b a := by
  unfold SameEdge at *
  rcases h with h | h
  · exact Or.inl h.symm
  · exact Or.inr ⟨h.2.symm, h.1.symm⟩

theorem sameEdge_trans {a b c : Index × Index} (h : SameEdge a b) (h' : SameEdge b c) : SameEdge a c := by
  unfold SameEdge at *
  rcases h with rfl | h
  · exact h'
  · rcases h' with rfl | h'
    · exact Or.inr h
    · exact Or.inl (Prod.ext (h.1.trans h'.2) (h.2.trans h'.1))

theorem sameEdge_refl (a : Index × Index) : SameEdge a a := Or.inl rfl

theorem sameEdge_swap (a : Index × Index) : SameEdge (a.2, a.1) a := Or.inr ⟨rfl, rfl⟩

theorem mem_uses (mesh : SurfaceMesh) (e : Index × Index) (x : PolygonEdge) :
    x ∈ usesOfEdge mesh e ↔ IsPolygonEdge mesh x ∧ SameEdge (polygonEdgeEnds mesh x) e := by
  unfold usesOfEdge polygonEdges IsPolygonEdge
  rw [List.mem_filter, decide_eq_true_iff]
  refine and_congr ?_ Iff.rfl
  exact mem_pairs ..

theorem uses_nodup (mesh : SurfaceMesh) (e : Index × Index) : (usesOfEdge mesh e).Nodup := by
  unfold usesOfEdge polygonEdges
  refine List.Nodup.filter _ ?_
  exact (pairs_pairwise ..).imp (fun h => by rintro rfl; unfold pairLt at h; omega)

/-- A duplicate free list of length one. -/
theorem eq_of_length_one {α : Type} {l : List α} (h : l.length = 1) {x y : α} (hx : x ∈ l) (hy : y ∈ l) : x = y := by
  match l, h with
  | [a], _ => rw [List.mem_singleton] at hx hy; rw [hx, hy]

/-- In a list of at most two elements, a third one is one of the first two. -/
theorem third {α : Type} {l : List α} (hn : l.length ≤ 2) {x y z : α} (hx : x ∈ l) (hy : y ∈ l) (hz : z ∈ l)
    (hne : y ≠ x) : z = x ∨ z = y := by
  match l, hn with
  | [], _ => simp at hx
  | [a], _ => simp only [List.mem_singleton] at hx hy; exact absurd (hy.trans hx.symm) hne
  | [a, b], _ =>
    simp only [List.mem_cons, List.not_mem_nil, or_false] at hx hy hz
    rcases hx with rfl | rfl <;> rcases hy with rfl | rfl <;> rcases hz with rfl | rfl <;> simp_all

theorem two_length {α : Type} {l : List α} (hn : l.Nodup) {x y : α} (hx : x ∈ l) (hy : y ∈ l) (hne : y ≠ x) :
    2 ≤ l.length := by
  have hs : [x, y] ⊆ l := by
    intro z hz
    simp only [List.mem_cons, List.not_mem_nil, or_false] at hz
    rcases hz with rfl | rfl
    · exact hx
    · exact hy
  have hd : [x, y].Nodup := by simp [hne.symm]
  exact (hd.subperm hs).length_le

theorem le_two_of {α : Type} {l : List α} (hn : l.Nodup) {x y : α} (h : ∀ z ∈ l, z = x ∨ z = y) : l.length ≤ 2 := by
  have hs : l ⊆ [x, y] := by
    intro z hz
    simpa using h z hz
  exact (hn.subperm hs).length_le

theorem le_one_of {α : Type} {l : List α} (hn : l.Nodup) {x : α} (h : ∀ z ∈ l, z = x) : l.length ≤ 1 := by
  have hs : l ⊆ [x] := by
    intro z hz
    simpa using h z hz
  exact (hn.subperm hs).length_le

/-- An edge which has an adjacent and is not wrong is glued to an edge of its adjacent. -/
theorem glued_of (mesh : SurfaceTopo) (h : Walkable mesh) (hw : ∀ x, ¬ WrongEdge mesh.toSurfaceMesh x) (x : PolygonEdge)
    (hx : IsPolygonEdge mesh.toSurfaceMesh x) (q : Index) (hq : mesh.polygonAdjacent x = some q) :
    ∃ y, y ≠ x ∧ Glued mesh.toSurfaceMesh x y := by
  have := hw x
  unfold WrongEdge at this
  have hex : ∃ e' a b, e' < mesh.nbPolygonVertices q ∧ EdgeFromTo mesh.toSurfaceMesh x.1 x.2 a b ∧
      EdgeFromTo mesh.toSurfaceMesh q e' b a ∧ mesh.polygonAdjacent (q, e') = some x.1 := by
    by_contra hc
    exact this ⟨hx, q, hq, hc⟩
  obtain ⟨e', a, b, he', hab, hba, hback⟩ := hex
  refine ⟨(q, e'), ?_, hx, ⟨h.adjacents x q hx hq, he'⟩, ?_, hq, hback⟩
  · intro heq
    have hne := h.edges x hx
    apply hne
    unfold EdgeFromTo at hab hba
    subst heq
    show mesh.polygonVertex (q, e') = mesh.polygonVertex (q, (e' + 1) % mesh.nbPolygonVertices q)
    rw [hba.1, ← hab.2]
  · unfold polygonEdgeEnds
    exact Prod.ext (hba.1.trans hab.2.symm) (hba.2.trans hab.1.symm)

theorem not_wrong_of (mesh : SurfaceMesh) (x : PolygonEdge) (hm : IsPolygonEdge mesh x → EdgeIsManifold mesh x) :
    ¬ WrongEdge mesh x := by
  rintro ⟨hx, q, hq, hn⟩
  rcases hm hx with ⟨h1, _⟩ | ⟨y, _, ⟨_, hy, hends, hadj, hback⟩, _⟩
  · rw [h1] at hq; cases hq
  · rw [hq] at hadj
    injection hadj with hadj
    subst hadj
    refine hn ⟨y.2, _, _, hy.2, ⟨rfl, rfl⟩, ?_, hback⟩
    unfold polygonEdgeEnds at hends
    exact ⟨congrArg Prod.fst hends, congrArg Prod.snd hends⟩

theorem edges_iff (mesh : SurfaceTopo) (h : Walkable mesh) :
    ((∀ x, ¬ WrongEdge mesh.toSurfaceMesh x) ∧ ∀ e, ¬ NonManifoldEdge mesh.toSurfaceMesh e) ↔
      ∀ x, IsPolygonEdge mesh.toSurfaceMesh x → EdgeIsManifold mesh.toSurfaceMesh x := by
  constructor
  · rintro ⟨hw, he⟩ x hx
    let e := edgeCycle (polygonEdgeEnds mesh.toSurfaceMesh x)
    have hse := (edgeCycle_eq_iff (polygonEdgeEnds mesh.toSurfaceMesh x) e).1 rfl
    have hmem : ∀ y, IsPolygonEdge mesh.toSurfaceMesh y →
        SameEdge (polygonEdgeEnds mesh.toSurfaceMesh y) (polygonEdgeEnds mesh.toSurfaceMesh x) →
        y ∈ usesOfEdge mesh.toSurfaceMesh e :=
      fun y hy hs => (mem_uses ..).2 ⟨hy, sameEdge_trans hs hse.2⟩
    have hxe := hmem x hx (sameEdge_refl _)
    have hne : usesOfEdge mesh.toSurfaceMesh e ≠ [] := List.ne_nil_of_mem hxe
    have he' := he e
    unfold NonManifoldEdge at he'
    cases hadj : mesh.polygonAdjacent x with
    | none =>
      left
      refine ⟨hadj, fun y hy hs => ?_⟩
      have hb : DeclaredBorder mesh.toSurfaceMesh e := ⟨x, hxe, hadj⟩
      have hl : (usesOfEdge mesh.toSurfaceMesh e).length = 1 := by
        by_contra hc
        exact he' ⟨hse.1, hne, Or.inl ⟨hb, hc⟩⟩
      exact eq_of_length_one hl (hmem y hy hs) hxe
    | some q =>
      right
      obtain ⟨y, hyx, hg⟩ := glued_of mesh h hw x hx q hadj
      refine ⟨y, hyx, hg, fun z hz hs => ?_⟩
      have hye := hmem y hg.2.1 (by rw [hg.2.2.1]; exact sameEdge_swap _)
      have h2 := two_length (uses_nodup ..) hxe hye hyx
      have hl : (usesOfEdge mesh.toSurfaceMesh e).length ≤ 2 := by
        by_contra hc
        refine he' ⟨hse.1, hne, ?_⟩
        by_cases hb : DeclaredBorder mesh.toSurfaceMesh e
        · exact Or.inl ⟨hb, by omega⟩
        · exact Or.inr ⟨hb, by omega⟩
      exact third hl hxe hye (hmem z hz hs) hyx
  · intro hm
    refine ⟨fun x => not_wrong_of _ x (hm x), ?_⟩
    rintro e ⟨_, hne, hbad⟩
    obtain ⟨x, hx⟩ := List.exists_mem_of_ne_nil _ hne
    have hx' := (mem_uses ..).1 hx
    have hsame : ∀ z ∈ usesOfEdge mesh.toSurfaceMesh e, IsPolygonEdge mesh.toSurfaceMesh z ∧
        SameEdge (polygonEdgeEnds mesh.toSurfaceMesh z) (polygonEdgeEnds mesh.toSurfaceMesh x) := fun z hz =>
      ⟨((mem_uses ..).1 hz).1, sameEdge_trans ((mem_uses ..).1 hz).2 (sameEdge_symm hx'.2)⟩
    rcases hm x hx'.1 with ⟨hb, hal⟩ | ⟨y, hyx, hg, hal⟩
    · have h1 := le_one_of (uses_nodup ..) (fun z hz => hal z (hsame z hz).1 (hsame z hz).2)
      have h0 := List.length_pos_iff.2 hne
      rcases hbad with ⟨_, hl⟩ | ⟨hnb, _⟩
      · omega
      · exact hnb ⟨x, hx, hb⟩
    · have hye : y ∈ usesOfEdge mesh.toSurfaceMesh e := (mem_uses ..).2 ⟨hg.2.1, sameEdge_trans
        (by rw [hg.2.2.1]; exact sameEdge_swap _) hx'.2⟩
      have h2 := two_length (uses_nodup ..) hx hye hyx
      have h2' := le_two_of (uses_nodup ..) (fun z hz => hal z (hsame z hz).1 (hsame z hz).2)
      rcases hbad with ⟨⟨z, hz, hzn⟩, _⟩ | ⟨_, hl⟩
      · rcases hal z (hsame z hz).1 (hsame z hz).2 with rfl | rfl
        · rw [hg.2.2.2.1] at hzn; cases hzn
        · rw [hg.2.2.2.2] at hzn; cases hzn
      · omega

theorem corner_turn (mesh : SurfaceMesh) (v : Index) (x y : PolygonEdge) (h : Turn mesh x y) :
    CornerOf mesh v x ↔ CornerOf mesh v y := by
  obtain ⟨f, ⟨hx, hf, hends, _, _⟩, rfl⟩ := h
  have h2 : mesh.polygonVertex (f.1, (f.2 + 1) % mesh.nbPolygonVertices f.1) = mesh.polygonVertex x := by
    unfold polygonEdgeEnds at hends
    exact congrArg Prod.snd hends
  constructor
  · rintro ⟨_, hv⟩
    exact ⟨⟨hf.1, Nat.mod_lt _ (by have := hf.2; omega)⟩, h2.trans hv⟩
  · rintro ⟨_, hv⟩
    exact ⟨hx, h2.symm.trans hv⟩

theorem corner_turnTo (mesh : SurfaceMesh) (v : Index) (x y : PolygonEdge) (h : TurnTo mesh x y) :
    CornerOf mesh v x ↔ CornerOf mesh v y := by
  unfold TurnTo at h
  induction h with
  | rel _ _ h => exact corner_turn _ _ _ _ h
  | refl _ => exact Iff.rfl
  | symm _ _ _ ih => exact ih.symm
  | trans _ _ _ _ _ ih1 ih2 => exact ih1.trans ih2

theorem vertices_iff (mesh : SurfaceTopo) (h : Walkable mesh) (hv : VerticesExist mesh)
    (hw : ∀ x, ¬ WrongEdge mesh.toSurfaceMesh x) :
    (∀ v, ¬ BrokenFan mesh v) ↔
      ∀ v x y, CornerOf mesh.toSurfaceMesh v x → CornerOf mesh.toSurfaceMesh v y → TurnTo mesh.toSurfaceMesh x y := by
  have hw' : ¬ ∃ x, WrongEdge mesh.toSurfaceMesh x := fun ⟨x, hx⟩ => hw x hx
  constructor
  · intro hb v x y hx hy
    have hlt : v < mesh.nbVertices := by
      have := hv x.1 x.2 hx.1.1 hx.1.2
      rwa [show mesh.polygonVertex (x.1, x.2) = v from hx.2] at this
    obtain ⟨fan, hf, _, hfan⟩ := h.walks hw' v hlt
    have hwhole : IsWholeFan mesh.toSurfaceMesh v fan := by
      by_contra hc
      exact hb v ⟨hlt, fan, hf, hc⟩
    rcases hfan with ⟨_, hno⟩ | ⟨start, _, hm⟩
    · exact absurd ⟨x, hx⟩ hno
    · have hx' := (hm x).1 ((hwhole.2 x).2 ⟨hx.1.1, hx.1.2, hx.2⟩)
      have hy' := (hm y).1 ((hwhole.2 y).2 ⟨hy.1.1, hy.1.2, hy.2⟩)
      exact .trans _ _ _ (.symm _ _ hx') hy'
  · rintro hc v ⟨hlt, fan, hf, hn⟩
    obtain ⟨fan', hf', hnd, hfan⟩ := h.walks hw' v hlt
    rw [hf'] at hf
    injection hf with hf
    subst hf
    refine hn ⟨hnd, fun x => ?_⟩
    rcases hfan with ⟨rfl, hno⟩ | ⟨start, hs, hm⟩
    · constructor
      · intro hx; simp at hx
      · rintro ⟨h1, h2, h3⟩
        exact absurd ⟨x, ⟨h1, h2⟩, h3⟩ hno
    · rw [hm x]
      constructor
      · intro ht
        have := (corner_turnTo _ v _ _ ht).1 hs
        exact ⟨this.1.1, this.1.2, this.2⟩
      · rintro ⟨h1, h2, h3⟩
        exact hc v start x hs ⟨⟨h1, h2⟩, h3⟩

/-- No adjacency nor manifold defect, exactly for oriented manifolds. -/
theorem manifold_iff (mesh : SurfaceTopo) (h : Walkable mesh) (hv : VerticesExist mesh) :
    ((∀ x, ¬ WrongEdge mesh.toSurfaceMesh x) ∧ (∀ e, ¬ NonManifoldEdge mesh.toSurfaceMesh e) ∧
      ∀ v, ¬ BrokenFan mesh v) ↔ OrientedManifold mesh.toSurfaceMesh := by
  constructor
  · rintro ⟨hw, he, hb⟩
    exact ⟨(edges_iff mesh h).1 ⟨hw, he⟩, (vertices_iff mesh h hv hw).1 hb⟩
  · intro hm
    have h1 := (edges_iff mesh h).2 hm.edges
    exact ⟨h1.1, h1.2, (vertices_iff mesh h hv h1.1).2 hm.vertices⟩

/-! ### solids -/

section
variable {opposite same : List Index → List Index → Bool} {cycle : List Index → List Index}

theorem mem_facetUses (mesh : SolidMesh) (f : List Index) (x : PolyhedronFacet) :
    x ∈ usesOfFacet cycle mesh f ↔ IsPolyhedronFacet mesh x ∧ cycle (mesh.polyhedronFacetVertices x) = f := by
  unfold usesOfFacet IsPolyhedronFacet
  rw [List.mem_filter, decide_eq_true_iff]
  exact and_congr (mem_pairs ..) Iff.rfl

theorem facetUses_nodup (mesh : SolidMesh) (f : List Index) : (usesOfFacet cycle mesh f).Nodup := by
  unfold usesOfFacet
  refine List.Nodup.filter _ ?_
  exact (pairs_pairwise ..).imp (fun h => by rintro rfl; unfold pairLt at h; omega)

theorem gluedFacet_of (mesh : SolidTopo) (h : WalkableSolid opposite same mesh)
    (hw : ∀ x, ¬ WrongFacet opposite mesh.toSolidMesh x) (x : PolyhedronFacet)
    (hx : IsPolyhedronFacet mesh.toSolidMesh x) (q : Index) (hq : mesh.polyhedronAdjacent x = some q) :
    ∃ y, OtherFacet same mesh.toSolidMesh x y ∧ GluedFacets opposite mesh.toSolidMesh x y := by
  have := hw x
  unfold WrongFacet at this
  have hex : ∃ f', f' < mesh.nbPolyhedronFacets q ∧
      opposite (mesh.polyhedronFacetVertices x) (mesh.polyhedronFacetVertices (q, f')) = true ∧
      mesh.polyhedronAdjacent (q, f') = some x.1 := by
    by_contra hc
    exact this ⟨hx, q, hq, hc⟩
  obtain ⟨f', hf', hop, hback⟩ := hex
  have hy : IsPolyhedronFacet mesh.toSolidMesh (q, f') := ⟨h.adjacents x q hx hq, hf'⟩
  refine ⟨(q, f'), ⟨hy, ?_, h.opposites _ _ hop⟩, hx, hy, hop, hq, hback⟩
  intro heq
  rw [heq] at hop
  rw [h.noOwnOpposite x hx] at hop
  cases hop

theorem facets_iff (hc : ∀ a b, cycle a = cycle b ↔ same a b = true) (mesh : SolidTopo)
    (h : WalkableSolid opposite same mesh) :
    ((∀ x, ¬ WrongFacet opposite mesh.toSolidMesh x) ∧ ∀ f, ¬ 2 < (usesOfFacet cycle mesh.toSolidMesh f).length) ↔
      ∀ x, IsPolyhedronFacet mesh.toSolidMesh x →
        OuterFacet same mesh.toSolidMesh x ∨ InnerFacet opposite same mesh.toSolidMesh x ∨
          CrackedFacet same mesh.toSolidMesh x := by
  constructor
  · rintro ⟨hw, hf⟩ x hx
    let f := cycle (mesh.polyhedronFacetVertices x)
    have hl : (usesOfFacet cycle mesh.toSolidMesh f).length ≤ 2 := Nat.not_lt.1 (hf f)
    have hxf : x ∈ usesOfFacet cycle mesh.toSolidMesh f := (mem_facetUses ..).2 ⟨hx, rfl⟩
    have hmem : ∀ y, OtherFacet same mesh.toSolidMesh x y → y ∈ usesOfFacet cycle mesh.toSolidMesh f :=
      fun y hy => (mem_facetUses ..).2 ⟨hy.1, (hc _ _).2 hy.2.2⟩
    have huniq : ∀ y z, OtherFacet same mesh.toSolidMesh x y → OtherFacet same mesh.toSolidMesh x z → z = y := by
      intro y z hy hz
      rcases third hl hxf (hmem y hy) (hmem z hz) hy.2.1 with h' | h'
      · exact absurd h' hz.2.1
      · exact h'
    cases hadj : mesh.polyhedronAdjacent x with
    | some q =>
      obtain ⟨y, hy, hg⟩ := gluedFacet_of mesh h hw x hx q hadj
      exact Or.inr (Or.inl ⟨y, hy, hg, fun z hz => huniq y z hy hz⟩)
    | none =>
      by_cases ho : ∃ y, OtherFacet same mesh.toSolidMesh x y
      · obtain ⟨y, hy⟩ := ho
        refine Or.inr (Or.inr ⟨hadj, y, hy, ?_, fun z hz => huniq y z hy hz⟩)
        cases hady : mesh.polyhedronAdjacent y with
        | none => rfl
        | some r =>
          obtain ⟨w, hw1, hw2⟩ := gluedFacet_of mesh h hw y hy.1 r hady
          have hwf : w ∈ usesOfFacet cycle mesh.toSolidMesh f :=
            (mem_facetUses ..).2 ⟨hw1.1, ((hc _ _).2 hw1.2.2).trans ((hc _ _).2 hy.2.2)⟩
          rcases third hl hxf (hmem y hy) hwf hy.2.1 with rfl | rfl
          · rw [hw2.2.2.2.2] at hadj; cases hadj
          · exact absurd rfl hw1.2.1
      · exact Or.inl ⟨hadj, ho⟩
  · intro hm
    refine ⟨?_, ?_⟩
    · rintro x ⟨hx, q, hq, hn⟩
      rcases hm x hx with ⟨h1, _⟩ | ⟨y, _, hg, _⟩ | ⟨h1, _⟩
      · rw [h1] at hq; cases hq
      · have := hg.2.2.2.1
        rw [hq] at this
        injection this with this
        subst this
        exact hn ⟨y.2, hg.2.1.2, hg.2.2.1, hg.2.2.2.2⟩
      · rw [h1] at hq; cases hq
    · intro f hl
      have hne : usesOfFacet cycle mesh.toSolidMesh f ≠ [] := by intro h0; rw [h0] at hl; simp at hl
      obtain ⟨x, hx⟩ := List.exists_mem_of_ne_nil _ hne
      have hx' := (mem_facetUses ..).1 hx
      have hoth : ∀ z ∈ usesOfFacet cycle mesh.toSolidMesh f, z = x ∨ OtherFacet same mesh.toSolidMesh x z := by
        intro z hz
        have hz' := (mem_facetUses ..).1 hz
        by_cases hzx : z = x
        · exact Or.inl hzx
        · exact Or.inr ⟨hz'.1, hzx, (hc _ _).1 (hz'.2.trans hx'.2.symm)⟩
      rcases hm x hx'.1 with ⟨_, ho⟩ | ⟨y, _, _, hy⟩ | ⟨_, y, _, _, hy⟩
      · have := le_one_of (facetUses_nodup (cycle := cycle) mesh.toSolidMesh f)
          (fun z hz => (hoth z hz).resolve_right (fun hz => ho ⟨z, hz⟩))
        omega
      all_goals
        have := le_two_of (facetUses_nodup (cycle := cycle) mesh.toSolidMesh f)
          (fun z hz => (hoth z hz).imp id (hy z))
        omega

theorem corner_around (mesh : SolidTopo) (v : Index) (x y : Nat × Nat) (h : AroundVertex opposite mesh v x y) :
    SolidCornerOf mesh v x ↔ SolidCornerOf mesh v y := by
  unfold AroundVertex at h
  induction h with
  | rel _ _ h => exact ⟨fun _ => h.2.1, fun _ => h.1⟩
  | refl _ => exact Iff.rfl
  | symm _ _ _ ih => exact ih.symm
  | trans _ _ _ _ _ ih1 ih2 => exact ih1.trans ih2

theorem hasEdge_around (mesh : SolidTopo) (e : Index × Index) (p q : Index) (h : AroundEdge opposite mesh e p q) :
    PolyhedronHasEdge mesh e p ↔ PolyhedronHasEdge mesh e q := by
  unfold AroundEdge at h
  induction h with
  | rel _ _ h => exact ⟨fun _ => h.2.1, fun _ => h.1⟩
  | refl _ => exact Iff.rfl
  | symm _ _ _ ih => exact ih.symm
  | trans _ _ _ _ _ ih1 ih2 => exact ih1.trans ih2

theorem solidVertices_iff (mesh : SolidTopo) (h : WalkableSolid opposite same mesh) (hv : SolidVerticesExist mesh)
    (hw : ∀ x, ¬ WrongFacet opposite mesh.toSolidMesh x) :
    (∀ v, ¬ BrokenSolidFan mesh v) ↔
      ∀ v x y, SolidCornerOf mesh v x → SolidCornerOf mesh v y → AroundVertex opposite mesh v x y := by
  have hw' : ¬ ∃ x, WrongFacet opposite mesh.toSolidMesh x := fun ⟨x, hx⟩ => hw x hx
  constructor
  · intro hb v x y hx hy
    have hlt : v < mesh.nbVertices := by
      have := hv x.1 x.2 hx.1 hx.2.1
      rwa [show mesh.polyhedronVertex (x.1, x.2) = v from hx.2.2] at this
    obtain ⟨fan, hf, _, hfan⟩ := h.walks hw' v hlt
    have hwhole : IsWholeSolidFan mesh v fan := by
      by_contra hc
      exact hb v ⟨hlt, fan, hf, hc⟩
    rcases hfan with ⟨_, hno⟩ | ⟨start, _, hm⟩
    · exact absurd ⟨x, hx⟩ hno
    · exact .trans _ _ _ (.symm _ _ ((hm x).1 ((hwhole.2 x).2 hx))) ((hm y).1 ((hwhole.2 y).2 hy))
  · rintro hc v ⟨hlt, fan, hf, hn⟩
    obtain ⟨fan', hf', hnd, hfan⟩ := h.walks hw' v hlt
    rw [hf'] at hf
    injection hf with hf
    subst hf
    refine hn ⟨hnd, fun x => ?_⟩
    rcases hfan with ⟨rfl, hno⟩ | ⟨start, hs, hm⟩
    · constructor
      · intro hx; simp at hx
      · intro hx
        exact absurd ⟨x, hx⟩ hno
    · rw [hm x]
      exact ⟨fun ht => (corner_around _ v _ _ ht).1 hs, fun hx => hc v start x hs hx⟩

theorem mem_solidEdgeUses (mesh : SolidTopo) (x : Index × (Index × Index)) :
    x ∈ solidEdgeUses mesh ↔ x.1 < mesh.nbPolyhedra ∧ x.2 ∈ mesh.polyhedronEdgesVertices x.1 := by
  unfold solidEdgeUses
  simp only [List.mem_flatMap, List.mem_range, List.mem_map]
  constructor
  · rintro ⟨p, hp, e, he, rfl⟩
    exact ⟨hp, he⟩
  · rintro ⟨hp, he⟩
    exact ⟨x.1, hp, x.2, he, rfl⟩

theorem mem_polyhedraHaving (mesh : SolidTopo) (e : Index × Index) (p : Index) :
    p ∈ polyhedraHaving mesh e ↔ PolyhedronHasEdge mesh e p := by
  unfold polyhedraHaving PolyhedronHasEdge
  simp only [List.mem_map, List.mem_filter, decide_eq_true_iff, mem_solidEdgeUses]
  constructor
  · rintro ⟨x, ⟨⟨h1, h2⟩, h3⟩, rfl⟩
    exact ⟨h1, x.2, h2, h3⟩
  · rintro ⟨hp, e', he', hs⟩
    exact ⟨(p, e'), ⟨⟨hp, he'⟩, hs⟩, rfl⟩

theorem polyhedraHaving_nodup (mesh : SolidTopo)
    (h : ∀ p, p < mesh.nbPolyhedra → (mesh.polyhedronEdgesVertices p).Pairwise fun a b => ¬ SameEdge a b)
    (e : Index × Index) : (polyhedraHaving mesh e).Nodup := by
  unfold polyhedraHaving solidEdgeUses
  unfold List.Nodup
  rw [List.pairwise_map, List.pairwise_filter, List.pairwise_flatMap]
  constructor
  · intro p hp
    rw [List.pairwise_map]
    refine (h p (List.mem_range.1 hp)).imp ?_
    intro a b hab ha hb
    exact absurd (sameEdge_trans (of_decide_eq_true ha) (sameEdge_symm (of_decide_eq_true hb))) hab
  · refine List.pairwise_lt_range.imp ?_
    intro p q hpq x hx y hy _ _
    obtain ⟨a, _, rfl⟩ := List.mem_map.1 hx
    obtain ⟨b, _, rfl⟩ := List.mem_map.1 hy
    exact Nat.ne_of_lt hpq

theorem aroundEdge_same (mesh : SolidTopo) {e e' : Index × Index} (hs : SameEdge e e') (p q : Index)
    (h : AroundEdge opposite mesh e p q) : AroundEdge opposite mesh e' p q := by
  unfold AroundEdge at *
  refine Relation.EqvGen.mono ?_ _ _ h
  rintro p q ⟨⟨hp, a, ha, ha'⟩, ⟨hq, b, hb, hb'⟩, f, g, hg, hf, hg', h1, h2⟩
  refine ⟨⟨hp, a, ha, sameEdge_trans ha' hs⟩, ⟨hq, b, hb, sameEdge_trans hb' hs⟩, f, g, hg, hf, hg', ?_⟩
  rcases hs with rfl | ⟨h3, h4⟩
  · exact ⟨h1, h2⟩
  · rw [← h3, ← h4]; exact ⟨h2, h1⟩

/-- Among polyhedra having an edge, there is a first one. -/
theorem firstUse_of (mesh : SolidTopo) (e : Index × Index) (p : Index) (h : PolyhedronHasEdge mesh e p) :
    ∃ q e', FirstUse mesh q e' ∧ SameEdge e' e := by
  obtain ⟨hp, e', he', hs⟩ := h
  have hmem : (p, e') ∈ solidEdgeUses mesh := (mem_solidEdgeUses ..).2 ⟨hp, he'⟩
  have key : ∀ l : List (Index × (Index × Index)), (∃ x ∈ l, SameEdge x.2 e) →
      ∃ before x after, l = before ++ x :: after ∧ SameEdge x.2 e ∧ ∀ y ∈ before, ¬ SameEdge y.2 e := by
    intro l
    induction l with
    | nil => rintro ⟨x, hx, _⟩; simp at hx
    | cons a l ih =>
      rintro ⟨x, hx, hxe⟩
      by_cases ha : SameEdge a.2 e
      · exact ⟨[], a, l, rfl, ha, by simp⟩
      · have hx' : x ∈ l := by
          rcases List.mem_cons.1 hx with rfl | hx
          · exact absurd hxe ha
          · exact hx
        obtain ⟨b, y, c, hl, hy, hb⟩ := ih ⟨x, hx', hxe⟩
        refine ⟨a :: b, y, c, by rw [hl]; rfl, hy, ?_⟩
        intro z hz
        rcases List.mem_cons.1 hz with rfl | hz
        · exact ha
        · exact hb z hz
  obtain ⟨before, x, after, hl, hx, hb⟩ := key _ ⟨_, hmem, hs⟩
  exact ⟨x.1, x.2, ⟨before, after, hl, fun y hy hc => hb y hy (sameEdge_trans hc hx)⟩, hx⟩

theorem firstUse_mem (mesh : SolidTopo) (p : Index) (e : Index × Index) (h : FirstUse mesh p e) :
    p < mesh.nbPolyhedra ∧ e ∈ mesh.polyhedronEdgesVertices p := by
  obtain ⟨b, a, hl, _⟩ := h
  refine (mem_solidEdgeUses mesh (p, e)).1 ?_
  rw [hl]
  simp

theorem solidEdges_iff (mesh : SolidTopo) (h : WalkableSolid opposite same mesh)
    (hw : ∀ x, ¬ WrongFacet opposite mesh.toSolidMesh x) :
    (∀ e, ¬ ∃ p, FirstUse mesh p e ∧ BadTurn mesh p e) ↔
      ∀ e p q, PolyhedronHasEdge mesh e p → PolyhedronHasEdge mesh e q → AroundEdge opposite mesh e p q := by
  have hw' : ¬ ∃ x, WrongFacet opposite mesh.toSolidMesh x := fun ⟨x, hx⟩ => hw x hx
  constructor
  · intro hb e p q hp hq
    obtain ⟨r, e', hfu, hs⟩ := firstUse_of mesh e p hp
    obtain ⟨hr, he'⟩ := firstUse_mem mesh r e' hfu
    obtain ⟨fan, hf, _, hm⟩ := h.turns hw' r e' hr he'
    have hperm : fan.Perm (polyhedraHaving mesh e') := by
      by_contra hc
      exact hb e' ⟨r, hfu, Or.inr ⟨fan, hf, hc⟩⟩
    have hto : ∀ s, PolyhedronHasEdge mesh e s → AroundEdge opposite mesh e r s := by
      rintro s ⟨hs1, a, ha, ha'⟩
      refine aroundEdge_same mesh hs r s ((hm s).1 (hperm.mem_iff.2 ((mem_polyhedraHaving ..).2 ?_)))
      exact ⟨hs1, a, ha, sameEdge_trans ha' (sameEdge_symm hs)⟩
    exact .trans _ _ _ (.symm _ _ (hto p hp)) (hto q hq)
  · rintro hc e ⟨p, hfu, hbad⟩
    obtain ⟨hp, he⟩ := firstUse_mem mesh p e hfu
    obtain ⟨fan, hf, hnd, hm⟩ := h.turns hw' p e hp he
    have hpe : PolyhedronHasEdge mesh e p := ⟨hp, e, he, sameEdge_refl e⟩
    rcases hbad with herr | ⟨fan', hf', hn⟩
    · rw [hf] at herr; cases herr
    · rw [hf] at hf'
      injection hf' with hf'
      subst hf'
      refine hn ((List.perm_ext_iff_of_nodup hnd (polyhedraHaving_nodup mesh h.edgesOnce e)).2 fun q => ?_)
      rw [hm q, mem_polyhedraHaving]
      exact ⟨fun ht => (hasEdge_around _ e _ _ ht).1 hpe, fun hq => hc e p q hpe hq⟩

/-- No adjacency nor manifold defect, exactly for solids that are conformal but for cracks. -/
theorem conformal_iff (hc : ∀ a b, cycle a = cycle b ↔ same a b = true) (mesh : SolidTopo)
    (h : WalkableSolid opposite same mesh) (hv : SolidVerticesExist mesh) :
    ((∀ x, ¬ WrongFacet opposite mesh.toSolidMesh x) ∧ (∀ v, ¬ BrokenSolidFan mesh v) ∧
      (∀ e, ¬ ∃ p, FirstUse mesh p e ∧ BadTurn mesh p e) ∧
      ∀ f, ¬ 2 < (usesOfFacet cycle mesh.toSolidMesh f).length) ↔ ConformalButCracks opposite same mesh := by
  constructor
  · rintro ⟨hw, hb, he, hf⟩
    exact ⟨(facets_iff hc mesh h).1 ⟨hw, hf⟩, (solidVertices_iff mesh h hv hw).1 hb, (solidEdges_iff mesh h hw).1 he⟩
  · intro hm
    have h1 := (facets_iff hc mesh h).2 hm.facets
    exact ⟨h1.1, (solidVertices_iff mesh h hv h1.1).2 hm.vertices, (solidEdges_iff mesh h h1.1).2 hm.edges, h1.2⟩

end

end Inspector.Oriented
