import Verif.Proofs.OrientedManifold
/-! Checkers by which the examples of C117 and C118 meet the hypotheses. -/
namespace Inspector.Oriented
open Spec

/-- every element of the list is one step from an element met before -/
def linked {α : Type} (step : α → α → Bool) : List α → List α → Bool
  | _, [] => true
  | seen, a :: l => seen.any (fun s => step s a || step a s) && linked step (a :: seen) l

theorem linked_eqvGen {α : Type} (r : α → α → Prop) (step : α → α → Bool) (hs : ∀ x y, step x y = true → r x y)
    (start : α) : ∀ (l seen : List α), (∀ x ∈ seen, Relation.EqvGen r start x) → linked step seen l = true →
      ∀ x ∈ l, Relation.EqvGen r start x := by
  intro l
  induction l with
  | nil => intro _ _ _ x hx; simp at hx
  | cons a l ih =>
    intro seen hseen hl x hx
    unfold linked at hl
    rw [Bool.and_eq_true, List.any_eq_true] at hl
    obtain ⟨⟨s, hs1, hs2⟩, hl⟩ := hl
    have ha : Relation.EqvGen r start a := by
      rw [Bool.or_eq_true] at hs2
      rcases hs2 with h | h
      · exact .trans _ _ _ (hseen s hs1) (.rel _ _ (hs _ _ h))
      · exact .trans _ _ _ (hseen s hs1) (.symm _ _ (.rel _ _ (hs _ _ h)))
    rcases List.mem_cons.1 hx with rfl | hx
    · exact ha
    · refine ih (a :: seen) ?_ hl x hx
      intro y hy
      rcases List.mem_cons.1 hy with rfl | hy
      · exact ha
      · exact hseen y hy

/-! ### surfaces -/

instance (mesh : SurfaceMesh) (x : PolygonEdge) : Decidable (IsPolygonEdge mesh x) := by
  unfold IsPolygonEdge; infer_instance

instance (mesh : SurfaceMesh) (x y : PolygonEdge) : Decidable (Glued mesh x y) := by
  unfold Glued; infer_instance

def turnB (mesh : SurfaceMesh) (x y : PolygonEdge) : Bool :=
  (polygonEdges mesh).any fun f => decide (Glued mesh x f) && (y == (f.1, (f.2 + 1) % mesh.nbPolygonVertices f.1))

theorem turnB_turn (mesh : SurfaceMesh) (x y : PolygonEdge) (h : turnB mesh x y = true) : Turn mesh x y := by
  unfold turnB at h
  rw [List.any_eq_true] at h
  obtain ⟨f, _, hf⟩ := h
  rw [Bool.and_eq_true, decide_eq_true_iff, beq_iff_eq] at hf
  exact ⟨f, hf.1, hf.2⟩

def fanCheck (mesh : SurfaceTopo) (v : Index) : Bool :=
  match mesh.polygonsAroundVertex v with
  | .error _ => false
  | .ok [] => (polygonEdges mesh.toSurfaceMesh).all fun x => !decide (mesh.polygonVertex x = v)
  | .ok (s :: rest) => decide (s :: rest).Nodup && decide (IsPolygonEdge mesh.toSurfaceMesh s) &&
      decide (mesh.polygonVertex s = v) && linked (turnB mesh.toSurfaceMesh) [s] rest &&
      (polygonEdges mesh.toSurfaceMesh).all fun x => !decide (mesh.polygonVertex x = v) || (s :: rest).contains x

def surfaceCheck (mesh : SurfaceTopo) : Bool :=
  (polygonEdges mesh.toSurfaceMesh).all (fun x =>
    (match mesh.polygonAdjacent x with | none => true | some q => decide (q < mesh.nbPolygons)) &&
    !decide ((polygonEdgeEnds mesh.toSurfaceMesh x).1 = (polygonEdgeEnds mesh.toSurfaceMesh x).2)) &&
  (List.range mesh.nbVertices).all (fanCheck mesh)

theorem mem_polygonEdges (mesh : SurfaceMesh) (x : PolygonEdge) : x ∈ polygonEdges mesh ↔ IsPolygonEdge mesh x := by
  unfold polygonEdges IsPolygonEdge
  exact mem_pairs ..

theorem walkable_of_check (mesh : SurfaceTopo) (h : surfaceCheck mesh = true) : Walkable mesh := by
  unfold surfaceCheck at h
  rw [Bool.and_eq_true, List.all_eq_true, List.all_eq_true] at h
  obtain ⟨h1, h2⟩ := h
  refine ⟨?_, ?_, ?_⟩
  · intro x q hx hq
    have := h1 x ((mem_polygonEdges ..).2 hx)
    rw [hq, Bool.and_eq_true] at this
    exact of_decide_eq_true this.1
  · intro x hx
    have := h1 x ((mem_polygonEdges ..).2 hx)
    rw [Bool.and_eq_true] at this
    simpa using this.2
  · intro _ v hv
    have hf := h2 v (List.mem_range.2 hv)
    unfold fanCheck at hf
    split at hf
    · cases hf
    · rename_i he
      refine ⟨[], he, List.nodup_nil, Or.inl ⟨rfl, ?_⟩⟩
      rintro ⟨x, hx, hxv⟩
      rw [List.all_eq_true] at hf
      have := hf x ((mem_polygonEdges ..).2 hx)
      simp [hxv] at this
    · rename_i s rest he
      simp only [Bool.and_eq_true, decide_eq_true_iff, List.all_eq_true] at hf
      obtain ⟨⟨⟨⟨hn, hs⟩, hsv⟩, hl⟩, hall⟩ := hf
      refine ⟨s :: rest, he, hn, Or.inr ⟨s, ⟨hs, hsv⟩, fun x => ⟨?_, ?_⟩⟩⟩
      · intro hx
        rcases List.mem_cons.1 hx with rfl | hx
        · exact .refl _
        · refine linked_eqvGen _ _ (turnB_turn mesh.toSurfaceMesh) s rest [s] ?_ hl x hx
          intro y hy
          rw [List.mem_singleton] at hy
          subst hy
          exact .refl _
      · intro ht
        have hc := (corner_turnTo _ v _ _ ht).1 ⟨hs, hsv⟩
        have := hall x ((mem_polygonEdges ..).2 hc.1)
        rw [hc.2] at this
        simpa using this

/-- Without adjacents there is no turning. -/
theorem turnTo_alone (mesh : SurfaceMesh) (hn : ∀ x, mesh.polygonAdjacent x = none) (x y : PolygonEdge) :
    TurnTo mesh x y ↔ x = y := by
  constructor
  · intro h
    unfold TurnTo at h
    induction h with
    | rel _ _ h =>
      obtain ⟨f, hg, _⟩ := h
      have := hg.2.2.2.1
      rw [hn] at this
      cases this
    | refl _ => rfl
    | symm _ _ _ ih => exact ih.symm
    | trans _ _ _ _ _ ih1 ih2 => exact ih1.trans ih2
  · rintro rfl
    exact .refl _

/-- Surfaces of polygons that are not adjacent. -/
theorem walkable_alone (mesh : SurfaceTopo) (hn : ∀ x, mesh.polygonAdjacent x = none)
    (he : ∀ x, IsPolygonEdge mesh.toSurfaceMesh x →
      (polygonEdgeEnds mesh.toSurfaceMesh x).1 ≠ (polygonEdgeEnds mesh.toSurfaceMesh x).2)
    (hf : ∀ v, v < mesh.nbVertices → ∃ start, mesh.polygonsAroundVertex v = .ok [start] ∧
      CornerOf mesh.toSurfaceMesh v start) : Walkable mesh := by
  refine ⟨fun x q _ hq => (by rw [hn] at hq; cases hq), he, fun _ v hv => ?_⟩
  obtain ⟨s, h1, h2⟩ := hf v hv
  refine ⟨[s], h1, by simp, Or.inr ⟨s, h2, fun x => ?_⟩⟩
  rw [turnTo_alone mesh.toSurfaceMesh hn, List.mem_singleton]
  exact eq_comm

/-! ### solids -/

section
variable {opposite same : List Index → List Index → Bool}

instance (mesh : SolidMesh) (x : PolyhedronFacet) : Decidable (IsPolyhedronFacet mesh x) := by
  unfold IsPolyhedronFacet; infer_instance

instance (mesh : SolidMesh) (x y : PolyhedronFacet) : Decidable (GluedFacets opposite mesh x y) := by
  unfold GluedFacets; infer_instance

instance (mesh : SolidTopo) (v : Index) (x : Nat × Nat) : Decidable (SolidCornerOf mesh v x) := by
  unfold SolidCornerOf; infer_instance

instance (mesh : SolidTopo) (e : Index × Index) (p : Index) : Decidable (PolyhedronHasEdge mesh e p) := by
  unfold PolyhedronHasEdge; infer_instance

/-- facets of `p` and `q` glued, the first having the vertices -/
def gluedB (opposite : List Index → List Index → Bool) (mesh : SolidMesh) (p q : Index) (vs : List Index) : Bool :=
  (List.range (mesh.nbPolyhedronFacets p)).any fun f => (List.range (mesh.nbPolyhedronFacets q)).any fun g =>
    decide (GluedFacets opposite mesh (p, f) (q, g)) && vs.all fun v => (mesh.polyhedronFacetVertices (p, f)).contains v

theorem gluedB_glued (mesh : SolidMesh) (p q : Index) (vs : List Index) (h : gluedB opposite mesh p q vs = true) :
    ∃ f g, GluedFacets opposite mesh f g ∧ f.1 = p ∧ g.1 = q ∧ ∀ v ∈ vs, v ∈ mesh.polyhedronFacetVertices f := by
  unfold gluedB at h
  simp only [List.any_eq_true, Bool.and_eq_true, decide_eq_true_iff, List.all_eq_true] at h
  obtain ⟨f, _, g, _, hg, hv⟩ := h
  exact ⟨(p, f), (q, g), hg, rfl, rfl, fun v hm => by simpa using hv v hm⟩

def solidFanCheck (opposite : List Index → List Index → Bool) (mesh : SolidTopo) (v : Index) : Bool :=
  match mesh.polyhedraAroundVertex v with
  | .error _ => false
  | .ok [] => (pairs mesh.nbPolyhedra mesh.nbPolyhedronVertices).all fun x => !decide (mesh.polyhedronVertex x = v)
  | .ok (s :: rest) => decide (s :: rest).Nodup && (s :: rest).all (fun x => decide (SolidCornerOf mesh v x)) &&
      linked (fun x y => decide (SolidCornerOf mesh v x) && decide (SolidCornerOf mesh v y) &&
        gluedB opposite mesh.toSolidMesh x.1 y.1 [v]) [s] rest &&
      (pairs mesh.nbPolyhedra mesh.nbPolyhedronVertices).all fun x =>
        !decide (mesh.polyhedronVertex x = v) || (s :: rest).contains x

def edgeFanCheck (opposite : List Index → List Index → Bool) (mesh : SolidTopo) (p : Index) (e : Index × Index) : Bool :=
  match mesh.polyhedraAroundEdge e p with
  | .error _ => false
  | .ok [] => false
  | .ok (s :: rest) => decide (s :: rest).Nodup && (s :: rest).contains p &&
      linked (fun x y => decide (PolyhedronHasEdge mesh e x) && decide (PolyhedronHasEdge mesh e y) &&
        gluedB opposite mesh.toSolidMesh x y [e.1, e.2]) [s] rest &&
      (List.range mesh.nbPolyhedra).all fun q => !decide (PolyhedronHasEdge mesh e q) || (s :: rest).contains q

def solidCheck (opposite : List Index → List Index → Bool) (mesh : SolidTopo) : Bool :=
  (pairs mesh.nbPolyhedra mesh.nbPolyhedronFacets).all (fun x =>
    (match mesh.polyhedronAdjacent x with | none => true | some q => decide (q < mesh.nbPolyhedra)) &&
    !opposite (mesh.polyhedronFacetVertices x) (mesh.polyhedronFacetVertices x)) &&
  (List.range mesh.nbPolyhedra).all (fun p =>
    decide ((mesh.polyhedronEdgesVertices p).Pairwise fun a b => ¬ SameEdge a b) &&
    (mesh.polyhedronEdgesVertices p).all (edgeFanCheck opposite mesh p)) &&
  (List.range mesh.nbVertices).all (solidFanCheck opposite mesh)

theorem walkableSolid_of_check (mesh : SolidTopo) (ho : ∀ a b, opposite a b = true → same b a = true)
    (h : solidCheck opposite mesh = true) : WalkableSolid opposite same mesh := by
  unfold solidCheck at h
  rw [Bool.and_eq_true, Bool.and_eq_true, List.all_eq_true, List.all_eq_true, List.all_eq_true] at h
  obtain ⟨⟨h1, h2⟩, h3⟩ := h
  have hfacet : ∀ x, IsPolyhedronFacet mesh.toSolidMesh x → x ∈ pairs mesh.nbPolyhedra mesh.nbPolyhedronFacets :=
    fun x hx => (mem_pairs ..).2 hx
  refine ⟨ho, ?_, ?_, ?_, ?_, ?_⟩
  · intro x hx
    have := h1 x (hfacet x hx)
    rw [Bool.and_eq_true] at this
    simpa using this.2
  · intro x q hx hq
    have := h1 x (hfacet x hx)
    rw [hq, Bool.and_eq_true] at this
    exact of_decide_eq_true this.1
  · intro p hp
    have := h2 p (List.mem_range.2 hp)
    rw [Bool.and_eq_true] at this
    exact of_decide_eq_true this.1
  · intro _ v hv
    have hf := h3 v (List.mem_range.2 hv)
    unfold solidFanCheck at hf
    split at hf
    · cases hf
    · rename_i he
      refine ⟨[], he, List.nodup_nil, Or.inl ⟨rfl, ?_⟩⟩
      rintro ⟨x, hx1, hx2, hxv⟩
      rw [List.all_eq_true] at hf
      have := hf x ((mem_pairs ..).2 ⟨hx1, hx2⟩)
      simp [hxv] at this
    · rename_i s rest he
      simp only [Bool.and_eq_true, decide_eq_true_iff, List.all_eq_true] at hf
      obtain ⟨⟨⟨hn, hc⟩, hl⟩, hall⟩ := hf
      refine ⟨s :: rest, he, hn, Or.inr ⟨s, hc s (by simp), fun x => ⟨?_, ?_⟩⟩⟩
      · intro hx
        rcases List.mem_cons.1 hx with rfl | hx
        · exact .refl _
        · refine linked_eqvGen _ _ ?_ s rest [s] ?_ hl x hx
          · intro x y hxy
            simp only [Bool.and_eq_true, decide_eq_true_iff] at hxy
            obtain ⟨f, g, hg, hf1, hg1, hv1⟩ := gluedB_glued _ _ _ _ hxy.2
            exact ⟨hxy.1.1, hxy.1.2, f, g, hg, hf1, hg1, hv1 v (by simp)⟩
          · intro y hy
            rw [List.mem_singleton] at hy
            subst hy
            exact .refl _
      · intro ht
        have hc' := (corner_around _ v _ _ ht).1 (hc s (by simp))
        have := hall x ((mem_pairs ..).2 ⟨hc'.1, hc'.2.1⟩)
        rw [hc'.2.2] at this
        simpa using this
  · intro _ p e hp he
    have hpe : PolyhedronHasEdge mesh e p := ⟨hp, e, he, sameEdge_refl e⟩
    have hf := h2 p (List.mem_range.2 hp)
    rw [Bool.and_eq_true, List.all_eq_true] at hf
    have hf := hf.2 e he
    unfold edgeFanCheck at hf
    split at hf
    · cases hf
    · cases hf
    · rename_i s rest hfan
      simp only [Bool.and_eq_true, decide_eq_true_iff, List.all_eq_true] at hf
      obtain ⟨⟨⟨hn, hps⟩, hl⟩, hall⟩ := hf
      have hto : ∀ x ∈ s :: rest, AroundEdge opposite mesh e s x := by
        intro x hx
        rcases List.mem_cons.1 hx with rfl | hx
        · exact .refl _
        · refine linked_eqvGen _ _ ?_ s rest [s] ?_ hl x hx
          · intro x y hxy
            simp only [Bool.and_eq_true, decide_eq_true_iff] at hxy
            obtain ⟨f, g, hg, hf1, hg1, hv1⟩ := gluedB_glued _ _ _ _ hxy.2
            exact ⟨hxy.1.1, hxy.1.2, f, g, hg, hf1, hg1, hv1 _ (by simp), hv1 _ (by simp)⟩
          · intro y hy
            rw [List.mem_singleton] at hy
            subst hy
            exact .refl _
      refine ⟨s :: rest, hfan, hn, fun q => ⟨?_, ?_⟩⟩
      · intro hq
        exact .trans _ _ _ (.symm _ _ (hto p (by simpa using hps))) (hto q hq)
      · intro ht
        have hq := (hasEdge_around _ e _ _ ht).1 hpe
        have := hall q (List.mem_range.2 hq.1)
        simpa [hq] using this

end

end Inspector.Oriented
