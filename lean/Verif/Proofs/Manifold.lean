import Verif.Spec.Manifold
import Verif.Proofs.HashMap
import Verif.Proofs.Adjacency
import Mathlib.Data.List.Nodup
import Mathlib.Data.List.Perm.Subperm
/-! Helper lemmas about manifold criteria. -/
namespace Inspector
open Spec

theorem edgeCycle_eq_iff (a e : Index × Index) : edgeCycle a = e ↔ e.1 ≤ e.2 ∧ SameEdge a e := by
  obtain ⟨a, b⟩ := a
  obtain ⟨c, d⟩ := e
  unfold edgeCycle SameEdge
  change (if b < a then (b, a) else (a, b)) = (c, d) ↔ c ≤ d ∧ ((a, b) = (c, d) ∨ (a = d ∧ b = c))
  unfold Index at *
  by_cases h : b < a
  · simp only [h, if_true, Prod.mk.injEq]; omega
  · simp only [h, if_false, Prod.mk.injEq]; omega

theorem edgeCycle_eq_edgeCycle (a e : Index × Index) : edgeCycle a = edgeCycle e ↔ SameEdge a e := by
  rw [edgeCycle_eq_iff]
  obtain ⟨a, b⟩ := a
  obtain ⟨c, d⟩ := e
  unfold edgeCycle SameEdge
  change (if d < c then (d, c) else (c, d)).1 ≤ (if d < c then (d, c) else (c, d)).2 ∧ ((a, b) = (if d < c then (d, c) else (c, d)) ∨
    (a = (if d < c then (d, c) else (c, d)).2 ∧ b = (if d < c then (d, c) else (c, d)).1)) ↔ ((a, b) = (c, d) ∨ (a = d ∧ b = c))
  unfold Index at *
  by_cases h : d < c
  · simp only [h, if_true, Prod.mk.injEq]; omega
  · simp only [h, if_false, Prod.mk.injEq]; omega

theorem edgeCycle_le (a : Index × Index) : (edgeCycle a).1 ≤ (edgeCycle a).2 :=
  ((edgeCycle_eq_iff a _).1 rfl).1

namespace HMap
variable {K V : Type} [DecidableEq K]

theorem update_of_not_mem (m : HMap K V) (k : K) (f : V → V) (h : k ∉ m.map Prod.fst) :
    m.update k f = m := by
  induction m with
  | nil => rfl
  | cons e m ih =>
    have hu : update (e :: m) k f = (if e.1 = k then (e.1, f e.2) else e) :: update m k f := rfl
    rw [List.map_cons, List.mem_cons, not_or] at h
    rw [hu, ih h.2, if_neg (Ne.symm h.1)]

theorem update_append (m m' : HMap K V) (k : K) (f : V → V) :
    update (m ++ m') k f = m.update k f ++ m'.update k f := by
  unfold update; exact List.map_append

theorem update_update (m : HMap K V) (k : K) (f g : V → V) :
    (m.update k f).update k g = m.update k (fun v => g (f v)) := by
  induction m with
  | nil => rfl
  | cons e m ih =>
    have hu : ∀ (e : K × V) m f, update (e :: m) k f = (if e.1 = k then (e.1, f e.2) else e) :: update m k f :=
      fun _ _ _ => rfl
    rw [hu, hu, hu, ih]
    by_cases h : e.1 = k <;> simp [h]

theorem update_single (k : K) (v : V) (f : V → V) : update [(k, v)] k f = [(k, f v)] := by
  simp [update]

theorem tryEmplace_upsert (m : HMap K V) (k : K) (v : V) (f : V → V) :
    (if !(m.tryEmplace k v).2 then (m.tryEmplace k v).1.update k f else (m.tryEmplace k v).1)
      = m.upsert k (fun o => match o with | none => v | some w => f w) := by
  unfold tryEmplace upsert
  cases m.find? k <;> simp

theorem upsert_update (m : HMap K V) (k : K) (g : Option V → V) (f : V → V) :
    (m.upsert k g).update k f = m.upsert k (fun o => f (g o)) := by
  unfold upsert
  cases h : m.find? k with
  | none =>
    simp only []
    rw [update_append, update_single, update_of_not_mem m k f ((find?_none_iff m k).1 h)]
  | some v =>
    simp only []
    rw [update_update]

end HMap

/-! ### edges of surfaces -/

theorem edgeStep_eq (mesh : SurfaceMesh) (m : HMap (Index × Index) (UInt8 × Bool)) (x : PolygonEdge) :
    edgeToPolygonsAroundStep mesh m x =
      m.upsert (edgeCycle (mesh.polygonEdgeVertex x 0, mesh.polygonEdgeVertex x 1))
        (fun o => match o with
          | none => (1, (mesh.polygonAdjacent x).isNone)
          | some v => (v.1 + 1, v.2 || (mesh.polygonAdjacent x).isNone)) := by
  unfold edgeToPolygonsAroundStep
  simp only [HMap.tryEmplace_upsert]
  cases h : mesh.polygonAdjacent x with
  | none =>
    simp only [HMap.upsert_update]
    congr 1
    funext o
    cases o <;> simp
  | some a =>
    simp only []
    congr 1
    funext o
    cases o <;> simp

/-- value of an edge of the map -/
def edgeValue (mesh : SurfaceMesh) (x : PolygonEdge) (o : Option (UInt8 × Bool)) : UInt8 × Bool :=
  match o with
  | none => (1, (mesh.polygonAdjacent x).isNone)
  | some v => (v.1 + 1, v.2 || (mesh.polygonAdjacent x).isNone)

theorem edgeMap_eq (mesh : SurfaceMesh) :
    edgeToPolygonsAround mesh = HMap.build (fun x => edgeCycle (mesh.polygonEdgeVertex x 0, mesh.polygonEdgeVertex x 1))
      (edgeValue mesh) (polygonEdges mesh) [] := by
  unfold edgeToPolygonsAround HMap.build polygonEdges SurfaceMesh.nbPolygonEdges
  congr 1
  funext m x
  exact edgeStep_eq mesh m x

theorem valueFrom_some (mesh : SurfaceMesh) (l : List PolygonEdge) (c : UInt8) (b : Bool) :
    HMap.valueFrom (edgeValue mesh) l (some (c, b))
      = some (c + UInt8.ofNat l.length, b || l.any fun x => (mesh.polygonAdjacent x).isNone) := by
  induction l generalizing c b with
  | nil => simp [HMap.valueFrom]
  | cons x l ih =>
    have : HMap.valueFrom (edgeValue mesh) (x :: l) (some (c, b))
        = HMap.valueFrom (edgeValue mesh) l (some (c + 1, b || (mesh.polygonAdjacent x).isNone)) := rfl
    rw [this, ih]
    simp only [List.length_cons, List.any_cons, UInt8.ofNat_add, Bool.or_assoc]
    rw [UInt8.add_assoc, UInt8.add_comm 1 _]
    rfl

theorem valueFrom_none (mesh : SurfaceMesh) (l : List PolygonEdge) (h : l ≠ []) :
    HMap.valueFrom (edgeValue mesh) l none
      = some (UInt8.ofNat l.length, l.any fun x => (mesh.polygonAdjacent x).isNone) := by
  cases l with
  | nil => exact absurd rfl h
  | cons x l =>
    have : HMap.valueFrom (edgeValue mesh) (x :: l) none
        = HMap.valueFrom (edgeValue mesh) l (some (1, (mesh.polygonAdjacent x).isNone)) := rfl
    rw [this, valueFrom_some]
    simp only [List.length_cons, List.any_cons, UInt8.ofNat_add]
    rw [UInt8.add_comm]
    rfl

theorem uses_eq (mesh : SurfaceMesh) (e : Index × Index) (he : e.1 ≤ e.2) :
    (polygonEdges mesh).filter (fun x =>
      decide (edgeCycle (mesh.polygonEdgeVertex x 0, mesh.polygonEdgeVertex x 1) = e)) = usesOfEdge mesh e := by
  unfold usesOfEdge
  apply List.filter_congr
  intro x hx
  rw [polygonEdges, mem_pairs] at hx
  rw [polygonEdgeVertex_zero mesh x hx.2, decide_eq_decide, edgeCycle_eq_iff]
  exact ⟨fun h => h.2, fun h => ⟨he, h⟩⟩

theorem mem_edgeMap (mesh : SurfaceMesh) (e : Index × Index) (v : UInt8 × Bool) :
    (e, v) ∈ edgeToPolygonsAround mesh ↔ e.1 ≤ e.2 ∧ usesOfEdge mesh e ≠ [] ∧
      v = (UInt8.ofNat (usesOfEdge mesh e).length,
        (usesOfEdge mesh e).any fun x => (mesh.polygonAdjacent x).isNone) := by
  rw [edgeMap_eq, HMap.mem_build]
  by_cases he : e.1 ≤ e.2
  · rw [uses_eq mesh e he]
    by_cases hu : usesOfEdge mesh e = []
    · rw [hu]; simp [HMap.valueFrom]
    · rw [valueFrom_none mesh _ hu]
      simp only [Option.some.injEq, he, hu, ne_eq, not_false_eq_true, true_and]
      exact eq_comm
  · have : (polygonEdges mesh).filter (fun x =>
      decide (edgeCycle (mesh.polygonEdgeVertex x 0, mesh.polygonEdgeVertex x 1) = e)) = [] := by
      rw [List.filter_eq_nil_iff]
      intro x _ h
      rw [decide_eq_true_eq, edgeCycle_eq_iff] at h
      exact he h.1
    rw [this]
    simp [HMap.valueFrom, he]

theorem nodup_edgeMap (mesh : SurfaceMesh) : ((edgeToPolygonsAround mesh).map Prod.fst).Nodup := by
  rw [edgeMap_eq]
  exact HMap.nodup_build _ _ _ _ (by simp)

/-- the condition of the two loops -/
def badEdge (edge : (Index × Index) × (UInt8 × Bool)) : Bool :=
  if edge.2.2 && edge.2.1 != 1 then true
  else if !edge.2.2 && edge.2.1 != 2 then true
  else false

theorem surfaceNonManifoldEdges_issues
    (iterate : HMap (Index × Index) (UInt8 × Bool) → HMap (Index × Index) (UInt8 × Bool)) (mesh : SurfaceMesh) :
    (surfaceNonManifoldEdges iterate mesh).issues
      = ((iterate (edgeToPolygonsAround mesh)).filter badEdge).map Prod.fst := by
  unfold surfaceNonManifoldEdges
  generalize iterate (edgeToPolygonsAround mesh) = l
  have : ∀ (init : Issues (Index × Index)), (l.foldl (fun issues edge =>
    let issues :=
      if edge.2.2 && edge.2.1 != 1 then
        issues.add edge.1 ("edge between vertices " ++ toString edge.1.1 ++ " and " ++
          toString edge.1.2 ++ " is not manifold (detected as on border).")
      else issues
    if !edge.2.2 && edge.2.1 != 2 then
      issues.add edge.1 ("edge between vertices with index " ++ toString edge.1.1 ++ " and index " ++
        toString edge.1.2 ++ " is not manifold (detected as not on border).")
    else issues) init).issues = init.issues ++ (l.filter badEdge).map Prod.fst := by
    induction l with
    | nil => intro init; simp
    | cons e l ih =>
      intro init
      rw [List.foldl_cons, ih]
      obtain ⟨k, n, b⟩ := e
      cases b
      · cases hn : (n != 2) <;> simp [badEdge, hn, Issues.add]
      · cases hn : (n != 1) <;> simp [badEdge, hn, Issues.add]
  rw [this]
  simp [Issues.new]

/-- what is reported, whatever the number of polygons -/
theorem surfaceNonManifoldEdges_mod
    (iterate : HMap (Index × Index) (UInt8 × Bool) → HMap (Index × Index) (UInt8 × Bool))
    (hi : ∀ m, (iterate m).Perm m) (mesh : SurfaceMesh) :
    Exactly (· ≠ ·) (fun e => e.1 ≤ e.2 ∧ usesOfEdge mesh e ≠ [] ∧
      ((DeclaredBorder mesh e ∧ (usesOfEdge mesh e).length % 256 ≠ 1) ∨
       (¬ DeclaredBorder mesh e ∧ (usesOfEdge mesh e).length % 256 ≠ 2)))
      (surfaceNonManifoldEdges iterate mesh).issues := by
  rw [surfaceNonManifoldEdges_issues]
  have h := exactly_map_filter (edgeToPolygonsAround mesh) (iterate (edgeToPolygonsAround mesh))
    (hi _) (nodup_edgeMap mesh) badEdge
  refine ⟨h.1, fun e => ?_⟩
  rw [h.2]
  have hb : DeclaredBorder mesh e ↔
      ((usesOfEdge mesh e).any fun x => (mesh.polygonAdjacent x).isNone) = true := by
    simp [DeclaredBorder, List.any_eq_true]
  have hcount : ∀ k : Nat, k < 256 → ((UInt8.ofNat (usesOfEdge mesh e).length != UInt8.ofNat k) = true
      ↔ (usesOfEdge mesh e).length % 256 ≠ k) := by
    intro k hk
    rw [bne_iff_ne, ne_eq, ← UInt8.toNat_inj, UInt8.toNat_ofNat', UInt8.toNat_ofNat', Nat.mod_eq_of_lt (a := k) (by simpa using hk)]
  constructor
  · rintro ⟨v, hv, hbad⟩
    rw [mem_edgeMap] at hv
    obtain ⟨h1, h2, rfl⟩ := hv
    refine ⟨h1, h2, ?_⟩
    rw [hb]
    have c1 := hcount 1 (by omega)
    have c2 := hcount 2 (by omega)
    cases hany : (usesOfEdge mesh e).any fun x => (mesh.polygonAdjacent x).isNone
    · right
      refine ⟨by simp, c2.1 ?_⟩
      simp only [badEdge, hany] at hbad
      simpa using hbad
    · left
      refine ⟨rfl, c1.1 ?_⟩
      simp only [badEdge, hany] at hbad
      simpa using hbad
  · rintro ⟨h1, h2, h3⟩
    refine ⟨_, (mem_edgeMap mesh e _).2 ⟨h1, h2, rfl⟩, ?_⟩
    rw [hb] at h3
    have c1 := hcount 1 (by omega)
    have c2 := hcount 2 (by omega)
    rcases h3 with ⟨h3, h4⟩ | ⟨h3, h4⟩
    · have := c1.2 h4
      simp only [badEdge, h3]
      simpa using this
    · have := c2.2 h4
      rw [Bool.not_eq_true] at h3
      simp only [badEdge, h3]
      simpa using this

theorem surfaceEdgesAreManifold_iff
    (iterate iterate' : HMap (Index × Index) (UInt8 × Bool) → HMap (Index × Index) (UInt8 × Bool))
    (hi : ∀ m, (iterate m).Perm m) (hi' : ∀ m, (iterate' m).Perm m) (mesh : SurfaceMesh) :
    surfaceEdgesAreManifold iterate mesh = true ↔ (surfaceNonManifoldEdges iterate' mesh).issues = [] := by
  rw [surfaceNonManifoldEdges_issues]
  unfold surfaceEdgesAreManifold
  rw [Bool.not_eq_true', ← Bool.not_eq_true, loopAny_iff, List.map_eq_nil_iff, List.filter_eq_nil_iff]
  simp only [not_exists, not_and]
  constructor
  · intro h x hx
    exact h x ((hi _).mem_iff.2 ((hi' _).mem_iff.1 hx))
  · intro h x hx
    exact h x ((hi' _).mem_iff.2 ((hi _).mem_iff.1 hx))

/-! ### vertices -/

/-- equal sizes and inclusion of a list without duplicates -/
theorem perm_of_same {α : Type} [BEq α] [LawfulBEq α] (l l' : List α) (hn : l.Nodup) :
    (if l.length != l'.length then false else !loopAny (fun x => !l'.contains x) l) = true ↔ l'.Perm l := by
  by_cases hlen : l.length = l'.length
  · have : (l.length != l'.length) = false := by simp [hlen]
    rw [this]
    simp only [Bool.false_eq_true, if_false]
    rw [Bool.not_eq_true', ← Bool.not_eq_true, loopAny_iff]
    simp only [not_exists, not_and, Bool.not_eq_true']
    constructor
    · intro h
      have hsub : l.Subperm l' := hn.subperm (fun x hx => by simpa using h x hx)
      exact (hsub.perm_of_length_le (by omega)).symm
    · intro hp x hx
      simpa using hp.mem_iff.2 hx
  · have : (l.length != l'.length) = true := by simp [hlen]
    rw [this]
    simp only [if_true, Bool.false_eq_true, false_iff]
    intro hp
    exact hlen hp.length_eq.symm

theorem nodup_perm_iff {α : Type} (l l' : List α) (hn : l.Nodup) :
    l'.Perm l ↔ l'.Nodup ∧ ∀ x, x ∈ l' ↔ x ∈ l := by
  constructor
  · intro hp
    exact ⟨hp.nodup_iff.2 hn, fun x => hp.mem_iff⟩
  · rintro ⟨hn', hm⟩
    exact (List.perm_ext_iff_of_nodup hn' hn).2 hm

theorem wholeFan_iff (mesh : SurfaceMesh) (v : Index) (fan : List PolygonEdge) :
    polygonsAroundVertexAreTheSame ((pairs mesh.nbPolygons mesh.nbPolygonVertices).filter
      (fun x => decide (mesh.polygonVertex x = v))) fan = true ↔ IsWholeFan mesh v fan := by
  have hn := (pairs_nodup mesh.nbPolygons mesh.nbPolygonVertices).filter
    (fun x => decide (mesh.polygonVertex x = v))
  unfold polygonsAroundVertexAreTheSame
  rw [perm_of_same _ _ hn, nodup_perm_iff _ _ hn]
  unfold IsWholeFan
  simp [and_assoc]

theorem wholeSolidFan_iff (mesh : SolidTopo) (v : Index) (fan : List (Nat × Nat)) :
    polyhedraAroundVertexAreTheSame ((pairs mesh.nbPolyhedra mesh.nbPolyhedronVertices).filter
      (fun x => decide (mesh.polyhedronVertex x = v))) fan = true ↔ IsWholeSolidFan mesh v fan := by
  have hn := (pairs_nodup mesh.nbPolyhedra mesh.nbPolyhedronVertices).filter
    (fun x => decide (mesh.polyhedronVertex x = v))
  unfold polyhedraAroundVertexAreTheSame
  rw [perm_of_same _ _ hn, nodup_perm_iff _ _ hn]
  unfold IsWholeSolidFan
  simp [and_assoc]

theorem surfaceVertices_ok (mesh : SurfaceTopo)
    (hv : ∀ x ∈ polygonEdges mesh.toSurfaceMesh, mesh.polygonVertex x < mesh.nbVertices)
    (hf : ∀ v, v < mesh.nbVertices → ∀ f, mesh.polygonsAroundVertex v = .error f → f = .openGeodeException) :
    ∃ s b, surfaceNonManifoldVertices mesh = .ok s ∧ surfaceVerticesAreManifold mesh = .ok b ∧
      Exactly (· < ·) (fun v => v < mesh.nbVertices ∧
        ∃ fan, mesh.polygonsAroundVertex v = .ok fan ∧ ¬ IsWholeFan mesh.toSurfaceMesh v fan) s.issues ∧
      (b = true ↔ s.issues = []) := by
  obtain ⟨r, h1, h2, h3⟩ := pushAll mesh.nbVertices (polygonEdges mesh.toSurfaceMesh) mesh.polygonVertex hv
    (List.replicate mesh.nbVertices []) (by simp)
  have hpv : polygonsAroundVertices mesh = .ok r := h1
  have hget : ∀ v, v < mesh.nbVertices → r.getD v [] =
      (pairs mesh.nbPolygons mesh.nbPolygonVertices).filter (fun x => decide (mesh.polygonVertex x = v)) := by
    intro v hv
    rw [h3 v hv]
    simp [List.getD_eq_getElem?_getD, hv, polygonEdges]
  let bad : Index → Bool := fun v => match mesh.polygonsAroundVertex v with
    | .ok around => !polygonsAroundVertexAreTheSame (r.getD v []) around
    | .error _ => false
  have hbad : ∀ v ∈ List.range mesh.nbVertices,
      (match mesh.polygonsAroundVertex v with
      | .ok around => Except.ok (!polygonsAroundVertexAreTheSame (r.getD v []) around)
      | .error .openGeodeException => .ok false
      | .error f => .error f) = (.ok (bad v) : Except Failure Bool) := by
    intro v hvr
    have hfv := hf v (List.mem_range.1 hvr)
    simp only [bad]
    cases hfan : mesh.polygonsAroundVertex v with
    | ok fan => rfl
    | error f => obtain rfl := hfv f hfan; rfl
  have hbadiff : ∀ v, v < mesh.nbVertices → (bad v = true ↔
      ∃ fan, mesh.polygonsAroundVertex v = .ok fan ∧ ¬ IsWholeFan mesh.toSurfaceMesh v fan) := by
    intro v hv
    simp only [bad]
    cases hfan : mesh.polygonsAroundVertex v with
    | ok fan =>
      simp only [Except.ok.injEq, exists_eq_left']
      rw [hget v hv, Bool.not_eq_true', ← Bool.not_eq_true, wholeFan_iff]
    | error f => simp
  refine ⟨collectFrom (Issues.new "non manifold vertices") (List.range mesh.nbVertices) bad id
      (fun vertex_id => "vertex " ++ toString vertex_id ++ ", at position [" ++ mesh.pointText vertex_id ++ "]"),
    !loopAny bad (List.range mesh.nbVertices), ?_, ?_, ?_, ?_⟩
  · unfold surfaceNonManifoldVertices
    simp only [hpv]
    exact collectFromM_ok _ _ bad _ _ _ hbad
  · unfold surfaceVerticesAreManifold
    simp only [hpv]
    exact congrArg (fun x : Except Failure Bool => (match x with
      | .error f => .error f
      | .ok found => .ok (!found) : Except Failure Bool)) (loopAnyM_ok _ bad _ hbad)
  · rw [collectFrom_issues]
    simp only [Issues.new, List.nil_append, List.map_id]
    refine exactly_filter List.pairwise_lt_range _ _ (fun v => ?_)
    rw [List.mem_range]
    exact and_congr_right fun hv => hbadiff v hv
  · rw [collectFrom_issues]
    simp only [Issues.new, List.nil_append, List.map_id]
    rw [Bool.not_eq_true', ← Bool.not_eq_true, loopAny_iff, List.filter_eq_nil_iff]
    simp

theorem solidVertices_ok (mesh : SolidTopo)
    (hv : ∀ x ∈ pairs mesh.nbPolyhedra mesh.nbPolyhedronVertices, mesh.polyhedronVertex x < mesh.nbVertices)
    (fan : Index → List (Nat × Nat))
    (hf : ∀ v, v < mesh.nbVertices → mesh.polyhedraAroundVertex v = .ok (fan v)) :
    ∃ s b, solidNonManifoldVertices mesh = .ok s ∧ solidVerticesAreManifold mesh = .ok b ∧
      Exactly (· < ·) (fun v => v < mesh.nbVertices ∧ ¬ IsWholeSolidFan mesh v (fan v)) s.issues ∧
      (b = true ↔ s.issues = []) := by
  obtain ⟨r, h1, h2, h3⟩ := pushAll mesh.nbVertices (pairs mesh.nbPolyhedra mesh.nbPolyhedronVertices)
    mesh.polyhedronVertex hv (List.replicate mesh.nbVertices []) (by simp)
  have hpv : polyhedraAroundVertices mesh = .ok r := h1
  have hget : ∀ v, v < mesh.nbVertices → r.getD v [] =
      (pairs mesh.nbPolyhedra mesh.nbPolyhedronVertices).filter (fun x => decide (mesh.polyhedronVertex x = v)) := by
    intro v hv
    rw [h3 v hv]
    simp [List.getD_eq_getElem?_getD, hv]
  let bad : Index → Bool := fun v => !polyhedraAroundVertexAreTheSame (r.getD v []) (fan v)
  have hbad : ∀ v ∈ List.range mesh.nbVertices,
      (match mesh.polyhedraAroundVertex v with
      | .ok around => Except.ok (!polyhedraAroundVertexAreTheSame (r.getD v []) around)
      | .error f => .error f) = (.ok (bad v) : Except Failure Bool) := by
    intro v hvr
    simp only [bad, hf v (List.mem_range.1 hvr)]
  have hbadiff : ∀ v, v < mesh.nbVertices → (bad v = true ↔ ¬ IsWholeSolidFan mesh v (fan v)) := by
    intro v hv
    simp only [bad]
    rw [hget v hv, Bool.not_eq_true', ← Bool.not_eq_true, wholeSolidFan_iff]
  refine ⟨collectFrom (Issues.new "non manifold vertices") (List.range mesh.nbVertices) bad id
      (fun vertex_id => "vertex " ++ toString vertex_id ++ ", at position [" ++ mesh.pointText vertex_id ++ "]"),
    !loopAny bad (List.range mesh.nbVertices), ?_, ?_, ?_, ?_⟩
  · unfold solidNonManifoldVertices
    simp only [hpv]
    exact collectFromM_ok _ _ bad _ _ _ hbad
  · unfold solidVerticesAreManifold
    simp only [hpv]
    exact congrArg (fun x : Except Failure Bool => (match x with
      | .error f => .error f
      | .ok found => .ok (!found) : Except Failure Bool)) (loopAnyM_ok _ bad _ hbad)
  · rw [collectFrom_issues]
    simp only [Issues.new, List.nil_append, List.map_id]
    refine exactly_filter List.pairwise_lt_range _ _ (fun v => ?_)
    rw [List.mem_range]
    exact and_congr_right fun hv => hbadiff v hv
  · rw [collectFrom_issues]
    simp only [Issues.new, List.nil_append, List.map_id]
    rw [Bool.not_eq_true', ← Bool.not_eq_true, loopAny_iff, List.filter_eq_nil_iff]
    simp

/-! ### edges of solids -/

/-- first occurrence of each edge that is not in `c` -/
def firsts : List (Index × (Index × Index)) → List (Index × Index) → List (Index × (Index × Index))
  | [], _ => []
  | x :: l, c => if c.contains (edgeCycle x.2) then firsts l c else x :: firsts l (edgeCycle x.2 :: c)

theorem mem_firsts (l : List (Index × (Index × Index))) (c : List (Index × Index)) (x : Index × (Index × Index)) :
    x ∈ firsts l c ↔ edgeCycle x.2 ∉ c ∧ ∃ b a, l = b ++ x :: a ∧ ∀ y ∈ b, edgeCycle y.2 ≠ edgeCycle x.2 := by
  induction l generalizing c with
  | nil => simp [firsts]
  | cons y l ih =>
    unfold firsts
    by_cases hy : c.contains (edgeCycle y.2) = true
    · rw [if_pos hy, ih]
      rw [List.contains_iff_mem] at hy
      refine and_congr_right fun hx => ?_
      constructor
      · rintro ⟨b, a, rfl, hb⟩
        refine ⟨y :: b, a, rfl, ?_⟩
        intro z hz
        rcases List.mem_cons.1 hz with rfl | hz
        · intro h; rw [h] at hy; exact hx hy
        · exact hb z hz
      · rintro ⟨b, a, hl, hb⟩
        cases b with
        | nil =>
          simp only [List.nil_append, List.cons.injEq] at hl
          rw [hl.1] at hy; exact absurd hy hx
        | cons z b =>
          simp only [List.cons_append, List.cons.injEq] at hl
          exact ⟨b, a, hl.2, fun w hw => hb w (by simp [hw])⟩
    · rw [if_neg hy, List.mem_cons, ih]
      rw [List.contains_iff_mem] at hy
      constructor
      · rintro (rfl | ⟨hx, b, a, rfl, hb⟩)
        · exact ⟨hy, [], l, rfl, by simp⟩
        · rw [List.mem_cons, not_or] at hx
          refine ⟨hx.2, y :: b, a, rfl, ?_⟩
          intro z hz
          rcases List.mem_cons.1 hz with rfl | hz
          · exact Ne.symm hx.1
          · exact hb z hz
      · rintro ⟨hx, b, a, hl, hb⟩
        cases b with
        | nil =>
          simp only [List.nil_append, List.cons.injEq] at hl
          exact Or.inl hl.1.symm
        | cons z b =>
          simp only [List.cons_append, List.cons.injEq] at hl
          obtain ⟨rfl, hl⟩ := hl
          refine Or.inr ⟨?_, b, a, hl, fun w hw => hb w (by simp [hw])⟩
          rw [List.mem_cons, not_or]
          exact ⟨Ne.symm (hb y (by simp)), hx⟩

theorem firsts_sublist (l : List (Index × (Index × Index))) (c : List (Index × Index)) : (firsts l c).Sublist l := by
  induction l generalizing c with
  | nil => exact List.Sublist.refl _
  | cons x l ih =>
    unfold firsts
    split
    · exact (ih c).cons x
    · exact (ih _).cons_cons x

theorem firsts_nodup (l : List (Index × (Index × Index))) (c : List (Index × Index)) :
    ((firsts l c).map fun x => edgeCycle x.2).Nodup := by
  induction l generalizing c with
  | nil => simp [firsts]
  | cons x l ih =>
    unfold firsts
    split
    · exact ih c
    · rw [List.map_cons, List.nodup_cons]
      refine ⟨?_, ih _⟩
      intro h
      obtain ⟨y, hy, he⟩ := List.mem_map.1 h
      rw [mem_firsts] at hy
      exact hy.1 (by simp [he])

theorem valueFrom_append {α : Type} (f : α → Index) (l : List α) (v : List Index) :
    HMap.valueFrom (fun x o => match o with | none => [f x] | some w => w ++ [f x]) l (some v)
      = some (v ++ l.map f) := by
  induction l generalizing v with
  | nil => simp [HMap.valueFrom]
  | cons x l ih =>
    have : HMap.valueFrom (fun x o => match o with | none => [f x] | some w => w ++ [f x]) (x :: l) (some v)
        = HMap.valueFrom (fun x o => match o with | none => [f x] | some w => w ++ [f x]) l (some (v ++ [f x])) := rfl
    rw [this, ih]
    simp

theorem valueFrom_append_none {α : Type} (f : α → Index) (l : List α) (h : l ≠ []) :
    HMap.valueFrom (fun x o => match o with | none => [f x] | some w => w ++ [f x]) l none
      = some (l.map f) := by
  cases l with
  | nil => exact absurd rfl h
  | cons x l =>
    have : HMap.valueFrom (fun x o => match o with | none => [f x] | some w => w ++ [f x]) (x :: l) none
        = HMap.valueFrom (fun x o => match o with | none => [f x] | some w => w ++ [f x]) l (some [f x]) := rfl
    rw [this, valueFrom_append]
    simp

theorem solidEdgeMap_find? (mesh : SolidTopo) (x : Index × (Index × Index)) (hx : x ∈ solidEdgeUses mesh) :
    (edgesToPolyhedraAround mesh).find? (edgeCycle x.2) = some (polyhedraHaving mesh x.2) := by
  have hb : edgesToPolyhedraAround mesh = HMap.build (fun x => edgeCycle x.2)
      (fun x o => match o with | none => [x.1] | some w => w ++ [x.1]) (solidEdgeUses mesh) [] := by
    unfold edgesToPolyhedraAround HMap.build solidEdgeUses polyhedraEdges
    congr 1
    funext m y
    exact HMap.tryEmplace_upsert ..
  rw [hb, HMap.find?_build]
  have hfil : (solidEdgeUses mesh).filter (fun y => decide (edgeCycle y.2 = edgeCycle x.2))
      = (solidEdgeUses mesh).filter (fun y => decide (SameEdge y.2 x.2)) := by
    apply List.filter_congr
    intro y _
    rw [decide_eq_decide, edgeCycle_eq_edgeCycle]
  rw [hfil]
  have hne : (solidEdgeUses mesh).filter (fun y => decide (SameEdge y.2 x.2)) ≠ [] := by
    intro h
    rw [List.filter_eq_nil_iff] at h
    exact h x hx (by simp [SameEdge])
  exact valueFrom_append_none (fun x : Index × (Index × Index) => x.1) _ hne

/-- the condition tested for a first use -/
def badTurn (mesh : SolidTopo) (x : Index × (Index × Index)) : Bool :=
  match mesh.polyhedraAroundEdge x.2 x.1 with
  | .error _ => true
  | .ok fan => !polyhedraAroundEdgeAreTheSame fan (polyhedraHaving mesh x.2)

theorem solidEdgesLoop_iff (mesh : SolidTopo) (l : List (Index × (Index × Index))) (c : List (Index × Index))
    (hl : ∀ x ∈ l, x ∈ solidEdgeUses mesh) :
    solidEdgesAreManifoldLoop mesh (edgesToPolyhedraAround mesh) l c = .ok true
      ↔ ∀ x ∈ firsts l c, badTurn mesh x = false := by
  induction l generalizing c with
  | nil => simp [solidEdgesAreManifoldLoop, firsts]
  | cons x l ih =>
    unfold solidEdgesAreManifoldLoop firsts
    have ih := fun c => ih c (fun y hy => hl y (by simp [hy]))
    by_cases hc : c.contains (edgeCycle x.2) = true
    · simp only [if_pos hc]; exact ih c
    · simp only [if_neg hc, List.forall_mem_cons]
      rw [← ih]
      simp only [solidEdgeMap_find? mesh x (hl x (by simp))]
      cases hfan : mesh.polyhedraAroundEdge x.2 x.1 with
      | error f => simp [badTurn, hfan]
      | ok fan =>
        simp only [badTurn, hfan]
        cases hs : polyhedraAroundEdgeAreTheSame fan (polyhedraHaving mesh x.2) <;> simp

theorem solidNonManifoldEdgesLoop_ok (mesh : SolidTopo) (l : List (Index × (Index × Index)))
    (c : List (Index × Index)) (init : Issues (Index × Index))
    (hl : ∀ x ∈ l, x ∈ solidEdgeUses mesh)
    (hf : ∀ x ∈ firsts l c, ∀ f, mesh.polyhedraAroundEdge x.2 x.1 = .error f → f = .openGeodeException) :
    ∃ s, solidNonManifoldEdgesLoop mesh (edgesToPolyhedraAround mesh) l c init = .ok s ∧
      s.issues = init.issues ++ ((firsts l c).filter (badTurn mesh)).map Prod.snd := by
  induction l generalizing c init with
  | nil => exact ⟨init, rfl, by simp [firsts]⟩
  | cons x l ih =>
    unfold solidNonManifoldEdgesLoop
    unfold firsts at hf ⊢
    have hl' : ∀ y ∈ l, y ∈ solidEdgeUses mesh := fun y hy => hl y (by simp [hy])
    by_cases hc : c.contains (edgeCycle x.2) = true
    · simp only [if_pos hc] at hf ⊢
      exact ih c init hl' hf
    · simp only [if_neg hc] at hf ⊢
      have hf' : ∀ y ∈ firsts l (edgeCycle x.2 :: c), ∀ f, mesh.polyhedraAroundEdge y.2 y.1 = .error f →
        f = .openGeodeException := fun y hy => hf y (by simp [hy])
      simp only [solidEdgeMap_find? mesh x (hl x (by simp))]
      cases hfan : mesh.polyhedraAroundEdge x.2 x.1 with
      | error f =>
        obtain rfl := hf x (by simp) f hfan
        obtain ⟨s, h1, h2⟩ := ih (edgeCycle x.2 :: c) (init.add x.2
          ("Could not check manifold on edge between vertices with index " ++
            toString x.2.1 ++ " and index " ++ toString x.2.2 ++ "; Check issues with solid adjacencies.")) hl' hf'
        refine ⟨s, h1, ?_⟩
        rw [h2, List.filter_cons]
        simp [badTurn, hfan, Issues.add]
      | ok fan =>
        obtain ⟨s, h1, h2⟩ := ih (edgeCycle x.2 :: c)
          (if !polyhedraAroundEdgeAreTheSame fan (polyhedraHaving mesh x.2) then
              init.add x.2 ("Non manifold edge between vertices " ++ toString x.2.1 ++ " and " ++
                toString x.2.2)
            else init) hl' hf'
        refine ⟨s, h1, ?_⟩
        rw [h2, List.filter_cons]
        cases hs : polyhedraAroundEdgeAreTheSame fan (polyhedraHaving mesh x.2) <;>
          simp [badTurn, hfan, hs, Issues.add]

theorem badTurn_iff (mesh : SolidTopo) (p : Index) (e : Index × Index)
    (hn : ∀ fan, mesh.polyhedraAroundEdge e p = .ok fan → fan.Nodup)
    (hf : ∀ f, mesh.polyhedraAroundEdge e p = .error f → f = .openGeodeException) :
    badTurn mesh (p, e) = true ↔ BadTurn mesh p e := by
  unfold badTurn BadTurn
  cases hfan : mesh.polyhedraAroundEdge e p with
  | error f => obtain rfl := hf f hfan; simp
  | ok fan =>
    simp only [reduceCtorEq, Except.ok.injEq, exists_eq_left', false_or]
    rw [Bool.not_eq_true', ← Bool.not_eq_true]
    unfold polyhedraAroundEdgeAreTheSame
    rw [perm_of_same _ _ (hn fan hfan)]
    exact not_congr ⟨List.Perm.symm, List.Perm.symm⟩

/-! ### facets of solids -/

theorem valueFrom_count {α : Type} (l : List α) (c : UInt32) :
    HMap.valueFrom (fun (_ : α) o => match o with | none => 1 | some n => n + 1) l (some c)
      = some (c + UInt32.ofNat l.length) := by
  induction l generalizing c with
  | nil => simp [HMap.valueFrom]
  | cons x l ih =>
    have : HMap.valueFrom (fun (_ : α) o => match o with | none => 1 | some n => n + 1) (x :: l) (some c)
        = HMap.valueFrom (fun (_ : α) o => match o with | none => 1 | some n => n + 1) l (some (c + 1)) := rfl
    rw [this, ih]
    simp only [List.length_cons, UInt32.ofNat_add]
    rw [UInt32.add_assoc, UInt32.add_comm 1 _]
    rfl

theorem valueFrom_count_none {α : Type} (l : List α) (h : l ≠ []) :
    HMap.valueFrom (fun (_ : α) o => match o with | none => 1 | some n => n + 1) l none
      = some (UInt32.ofNat l.length) := by
  cases l with
  | nil => exact absurd rfl h
  | cons x l =>
    have : HMap.valueFrom (fun (_ : α) o => match o with | none => (1 : UInt32) | some n => n + 1) (x :: l) none
        = HMap.valueFrom (fun (_ : α) o => match o with | none => 1 | some n => n + 1) l (some 1) := rfl
    rw [this, valueFrom_count]
    simp only [List.length_cons, UInt32.ofNat_add]
    rw [UInt32.add_comm]
    rfl

theorem mem_facetMap (cycle : List Index → List Index) (mesh : SolidMesh) (f : List Index) (v : UInt32) :
    (f, v) ∈ facetsToNbAdjacentPolyhedra cycle mesh ↔
      usesOfFacet cycle mesh f ≠ [] ∧ v = UInt32.ofNat (usesOfFacet cycle mesh f).length := by
  have hb : facetsToNbAdjacentPolyhedra cycle mesh = HMap.build (fun x => cycle (mesh.polyhedronFacetVertices x))
      (fun _ o => match o with | none => 1 | some n => n + 1) (pairs mesh.nbPolyhedra mesh.nbPolyhedronFacets) [] := by
    unfold facetsToNbAdjacentPolyhedra HMap.build
    congr 1
    funext m y
    exact HMap.tryEmplace_upsert ..
  rw [hb, HMap.mem_build]
  change HMap.valueFrom _ (usesOfFacet cycle mesh f) none = some v ↔ _
  by_cases hu : usesOfFacet cycle mesh f = []
  · rw [hu]; simp [HMap.valueFrom]
  · rw [valueFrom_count_none _ hu]
    simp only [Option.some.injEq, hu, ne_eq, not_false_eq_true, true_and]
    exact eq_comm

theorem nodup_facetMap (cycle : List Index → List Index) (mesh : SolidMesh) :
    ((facetsToNbAdjacentPolyhedra cycle mesh).map Prod.fst).Nodup := by
  have hb : facetsToNbAdjacentPolyhedra cycle mesh = HMap.build (fun x => cycle (mesh.polyhedronFacetVertices x))
      (fun _ o => match o with | none => 1 | some n => n + 1) (pairs mesh.nbPolyhedra mesh.nbPolyhedronFacets) [] := by
    unfold facetsToNbAdjacentPolyhedra HMap.build
    congr 1
    funext m y
    exact HMap.tryEmplace_upsert ..
  rw [hb]
  exact HMap.nodup_build _ _ _ _ (by simp)

/-! ### model edges -/

/-- interior polygon edges of a Surface -/
def interior (s : ManifoldSurface) : List PolygonEdge :=
  (pairs s.mesh.nbPolygons s.mesh.nbPolygonVertices).filter fun x =>
    match s.mesh.polygonAdjacent x with
    | none => false
    | some adj => decide (x.1 ≤ adj)

/-- unique vertices of a polygon edge as computed by the code -/
def modelEdge (s : ManifoldSurface) (x : PolygonEdge) : Index × Index :=
  (s.uniqueVertex (s.mesh.polygonVertex (x.1, x.2)),
      s.uniqueVertex (s.mesh.polygonVertex (x.1,
        if x.2 == s.mesh.nbPolygonVertices x.1 - 1 then 0 else x.2 + 1)))

theorem surfaceModelEdges_eq (s : ManifoldSurface) (m : HMap (Index × Index) (List Uuid)) :
    surfaceModelEdges s m = (interior s).foldl (fun m x => m.upsert (edgeCycle (modelEdge s x))
      (fun o => match o with | none => [s.id] | some v => v ++ [s.id])) m := by
  unfold surfaceModelEdges interior
  generalize pairs s.mesh.nbPolygons s.mesh.nbPolygonVertices = l
  induction l generalizing m with
  | nil => rfl
  | cons x l ih =>
    rw [List.foldl_cons, ih, List.filter_cons]
    cases hadj : s.mesh.polygonAdjacent x with
    | none => simp [hadj]
    | some adj =>
      by_cases hlt : adj < x.1
      · simp [hlt, Nat.not_le.2 hlt, hadj]
      · simp only [hadj, if_neg hlt, Nat.not_lt.1 hlt, decide_true, if_true, List.foldl_cons]
        rw [HMap.tryEmplace_upsert]
        rfl

theorem modelEdges_eq (surfaces : List ManifoldSurface) (m : HMap (Index × Index) (List Uuid)) :
    surfaces.foldl (fun edges surface => surfaceModelEdges surface edges) m =
      HMap.build (fun y : ManifoldSurface × PolygonEdge => edgeCycle (modelEdge y.1 y.2))
        (fun y o => match o with | none => [y.1.id] | some v => v ++ [y.1.id])
        (surfaces.flatMap fun s => (interior s).map fun x => (s, x)) m := by
  induction surfaces generalizing m with
  | nil => rfl
  | cons s l ih =>
    rw [List.foldl_cons, ih, surfaceModelEdges_eq]
    unfold HMap.build
    rw [List.flatMap_cons, List.foldl_append, List.foldl_map]

theorem modelEdge_ends (s : ManifoldSurface) (x : PolygonEdge) (hx : x ∈ interior s) :
    modelEdge s x = (s.uniqueVertex (polygonEdgeEnds s.mesh.toSurfaceMesh x).1,
        s.uniqueVertex (polygonEdgeEnds s.mesh.toSurfaceMesh x).2) := by
  unfold interior at hx
  rw [List.mem_filter, mem_pairs] at hx
  have h := hx.1.2
  unfold modelEdge polygonEdgeEnds
  by_cases he : x.2 = s.mesh.nbPolygonVertices x.1 - 1
  · have : (x.2 + 1) % s.mesh.nbPolygonVertices x.1 = 0 := by
      rw [show x.2 + 1 = s.mesh.nbPolygonVertices x.1 by omega]; exact Nat.mod_self _
    simp only [he, beq_self_eq_true, if_true]
    rw [← he, this]
  · have : (x.2 + 1) % s.mesh.nbPolygonVertices x.1 = x.2 + 1 := Nat.mod_eq_of_lt (by omega)
    have hb : (x.2 == s.mesh.nbPolygonVertices x.1 - 1) = false := by simpa using he
    simp only [hb, this]
    simp

theorem interiorUses_eq (model : ManifoldModel) (e : Index × Index) (he : e.1 ≤ e.2) :
    ((((model.surfaces.filter fun s => s.active).flatMap fun s => (interior s).map fun x => (s, x)).filter
      (fun y => decide (edgeCycle (modelEdge y.1 y.2) = e))).map fun y => y.1.id) = interiorUses model e := by
  unfold interiorUses
  rw [List.filter_flatMap, List.map_flatMap]
  congr 1
  funext s
  rw [List.filter_map, List.map_map]
  have : (interior s).filter ((fun y => decide (edgeCycle (modelEdge y.1 y.2) = e)) ∘ fun x => (s, x))
      = (polygonEdges s.mesh.toSurfaceMesh).filter fun x =>
      (match s.mesh.polygonAdjacent x with
        | none => false
        | some adj => decide (x.1 ≤ adj)) &&
      decide (SameEdge (s.uniqueVertex (polygonEdgeEnds s.mesh.toSurfaceMesh x).1,
        s.uniqueVertex (polygonEdgeEnds s.mesh.toSurfaceMesh x).2) e) := by
    have h1 : (interior s).filter ((fun y => decide (edgeCycle (modelEdge y.1 y.2) = e)) ∘ fun x => (s, x))
        = (interior s).filter (fun x => decide (SameEdge (s.uniqueVertex (polygonEdgeEnds s.mesh.toSurfaceMesh x).1,
        s.uniqueVertex (polygonEdgeEnds s.mesh.toSurfaceMesh x).2) e)) := by
      apply List.filter_congr
      intro x hx
      simp only [Function.comp]
      rw [decide_eq_decide, modelEdge_ends s x hx, edgeCycle_eq_iff]
      exact ⟨fun h => h.2, fun h => ⟨he, h⟩⟩
    rw [h1]
    unfold interior polygonEdges
    rw [List.filter_filter]
    congr 1
    funext x
    exact Bool.and_comm ..
  rw [this]
  rfl

theorem mem_modelEdges (model : ManifoldModel) (e : Index × Index) (v : List Uuid) :
    (e, v) ∈ (model.surfaces.filter fun s => s.active).foldl (fun edges surface =>
      surfaceModelEdges surface edges) [] ↔ e.1 ≤ e.2 ∧ interiorUses model e ≠ [] ∧ v = interiorUses model e := by
  rw [modelEdges_eq, HMap.mem_build]
  by_cases he : e.1 ≤ e.2
  · rw [← interiorUses_eq model e he]
    generalize (((model.surfaces.filter fun s => s.active).flatMap fun s => (interior s).map fun x => (s, x)).filter
      (fun y => decide (edgeCycle (modelEdge y.1 y.2) = e))) = l
    by_cases hl : l = []
    · subst hl; simp [HMap.valueFrom]
    · refine (Eq.to_iff (congrArg (· = some v)
        (valueFrom_append_none (fun y : ManifoldSurface × PolygonEdge => y.1.id) l hl))).trans ?_
      simp only [Option.some.injEq, he, List.map_eq_nil_iff, hl, ne_eq, not_false_eq_true, true_and]
      exact eq_comm
  · have : (((model.surfaces.filter fun s => s.active).flatMap fun s => (interior s).map fun x => (s, x)).filter
      (fun y => decide (edgeCycle (modelEdge y.1 y.2) = e))) = [] := by
      rw [List.filter_eq_nil_iff]
      intro x _ h
      rw [decide_eq_true_eq, edgeCycle_eq_iff] at h
      exact he h.1
    rw [this]
    simp [HMap.valueFrom, he]

theorem isolatedLine_iff (model : ManifoldModel) (l : ManifoldLine) :
    (l.active && (if l.nbEdges != 1 || l.nbEmbeddingSurfaces == 0 then false
      else !severalCmvsOnOneVertex model
        [l.uniqueVertex (l.edgeVertex 0), l.uniqueVertex (l.edgeVertex 1)]))
      = decide (IsolatedEdgeLine model l) := by
  rw [Bool.eq_iff_iff, decide_eq_true_iff, Bool.and_eq_true]
  unfold IsolatedEdgeLine severalCmvsOnOneVertex
  refine and_congr_right fun _ => ?_
  by_cases h1 : l.nbEdges = 1
  · by_cases h2 : l.nbEmbeddingSurfaces = 0
    · simp [h1, h2]
    · simp [h1, h2, Nat.pos_of_ne_zero h2, loopAny]
  · simp [h1]

theorem isolatedSurface_iff (model : ManifoldModel) (s : ManifoldSurface) :
    (s.active && (if s.mesh.nbPolygons != 1 || s.nbEmbeddingBlocks == 0 then false
      else !severalCmvsOnOneVertex model (polygonUniqueVertices s)))
      = decide (IsolatedFacetSurface model s) := by
  rw [Bool.eq_iff_iff, decide_eq_true_iff, Bool.and_eq_true]
  unfold IsolatedFacetSurface severalCmvsOnOneVertex polygonUniqueVertices
  refine and_congr_right fun _ => ?_
  by_cases h1 : s.mesh.nbPolygons = 1
  · by_cases h2 : s.nbEmbeddingBlocks = 0
    · simp [h1, h2]
    · have hb : (s.mesh.nbPolygons != 1 || s.nbEmbeddingBlocks == 0) = false := by simp [h1, h2]
      rw [hb]
      simp only [Bool.false_eq_true, if_false, h1, Nat.pos_of_ne_zero h2, true_and]
      rw [Bool.not_eq_true', ← Bool.not_eq_true, loopAny_iff]
      simp
  · simp [h1]

/-! ### general -/

theorem collectFromM_ok_inv {α β : Type} (init : Issues β) (bad : α → Except Failure Bool)
    (issue : α → β) (message : α → String) (l : List α) (s : Issues β)
    (h : collectFromM init bad issue message l = .ok s) : ∀ x ∈ l, ∃ b, bad x = .ok b := by
  intro x hx
  cases hb : bad x with
  | ok b => exact ⟨b, rfl⟩
  | error f =>
    obtain ⟨f', hf'⟩ := collectFromM_error init bad issue message l x hx f hb
    rw [hf'] at h
    cases h

/-- when the list is computed, the boolean loop on the same condition says if it is empty -/
theorem loopAnyM_of_collectFromM {α β : Type} (d : String) (bad : α → Except Failure Bool)
    (issue : α → β) (message : α → String) (l : List α) (s : Issues β)
    (h : collectFromM (Issues.new d) bad issue message l = .ok s) :
    loopAnyM bad l = .ok (!s.issues.isEmpty) := by
  have hinv := collectFromM_ok_inv _ _ _ _ _ _ h
  let b : α → Bool := fun x => match bad x with | .ok b => b | .error _ => false
  have hb : ∀ x ∈ l, bad x = .ok (b x) := by
    intro x hx
    obtain ⟨v, hv⟩ := hinv x hx
    simp only [b, hv]
  rw [collectFromM_ok _ _ b _ _ _ hb] at h
  rw [loopAnyM_ok _ b _ hb]
  obtain rfl : collectFrom (Issues.new d) l b issue message = s := by injection h
  congr 1
  rw [collectFrom_issues, Bool.eq_iff_iff, loopAny_iff]
  simp [Issues.new]

theorem surfaceVertices_agree (mesh : SurfaceTopo) (s : Issues Index)
    (h : surfaceNonManifoldVertices mesh = .ok s) : surfaceVerticesAreManifold mesh = .ok s.issues.isEmpty := by
  unfold surfaceNonManifoldVertices at h
  unfold surfaceVerticesAreManifold
  cases hp : polygonsAroundVertices mesh with
  | error f => rw [hp] at h; cases h
  | ok r =>
    rw [hp] at h
    have := loopAnyM_of_collectFromM _ _ _ _ _ _ h
    refine (congrArg (fun x : Except Failure Bool => (match x with
      | .error f => .error f
      | .ok found => .ok (!found) : Except Failure Bool)) this).trans ?_
    simp

theorem solidVertices_agree (mesh : SolidTopo) (s : Issues Index)
    (h : solidNonManifoldVertices mesh = .ok s) : solidVerticesAreManifold mesh = .ok s.issues.isEmpty := by
  unfold solidNonManifoldVertices at h
  unfold solidVerticesAreManifold
  cases hp : polyhedraAroundVertices mesh with
  | error f => rw [hp] at h; cases h
  | ok r =>
    rw [hp] at h
    have := loopAnyM_of_collectFromM _ _ _ _ _ _ h
    refine (congrArg (fun x : Except Failure Bool => (match x with
      | .error f => .error f
      | .ok found => .ok (!found) : Except Failure Bool)) this).trans ?_
    simp

/-- reports from adds to a map, whose expectations are attached to the components -/
theorem mapReports_map {C D α : Type} (map : IssuesMap α) (comps : List C) (g : C → D) (id : D → Uuid)
    (expected : D → List α → Prop) (h : MapReports map comps (fun c => id (g c)) (fun c => expected (g c))) :
    MapReports map (comps.map g) id expected := by
  refine ⟨?_, ?_⟩
  · rw [List.map_map]; exact h.1
  · intro d hd
    obtain ⟨c, hc, rfl⟩ := List.mem_map.1 hd
    exact h.2 c hc

theorem mapReports_of_two {C D α : Type} (d : String) (cs : List C) (ds : List D) (idc : C → Uuid) (idd : D → Uuid)
    (valc : C → Issues α) (vald : D → Issues α) (expc : C → List α → Prop) (expd : D → List α → Prop)
    (hn : (cs.map idc ++ ds.map idd).Nodup)
    (hc : ∀ c ∈ cs, (valc c).issues.length < 2 ^ 32 ∧ expc c (valc c).issues)
    (hd : ∀ c ∈ ds, (vald c).issues.length < 2 ^ 32 ∧ expd c (vald c).issues) :
    MapReports (ds.foldl (fun m c => m.addIssues (idd c) (vald c))
        (cs.foldl (fun m c => m.addIssues (idc c) (valc c)) (IssuesMap.new d)))
      (cs.map (fun c => (idc c, expc c)) ++ ds.map (fun c => (idd c, expd c))) Prod.fst (fun r => r.2) := by
  let t : List (Uuid × Issues α × (List α → Prop)) :=
    cs.map (fun c => (idc c, valc c, expc c)) ++ ds.map (fun c => (idd c, vald c, expd c))
  have h := mapReports_of_adds d t (fun x => x.1) (fun x => x.2.1) (fun x => x.2.2)
    (by simpa [t, Function.comp_def] using hn)
    (by
      intro x hx
      rcases List.mem_append.1 hx with hx | hx
      · obtain ⟨c, hc', rfl⟩ := List.mem_map.1 hx; exact (hc c hc').1
      · obtain ⟨c, hc', rfl⟩ := List.mem_map.1 hx; exact (hd c hc').1)
    (by
      intro x hx
      rcases List.mem_append.1 hx with hx | hx
      · obtain ⟨c, hc', rfl⟩ := List.mem_map.1 hx; exact (hc c hc').2
      · obtain ⟨c, hc', rfl⟩ := List.mem_map.1 hx; exact (hd c hc').2)
  have h2 := mapReports_map _ t (fun x => (x.1, x.2.2)) Prod.fst (fun r => r.2) h
  simpa [t, List.foldl_append, List.foldl_map, Function.comp_def] using h2

theorem foldlM_ok {α β : Type} (f : β → α → Except Failure β) (g : β → α → β) (l : List α) (b : β)
    (h : ∀ x ∈ l, ∀ b, f b x = .ok (g b x)) : l.foldlM f b = .ok (l.foldl g b) := by
  induction l generalizing b with
  | nil => rfl
  | cons x l ih =>
    rw [List.foldlM_cons, h x (by simp), List.foldl_cons]
    exact ih _ (fun y hy => h y (by simp [hy]))

theorem edges_length (mesh : SurfaceMesh) (l : List (Index × Index)) (hn : l.Nodup)
    (h : ∀ e ∈ l, e.1 ≤ e.2 ∧ usesOfEdge mesh e ≠ []) : l.length ≤ (polygonEdges mesh).length := by
  have hs : l ⊆ (polygonEdges mesh).map fun x => edgeCycle (polygonEdgeEnds mesh x) := by
    intro e he
    obtain ⟨h1, h2⟩ := h e he
    obtain ⟨x, hx⟩ := List.exists_mem_of_ne_nil _ h2
    unfold usesOfEdge at hx
    rw [List.mem_filter, decide_eq_true_iff] at hx
    exact List.mem_map.2 ⟨x, hx.1, (edgeCycle_eq_iff _ _).2 ⟨h1, hx.2⟩⟩
  simpa using (hn.subperm hs).length_le

theorem facetsExactly (iterate : HMap (List Index) UInt32 → HMap (List Index) UInt32)
    (hi : ∀ m, (iterate m).Perm m) (cycle : List Index → List Index) (mesh : SolidMesh)
    (hsz : (pairs mesh.nbPolyhedra mesh.nbPolyhedronFacets).length < 2 ^ 32) :
    Exactly (· ≠ ·) (fun f => 2 < (usesOfFacet cycle mesh f).length)
      (solidNonManifoldFacets iterate cycle mesh).issues := by
  unfold solidNonManifoldFacets
  rw [collectFrom_issues]
  simp only [Issues.new, List.nil_append]
  have h := exactly_map_filter (facetsToNbAdjacentPolyhedra cycle mesh) _ (hi _) (nodup_facetMap cycle mesh)
    (fun facet => decide (facet.2 > 2))
  refine ⟨h.1, fun f => (h.2 f).trans ?_⟩
  have hlt : (usesOfFacet cycle mesh f).length < 2 ^ 32 :=
    Nat.lt_of_le_of_lt (List.length_filter_le ..) hsz
  constructor
  · rintro ⟨v, hv, h2⟩
    obtain ⟨_, rfl⟩ := (mem_facetMap cycle mesh f v).1 hv
    have h2 := of_decide_eq_true h2
    have h3 : (2 : UInt32).toNat < (UInt32.ofNat (usesOfFacet cycle mesh f).length).toNat := h2
    rw [UInt32.toNat_ofNat', Nat.mod_eq_of_lt hlt] at h3
    exact h3
  · intro h2
    refine ⟨_, (mem_facetMap cycle mesh f _).2 ⟨?_, rfl⟩, ?_⟩
    · intro hnil
      have h2' : 2 < (usesOfFacet cycle mesh f).length := h2
      rw [hnil] at h2'
      simp at h2'
    · apply decide_eq_true
      show (2 : UInt32).toNat < (UInt32.ofNat (usesOfFacet cycle mesh f).length).toNat
      rw [UInt32.toNat_ofNat', Nat.mod_eq_of_lt hlt]
      exact h2

theorem facets_length (cycle : List Index → List Index) (mesh : SolidMesh) (l : List (List Index)) (hn : l.Nodup)
    (h : ∀ f ∈ l, usesOfFacet cycle mesh f ≠ []) :
    l.length ≤ (pairs mesh.nbPolyhedra mesh.nbPolyhedronFacets).length := by
  have hs : l ⊆ (pairs mesh.nbPolyhedra mesh.nbPolyhedronFacets).map
      fun x => cycle (mesh.polyhedronFacetVertices x) := by
    intro e he
    obtain ⟨x, hx⟩ := List.exists_mem_of_ne_nil _ (h e he)
    unfold usesOfFacet at hx
    rw [List.mem_filter, decide_eq_true_iff] at hx
    exact List.mem_map.2 ⟨x, hx.1, hx.2⟩
  simpa using (hn.subperm hs).length_le

theorem solidFacets_agree (iterate iterate' : HMap (List Index) UInt32 → HMap (List Index) UInt32)
    (hi : ∀ m, (iterate m).Perm m) (hi' : ∀ m, (iterate' m).Perm m)
    (cycle : List Index → List Index) (mesh : SolidMesh) :
    solidFacetsAreManifold iterate cycle mesh = true ↔ (solidNonManifoldFacets iterate' cycle mesh).issues = [] := by
  unfold solidFacetsAreManifold solidNonManifoldFacets
  rw [collectFrom_issues]
  simp only [Issues.new, List.nil_append, List.map_eq_nil_iff, List.filter_eq_nil_iff]
  rw [Bool.not_eq_true', ← Bool.not_eq_true, loopAny_iff]
  constructor
  · intro h x hx h2
    exact h ⟨x, (hi _).mem_iff.2 ((hi' _).mem_iff.1 hx), h2⟩
  · rintro h ⟨x, hx, h2⟩
    exact h x ((hi' _).mem_iff.2 ((hi _).mem_iff.1 hx)) h2

/-- the edges reported for a solid, when the turns raise only OpenGeode exceptions -/
theorem solidEdges_ok (mesh : SolidTopo)
    (hf : ∀ x ∈ solidEdgeUses mesh, ∀ f, mesh.polyhedraAroundEdge x.2 x.1 = .error f → f = .openGeodeException)
    (hn : ∀ x ∈ solidEdgeUses mesh, ∀ fan, mesh.polyhedraAroundEdge x.2 x.1 = .ok fan → fan.Nodup) :
    ∃ s, solidNonManifoldEdges mesh = .ok s ∧
      (s.issues.map edgeCycle).Nodup ∧ s.issues.Sublist ((solidEdgeUses mesh).map Prod.snd) ∧
      (∀ e, e ∈ s.issues ↔ ∃ p, FirstUse mesh p e ∧ BadTurn mesh p e) ∧
      (solidEdgesAreManifold mesh = .ok true ↔ s.issues = []) := by
  obtain ⟨s, hs, hissues⟩ := solidNonManifoldEdgesLoop_ok mesh (polyhedraEdges mesh) []
    (Issues.new "Non manifold edges") (fun x hx => hx)
    (fun x hx => hf x ((firsts_sublist _ _).subset hx))
  simp only [Issues.new, List.nil_append] at hissues
  have hfirst : ∀ p e, (p, e) ∈ firsts (polyhedraEdges mesh) [] ↔ FirstUse mesh p e := by
    intro p e
    rw [mem_firsts]
    unfold FirstUse
    simp only [List.not_mem_nil, not_false_eq_true, true_and]
    refine exists_congr fun b => exists_congr fun a => and_congr Iff.rfl ?_
    refine forall_congr' fun y => forall_congr' fun _ => not_congr (edgeCycle_eq_edgeCycle _ _)
  have hbad : ∀ x ∈ firsts (polyhedraEdges mesh) [], (badTurn mesh x = true ↔ BadTurn mesh x.1 x.2) := by
    intro x hx
    have hx' := (firsts_sublist _ _).subset hx
    exact badTurn_iff mesh x.1 x.2 (hn x hx') (hf x hx')
  refine ⟨s, hs, ?_, ?_, ?_, ?_⟩
  · rw [hissues, List.map_map]
    exact (firsts_nodup (polyhedraEdges mesh) []).sublist (List.filter_sublist.map _)
  · rw [hissues]
    exact (List.filter_sublist.trans (firsts_sublist _ _)).map _
  · intro e
    rw [hissues, List.mem_map]
    constructor
    · rintro ⟨⟨p, e'⟩, hx, rfl⟩
      rw [List.mem_filter] at hx
      exact ⟨p, (hfirst p e').1 hx.1, (hbad _ hx.1).1 hx.2⟩
    · rintro ⟨p, h1, h2⟩
      have := (hfirst p e).2 h1
      exact ⟨(p, e), List.mem_filter.2 ⟨this, (hbad _ this).2 h2⟩, rfl⟩
  · rw [hissues]
    unfold solidEdgesAreManifold
    refine (solidEdgesLoop_iff mesh (polyhedraEdges mesh) [] (fun x hx => hx)).trans ?_
    simp

end Inspector
