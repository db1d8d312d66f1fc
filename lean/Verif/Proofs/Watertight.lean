import Verif.Proofs.WholeModel
import Verif.Spec.Watertight
/-
Lemmas for C125.
-/
namespace Inspector.Watertight
open Inspector Spec
variable {P : Type} {m : ModelData P}

theorem FaceEdgeOn.symm {s : FaceData P} {x : PolygonEdge} {u v : Index} (h : FaceEdgeOn m s x u v) :
    FaceEdgeOn m s x v u := Or.symm h

/-- the edges found around an edge of a Line, whichever its direction -/
theorem found (hf : EdgesFound m) {l : LineData P} (hl : l ∈ m.lines) {e u v : Index}
    (he : LineEdge m l e u v ∨ LineEdge m l e v u) {s : FaceData P} (hs : s ∈ m.surfaces) (n : Nat) :
    (s.id, n) ∈ m.surfaceEdges l.id e ↔ n ≠ 0 ∧
      ∃ xs : List PolygonEdge, xs.Nodup ∧ xs.length = n ∧ ∀ x, x ∈ xs ↔ FaceEdgeOn m s x u v := by
  rcases he with he | he
  · exact hf.surfaces l hl e u v he s hs n
  · rw [hf.surfaces l hl e v u he s hs n]
    have : ∀ x, FaceEdgeOn m s x v u ↔ FaceEdgeOn m s x u v := fun x => Or.comm
    simp only [this]

/-- the edges of a Surface joining two unique vertices are finitely many -/
theorem listed (s : FaceData P) (u v : Index) :
    ∃ xs : List PolygonEdge, xs.Nodup ∧ ∀ x, x ∈ xs ↔ FaceEdgeOn m s x u v := by
  classical
  refine ⟨(pairs s.nbPolygons s.nbPolygonVertices).filter fun x => decide (FaceEdgeOn m s x u v),
    (pairs_nodup _ _).filter _, fun x => ?_⟩
  rw [List.mem_filter, decide_eq_true_eq]
  refine ⟨fun h => h.2, fun h => ⟨?_, h⟩⟩
  rcases h with h | h <;> exact (mem_pairs ..).2 h.1

theorem another {α : Type} {xs : List α} (hn : xs.Nodup) (hl : xs.length = 2) {x : α} (hx : x ∈ xs) :
    ∃ y ∈ xs, y ≠ x := by
  match xs, hl with
  | [a, b], _ =>
    have hab : a ≠ b := fun h => by subst h; simp at hn
    rcases List.mem_cons.1 hx with rfl | hx
    · exact ⟨b, by simp, hab.symm⟩
    · rcases List.mem_cons.1 hx with rfl | hx
      · exact ⟨a, by simp, hab⟩
      · cases hx

/-- no defect of the BRep makes the boundary of its Block closed -/
theorem watertight {lib : ModelLibrary P} {rt : ModelRuntime} {c : Candidates P} (h : BRepOk lib rt m c)
    (hf : EdgesFound m) (hr : BoundariesAgree m) (hsound : FacesSound m) (hd : ¬ BRepDefect lib rt m)
    {b : VolumeData P} (hb : b ∈ m.blocks) (hba : b.active = true) (hact : BoundaryActive m b) :
    Watertight m b := by
  unfold BRepDefect at hd
  simp only [not_or] at hd
  obtain ⟨_, _, _, hds, _, _, _, _, _, _, hdt⟩ := hd
  unfold BRepTopologyDefect at hdt
  simp only [not_or] at hdt
  obtain ⟨_, _, hul, _, hde, _, hdb⟩ := hdt
  have hopen : ¬ HasOpenBoundary (m.topology rt) b.id := by
    intro ho
    exact hdb (Or.inr (Or.inr (Or.inr (Or.inl ⟨_, List.mem_map.2 ⟨b, hb, rfl⟩, hba, ho⟩))))
  intro s hs hsa hsb x hx
  have hsd : ¬ SurfaceMeshDefect lib m s := fun hx => hds ⟨s, hs, hsa, hx⟩
  unfold SurfaceMeshDefect at hsd
  simp only [not_or] at hsd
  obtain ⟨_, hwrong, hborder, _⟩ := hsd
  have huv : ∀ k, k < s.points.length → ∃ u, m.uniqueVertex ⟨⟨.surface, s.id⟩, k⟩ = some u := by
    intro k hk
    cases hu : m.uniqueVertex ⟨⟨.surface, s.id⟩, k⟩ with
    | some u => exact ⟨u, rfl⟩
    | none =>
      exact absurd ⟨.surface, by decide, _, List.mem_map.2 ⟨s, hs, rfl⟩, hsa, k, hk, hu⟩ hul
  have hvert := (h.meshes.walks s hs).vertices
  have hlt : ∀ p k, p < s.nbPolygons → k < s.nbPolygonVertices p → s.polygonVertex (p, k) < s.points.length := hvert
  have hnext : (x.2 + 1) % s.nbPolygonVertices x.1 < s.nbPolygonVertices x.1 :=
    Nat.mod_lt _ (Nat.lt_of_le_of_lt (Nat.zero_le _) hx.2)
  obtain ⟨u, hu⟩ := huv _ (hlt x.1 x.2 hx.1 hx.2)
  obtain ⟨v, hv⟩ := huv _ (hlt x.1 _ hx.1 hnext)
  have hedge : FaceEdge m s x u v := ⟨hx, _, _, ⟨rfl, rfl⟩, hu, hv⟩
  refine ⟨u, v, hedge, ?_⟩
  cases ha : s.polygonAdjacent x with
  | some q =>
    have hw : ∃ e' a b, e' < s.nbPolygonVertices q ∧ EdgeFromTo s.toSurfaceMesh x.1 x.2 a b ∧
        EdgeFromTo s.toSurfaceMesh q e' b a ∧ s.polygonAdjacent (q, e') = some x.1 := by
      by_contra hn
      exact hwrong ⟨x, hx, q, ha, hn⟩
    obtain ⟨e', a, b', he', hab, hba', _⟩ := hw
    have hne : a ≠ b' := hsound.noLoop s hs x a b' hx hab
    have hq := hsound.adjacent s hs x q hx ha
    refine ⟨s, hs, hsa, hsb, (q, e'), ?_, Or.inr ⟨⟨hq, he'⟩, b', a, hba', ?_, ?_⟩⟩
    · intro heq
      have hxq : (q, e') = x := (Prod.mk.inj heq).2
      rw [← hxq] at hab
      exact hne (hab.1.symm.trans hba'.1)
    · rw [← hab.2]; exact hv
    · rw [← hab.1]; exact hu
  | none =>
    have hon : ∃ a b u v, EdgeFromTo s.toSurfaceMesh x.1 x.2 a b ∧ m.uniqueVertex ⟨⟨.surface, s.id⟩, a⟩ = some u ∧
        m.uniqueVertex ⟨⟨.surface, s.id⟩, b⟩ = some v ∧ u < m.nbUniqueVertices ∧ v < m.nbUniqueVertices ∧
        m.lineComponentMeshEdges u v ≠ [] := by
      by_contra hn
      exact hborder ⟨x, hx, ha, hn⟩
    obtain ⟨a, b', u', v', hab, hu', hv', _, _, hle⟩ := hon
    have e1 : u' = u := by
      rw [← hab.1] at hu'
      exact Option.some.inj (hu'.symm.trans hu)
    have e2 : v' = v := by
      rw [← hab.2] at hv'
      exact Option.some.inj (hv'.symm.trans hv)
    subst e1 e2
    obtain ⟨l, hl, e, he⟩ := hf.lines u' v' hle
    have hla := hact.1 l hl
    have hlt : e < l.nbEdges := by rcases he with he | he <;> exact he.1
    have hnw : ¬ EdgeIsWrong (m.topology rt) l.id e := by
      intro hw
      refine hde ⟨_, List.mem_map.2 ⟨l, hl, rfl⟩, hla, ?_, e, hlt, hw⟩
      intro v hv
      exact hul ⟨.line, by decide, _, List.mem_map.2 ⟨l, hl, rfl⟩, hla, v, hv⟩
    unfold EdgeIsWrong at hnw
    simp only [not_or] at hnw
    obtain ⟨hn1, hn2, _, _⟩ := hnw
    have hsact : ∀ s' ∈ m.surfaces, s'.active = true → Active (m.topology rt) .surface s'.id :=
      fun s' hs' ha' => ⟨_, List.mem_map.2 ⟨s', hs', rfl⟩, rfl, ha'⟩
    have hcase : ∀ s' ∈ m.surfaces, s'.active = true → ∀ n, (s'.id, n) ∈ m.surfaceEdges l.id e →
        (m.isBoundary l.id s'.id = true ∧ n = 1) ∨
        (m.isBoundary l.id s'.id = false ∧ m.isInternal l.id s'.id = true ∧ n = 2) := by
      intro s' hs' ha' n hn
      by_contra hc
      rw [not_or] at hc
      exact hn1 ⟨s'.id, n, hn, hsact s' hs' ha', hc.1, hc.2⟩
    obtain ⟨xs, hnd, hxs⟩ := listed (m := m) s u' v'
    have hxin : x ∈ xs := (hxs x).2 (Or.inl hedge)
    have hmem : (s.id, xs.length) ∈ m.surfaceEdges l.id e :=
      (found hf hl he hs _).2 ⟨fun h0 => (by rw [List.length_eq_zero_iff.1 h0] at hxin; cases hxin), xs, hnd, rfl, hxs⟩
    rcases hcase s hs hsa _ hmem with ⟨hbd, _⟩ | ⟨_, _, h2⟩
    · have hbl := (hr.1 l hl s hs).1 hbd
      have hso : ∃ s', ⟨.surface, s'⟩ ∈ m.incidences l.id ∧ s' ≠ s.id ∧ m.isBoundary s' b.id = true := by
        by_contra hn
        exact hopen ⟨s.id, (hr.2 s hs b hb).1 hsb, hsact s hs hsa, l.id, hbl, hn⟩
      obtain ⟨i, hi, hne, hib⟩ := hso
      obtain ⟨c', hc', hci⟩ := h.topology.incidences l.id _ hi
      obtain ⟨s', hs', rfl⟩ := List.mem_map.1 hc'
      have hci : s'.id = i := hci
      subst hci
      have hs'a := hact.2 s' hs' hib
      have hsome : ∃ n, (s'.id, n) ∈ m.surfaceEdges l.id e := by
        by_contra hn
        exact hn2 ⟨s'.id, Or.inr hi, hsact s' hs' hs'a, fun n hx => hn ⟨n, hx⟩⟩
      obtain ⟨n, hn⟩ := hsome
      obtain ⟨hn0, ys, _, hlen, hys⟩ := (found hf hl he hs' n).1 hn
      obtain ⟨y, hy⟩ : ∃ y, y ∈ ys := List.exists_mem_of_ne_nil _ (fun h0 => hn0 (by rw [← hlen, h0]; rfl))
      exact ⟨s', hs', hs'a, hib, y, fun heq => hne (Prod.mk.inj heq).1, (hys y).1 hy⟩
    · obtain ⟨y, hy, hyx⟩ := another hnd h2 hxin
      exact ⟨s, hs, hsa, hsb, y, fun heq => hyx (Prod.mk.inj heq).2, (hxs y).1 hy⟩

end Inspector.Watertight
