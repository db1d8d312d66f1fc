import Verif.Props.Watertight
/-
C139: the polygons of the Surfaces of a valid BRep have common edges inside a Surface, two by two, or along Lines.
-/
namespace Inspector
open Spec

namespace PolygonsMeet
variable {P : Type} {lib : ModelLibrary P} {m : ModelData P}

/-- One of the two sides of an interior edge is counted by the inspection of the edges between Surfaces. -/
theorem counted {s : FaceData P} {x : PolygonEdge} {u v : Index} (hx : FaceEdgeOn m s x u v) (hsd : ¬ SurfaceMeshDefect lib m s)
    (hadj : ∀ x q, IsPolygonEdge s.toSurfaceMesh x → s.polygonAdjacent x = some q → q < s.nbPolygons)
    {q : Index} (hq : s.polygonAdjacent x = some q) :
    ∃ y, FaceEdgeOn m s y u v ∧ (∃ r, s.polygonAdjacent y = some r ∧ y.1 ≤ r) ∧
      (y = x ∨ (y.1 = q ∧ s.polygonAdjacent y = some x.1)) := by
  by_cases hle : x.1 ≤ q
  · exact ⟨x, hx, ⟨q, hq, hle⟩, .inl rfl⟩
  · unfold SurfaceMeshDefect at hsd
    simp only [not_or] at hsd
    have hpe : IsPolygonEdge s.toSurfaceMesh x := by rcases hx with h | h <;> exact h.1
    obtain ⟨e', a, b, he', hab, hba, hback⟩ : ∃ e' a b, e' < s.nbPolygonVertices q ∧
        EdgeFromTo s.toSurfaceMesh x.1 x.2 a b ∧ EdgeFromTo s.toSurfaceMesh q e' b a ∧
        s.polygonAdjacent (q, e') = some x.1 := by
      by_contra hn
      exact hsd.2.1 ⟨x, hpe, q, hq, hn⟩
    have hpy : IsPolygonEdge s.toSurfaceMesh (q, e') := ⟨hadj x q hpe hq, he'⟩
    have flip : ∀ {u v}, FaceEdge m s x u v → FaceEdge m s (q, e') v u := by
      rintro u v ⟨_, a', b', hab', hu, hv⟩
      obtain rfl : a' = a := hab'.1.symm.trans hab.1
      obtain rfl : b' = b := hab'.2.symm.trans hab.2
      exact ⟨hpy, b', a', hba, hv, hu⟩
    exact ⟨(q, e'), hx.elim (fun h => .inr (flip h)) (fun h => .inl (flip h)), ⟨x.1, hback, Nat.le_of_lt (Nat.lt_of_not_le hle)⟩,
      .inr ⟨rfl, hback⟩⟩

/-- Such a side is in the list of the uses of the edge. -/
theorem mem_uses {s : FaceData P} {y : PolygonEdge} {u v : Index} (hy : FaceEdgeOn m s y u v)
    {r : Index} (hr : s.polygonAdjacent y = some r) (hle : y.1 ≤ r) :
    y ∈ (polygonEdges (m.manifoldSurface lib s).mesh.toSurfaceMesh).filter fun x =>
      (match (m.manifoldSurface lib s).mesh.polygonAdjacent x with
        | none => false
        | some adj => decide (x.1 ≤ adj)) &&
      decide (SameEdge ((m.manifoldSurface lib s).uniqueVertex (polygonEdgeEnds (m.manifoldSurface lib s).mesh.toSurfaceMesh x).1,
        (m.manifoldSurface lib s).uniqueVertex (polygonEdgeEnds (m.manifoldSurface lib s).mesh.toSurfaceMesh x).2)
        (min u v, max u v)) := by
  have hpe : IsPolygonEdge s.toSurfaceMesh y := by rcases hy with h | h <;> exact h.1
  rw [List.mem_filter]
  refine ⟨(mem_pairs ..).2 hpe, ?_⟩
  have h1 : (m.manifoldSurface lib s).mesh.polygonAdjacent y = some r := hr
  rw [h1, Bool.and_eq_true, decide_eq_true_eq, decide_eq_true_eq]
  refine ⟨hle, ?_⟩
  have ends : ∀ {u v}, FaceEdge m s y u v →
      (m.manifoldSurface lib s).uniqueVertex (polygonEdgeEnds (m.manifoldSurface lib s).mesh.toSurfaceMesh y).1 = u ∧
      (m.manifoldSurface lib s).uniqueVertex (polygonEdgeEnds (m.manifoldSurface lib s).mesh.toSurfaceMesh y).2 = v := by
    rintro u v ⟨_, a, b, hab, hu, hv⟩
    constructor
    · show (m.uniqueVertex ⟨⟨.surface, s.id⟩, s.polygonVertex (y.1, y.2)⟩).getD m.noId = u
      rw [show s.polygonVertex (y.1, y.2) = a from hab.1, hu]; rfl
    · show (m.uniqueVertex ⟨⟨.surface, s.id⟩, s.polygonVertex (y.1, (y.2 + 1) % s.nbPolygonVertices y.1)⟩).getD m.noId = v
      rw [show s.polygonVertex (y.1, (y.2 + 1) % s.nbPolygonVertices y.1) = b from hab.2, hv]; rfl
  have same : SameEdge (u, v) (min u v, max u v) := by
    rcases Nat.le_total u v with h | h
    · left; rw [Nat.min_eq_left h, Nat.max_eq_right h]
    · right; rw [Nat.min_eq_right h, Nat.max_eq_left h]; exact ⟨rfl, rfl⟩
  rcases hy with h | h
  · rw [(ends h).1, (ends h).2]; exact same
  · rw [(ends h).1, (ends h).2]
    rcases same with h | ⟨h1, h2⟩
    · right; exact ⟨(Prod.mk.inj h).2, (Prod.mk.inj h).1⟩
    · left; exact Prod.ext h2 h1

theorem two_of_mem {α : Type} {l : List α} {a b : α} (ha : a ∈ l) (hb : b ∈ l) (h : a ≠ b) : 2 ≤ l.length := by
  match l with
  | [] => cases ha
  | [c] => rw [List.mem_singleton] at ha hb; exact absurd (ha.trans hb.symm) h
  | _ :: _ :: _ => simp

/-- Two edges at the same place are on a Line, or the two sides of an edge of a Surface. -/
theorem glued (found : LineEdgesFound m) (hids : (m.surfaces.map FaceData.id).Nodup)
    (hds : ∀ s ∈ m.surfaces, s.active = true → ¬ SurfaceMeshDefect lib m s)
    (hme : ¬ ∃ e, e.1 ≤ e.2 ∧ 2 ≤ (interiorUses (m.manifold lib) e).length)
    (hadj : ∀ s ∈ m.surfaces, ∀ x q, IsPolygonEdge s.toSurfaceMesh x → s.polygonAdjacent x = some q → q < s.nbPolygons)
    {s s' : FaceData P} (hs : s ∈ m.surfaces) (hsa : s.active = true) (hs' : s' ∈ m.surfaces) (hsa' : s'.active = true)
    {x x' : PolygonEdge} (hne : s.id ≠ s'.id ∨ x.1 ≠ x'.1) {u v : Index} (hx : FaceEdgeOn m s x u v)
    (hx' : FaceEdgeOn m s' x' u v) :
    (∃ l ∈ m.lines, ∃ e, LineEdge m l e u v ∨ LineEdge m l e v u) ∨
      (s.id = s'.id ∧ s.polygonAdjacent x = some x'.1 ∧ s'.polygonAdjacent x' = some x.1) := by
  have border : ∀ {s : FaceData P}, s ∈ m.surfaces → s.active = true → ∀ {x}, FaceEdgeOn m s x u v →
      s.polygonAdjacent x = none → ∃ l ∈ m.lines, ∃ e, LineEdge m l e u v ∨ LineEdge m l e v u := by
    intro s hs hsa x hx hn
    have hpe : IsPolygonEdge s.toSurfaceMesh x := by rcases hx with h | h <;> exact h.1
    obtain ⟨u', v', ⟨_, a, b, hab, hu, hv⟩, l, hl, e, he⟩ := Skin.onLine found (hds s hs hsa) hpe hn
    refine ⟨l, hl, e, ?_⟩
    have key : ∀ {u v}, FaceEdge m s x u v → u = u' ∧ v = v' := by
      rintro u v ⟨_, a', b', hab', h1, h2⟩
      obtain rfl : a' = a := hab'.1.symm.trans hab.1
      obtain rfl : b' = b := hab'.2.symm.trans hab.2
      exact ⟨Option.some.inj (h1.symm.trans hu), Option.some.inj (h2.symm.trans hv)⟩
    rcases hx with h | h
    · obtain ⟨rfl, rfl⟩ := key h; exact he
    · obtain ⟨rfl, rfl⟩ := key h; exact he.symm
  cases hq : s.polygonAdjacent x with
  | none => exact .inl (border hs hsa hx hq)
  | some q =>
  cases hq' : s'.polygonAdjacent x' with
  | none => exact .inl (border hs' hsa' hx' hq')
  | some q' =>
  right
  obtain ⟨y, hy, ⟨r, hr, hle⟩, hyx⟩ := counted hx (hds s hs hsa) (hadj s hs) hq
  obtain ⟨y', hy', ⟨r', hr', hle'⟩, hyx'⟩ := counted hx' (hds s' hs' hsa') (hadj s' hs') hq'
  have hm := mem_uses (lib := lib) hy hr hle
  have hm' := mem_uses (lib := lib) hy' hr' hle'
  have hin : ∀ {s : FaceData P}, s ∈ m.surfaces → s.active = true →
      m.manifoldSurface lib s ∈ (m.manifold lib).surfaces.filter fun s => s.active := fun hs ha =>
    List.mem_filter.2 ⟨List.mem_map_of_mem hs, ha⟩
  have one : min u v ≤ max u v := Nat.le_trans (Nat.min_le_left _ _) (Nat.le_max_left _ _)
  by_cases hid : s.id = s'.id
  · obtain rfl : s = s' := List.inj_on_of_nodup_map hids hs hs' hid
    have hyy : y = y' := by
      by_contra hyy
      refine hme ⟨(min u v, max u v), one, ?_⟩
      refine Nat.le_trans (two_of_mem hm hm' hyy) ?_
      rw [← List.length_map (as := List.filter _ _) (fun _ => (m.manifoldSurface lib s).id)]
      unfold interiorUses
      rw [List.flatMap_def]
      refine (List.sublist_flatten_of_mem ?_).length_le
      exact List.mem_map.2 ⟨m.manifoldSurface lib s, hin hs hsa, rfl⟩
    subst hyy
    have hne := hne.resolve_left (fun h => h rfl)
    refine ⟨rfl, ?_⟩
    rcases hyx with rfl | ⟨h1, h2⟩ <;> rcases hyx' with rfl | ⟨h1', h2'⟩
    · exact absurd rfl hne
    · rw [h1', ← hq, h2']; exact ⟨rfl, rfl⟩
    · rw [h1, ← hq', h2]; exact ⟨rfl, rfl⟩
    · exact absurd (Option.some.inj (h2.symm.trans h2')) hne
  · refine absurd ⟨(min u v, max u v), one, two_of_mem (a := s.id) (b := s'.id) ?_ ?_ hid⟩ hme
    · exact List.mem_flatMap.2 ⟨_, hin hs hsa, List.mem_map.2 ⟨y, hm, rfl⟩⟩
    · exact List.mem_flatMap.2 ⟨_, hin hs' hsa', List.mem_map.2 ⟨y', hm', rfl⟩⟩

end PolygonsMeet

/-- **C139**: when a BRep is declared valid, if two polygons of active Surfaces have edges at the same place, either these edges are
the two sides of an edge of one Surface, or there is an edge of a Line there. -/
theorem C139_brep {P : Type} (lib : ModelLibrary P) (rt : ModelRuntime) (hrt : ModelRuntimeOk rt)
    (m : ModelData P) (c : Candidates P) (h : BRepOk lib rt m c) (found : LineEdgesFound m)
    (adjacent : ∀ s ∈ m.surfaces, ∀ x q, IsPolygonEdge s.toSurfaceMesh x → s.polygonAdjacent x = some q → q < s.nbPolygons) :
    ∃ v N, (∀ fuel ≥ N, isBRepOfValid lib rt fuel m = .ok v) ∧ (v.isValid = true →
      ∀ s ∈ m.surfaces, s.active = true → ∀ s' ∈ m.surfaces, s'.active = true →
        ∀ x x' : PolygonEdge, (s.id ≠ s'.id ∨ x.1 ≠ x'.1) → ∀ u v, FaceEdgeOn m s x u v → FaceEdgeOn m s' x' u v →
          (∃ l ∈ m.lines, ∃ e, LineEdge m l e u v ∨ LineEdge m l e v u) ∨
            (s.id = s'.id ∧ s.polygonAdjacent x = some x'.1 ∧ s'.polygonAdjacent x' = some x.1)) := by
  obtain ⟨v, N, h1, h2, h3, _⟩ := C82_brep_partial lib rt hrt m c h
  refine ⟨v, N, h1, fun hv s hs hsa s' hs' hsa' x x' hne u w hx hx' => ?_⟩
  have hids := h.meshesKnown.ids
  rw [List.nodup_append, List.nodup_append, List.nodup_append] at hids
  have key : (∀ s ∈ m.surfaces, s.active = true → ¬ SurfaceMeshDefect lib m s) ∧
      ¬ ∃ e, e.1 ≤ e.2 ∧ 2 ≤ (interiorUses (m.manifold lib) e).length := by
    by_cases hu : LinesUnreadable (m.topology rt)
    · have hd := (h3 hu).2.1 hv
      unfold BRepDefectBesideLines at hd
      simp only [not_or] at hd
      exact ⟨fun s hs hsa h => hd.2.2.2.1 ⟨s, hs, hsa, h⟩, hd.2.2.2.2.2.1⟩
    · have hd := (h2 hu).1 hv
      unfold BRepDefect at hd
      simp only [not_or] at hd
      exact ⟨fun s hs hsa h => hd.2.2.2.1 ⟨s, hs, hsa, h⟩, hd.2.2.2.2.2.1⟩
  exact PolygonsMeet.glued found hids.1.2.1 key.1 key.2 adjacent hs hsa hs' hsa' hne hx hx'

set_option maxRecDepth 20000 in
/-- The edge of the faces 21 and 22 of the tetrahedron between the unique vertices 0 and 1 is on a Line. -/
example : ∃ l ∈ (exampleModel tetrahedronBRep (10 * ·) .positive).lines, ∃ e,
    LineEdge (exampleModel tetrahedronBRep (10 * ·) .positive) l e 0 1 ∨
    LineEdge (exampleModel tetrahedronBRep (10 * ·) .positive) l e 1 0 := by
  obtain ⟨v, N, h1, h2⟩ := C139_brep modelLibrary modelRuntime modelRuntime_ok _ _ (tetrahedronBRep_ok .positive)
    (exampleModel_lineEdges _ _ _) (exampleModel_sound_faces _ _ _).adjacent
  have he : isBRepOfValid modelLibrary modelRuntime (N + 20) (exampleModel tetrahedronBRep (10 * ·) .positive) = .ok {} := by
    rfl
  have h := h1 (N + 20) (by omega)
  rw [he] at h
  injection h with h
  subst h
  refine (h2 rfl _ (List.mem_map.2 ⟨⟨21, true, 3, 1⟩, by decide, rfl⟩) rfl
    _ (List.mem_map.2 ⟨⟨22, true, 3, 1⟩, by decide, rfl⟩) rfl (0, 0) (0, 0) (.inl (by decide)) 0 1 (.inl ?_) (.inl ?_)).resolve_right
    fun h => absurd h.1 (by decide)
  · exact (example_faceEdge tetrahedronBRep (10 * ·) .positive ⟨21, true, 3, 1⟩ 0 0 0 1).2 ⟨by decide, by decide, by decide⟩
  · exact (example_faceEdge tetrahedronBRep (10 * ·) .positive ⟨22, true, 3, 1⟩ 0 0 0 1).2 ⟨by decide, by decide, by decide⟩

end Inspector
