import Verif.Spec.LinkedSurfaces
import Verif.Proofs.Topology
import Verif.Proofs.HashMap
/-! The fused mesh of a list of surfaces, and the closedness of the boundary of a block. -/
namespace Inspector
open Spec

variable {m : TopologyModel}

/-- Invariant of the fused mesh. -/
structure FuseInv (m : TopologyModel) (f : FusedSurface) : Prop where
  mapped : ∀ e ∈ f.mapping, ∃ q, f.points[e.2]? = some q ∧ uniqueVertexOf m q = e.1
  covers : ∀ q ∈ f.points, ∃ e ∈ f.mapping, e.1 = uniqueVertexOf m q
  distinct : (f.points.map (uniqueVertexOf m)).Nodup

/-- A point of the mesh standing for a surface vertex. -/
def CornerOf (m : TopologyModel) (f : FusedSurface) (p : Uuid × Index) (i : Nat) : Prop :=
  ∃ q, f.points[i]? = some q ∧ uniqueVertexOf m q = uniqueVertexOf m p

theorem getElem?_prefix {α : Type} {a b : List α} (h : a <+: b) {i : Nat} {x : α} (hx : a[i]? = some x) :
    b[i]? = some x := by
  obtain ⟨t, rfl⟩ := h
  have : i < a.length := by
    by_contra hc
    rw [List.getElem?_eq_none (by omega)] at hx
    cases hx
  rw [List.getElem?_append_left this]; exact hx

theorem CornerOf.mono {f f' : FusedSurface} (h : f.points <+: f'.points) {p : Uuid × Index} {i : Nat}
    (hc : CornerOf m f p i) : CornerOf m f' p i := by
  obtain ⟨q, hq, hu⟩ := hc
  exact ⟨q, getElem?_prefix h hq, hu⟩

theorem fuseVertex_spec (s v : Index) (f : FusedSurface) (acc : List Nat) (hi : FuseInv m f) :
    ∃ f' i, fuseVertex m s (f, acc) v = (f', acc ++ [i]) ∧ FuseInv m f' ∧ f.points <+: f'.points ∧
      f'.polygons = f.polygons ∧ CornerOf m f' (s, v) i ∧ ∀ q ∈ f'.points, q ∈ f.points ∨ q = (s, v) := by
  unfold fuseVertex
  simp only []
  have hu : m.uniqueVertex ⟨⟨.surface, s⟩, v⟩ = uniqueVertexOf m (s, v) := rfl
  rw [hu]
  cases hfind : f.mapping.find? fun e => e.1 == uniqueVertexOf m (s, v) with
  | some e =>
    have he := List.mem_of_find?_eq_some hfind
    have hk : e.1 = uniqueVertexOf m (s, v) := by simpa using List.find?_some hfind
    obtain ⟨q, hq, hqu⟩ := hi.mapped e he
    exact ⟨f, e.2, rfl, hi, List.prefix_rfl, rfl, ⟨q, hq, hqu.trans hk⟩, fun q hq => Or.inl hq⟩
  | none =>
    have hnone : ∀ e ∈ f.mapping, e.1 ≠ uniqueVertexOf m (s, v) := by
      intro e he; simpa using (List.find?_eq_none.1 hfind) e he
    have hnew : ∀ q ∈ f.points, uniqueVertexOf m q ≠ uniqueVertexOf m (s, v) := by
      intro q hq
      obtain ⟨e, he, hk⟩ := hi.covers q hq
      rw [← hk]; exact hnone e he
    refine ⟨_, f.points.length, rfl, ⟨?_, ?_, ?_⟩, List.prefix_append _ _, rfl, ⟨(s, v), by simp, rfl⟩, ?_⟩
    · intro e he
      rcases List.mem_append.1 he with h | h
      · obtain ⟨q, hq, hqu⟩ := hi.mapped e h
        exact ⟨q, getElem?_prefix (List.prefix_append _ _) hq, hqu⟩
      · rw [List.mem_singleton.1 h]
        exact ⟨(s, v), by simp, rfl⟩
    · intro q hq
      rcases List.mem_append.1 hq with h | h
      · obtain ⟨e, he, hk⟩ := hi.covers q h
        exact ⟨e, List.mem_append.2 (Or.inl he), hk⟩
      · rw [List.mem_singleton.1 h]
        exact ⟨_, List.mem_append.2 (Or.inr (List.mem_singleton.2 rfl)), rfl⟩
    · rw [List.map_append, List.nodup_append]
      refine ⟨hi.distinct, by simp, ?_⟩
      intro a ha b hb hab
      obtain ⟨q, hq, rfl⟩ := List.mem_map.1 ha
      simp only [List.map_cons, List.map_nil, List.mem_singleton] at hb
      exact hnew q hq (hab.trans hb)
    · intro q hq
      rcases List.mem_append.1 hq with h | h
      · exact Or.inl h
      · exact Or.inr (List.mem_singleton.1 h)

theorem fuseVertices_spec (s : Uuid) : ∀ (vs : List Index) (f : FusedSurface) (acc : List Nat), FuseInv m f →
    ∃ f' is, vs.foldl (fuseVertex m s) (f, acc) = (f', acc ++ is) ∧ FuseInv m f' ∧ f.points <+: f'.points ∧
      f'.polygons = f.polygons ∧ List.Forall₂ (CornerOf m f') (vs.map fun v => (s, v)) is ∧
      ∀ q ∈ f'.points, q ∈ f.points ∨ q ∈ vs.map fun v => (s, v)
  | [], f, acc, hi => ⟨f, [], by simp, hi, List.prefix_rfl, rfl, List.Forall₂.nil, fun q hq => Or.inl hq⟩
  | v :: vs, f, acc, hi => by
    obtain ⟨f1, i, e1, h1, p1, g1, c1, q1⟩ := fuseVertex_spec s v f acc hi
    obtain ⟨f2, is, e2, h2, p2, g2, c2, q2⟩ := fuseVertices_spec s vs f1 (acc ++ [i]) h1
    refine ⟨f2, i :: is, ?_, h2, p1.trans p2, g2.trans g1, ?_, ?_⟩
    · rw [List.foldl_cons, e1, e2]; simp
    · exact List.Forall₂.cons (c1.mono p2) c2
    · intro q hq
      rcases q2 q hq with h | h
      · rcases q1 q h with h | h
        · exact Or.inl h
        · exact Or.inr (by simp [h])
      · exact Or.inr (List.mem_cons_of_mem _ h)

/-- Invariant with the polygons. -/
structure FusionInv (m : TopologyModel) (polygons : List (List (Uuid × Index))) (f : FusedSurface) : Prop where
  inv : FuseInv m f
  corners : List.Forall₂ (List.Forall₂ (CornerOf m f)) polygons f.polygons
  points : ∀ q ∈ f.points, ∃ polygon ∈ polygons, q ∈ polygon

theorem fusePolygon_spec (s : Uuid) (polygon : Index) {L : List (List (Uuid × Index))} {f : FusedSurface}
    (h : FusionInv m L f) :
    FusionInv m (L ++ [(m.polygonVertices s polygon).map fun v => (s, v)]) (fusePolygon m s f polygon) := by
  obtain ⟨f1, is, e1, h1, p1, g1, c1, q1⟩ := fuseVertices_spec s (m.polygonVertices s polygon) f [] h.inv
  unfold fusePolygon
  rw [e1]
  simp only [List.nil_append]
  refine ⟨⟨h1.mapped, h1.covers, h1.distinct⟩, ?_, ?_⟩
  · simp only [g1]
    refine List.rel_append ?_ (List.Forall₂.cons ?_ List.Forall₂.nil)
    · exact h.corners.imp fun _ _ hab => hab.imp fun _ _ hc => CornerOf.mono (f' := f1) p1 hc
    · exact c1
  · intro q hq
    rcases q1 q hq with hq | hq
    · obtain ⟨poly, hp, hm⟩ := h.points q hq
      exact ⟨poly, by simp [hp], hm⟩
    · exact ⟨_, List.mem_append.2 (Or.inr (List.mem_singleton.2 rfl)), hq⟩

theorem fusePolygons_spec (s : Uuid) : ∀ (ps : List Index) {L : List (List (Uuid × Index))} {f : FusedSurface},
    FusionInv m L f →
    FusionInv m (L ++ ps.map fun p => (m.polygonVertices s p).map fun v => (s, v)) (ps.foldl (fusePolygon m s) f)
  | [], L, f, h => by simpa using h
  | p :: ps, L, f, h => by
    have := fusePolygons_spec s ps (fusePolygon_spec s p h)
    rw [List.foldl_cons, List.map_cons]
    simpa using this

theorem fuse_from : ∀ (cs : List TopologyComponent),
    (∀ c ∈ cs, m.component .surface c.id = .ok c) →
    ∀ {L : List (List (Uuid × Index))} {f : FusedSurface}, FusionInv m L f →
    ∃ f', (cs.map TopologyComponent.id).foldlM (fun fused surface_id => do
        let surface ← m.component .surface surface_id
        return (List.range surface.nbElements).foldl (fusePolygon m surface_id) fused) f = .ok f' ∧
      FusionInv m (L ++ cs.flatMap (facetsOfSurface m)) f'
  | [], _, L, f, h => ⟨f, rfl, by simpa using h⟩
  | c :: cs, hc, L, f, h => by
    have h1 := fusePolygons_spec c.id (List.range c.nbElements) h
    obtain ⟨f', e, h2⟩ := fuse_from cs (fun x hx => hc x (by simp [hx])) h1
    refine ⟨f', ?_, ?_⟩
    · rw [List.map_cons, List.foldlM_cons]
      simp only [bind, Except.bind, hc c (by simp), pure, Except.pure] at e ⊢
      exact e
    · rw [List.flatMap_cons, ← List.append_assoc]; exact h2

theorem fuse_spec (cs : List TopologyComponent) (hc : ∀ c ∈ cs, m.component .surface c.id = .ok c) :
    ∃ fused, fuseBRepSurfacesFromList m (cs.map TopologyComponent.id) = .ok fused ∧
      IsFusion m (cs.flatMap (facetsOfSurface m)) fused := by
  obtain ⟨f, e, h⟩ := fuse_from cs hc (L := []) (f := {})
    ⟨⟨by simp, by simp, by simp⟩, List.Forall₂.nil, by simp⟩
  refine ⟨f, e, ⟨?_, h.inv.distinct, ?_⟩⟩
  · rw [List.nil_append] at h; exact h.corners
  · rw [List.nil_append] at h; exact h.points

/-- The components of a list of uuids of surfaces of the model. -/
theorem exists_components (wf : WellFormed m) : ∀ l : List Uuid, (∀ s ∈ l, Has m .surface s) →
    ∃ cs : List TopologyComponent, l = cs.map TopologyComponent.id ∧
      ∀ c ∈ cs, m.component .surface c.id = .ok c ∧ c ∈ m.components .surface
  | [], _ => ⟨[], rfl, by simp⟩
  | s :: l, h => by
    obtain ⟨cs, e, hc⟩ := exists_components wf l (fun x hx => h x (by simp [hx]))
    obtain ⟨c, h1, h2, h3, _⟩ := component_ok (wf.ids .surface) (h s (by simp))
    refine ⟨c :: cs, by rw [List.map_cons, e, h3], ?_⟩
    intro x hx
    rcases List.mem_cons.1 hx with rfl | hx
    · exact ⟨by rw [h3]; exact h1, h2⟩
    · exact hc x hx

/-! ### Closedness -/

theorem vertexIsOutside_ok {g : BlockGeometry} (hg : RaisesOpenGeode g) (mesh : FusedSurface) (s v : Index) :
    ∃ b, vertexIsOutside g mesh s v = .ok b ∧ (b = false ↔ g.isVertexInside mesh s v = .ok true) := by
  unfold vertexIsOutside
  cases h : g.isVertexInside mesh s v with
  | ok inside => exact ⟨_, rfl, by cases inside <;> simp⟩
  | error f => rw [hg mesh s v f h]; exact ⟨true, rfl, by simp⟩

theorem loopAnyM_decides {α : Type} (cond : α → Except Failure Bool) (l : List α) (P : α → Prop)
    (h : ∀ x ∈ l, ∃ b, cond x = .ok b ∧ (b = false ↔ P x)) :
    ∃ b, loopAnyM cond l = .ok b ∧ (b = false ↔ ∀ x ∈ l, P x) := by
  classical
  refine ⟨_, loopAnyM_ok cond (fun x => if P x then false else true) l ?_, ?_⟩
  · intro x hx
    obtain ⟨b, hb, hp⟩ := h x hx
    rw [hb]
    by_cases hP : P x
    · rw [if_pos hP, hp.2 hP]
    · rw [if_neg hP]
      cases b
      · exact absurd (hp.1 rfl) hP
      · rfl
  · rw [Bool.eq_false_iff, Ne, loopAny_iff]
    push Not
    constructor
    · intro h x hx; have := h x hx; by_contra hc; simp [hc] at this
    · intro h x hx; simp [h x hx]

theorem partIsOutside_ok {g : BlockGeometry} (wf : WellFormed m) (hg : RaisesOpenGeode g) (mesh : FusedSurface)
    (part : List Uuid) (hp : ∀ s ∈ part, Has m .surface s) :
    ∃ b, partIsOutside m g mesh part = .ok b ∧ (b = false ↔ PartInside m g mesh part) := by
  unfold partIsOutside
  obtain ⟨b, hb, h⟩ := loopAnyM_decides (fun surface_id =>
    match m.component .surface surface_id with
    | .error f => .error f
    | .ok surface => loopAnyM (fun vertex_id => vertexIsOutside g mesh surface_id vertex_id)
        (List.range surface.nbVertices)) part
    (fun s => ∀ c ∈ m.components .surface, c.id = s → ∀ v < c.nbVertices, g.isVertexInside mesh s v = .ok true)
    (by
      intro s hs
      obtain ⟨c, h1, h2, h3, _⟩ := component_ok (wf.ids .surface) (hp s hs)
      simp only [h1]
      obtain ⟨b, hb, h⟩ := loopAnyM_decides (fun v => vertexIsOutside g mesh s v) (List.range c.nbVertices)
        (fun v => g.isVertexInside mesh s v = .ok true) (fun v _ => vertexIsOutside_ok hg mesh s v)
      refine ⟨b, hb, h.trans ?_⟩
      constructor
      · intro h c' hc' hid v hv
        have : c' = c := List.inj_on_of_nodup_map (wf.ids .surface) hc' h2 (hid.trans h3.symm)
        exact h v (List.mem_range.2 (this ▸ hv))
      · intro h v hv; exact h c h2 h3 v (List.mem_range.1 hv))
  exact ⟨b, hb, h⟩

theorem boxEncloses_iff (g : BlockGeometry) (parts : List (List Uuid)) (i : Nat) (hi : i < parts.length) :
    (!loopAny (fun second => second != i &&
      match (parts.map (surfaceListBox g))[i]?, (parts.map (surfaceListBox g))[second]? with
      | some box1, some box2 => !g.contains box1 box2
      | _, _ => false) (List.range parts.length)) = true ↔ BoxEncloses g parts i := by
  rw [Bool.not_eq_true', Bool.eq_false_iff, Ne, loopAny_iff]
  unfold BoxEncloses
  simp only [List.getElem?_map, List.getElem?_eq_getElem hi, Option.map_some, List.mem_range]
  push Not
  constructor
  · intro h
    refine ⟨_, rfl, fun j q hq hj => ?_⟩
    have hjl : j < parts.length := by
      by_contra hc
      rw [List.getElem?_eq_none (by omega)] at hq; cases hq
    have := h j hjl
    simp only [hq, Option.map_some, bne_iff_ne, ne_eq, hj, not_false_eq_true, Bool.and_eq_true,
      Bool.not_eq_true'] at this
    simpa [hj] using this
  · rintro ⟨p, hp, h⟩ j hj
    simp only [List.getElem?_eq_getElem hj, Option.map_some]
    by_cases hji : j = i
    · simp [hji]
    · have := h j _ (List.getElem?_eq_getElem hj) hji
      cases hp
      simp [hji, this]

/-- The first part with an enclosing box, if any. -/
theorem enclosing_spec (g : BlockGeometry) (parts : List (List Uuid)) :
    (enclosingSurfaceList g parts = none ∧ ∀ i, ¬ BoxEncloses g parts i) ∨
    ∃ i, enclosingSurfaceList g parts = some i ∧ i < parts.length ∧ BoxEncloses g parts i ∧
      ∀ j < i, ¬ BoxEncloses g parts j := by
  have hlt : ∀ i, BoxEncloses g parts i → i < parts.length := by
    rintro i ⟨p, hp, _⟩
    by_contra hc
    rw [List.getElem?_eq_none (by omega)] at hp; cases hp
  have hunf : enclosingSurfaceList g parts = (List.range parts.length).find? fun first =>
    !loopAny (fun second => second != first &&
      match (parts.map (surfaceListBox g))[first]?, (parts.map (surfaceListBox g))[second]? with
      | some box1, some box2 => !g.contains box1 box2
      | _, _ => false) (List.range parts.length) := rfl
  cases h : enclosingSurfaceList g parts with
  | none =>
    left
    refine ⟨rfl, fun i hi => ?_⟩
    rw [hunf, List.find?_eq_none] at h
    exact h i (List.mem_range.2 (hlt i hi)) ((boxEncloses_iff g parts i (hlt i hi)).2 hi)
  | some i =>
    right
    rw [hunf, List.find?_range_eq_some] at h
    obtain ⟨h1, h2, h3⟩ := h
    have hi := List.mem_range.1 h2
    refine ⟨i, rfl, hi, (boxEncloses_iff g parts i hi).1 h1, fun j hj hb => ?_⟩
    have := h3 j hj
    rw [(boxEncloses_iff g parts j (by omega)).2 hb] at this
    cases this

/-- The decision, given the parts. -/
theorem blockClosed_spec {g : BlockGeometry} (wf : WellFormed m) (hg : RaisesOpenGeode g) {fuel : Nat} {block : Uuid}
    {parts : List (List Uuid)}
    (he : linkedBoundaryParts m fuel fuel (queueWithBlockBoundaries m block) = .ok parts)
    (hs : ∀ p ∈ parts, ∀ s ∈ p, Has m .surface s) :
    ∃ b, blockBoundariesAreClosed m g fuel block = .ok b ∧
      (b = true ↔ parts.length < 2 ∨
        ∃ i, BoxEncloses g parts i ∧ (∀ j < i, ¬ BoxEncloses g parts j) ∧ MeshEncloses m g parts i) := by
  unfold blockBoundariesAreClosed
  simp only [bind, Except.bind, he]
  by_cases h2 : parts.length < 2
  · rw [if_pos h2]; exact ⟨true, rfl, by simp [h2]⟩
  · rw [if_neg h2]
    rcases enclosing_spec g parts with ⟨h, hno⟩ | ⟨i, h, hi, hb, hfirst⟩
    · rw [h]
      refine ⟨false, rfl, ?_⟩
      constructor
      · intro h; cases h
      · rintro (h | ⟨i, h, _⟩)
        · exact absurd h h2
        · exact absurd h (hno i)
    · rw [h]
      simp only []
      have hget : parts[i]? = some parts[i] := List.getElem?_eq_getElem hi
      obtain ⟨cs, hcs, hc⟩ := exists_components wf parts[i] (hs _ (List.getElem_mem hi))
      obtain ⟨mesh, hmesh, _⟩ := fuse_spec cs (fun c h => (hc c h).1)
      have hd : parts.getD i [] = parts[i] := by rw [List.getD_eq_getElem?_getD, hget]; rfl
      rw [hd, hcs, hmesh]
      simp only []
      obtain ⟨b, hb', hP⟩ := loopAnyM_decides (fun surface_list_id =>
          if surface_list_id == i then .ok false
          else partIsOutside m g mesh (parts.getD surface_list_id [])) (List.range parts.length)
        (fun j => j ≠ i → PartInside m g mesh (parts.getD j []))
        (by
          intro j hj
          have hj := List.mem_range.1 hj
          by_cases hji : j = i
          · exact ⟨false, by simp [hji], by simp [hji]⟩
          · have hdj : parts.getD j [] = parts[j] := by
              rw [List.getD_eq_getElem?_getD, List.getElem?_eq_getElem hj]; rfl
            obtain ⟨b, hb, hp⟩ := partIsOutside_ok wf hg mesh parts[j] (hs _ (List.getElem_mem hj))
            refine ⟨b, by simp only [hdj]; simp [hji, hb], by rw [hp, hdj]; simp [hji]⟩)
      rw [hb']
      simp only []
      refine ⟨!b, rfl, ?_⟩
      rw [Bool.not_eq_true', hP]
      constructor
      · intro hall
        right
        refine ⟨i, hb, hfirst, parts[i], mesh, hget, by rw [hcs]; exact hmesh, ?_⟩
        intro j q hq hj
        have hjl : j < parts.length := by
          by_contra hc
          rw [List.getElem?_eq_none (by omega)] at hq; cases hq
        have := hall j (List.mem_range.2 hjl) hj
        rwa [List.getD_eq_getElem?_getD, hq] at this
      · rintro (h | ⟨i', hb1, hf1, p, mesh', hp, hm, hin⟩) j hj hji
        · exact absurd h h2
        · have : i' = i := by
            rcases lt_trichotomy i' i with h | h | h
            · exact absurd hb1 (hfirst i' h)
            · exact h
            · exact absurd hb (hf1 i h)
          subst this
          rw [hget] at hp
          cases hp
          rw [hcs, hmesh] at hm
          cases hm
          have hj := List.mem_range.1 hj
          refine hin j _ ?_ hji
          rw [List.getD_eq_getElem?_getD, List.getElem?_eq_getElem hj]; rfl

end Inspector
