import Verif.Proofs.WholeModelVerdict
import Verif.Props.Whole
/-
Lemmas for C111: an exception raised by an element reaches the caller.
-/
namespace Inspector.Raises
open Inspector Spec

/-- a loop which ends with an exception ends with the exception of one of its steps -/
theorem foldlM_error {R α : Type} (body : R → α → Except Failure R) (f : Failure) : ∀ (l : List α) (r : R),
    l.foldlM body r = .error f → ∃ x ∈ l, ∃ r', body r' x = .error f
  | [], _, h => by cases h
  | x :: l, r, h => by
    rw [List.foldlM_cons] at h
    cases hb : body r x with
    | error e =>
      rw [hb] at h
      injection h with h
      exact ⟨x, by simp, r, by rw [hb, h]⟩
    | ok r' =>
      rw [hb] at h
      obtain ⟨y, hy, r'', h'⟩ := foldlM_error body f l r' h
      exact ⟨y, by simp [hy], r'', h'⟩

/-- a loop with a step which raises whatever the state ends with an exception -/
theorem foldlM_raises {R α : Type} (body : R → α → Except Failure R) : ∀ (l : List α) (r : R),
    (∃ x ∈ l, ∀ r', ∃ f, body r' x = .error f) → ∃ f, l.foldlM body r = .error f
  | [], _, h => by obtain ⟨x, hx, _⟩ := h; cases hx
  | x :: l, r, h => by
    rw [List.foldlM_cons]
    cases hb : body r x with
    | error e => exact ⟨e, rfl⟩
    | ok r' =>
      refine foldlM_raises body l r' ?_
      obtain ⟨y, hy, h⟩ := h
      rcases List.mem_cons.1 hy with rfl | hy
      · obtain ⟨f, hf⟩ := h r
        rw [hf] at hb
        cases hb
      · exact ⟨y, hy, h⟩

theorem runTraversal_error {traverse : Traversal} {candidates : List ElementPair} (ht : IsTraversal traverse candidates)
    (action : ElementPair → Except Failure (Bool × Bool)) (f : Failure) (h : runTraversal traverse action = .error f) :
    ∃ x ∈ candidates, action x = .error f := by
  obtain ⟨x, hx, r, hr⟩ := foldlM_error _ f _ _ h
  obtain ⟨⟨l, hl, hsub⟩, _⟩ := ht fun x => match action x with
    | .ok r => r.2
    | .error _ => true
  refine ⟨x, hsub.subset (hl.symm.subset hx), ?_⟩
  cases ha : action x with
  | error e =>
    simp only [ha] at hr
    injection hr with hr
    rw [hr]
  | ok r => simp only [ha] at hr; cases hr

theorem runTraversal_raises {traverse : Traversal} {candidates : List ElementPair} (ht : IsTraversal traverse candidates)
    (action : ElementPair → Except Failure (Bool × Bool)) (hstop : ∀ x r, action x = .ok r → r.2 = false)
    (h : ∃ x ∈ candidates, ∃ f, action x = .error f) : ∃ f, runTraversal traverse action = .error f := by
  cases hr : runTraversal traverse action with
  | error f => exact ⟨f, rfl⟩
  | ok l =>
    exfalso
    have hall : ∀ x ∈ traverse (fun x => match action x with
        | .ok r => r.2
        | .error _ => true), ∃ r, action x = .ok r := by
      intro x hx
      cases ha : action x with
      | ok r => exact ⟨r, rfl⟩
      | error f =>
        obtain ⟨g, hg⟩ := foldlM_raises (fun (intersecting : List ElementPair) x =>
          match action x with
          | .error f => .error f
          | .ok r => .ok (if r.1 then intersecting ++ [x] else intersecting)) _ [] ⟨x, hx, fun _ => ⟨f, by rw [ha]⟩⟩
        have h3 : (Except.error g : Except Failure (List ElementPair)) = .ok l := hg.symm.trans hr
        cases h3
    obtain ⟨_, hperm⟩ := ht fun x => match action x with
      | .ok r => r.2
      | .error _ => true
    have hp := hperm fun x hx => by
      obtain ⟨r, hr⟩ := hall x hx
      simp only [hr]
      exact hstop x r hr
    obtain ⟨x, hx, f, hf⟩ := h
    obtain ⟨r, hr⟩ := hall x (hp.symm.subset hx)
    rw [hf] at hr
    cases hr

theorem forall₂_left {α β : Type} {R : α → β → Prop} {l : List α} {l' : List β} (h : List.Forall₂ R l l') :
    ∀ x ∈ l, ∃ y ∈ l', R x y := by
  induction h with
  | nil => intro x hx; cases hx
  | cons h _ ih =>
    intro x hx
    rcases List.mem_cons.1 hx with rfl | hx
    · exact ⟨_, by simp, h⟩
    · obtain ⟨y, hy, hr⟩ := ih x hx
      exact ⟨y, by simp [hy], hr⟩

theorem forall₂_right {α β : Type} {R : α → β → Prop} {l : List α} {l' : List β} (h : List.Forall₂ R l l') :
    ∀ y ∈ l', ∃ x ∈ l, R x y := by
  induction h with
  | nil => intro x hx; cases hx
  | cons h _ ih =>
    intro x hx
    rcases List.mem_cons.1 hx with rfl | hx
    · exact ⟨_, by simp, h⟩
    · obtain ⟨y, hy, hr⟩ := ih x hx
      exact ⟨y, by simp [hy], hr⟩

theorem comparisons_small {P : Type} {m : IntersectionModel P} (hs : AllSmall m) (c : Candidates P) :
    ∀ x ∈ comparisons m c, SmallPolygons x.1.1 ∧ SmallPolygons x.1.2 := by
  intro x hx
  rw [comparisons, List.mem_append] at hx
  rcases hx with hx | hx
  · obtain ⟨s, h, rfl⟩ := List.mem_map.1 hx
    rw [List.mem_filter] at h
    exact ⟨hs.1 s h.1, hs.1 s h.1⟩
  · obtain ⟨s, h, rfl⟩ := List.mem_map.1 hx
    exact hs.2 s h

theorem allAction_error {P : Type} (m : IntersectionModel P) (s1 s2 : ModelSurface P) (h1 : SmallPolygons s1)
    (h2 : SmallPolygons s2) (p : ElementPair) (f : Failure) :
    allModelAction (m.intersect s1 s2) (s1.id == s2.id) p = .error f ↔ PolygonsRaise m s1 s2 p f := by
  unfold allModelAction
  by_cases hd : s1.id = s2.id ∧ p.1 = p.2
  · rw [if_pos (by simp [hd.1, hd.2])]
    exact ⟨fun h => (by cases h), fun h => absurd hd h.1⟩
  · rw [if_neg (by simpa using hd), ← intersect_raises m s1 s2 p h1 h2 hd f]
    cases m.intersect s1 s2 p with
    | error e => simp
    | ok b => cases b <;> simp

theorem allAction_stop {intersect : ElementPair → Except Failure Bool} {same : Bool} (x : ElementPair) (r : Bool × Bool)
    (h : allModelAction intersect same x = .ok r) : r.2 = false := by
  unfold allModelAction at h
  split at h
  · cases h; rfl
  · split at h <;> cases h <;> rfl

/-- the exceptions of the surface intersections of a model are those of the tests of the candidates -/
theorem polygons_error {P : Type} (m : IntersectionModel P) (c : Candidates P) (ht : TreesOk m c) (hs : AllSmall m)
    (f : Failure) (h : intersectingModelPolygons m allModelAction = .error f) :
    NoEmptySurface m ∧ ∃ x ∈ comparisons m c, ∃ p ∈ x.2, PolygonsRaise m x.1.1 x.1.2 p f := by
  unfold intersectingModelPolygons at h
  split at h
  · cases h
  · rename_i hl
    rw [Bool.not_eq_true] at hl
    refine ⟨(noEmpty_loop m).1 hl, ?_⟩
    obtain ⟨task, htask, r, hr⟩ := foldlM_error _ f _ _ h
    obtain ⟨x, hx, h1, h2⟩ := forall₂_left (tasks_candidates m c ht) task htask
    have he : runTraversal task.2 (allModelAction (m.intersect task.1.1 task.1.2) (task.1.1.id == task.1.2.id)) =
        .error f := by
      unfold runIntersectionTask at hr
      cases hrun : runTraversal task.2 (allModelAction (m.intersect task.1.1 task.1.2) (task.1.1.id == task.1.2.id)) with
      | error e =>
        simp only [hrun] at hr
        injection hr with hr
        rw [hr]
      | ok l => simp only [hrun] at hr; cases hr
    rw [h1] at he
    obtain ⟨p, hp, hf⟩ := runTraversal_error h2 _ f he
    obtain ⟨s1, s2⟩ := comparisons_small hs c x hx
    exact ⟨x, hx, p, hp, (allAction_error m x.1.1 x.1.2 s1 s2 p f).1 hf⟩

theorem polygons_raises {P : Type} (m : IntersectionModel P) (c : Candidates P) (ht : TreesOk m c) (hs : AllSmall m)
    (hne : NoEmptySurface m) (h : ∃ x ∈ comparisons m c, ∃ p ∈ x.2, ∃ f, PolygonsRaise m x.1.1 x.1.2 p f) :
    ∃ f, intersectingModelPolygons m allModelAction = .error f := by
  unfold intersectingModelPolygons
  rw [(noEmpty_loop m).2 hne]
  obtain ⟨x, hx, p, hp, f, hf⟩ := h
  obtain ⟨task, htask, h1, h2⟩ := forall₂_right (tasks_candidates m c ht) x hx
  obtain ⟨s1, s2⟩ := comparisons_small hs c x hx
  obtain ⟨g, hg⟩ := runTraversal_raises h2 (allModelAction (m.intersect x.1.1 x.1.2) (x.1.1.id == x.1.2.id))
    allAction_stop ⟨p, hp, f, (allAction_error m x.1.1 x.1.2 s1 s2 p f).2 hf⟩
  exact foldlM_raises _ _ _ ⟨task, htask, fun r => ⟨g, by simp only [runIntersectionTask, h1, hg]⟩⟩

/-- a list which is not computed -/
theorem collectFromM_error_inv {α β : Type} (bad : α → Except Failure Bool) (issue : α → β) (message : α → String)
    (f : Failure) : ∀ (l : List α) (init : Issues β), collectFromM init bad issue message l = .error f →
      ∃ x ∈ l, bad x = .error f
  | [], _, h => by cases h
  | x :: l, init, h => by
    unfold collectFromM at h
    cases hb : bad x with
    | error e =>
      simp only [hb] at h
      injection h with h
      exact ⟨x, by simp, by rw [hb, h]⟩
    | ok b =>
      cases b <;> simp only [hb] at h <;>
        (obtain ⟨y, hy, h'⟩ := collectFromM_error_inv bad issue message f l _ h
         exact ⟨y, by simp [hy], h'⟩)

theorem solidVertices_error (mesh : SolidTopo) (hv : SolidVerticesExist mesh) (f : Failure)
    (h : solidNonManifoldVertices mesh = .error f) : ∃ v, v < mesh.nbVertices ∧ mesh.polyhedraAroundVertex v = .error f := by
  obtain ⟨r, h1, _, _⟩ := pushAll mesh.nbVertices (pairs mesh.nbPolyhedra mesh.nbPolyhedronVertices)
    mesh.polyhedronVertex (fun x hx => by have := (mem_pairs ..).1 hx; exact hv x.1 x.2 this.1 this.2)
    (List.replicate mesh.nbVertices []) (by simp)
  have hpv : polyhedraAroundVertices mesh = .ok r := h1
  unfold solidNonManifoldVertices at h
  rw [hpv] at h
  obtain ⟨v, hv, hb⟩ := collectFromM_error_inv _ _ _ f _ _ h
  refine ⟨v, List.mem_range.1 hv, ?_⟩
  cases hw : mesh.polyhedraAroundVertex v with
  | error e => simp only [hw] at hb; injection hb with hb; rw [hb]
  | ok l => simp only [hw] at hb; cases hb

/-- the manifold criterion of a BRep raises what the walk around a vertex of an active Block raises -/
theorem brepManifold {P : Type} (lib : ModelLibrary P) (rt : ModelRuntime) (m : ModelData P)
    (h : MeshesKnown lib m)
    (hr : ∃ f, ∃ b ∈ m.blocks, b.active = true ∧ ∃ v, v < b.points.length ∧ b.polyhedraAroundVertex v = .error f) :
    ∃ f, inspectBRepManifold rt.orders lib.cycle (m.manifold lib) = .error f ∧
      ∃ b ∈ m.blocks, b.active = true ∧ ∃ v, v < b.points.length ∧ b.polyhedraAroundVertex v = .error f := by
  obtain ⟨f, b, hb, ha, v, hv, hw⟩ := hr
  unfold inspectBRepManifold
  cases hs : addSurfacesNonManifoldVertices (m.manifold lib)
      ({} : BRepMeshesManifoldInspectionResult).meshes_non_manifold_vertices with
  | error g =>
    exfalso
    obtain ⟨s, hs', map, hbody⟩ := foldlM_error _ g _ _ hs
    obtain ⟨y, hy, rfl⟩ := List.mem_map.1 (List.mem_of_mem_filter hs')
    obtain ⟨i, h1, _⟩ := C27_surface_vertices _ (h.walks y hy).vertices (h.walks y hy).walks
    simp only [h1] at hbody
    cases hbody
  | ok vertices =>
    obtain ⟨g, hg⟩ : ∃ g, addBlocksNonManifoldVertices (m.manifold lib) vertices = .error g := by
      refine foldlM_raises _ _ _ ⟨⟨b.id, b.active, b.label, b.topo lib.toLibrary⟩, ?_, fun map => ?_⟩
      · exact List.mem_filter.2 ⟨List.mem_map.2 ⟨b, hb, rfl⟩, ha⟩
      · obtain ⟨g, hg⟩ := C28_solid_vertices_raise (b.topo lib.toLibrary) v hv f hw
        exact ⟨g, by simp only [hg]⟩
    have hs : addSurfacesNonManifoldVertices (m.manifold lib) (IssuesMap.new "non manifold mesh vertices")
      = .ok vertices := hs
    simp only [hs, hg]
    refine ⟨g, rfl, ?_⟩
    obtain ⟨x, hx, map, hbody⟩ := foldlM_error _ g _ _ hg
    have hact := (List.mem_filter.1 hx).2
    obtain ⟨y, hy, rfl⟩ := List.mem_map.1 (List.mem_of_mem_filter hx)
    refine ⟨y, hy, hact, solidVertices_error (y.topo lib.toLibrary) (h.blocks y hy).vertices g ?_⟩
    cases hn : solidNonManifoldVertices (y.topo lib.toLibrary) with
    | error g' => simp only [hn] at hbody; injection hbody with hbody; rw [hbody]
    | ok i => simp only [hn] at hbody; cases hbody

end Inspector.Raises
