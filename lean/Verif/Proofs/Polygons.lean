import Verif.Spec.Polygons
import Verif.Proofs.LineEdges
import Verif.Proofs.FusedSurface
import Verif.Proofs.Plain
/-
Proofs for C134: the defects of a model do not depend on the numbers of the polygons, polyhedra and edges of its Surfaces and
Blocks.
-/
namespace Inspector.Polygons
open Inspector Spec

/-! ### topology -/

/-- The same topology, the polygons of the Surfaces having other numbers. -/
structure Shuffled (π : Uuid → Equiv.Perm Nat) (t t' : TopologyModel) : Prop where
  range : ∀ c ∈ t.components .surface, Renumbers (π c.id) c.nbElements
  same : t' = { t with
    blockPolygons := t'.blockPolygons
    polygonVertices := t'.polygonVertices }
  blockPolygons : ∀ s i, t'.blockPolygons s (π s i) = t.blockPolygons s i
  polygonVertices : ∀ s i, t'.polygonVertices s (π s i) = t.polygonVertices s i

section
variable {π : Uuid → Equiv.Perm Nat} {t t' : TopologyModel}

theorem loop_eq (hi : t'.incidences = t.incidences) (hb : t'.boundaries = t.boundaries) (fuel : Nat) :
    ∀ (processed Q : List Uuid) (skip : Nat), closedLinkedLoop t' fuel processed Q skip = closedLinkedLoop t fuel processed Q skip := by
  have hl : ∀ x processed, findLinkedProcessedSurface t' x processed = findLinkedProcessedSurface t x processed := by
    intro x processed
    unfold findLinkedProcessedSurface TopologyModel.related
    rw [hi, hb]
  induction fuel with
  | zero => exact fun _ _ _ => rfl
  | succ fuel ih =>
    intro processed Q skip
    cases Q with
    | nil => rfl
    | cons x Q =>
      unfold closedLinkedLoop
      simp only [ih, hl]

theorem parts_eq (hi : t'.incidences = t.incidences) (hb : t'.boundaries = t.boundaries) (fuel n : Nat) :
    ∀ Q : List Uuid, linkedBoundaryParts t' fuel n Q = linkedBoundaryParts t fuel n Q := by
  induction n with
  | zero => exact fun _ => rfl
  | succ n ih =>
    intro Q
    cases Q with
    | nil => rfl
    | cons x Q =>
      unfold linkedBoundaryParts closedLinkedSurfaces
      simp only [ih, loop_eq hi hb]

/-- Surfaces that are fused exist. -/
theorem fused_exist : ∀ (l : List Uuid) (f g : FusedSurface),
    (l.foldlM (fun fused surface_id => do
        let surface ← t.component .surface surface_id
        return (List.range surface.nbElements).foldl (fusePolygon t surface_id) fused) f : Except Failure _) = .ok g →
    ∃ cs : List TopologyComponent, l = cs.map TopologyComponent.id ∧
      ∀ c ∈ cs, t.component .surface c.id = .ok c ∧ c ∈ t.components .surface
  | [], _, _, _ => ⟨[], rfl, by simp⟩
  | x :: l, f, g, h => by
    rw [List.foldlM_cons] at h
    cases hx : t.component .surface x with
    | error e => rw [hx] at h; cases h
    | ok c =>
      rw [hx] at h
      obtain ⟨cs, h1, h2⟩ := fused_exist l _ g h
      have hf := hx
      unfold TopologyModel.component at hf
      split at hf
      · next c' hc' =>
        cases hf
        have hid : c.id = x := by simpa using List.find?_some hc'
        refine ⟨c :: cs, by rw [List.map_cons, hid, h1], ?_⟩
        intro y hy
        rcases List.mem_cons.1 hy with rfl | hy
        · exact ⟨by rw [hid]; exact hx, List.mem_of_find?_eq_some hc'⟩
        · exact h2 y hy
      · cases hf

variable (s : Shuffled π t t')
include s

theorem components_eq : t'.components = t.components := by rw [s.same]

theorem facets_perm {c : TopologyComponent} (hc : c ∈ t.components .surface) :
    (facetsOfSurface t' c).Perm (facetsOfSurface t c) := by
  unfold facetsOfSurface
  refine ((Renumber.range_moved (s.range c hc)).map _).trans ?_
  rw [List.map_map]
  refine List.Perm.of_eq (List.map_congr_left fun i _ => ?_)
  show (t'.polygonVertices c.id (π c.id i)).map _ = _
  rw [s.polygonVertices]

theorem fusion_iff (polygons : List (List (Uuid × Index))) (mesh : FusedSurface) :
    IsFusion t' polygons mesh ↔ IsFusion t polygons mesh := by
  have h : uniqueVertexOf t' = uniqueVertexOf t := by
    funext p
    unfold uniqueVertexOf
    rw [s.same]
  constructor
  · rintro ⟨h1, h2, h3⟩
    rw [h] at h1 h2
    exact ⟨h1, h2, h3⟩
  · rintro ⟨h1, h2, h3⟩
    rw [← h] at h1 h2
    exact ⟨h1, h2, h3⟩

theorem meshEncloses {g : BlockGeometry} (shape : InsideOfShape t g) (parts : List (List Uuid)) (i : Nat) :
    MeshEncloses t' g parts i ↔ MeshEncloses t g parts i := by
  have hcomp := components_eq s
  have hget : ∀ id, t'.component .surface id = t.component .surface id := by
    intro id
    unfold TopologyModel.component
    rw [hcomp]
  have key : ∀ cs : List TopologyComponent, (∀ c ∈ cs, t.component .surface c.id = .ok c ∧ c ∈ t.components .surface) →
      ∀ mesh mesh', fuseBRepSurfacesFromList t (cs.map TopologyComponent.id) = .ok mesh →
        fuseBRepSurfacesFromList t' (cs.map TopologyComponent.id) = .ok mesh' →
        ∀ q, PartInside t' g mesh' q ↔ PartInside t g mesh q := by
    intro cs hcs mesh mesh' h1 h2 q
    obtain ⟨f, e1, f1⟩ := fuse_spec (m := t) cs fun c hc => (hcs c hc).1
    obtain ⟨f', e2, f2⟩ := fuse_spec (m := t') cs fun c hc => by rw [hget]; exact (hcs c hc).1
    rw [h1] at e1
    rw [h2] at e2
    cases e1
    cases e2
    have hp : (cs.flatMap (facetsOfSurface t')).Perm (cs.flatMap (facetsOfSurface t)) :=
      List.Perm.flatMap_left _ fun c hc => facets_perm s (hcs c hc).2
    have hin := shape _ _ _ _ hp ((fusion_iff s _ _).1 f2) f1
    unfold PartInside
    rw [hcomp]
    simp only [hin]
  unfold MeshEncloses
  refine exists_congr fun p => ?_
  constructor
  · rintro ⟨mesh', h1, h2, h3⟩
    obtain ⟨cs, rfl, hcs⟩ := fused_exist p _ _ h2
    have hcs' : ∀ c ∈ cs, t.component .surface c.id = .ok c ∧ c ∈ t.components .surface := fun c hc => by
      rw [← hget, ← hcomp]; exact hcs c hc
    obtain ⟨mesh, e1, _⟩ := fuse_spec (m := t) cs fun c hc => (hcs' c hc).1
    exact ⟨mesh, h1, e1, fun j q hj hji => (key cs hcs' _ _ e1 h2 q).1 (h3 j q hj hji)⟩
  · rintro ⟨mesh, h1, h2, h3⟩
    obtain ⟨cs, rfl, hcs⟩ := fused_exist p _ _ h2
    obtain ⟨mesh', e1, _⟩ := fuse_spec (m := t') cs fun c hc => by rw [hget]; exact (hcs c hc).1
    exact ⟨mesh', h1, e1, fun j q hj hji => (key cs hcs _ _ h2 e1 q).2 (h3 j q hj hji)⟩

theorem encloses {g : BlockGeometry} (shape : InsideOfShape t g) (block : Uuid) :
    BoundaryEncloses t' g block ↔ BoundaryEncloses t g block := by
  have hi : t'.incidences = t.incidences := by rw [s.same]
  have hb : t'.boundaries = t.boundaries := by rw [s.same]
  have hq : queueWithBlockBoundaries t' block = queueWithBlockBoundaries t block := by rw [s.same]; rfl
  unfold BoundaryEncloses
  simp only [parts_eq hi hb, hq, meshEncloses s shape]

theorem surfaceFacets : (∃ c ∈ t'.components .surface, c.active = true ∧ (∀ v, ¬ NotAssociated t' .surface c v) ∧
      AllMeshed t' .block ∧ ∃ f, f < c.nbElements ∧ FacetIsWrong t' c.id f) ↔
    ∃ c ∈ t.components .surface, c.active = true ∧ (∀ v, ¬ NotAssociated t .surface c v) ∧
      AllMeshed t .block ∧ ∃ f, f < c.nbElements ∧ FacetIsWrong t c.id f := by
  have hw : ∀ id f, FacetIsWrong t' id (π id f) ↔ FacetIsWrong t id f := by
    intro id f
    unfold FacetIsWrong
    rw [s.blockPolygons]
    have h1 : t'.isBoundary = t.isBoundary := by rw [s.same]
    have h2 : t'.isInternal = t.isInternal := by rw [s.same]
    unfold Active
    rw [components_eq s, h1, h2]
  have hn : ∀ c v, NotAssociated t' .surface c v ↔ NotAssociated t .surface c v := by
    intro c v
    unfold NotAssociated
    rw [s.same]
  unfold AllMeshed
  rw [components_eq s]
  simp only [hn]
  refine exists_congr fun c => and_congr_right fun hc => and_congr_right fun _ => and_congr_right fun _ =>
    and_congr_right fun _ => ?_
  exact LineEdges.ex_edge (s.range c hc) fun i => hw c.id i

theorem blocksDefect (o : BlocksOracle) (shape : InsideOfShape t o.geometry) : BlocksDefect t' o ↔ BlocksDefect t o := by
  have he : (∃ c ∈ t'.components .block, c.active = true ∧ ¬ BoundaryEncloses t' o.geometry c.id) ↔
      ∃ c ∈ t.components .block, c.active = true ∧ ¬ BoundaryEncloses t o.geometry c.id := by
    simp only [components_eq s, encloses s shape]
  unfold BlocksDefect
  rw [he, s.same]
  exact Iff.rfl

theorem brepTopology (o : BlocksOracle) (shape : InsideOfShape t o.geometry) :
    BRepTopologyDefect t' o ↔ BRepTopologyDefect t o := by
  unfold BRepTopologyDefect
  rw [surfaceFacets s, blocksDefect s o shape, s.same]
  exact Iff.rfl

theorem otherTopology (o : BlocksOracle) (shape : InsideOfShape t o.geometry) :
    OtherTopologyDefect t' o ↔ OtherTopologyDefect t o := by
  unfold OtherTopologyDefect
  rw [surfaceFacets s, blocksDefect s o shape, s.same]
  exact Iff.rfl

theorem unreadable : LinesUnreadable t' ↔ LinesUnreadable t := by
  rw [s.same]
  exact Iff.rfl

theorem sectionTopology : SectionTopologyDefect t' ↔ SectionTopologyDefect t := by
  rw [s.same]
  exact Iff.rfl

end

/-! ### Surfaces -/

section
variable {P : Type}

theorem newElement_injective (p : Equiv.Perm Nat) : Function.Injective (newElement p) := by
  rintro ⟨a, b⟩ ⟨c, d⟩ h
  injection h with h1 h2
  dsimp only at h1 h2
  rw [p.injective h1, h2]

theorem newElement_surjective (p : Equiv.Perm Nat) (x : Nat × Nat) : ∃ y, newElement p y = x :=
  ⟨oldElement p x, by simp [newElement, oldElement]⟩

theorem old_new (p : Equiv.Perm Nat) (x : Nat × Nat) : oldElement p (newElement p x) = x := by
  simp [newElement, oldElement]

theorem ex_element (p : Equiv.Perm Nat) {q q' : Nat × Nat → Prop} (h : ∀ x, q' (newElement p x) ↔ q x) :
    (∃ x, q' x) ↔ ∃ x, q x :=
  ⟨fun ⟨x, hx⟩ => by obtain ⟨y, rfl⟩ := newElement_surjective p x; exact ⟨y, (h y).1 hx⟩, fun ⟨x, hx⟩ => ⟨_, (h x).2 hx⟩⟩

/-- The same Surface, its polygons having other numbers. -/
structure SameFace (p : Equiv.Perm Nat) (s s' : SurfaceMesh) : Prop where
  range : Renumbers p s.nbPolygons
  nbPolygons : s'.nbPolygons = s.nbPolygons
  nbVertices : ∀ i, s'.nbPolygonVertices (p i) = s.nbPolygonVertices i
  vertex : ∀ x, s'.polygonVertex (newElement p x) = s.polygonVertex x
  adjacent : ∀ x, s'.polygonAdjacent (newElement p x) = (s.polygonAdjacent x).map p

theorem sameFace {p e : Equiv.Perm Nat} {s : FaceData P} (h : Renumbers p s.nbPolygons) :
    SameFace p s.toSurfaceMesh (facePolygons p e s).toSurfaceMesh where
  range := h
  nbPolygons := rfl
  nbVertices i := by simp [facePolygons]
  vertex x := by simp [facePolygons, old_new]
  adjacent x := by simp [facePolygons, old_new]

theorem renumbers_symm {p : Equiv.Perm Nat} {n : Nat} (h : Renumbers p n) : Renumbers p.symm n := fun i => by
  have := h (p.symm i)
  rw [Equiv.apply_symm_apply] at this
  exact this.symm

section
variable {p : Equiv.Perm Nat} {s s' : SurfaceMesh} (h : SameFace p s s')
include h

theorem SameFace.symm : SameFace p.symm s' s where
  range := by rw [h.nbPolygons]; exact renumbers_symm h.range
  nbPolygons := h.nbPolygons.symm
  nbVertices i := by rw [← h.nbVertices, Equiv.apply_symm_apply]
  vertex x := by
    rw [← h.vertex]
    simp [newElement]
  adjacent x := by
    obtain ⟨y, rfl⟩ := newElement_surjective p x
    have : newElement p.symm (newElement p y) = y := by simp [newElement]
    rw [this, h.adjacent, Option.map_map]
    simp [Function.comp_def]

theorem isEdge (x : PolygonEdge) : IsPolygonEdge s' (newElement p x) ↔ IsPolygonEdge s x := by
  unfold IsPolygonEdge
  rw [h.nbPolygons]
  show p x.1 < _ ∧ x.2 < s'.nbPolygonVertices (p x.1) ↔ _
  rw [h.nbVertices, h.range]

theorem edgeFromTo (i k : Nat) (a b : Index) : EdgeFromTo s' (p i) k a b ↔ EdgeFromTo s i k a b := by
  unfold EdgeFromTo
  rw [h.nbVertices]
  have h1 := h.vertex (i, k)
  have h2 := h.vertex (i, (k + 1) % s.nbPolygonVertices i)
  unfold newElement at h1 h2
  rw [h1, h2]

theorem wrongEdge (x : PolygonEdge) : WrongEdge s' (newElement p x) ↔ WrongEdge s x := by
  unfold WrongEdge
  rw [isEdge h, h.adjacent]
  refine and_congr_right fun _ => ?_
  constructor
  · rintro ⟨q, h1, h2⟩
    obtain ⟨q, h3, rfl⟩ := Option.map_eq_some_iff.1 h1
    refine ⟨q, h3, fun ⟨e', a, b, g1, g2, g3, g4⟩ => h2 ⟨e', a, b, by rw [h.nbVertices]; exact g1, (edgeFromTo h _ _ _ _).2 g2,
      (edgeFromTo h _ _ _ _).2 g3, ?_⟩⟩
    have := h.adjacent (q, e')
    rw [g4] at this
    exact this
  · rintro ⟨q, h1, h2⟩
    refine ⟨p q, by rw [h1]; rfl, fun ⟨e', a, b, g1, g2, g3, g4⟩ => h2 ⟨e', a, b, by rw [h.nbVertices] at g1; exact g1,
      (edgeFromTo h _ _ _ _).1 g2, (edgeFromTo h _ _ _ _).1 g3, ?_⟩⟩
    have := h.adjacent (q, e')
    unfold newElement at this
    dsimp only at this
    rw [g4] at this
    obtain ⟨y, h3, h4⟩ := Option.map_eq_some_iff.1 this.symm
    rw [h3, p.injective h4]

theorem ends (x : PolygonEdge) : polygonEdgeEnds s' (newElement p x) = polygonEdgeEnds s x := by
  unfold polygonEdgeEnds
  rw [h.vertex]
  refine Prod.ext rfl ?_
  show s'.polygonVertex (p x.1, (x.2 + 1) % s'.nbPolygonVertices (p x.1)) = _
  rw [h.nbVertices]
  exact h.vertex (x.1, (x.2 + 1) % s.nbPolygonVertices x.1)

theorem edges_perm : (polygonEdges s').Perm ((polygonEdges s).map (newElement p)) := by
  refine (List.perm_ext_iff_of_nodup (Plain.pairs_nodup' _ _) ((Plain.pairs_nodup' _ _).map (newElement_injective p))).2 fun x => ?_
  obtain ⟨y, rfl⟩ := newElement_surjective p x
  rw [List.mem_map_of_injective (newElement_injective p)]
  rw [Plain.mem_pairs_iff, Plain.mem_pairs_iff]
  exact isEdge h y

theorem uses_perm (e : Index × Index) : (usesOfEdge s' e).Perm ((usesOfEdge s e).map (newElement p)) := by
  unfold usesOfEdge
  refine ((edges_perm h).filter _).trans ?_
  rw [List.filter_map]
  refine List.Perm.of_eq (congrArg _ (List.filter_congr fun x _ => ?_))
  simp only [Function.comp_apply, ends h]

theorem nonManifoldEdge (e : Index × Index) : NonManifoldEdge s' e ↔ NonManifoldEdge s e := by
  have hu := uses_perm h e
  have hlen : (usesOfEdge s' e).length = (usesOfEdge s e).length := by rw [hu.length_eq, List.length_map]
  have hb : DeclaredBorder s' e ↔ DeclaredBorder s e := by
    unfold DeclaredBorder
    simp only [hu.mem_iff, List.mem_map, exists_exists_and_eq_and, h.adjacent, Option.map_eq_none_iff]
  have hn : usesOfEdge s' e ≠ [] ↔ usesOfEdge s e ≠ [] := by
    rw [← List.length_pos_iff, ← List.length_pos_iff, hlen]
  unfold NonManifoldEdge
  rw [hb, hn, hlen]

end

theorem fan_mapped {α : Type} (f : α → α) (hf : Function.Injective f) (hs : ∀ x, ∃ y, f y = x) (r : Except Failure (List α))
    (q q' : α → Prop) (hq : ∀ x, q' (f x) ↔ q x) :
    (∃ around, r.map (List.map f) = .ok around ∧ ¬ (around.Nodup ∧ ∀ x, x ∈ around ↔ q' x)) ↔
      ∃ around, r = .ok around ∧ ¬ (around.Nodup ∧ ∀ x, x ∈ around ↔ q x) := by
  have key : ∀ l : List α, ((l.map f).Nodup ∧ ∀ x, x ∈ l.map f ↔ q' x) ↔ (l.Nodup ∧ ∀ x, x ∈ l ↔ q x) := by
    intro l
    rw [List.nodup_map_iff hf]
    refine and_congr_right fun _ => ⟨fun h x => ?_, fun h x => ?_⟩
    · rw [← hq, ← h, List.mem_map_of_injective hf]
    · obtain ⟨y, rfl⟩ := hs x
      rw [List.mem_map_of_injective hf, hq, h]
  cases r with
  | error e => simp [Except.map]
  | ok l =>
    simp only [Except.map, Except.ok.injEq, ↓existsAndEq, true_and, key]

theorem brokenFan {p e : Equiv.Perm Nat} {s : FaceData P} (h : Renumbers p s.nbPolygons) (v : Index) :
    PlainBrokenFan (facePolygons p e s) v ↔ PlainBrokenFan s v := by
  unfold PlainBrokenFan
  refine and_congr Iff.rfl ?_
  have hs := sameFace (e := e) h
  exact fan_mapped _ (newElement_injective p) (newElement_surjective p) _ _ _ fun x => by
    rw [isEdge hs, hs.vertex]

variable {lib : ModelLibrary P} {π ε : Uuid → Equiv.Perm Nat} {m : ModelData P}

theorem isActiveId (id : Uuid) : IsActiveId (withElements π ε m) id ↔ IsActiveId m id := by
  simp [IsActiveId, withElements, facePolygons, volumePolyhedra]

theorem pointsOf (c : ComponentID) (points : List P) : PointsOf (withElements π ε m) c points ↔ PointsOf m c points := by
  unfold PointsOf
  cases c.type <;> simp [withElements, facePolygons, volumePolyhedra]

theorem isAt (cmv : ComponentMeshVertex) (p : P) : IsAt lib (withElements π ε m) cmv p ↔ IsAt lib m cmv p := by
  unfold IsAt
  simp only [pointsOf]

theorem firstActive (uv : Index) (first : ComponentMeshVertex) :
    FirstActive (withElements π ε m) uv first ↔ FirstActive m uv first := by
  unfold FirstActive
  simp only [isActiveId]
  exact Iff.rfl

theorem differentPoints (uv : Index) : PlainDifferentPoints lib (withElements π ε m) uv ↔ PlainDifferentPoints lib m uv := by
  unfold PlainDifferentPoints
  simp only [firstActive, isAt, isActiveId]
  exact Iff.rfl

theorem colocatedUvs : PlainColocatedUniqueVertices lib (withElements π ε m) ↔ PlainColocatedUniqueVertices lib m := by
  unfold PlainColocatedUniqueVertices ActivePoints
  simp only [firstActive, isAt, isActiveId]
  exact Iff.rfl

theorem ex_face (q : FaceData P → Prop) :
    (∃ s ∈ (withElements π ε m).surfaces, q s) ↔ ∃ s ∈ m.surfaces, q (facePolygons (π s.id) (ε s.id) s) := by
  simp [withElements]

theorem ex_volume (q : VolumeData P → Prop) :
    (∃ b ∈ (withElements π ε m).blocks, q b) ↔ ∃ b ∈ m.blocks, q (volumePolyhedra (π b.id) (ε b.id) b) := by
  simp [withElements]

theorem borderNotOnLine {s : FaceData P} (h : Renumbers (π s.id) s.nbPolygons) (x : PolygonEdge) :
    BorderNotOnLine (withElements π ε m) (facePolygons (π s.id) (ε s.id) s) (newElement (π s.id) x) ↔ BorderNotOnLine m s x := by
  have hs := sameFace (e := ε s.id) h
  unfold BorderNotOnLine
  rw [isEdge hs, hs.adjacent, Option.map_eq_none_iff]
  have he := edgeFromTo hs x.1 x.2
  show _ ∧ _ ∧ ¬ (∃ a b u v, EdgeFromTo _ (π s.id x.1) x.2 a b ∧ _) ↔ _
  simp only [he]
  exact Iff.rfl

theorem surfaceDefect (h : ElementNumbersOf π ε m) {s : FaceData P} (hs : s ∈ m.surfaces) :
    PlainSurfaceDefect lib (withElements π ε m) (facePolygons (π s.id) (ε s.id) s) ↔ PlainSurfaceDefect lib m s := by
  have hp := h.polygons s hs
  have hf := sameFace (e := ε s.id) hp
  unfold PlainSurfaceDefect
  refine or_congr Iff.rfl (or_congr (ex_element (π s.id) fun x => wrongEdge hf x) (or_congr
    (ex_element (π s.id) fun x => borderNotOnLine hp x) (or_congr ?_ (or_congr ?_ (or_congr
      (exists_congr fun v => brokenFan hp v) (exists_congr fun e => nonManifoldEdge hf e))))))
  · refine LineEdges.ex_edge (h.surfaceEdges s hs) fun i => ?_
    simp [facePolygons]
  · refine LineEdges.ex_edge hp fun i => ?_
    simp [facePolygons]

theorem negativePolygon {p e : Equiv.Perm Nat} {s : FaceData P} (h : Renumbers p s.nbPolygons) :
    (∃ i, i < (facePolygons p e s).nbPolygons ∧ (facePolygons p e s).polygonAreaSign i = .negative) ↔
      ∃ i, i < s.nbPolygons ∧ s.polygonAreaSign i = .negative :=
  LineEdges.ex_edge h fun i => by simp [facePolygons]

/-! ### intersections -/

/-- A Surface as given to the tests of triangles, its polygons having other numbers. -/
def shuffle (p : Equiv.Perm Nat) (r : ModelSurface P) : ModelSurface P :=
  { r with polygonVertices := fun i => r.polygonVertices (p.symm i) }

theorem shuffle_surjective (p : Equiv.Perm Nat) (r : ModelSurface P) : ∃ r0, shuffle p r0 = r :=
  ⟨shuffle p.symm r, by simp [shuffle]⟩

theorem givenSurface (s : FaceData P) (r : ModelSurface P) :
    GivenSurface lib (withElements π ε m) (facePolygons (π s.id) (ε s.id) s) (shuffle (π s.id) r) ↔ GivenSurface lib m s r := by
  constructor
  · rintro ⟨h1, h2, h3, h4, h5, h6, h7⟩
    refine ⟨h1, h2, h3, fun p => ?_, h5, h6, h7⟩
    have := h4 (π s.id p)
    simpa [shuffle, facePolygons, oldElement] using this
  · rintro ⟨h1, h2, h3, h4, h5, h6, h7⟩
    refine ⟨h1, h2, h3, fun p => ?_, h5, h6, h7⟩
    exact h4 ((π s.id).symm p)

theorem common (p q : Equiv.Perm Nat) (r1 r2 : ModelSurface P) (t1 t2 : List Index) (c : List (Index × Index)) :
    CommonVertices (shuffle p r1) (shuffle q r2) t1 t2 c ↔ CommonVertices r1 r2 t1 t2 c :=
  ⟨fun h => ⟨h.vertices, h.others⟩, fun h => ⟨h.vertices, h.others⟩⟩

theorem brepMeet (g : Geometry P) (p q : Equiv.Perm Nat) (r1 r2 : ModelSurface P) (t1 t2 : List Index) :
    BRepTrianglesMeet g (shuffle p r1) (shuffle q r2) t1 t2 ↔ BRepTrianglesMeet g r1 r2 t1 t2 := by
  unfold BRepTrianglesMeet
  refine exists_congr fun c => and_congr (common p q r1 r2 t1 t2 c) ?_
  match c with
  | [] => exact Iff.rfl
  | [_] => exact Iff.rfl
  | [_, _] => exact Iff.rfl
  | _ :: _ :: _ :: _ => exact Iff.rfl

theorem sectionMeet (g : Geometry P) (p q : Equiv.Perm Nat) (r1 r2 : ModelSurface P) (t1 t2 : List Index) :
    SectionTrianglesMeet g (shuffle p r1) (shuffle q r2) t1 t2 ↔ SectionTrianglesMeet g r1 r2 t1 t2 := by
  unfold SectionTrianglesMeet
  refine exists_congr fun c => and_congr (common p q r1 r2 t1 t2 c) ?_
  match c with
  | [] => exact Iff.rfl
  | [_] => exact Iff.rfl
  | [_, _] => exact Iff.rfl
  | _ :: _ :: _ :: _ => exact Iff.rfl

theorem polygonsMeet (h : ElementNumbersOf π ε m) {Meet : ModelSurface P → ModelSurface P → List Index → List Index → Prop}
    (hm : ∀ p q r1 r2 t1 t2, Meet (shuffle p r1) (shuffle q r2) t1 t2 ↔ Meet r1 r2 t1 t2) :
    PlainPolygonsMeet lib (withElements π ε m) Meet ↔ PlainPolygonsMeet lib m Meet := by
  have hpv : ∀ p (r : ModelSurface P) i, (shuffle p r).polygonVertices (p i) = r.polygonVertices i := by
    intro p r i
    simp [shuffle]
  unfold PlainPolygonsMeet
  constructor
  · rintro ⟨s1, s2, r1, r2, p, q, h1, h2, h3, h4, g1, g2, h5, h6, h7, t1, ht1, t2, ht2, hmeet⟩
    obtain ⟨s1, h1', rfl⟩ := List.mem_map.1 h1
    obtain ⟨s2, h3', rfl⟩ := List.mem_map.1 h3
    obtain ⟨r1, rfl⟩ := shuffle_surjective (π s1.id) r1
    obtain ⟨r2, rfl⟩ := shuffle_surjective (π s2.id) r2
    obtain ⟨p, rfl⟩ := (π s1.id).surjective p
    obtain ⟨q, rfl⟩ := (π s2.id).surjective q
    rw [hpv] at ht1 ht2
    refine ⟨s1, s2, r1, r2, p, q, h1', h2, h3', h4, (givenSurface _ _).1 g1, (givenSurface _ _).1 g2,
      (h.polygons s1 h1' p).1 h5, (h.polygons s2 h3' q).1 h6, ?_, t1, ht1, t2, ht2, (hm _ _ _ _ _ _).1 hmeet⟩
    rintro ⟨e1, rfl⟩
    exact h7 ⟨e1, by rw [e1]⟩
  · rintro ⟨s1, s2, r1, r2, p, q, h1, h2, h3, h4, g1, g2, h5, h6, h7, t1, ht1, t2, ht2, hmeet⟩
    refine ⟨_, _, _, _, π s1.id p, π s2.id q, List.mem_map_of_mem h1, h2, List.mem_map_of_mem h3, h4,
      (givenSurface s1 r1).2 g1, (givenSurface s2 r2).2 g2, (h.polygons s1 h1 p).2 h5, (h.polygons s2 h3 q).2 h6, ?_, t1, ?_,
      t2, ?_, (hm _ _ _ _ _ _).2 hmeet⟩
    · rintro ⟨e1, e2⟩
      have e1 : s1.id = s2.id := e1
      rw [e1] at e2
      exact h7 ⟨e1, (π s2.id).injective e2⟩
    · rw [hpv]; exact ht1
    · rw [hpv]; exact ht2

theorem lineMeets (h : ElementNumbersOf π ε m) : PlainLineMeetsSurface lib (withElements π ε m) ↔ PlainLineMeetsSurface lib m := by
  have hpv : ∀ p (r : ModelSurface P) i, (shuffle p r).polygonVertices (p i) = r.polygonVertices i := by
    intro p r i
    simp [shuffle]
  unfold PlainLineMeetsSurface
  constructor
  · rintro ⟨s, l, r, p, e, a, b, h1, h2, h3', h4, h5, g, h6, h7, h8, h9, t, ht, x, hx, hm⟩
    obtain ⟨s, h1', rfl⟩ := List.mem_map.1 h1
    obtain ⟨r, rfl⟩ := shuffle_surjective (π s.id) r
    obtain ⟨p, rfl⟩ := (π s.id).surjective p
    rw [hpv] at ht
    exact ⟨s, l, r, p, e, a, b, h1', h2, h3', h4, h5, (givenSurface _ _).1 g, (h.polygons s h1' p).1 h6, h7, h8, h9, t, ht, x,
      hx, hm⟩
  · rintro ⟨s, l, r, p, e, a, b, h1, h2, h3', h4, h5, g, h6, h7, h8, h9, t, ht, x, hx, hm⟩
    exact ⟨_, l, _, π s.id p, e, a, b, List.mem_map_of_mem h1, h2, h3', h4, h5, (givenSurface s r).2 g,
      (h.polygons s h1 p).2 h6, h7, h8, h9, t, by rw [hpv]; exact ht, x, hx, hm⟩

/-! ### Blocks -/

theorem isFacet {p e : Equiv.Perm Nat} {b : VolumeData P} (h : Renumbers p b.nbPolyhedra) (x : PolyhedronFacet) :
    IsPolyhedronFacet (volumePolyhedra p e b).toSolidMesh (newElement p x) ↔ IsPolyhedronFacet b.toSolidMesh x := by
  unfold IsPolyhedronFacet
  show p x.1 < b.nbPolyhedra ∧ x.2 < b.nbPolyhedronFacets (p.symm (p x.1)) ↔ _
  rw [h, Equiv.symm_apply_apply]

theorem wrongFacet {p e : Equiv.Perm Nat} {b : VolumeData P} (h : Renumbers p b.nbPolyhedra)
    (opposite : List Index → List Index → Bool) (x : PolyhedronFacet) :
    WrongFacet opposite (volumePolyhedra p e b).toSolidMesh (newElement p x) ↔ WrongFacet opposite b.toSolidMesh x := by
  have hv : ∀ x, (volumePolyhedra p e b).polyhedronFacetVertices (newElement p x) = b.polyhedronFacetVertices x := fun x => by
    simp [volumePolyhedra, old_new]
  have ha : ∀ x, (volumePolyhedra p e b).polyhedronAdjacent (newElement p x) = (b.polyhedronAdjacent x).map p := fun x => by
    simp [volumePolyhedra, old_new]
  have hn : ∀ i, (volumePolyhedra p e b).nbPolyhedronFacets (p i) = b.nbPolyhedronFacets i := fun i => by
    simp [volumePolyhedra]
  have hback : ∀ q f', (volumePolyhedra p e b).polyhedronAdjacent (p q, f') = some (p x.1) ↔
      b.polyhedronAdjacent (q, f') = some x.1 := by
    intro q f'
    rw [show (p q, f') = newElement p (q, f') from rfl, ha, Option.map_eq_some_iff]
    exact ⟨fun ⟨y, h1, h2⟩ => p.injective h2 ▸ h1, fun h1 => ⟨_, h1, rfl⟩⟩
  have hvq : ∀ q f', (volumePolyhedra p e b).polyhedronFacetVertices (p q, f') = b.polyhedronFacetVertices (q, f') :=
    fun q f' => hv (q, f')
  unfold WrongFacet
  rw [isFacet h, ha, hv]
  refine and_congr_right fun _ => ?_
  constructor
  · rintro ⟨q, h1, h2⟩
    obtain ⟨q, h3, rfl⟩ := Option.map_eq_some_iff.1 h1
    refine ⟨q, h3, fun ⟨f', g1, g2, g3⟩ => h2 ⟨f', by rw [hn]; exact g1, by rw [hvq]; exact g2, (hback q f').2 g3⟩⟩
  · rintro ⟨q, h1, h2⟩
    refine ⟨p q, by rw [h1]; rfl, fun ⟨f', g1, g2, g3⟩ => h2 ⟨f', ?_, ?_, (hback q f').1 g3⟩⟩
    · rwa [hn] at g1
    · rwa [hvq] at g2

theorem borderNotOnSurface {b : VolumeData P} (h : Renumbers (π b.id) b.nbPolyhedra) (x : PolyhedronFacet) :
    BorderNotOnSurface (withElements π ε m) (volumePolyhedra (π b.id) (ε b.id) b) (newElement (π b.id) x) ↔
      BorderNotOnSurface m b x := by
  unfold BorderNotOnSurface
  rw [isFacet h]
  simp [withElements, volumePolyhedra, old_new]

theorem brokenSolidFan {p e : Equiv.Perm Nat} {b : VolumeData P} (h : Renumbers p b.nbPolyhedra) (v : Index) :
    PlainBrokenSolidFan (volumePolyhedra p e b) v ↔ PlainBrokenSolidFan b v := by
  unfold PlainBrokenSolidFan
  refine and_congr Iff.rfl ?_
  refine fan_mapped _ (newElement_injective p) (newElement_surjective p) _ _ _ fun x => ?_
  show p x.1 < b.nbPolyhedra ∧ x.2 < b.nbPolyhedronVertices (p.symm (p x.1)) ∧
    b.polyhedronVertex (oldElement p (newElement p x)) = v ↔ _
  rw [h, Equiv.symm_apply_apply, old_new]

theorem sameFacets {p e : Equiv.Perm Nat} {b : VolumeData P} (h : Renumbers p b.nbPolyhedra) :
    ThreeTimesSameFacet lib (volumePolyhedra p e b) ↔ ThreeTimesSameFacet lib b := by
  unfold ThreeTimesSameFacet
  refine ex_element p fun x => ex_element p fun y => ex_element p fun z => ?_
  have hi := newElement_injective p
  have hv : ∀ x, (volumePolyhedra p e b).polyhedronFacetVertices (newElement p x) = b.polyhedronFacetVertices x := fun x => by
    simp [volumePolyhedra, old_new]
  simp only [ne_eq, hi.eq_iff, List.mem_cons, List.not_mem_nil, or_false, forall_eq_or_imp, forall_eq, isFacet h, hv]

theorem negative {p e : Equiv.Perm Nat} {b : VolumeData P} (h : Renumbers p b.nbPolyhedra) (i : Index) :
    PlainNegative (volumePolyhedra p e b) (p i) ↔ PlainNegative b i := by
  unfold PlainNegative
  simp only [volumePolyhedra, oldElement, Equiv.symm_apply_apply, h i]

/-! turns around the edges -/

theorem hasEdge {p e : Equiv.Perm Nat} {b : VolumeData P} (h : Renumbers p b.nbPolyhedra) (k : Index × Index) (q : Index) :
    HasEdge (volumePolyhedra p e b).toSolidData k (p q) ↔ HasEdge b.toSolidData k q := by
  unfold HasEdge
  show p q < b.nbPolyhedra ∧ (∃ x ∈ b.polyhedronEdgesVertices (p.symm (p q)), _) ↔ _
  rw [h, Equiv.symm_apply_apply]

theorem turnsAround {p e : Equiv.Perm Nat} {b : VolumeData P} (h : Renumbers p b.nbPolyhedra)
    {raises : Index × Index → Prop} {linked : Index × Index → Index → Index → Prop}
    (ht : TurnsAround b.toSolidData raises linked) :
    TurnsAround (volumePolyhedra p e b).toSolidData raises fun k x y => linked k (p.symm x) (p.symm y) where
  refl k q hq := by
    obtain ⟨q, rfl⟩ := p.surjective q
    rw [Equiv.symm_apply_apply]
    exact ht.refl k q ((hasEdge h k q).1 hq)
  symm k x y := ht.symm k _ _
  trans k x y z := ht.trans k _ _ _
  reverse a b x y := ht.reverse a b _ _
  raising k q hq hr := by
    obtain ⟨q, rfl⟩ := p.surjective q
    show (b.polyhedraAroundEdge k (p.symm (p q))).map _ = _
    rw [Equiv.symm_apply_apply, ht.raising k q ((hasEdge h k q).1 hq) hr]
    rfl
  turning k q hq hr := by
    obtain ⟨q, rfl⟩ := p.surjective q
    obtain ⟨fan, h1, h2, h3⟩ := ht.turning k q ((hasEdge h k q).1 hq) hr
    refine ⟨fan.map p, ?_, h2.map p.injective, fun y => ?_⟩
    · show (b.polyhedraAroundEdge k (p.symm (p q))).map _ = _
      rw [Equiv.symm_apply_apply, h1]
      rfl
    · obtain ⟨y, rfl⟩ := p.surjective y
      rw [List.mem_map_of_injective p.injective, h3, hasEdge h, Equiv.symm_apply_apply, Equiv.symm_apply_apply]

theorem having_perm {p e : Equiv.Perm Nat} {b : VolumeData P} (h : Renumbers p b.nbPolyhedra) (k : Index × Index) :
    (polyhedraHaving ((volumePolyhedra p e b).topo lib.toLibrary) k).Perm
      ((polyhedraHaving (b.topo lib.toLibrary) k).map p) := by
  have hu : (solidEdgeUses ((volumePolyhedra p e b).topo lib.toLibrary)).Perm
      ((solidEdgeUses (b.topo lib.toLibrary)).map fun x => (p x.1, x.2)) := by
    unfold solidEdgeUses
    show ((List.range b.nbPolyhedra).flatMap fun q => (b.polyhedronEdgesVertices (p.symm q)).map fun x => (q, x)).Perm
      (((List.range b.nbPolyhedra).flatMap fun q => (b.polyhedronEdgesVertices q).map fun x => (q, x)).map _)
    refine ((Renumber.range_moved h).flatMap_right _).trans ?_
    rw [List.flatMap_map, List.map_flatMap]
    simp only [Equiv.symm_apply_apply, List.map_map]
    exact List.Perm.refl _
  unfold polyhedraHaving
  refine ((hu.filter _).map _).trans ?_
  rw [List.filter_map, List.map_map, List.map_map]
  exact List.Perm.refl _

theorem badTurn_good {b : VolumeData P} {raises : Index × Index → Prop} {linked : Index × Index → Index → Index → Prop}
    (ht : TurnsAround b.toSolidData raises linked) :
    (∃ k, PlainBadTurn b k) ↔
      ∃ k, (∃ q, HasEdge b.toSolidData k q) ∧ ¬ Renumber.GoodEdge lib.toLibrary b.toSolidData raises linked k := by
  rw [← Plain.plain_badTurn_iff lib]
  constructor
  · rintro ⟨q, k, h1, h2⟩
    have hq := Renumber.hasEdge_of_firstUse h1
    exact ⟨k, ⟨q, hq⟩, (Renumber.badTurn_iff ht hq).1 h2⟩
  · rintro ⟨k, ⟨q, hq⟩, h2⟩
    obtain ⟨q', k', h3, h4⟩ := Renumber.firstUse_of_hasEdge (lib := lib.toLibrary) hq
    refine ⟨q', k', h3, (Renumber.badTurn_iff ht (Renumber.hasEdge_of_firstUse h3)).2 fun hg => h2 ?_⟩
    exact (Renumber.goodEdge_congr ht h4).1 hg

theorem badTurn {p e : Equiv.Perm Nat} {b : VolumeData P} (h : Renumbers p b.nbPolyhedra)
    (ht : ∃ raises linked, TurnsAround b.toSolidData raises linked) (lib : ModelLibrary P) :
    (∃ k, PlainBadTurn (volumePolyhedra p e b) k) ↔ ∃ k, PlainBadTurn b k := by
  obtain ⟨raises, linked, ht⟩ := ht
  rw [badTurn_good (lib := lib) ht, badTurn_good (lib := lib) (turnsAround (e := e) h ht)]
  refine exists_congr fun k => and_congr (Vertices.ex_perm p fun q => hasEdge h k q) (not_congr ?_)
  unfold Renumber.GoodEdge
  rw [(having_perm (lib := lib) h k).nodup_iff, List.nodup_map_iff p.injective]
  refine and_congr Iff.rfl (and_congr Iff.rfl ⟨fun hh x y hx hy => ?_, fun hh x y hx hy => ?_⟩)
  · have := hh (p x) (p y) ((hasEdge h k x).2 hx) ((hasEdge h k y).2 hy)
    simpa only [Equiv.symm_apply_apply] using this
  · obtain ⟨x, rfl⟩ := p.surjective x
    obtain ⟨y, rfl⟩ := p.surjective y
    show linked k (p.symm (p x)) (p.symm (p y))
    rw [Equiv.symm_apply_apply, Equiv.symm_apply_apply]
    exact hh x y ((hasEdge h k x).1 hx) ((hasEdge h k y).1 hy)

theorem blockDefect (h : ElementNumbersOf π ε m) (ht : TurnsAgree m) {b : VolumeData P} (hb : b ∈ m.blocks)
    (ha : b.active = true) :
    PlainBlockDefect lib (withElements π ε m) (volumePolyhedra (π b.id) (ε b.id) b) ↔ PlainBlockDefect lib m b := by
  have hp := h.polyhedra b hb
  unfold PlainBlockDefect
  refine or_congr Iff.rfl (or_congr (ex_element (π b.id) fun x => wrongFacet hp _ x) (or_congr
    (ex_element (π b.id) fun x => borderNotOnSurface hp x) (or_congr ?_ (or_congr ?_ (or_congr
      (exists_congr fun v => brokenSolidFan hp v) (or_congr (badTurn hp (ht b hb ha) lib) (or_congr (sameFacets hp)
        (Vertices.ex_perm (π b.id) fun i => negative hp i))))))))
  · refine LineEdges.ex_edge (h.blockEdges b hb) fun i => ?_
    simp [volumePolyhedra]
  · refine LineEdges.ex_edge hp fun i => ?_
    simp [volumePolyhedra]

/-! ### the edges of the whole BRep -/

/-- An interior edge, or the one on the other side, is interior with the other numbers. -/
theorem interior_moved {m' : ModelData P} {p : Equiv.Perm Nat} {s s' : FaceData P} (hf : SameFace p s.toSurfaceMesh s'.toSurfaceMesh)
    (hid : s'.id = s.id) (hact : s'.active = s.active) (hs' : s' ∈ m'.surfaces) (hu : m'.uniqueVertex = m.uniqueVertex)
    (hno : m'.noId = m.noId) (hw : ¬ ∃ x, WrongEdge s.toSurfaceMesh x)
    (hadj : ∀ x q, IsPolygonEdge s.toSurfaceMesh x → s.polygonAdjacent x = some q → q < s.nbPolygons)
    {x : PolygonEdge} {u v : Index} (h : InteriorEdge m s x u v) :
    ∃ z : PolygonEdge, (InteriorEdge m' s' (newElement p z) u v ∧ z = x) ∨
      (InteriorEdge m' s' (newElement p z) v u ∧ IsPolygonEdge s.toSurfaceMesh z ∧ s.polygonAdjacent z = some x.1 ∧ x.1 < z.1 ∧
        SameEdge (polygonEdgeEnds s.toSurfaceMesh x) (polygonEdgeEnds s.toSurfaceMesh z)) := by
  obtain ⟨_, ha, hx, ⟨other, ho, hle⟩, a, b, hab, hua, hvb⟩ := h
  have hnum : ∀ w n, NumberOf m .surface s.id w n → NumberOf m' .surface s'.id w n := by
    intro w n hn
    unfold NumberOf at hn ⊢
    rw [hu, hno, hid]
    exact hn
  by_cases hc : p x.1 ≤ p other
  · refine ⟨x, .inl ⟨⟨hs', by rw [hact]; exact ha, (isEdge hf x).2 hx, ⟨p other, ?_, hc⟩, a, b, (edgeFromTo hf _ _ _ _).2 hab,
      hnum _ _ hua, hnum _ _ hvb⟩, rfl⟩⟩
    rw [hf.adjacent, ho]
    rfl
  · have hback : ∃ e' a b, e' < s.nbPolygonVertices other ∧ EdgeFromTo s.toSurfaceMesh x.1 x.2 a b ∧
        EdgeFromTo s.toSurfaceMesh other e' b a ∧ s.polygonAdjacent (other, e') = some x.1 := by
      by_contra hn
      exact hw ⟨x, hx, other, ho, hn⟩
    obtain ⟨e', a', b', h1, h2, h3, h4⟩ := hback
    obtain ⟨rfl, rfl⟩ : a = a' ∧ b = b' := ⟨hab.1.symm.trans h2.1, hab.2.symm.trans h2.2⟩
    have hz : IsPolygonEdge s.toSurfaceMesh (other, e') := ⟨hadj x other hx ho, h1⟩
    refine ⟨(other, e'), .inr ⟨⟨hs', by rw [hact]; exact ha, (isEdge hf _).2 hz, ⟨p x.1, ?_, by show p other ≤ p x.1; omega⟩, b, a,
      (edgeFromTo hf _ _ _ _).2 h3, hnum _ _ hvb, hnum _ _ hua⟩, hz, h4, ?_, ?_⟩⟩
    · rw [hf.adjacent]
      show (s.polygonAdjacent (other, e')).map p = _
      rw [h4]
      rfl
    · refine Nat.lt_of_le_of_ne hle fun he => hc ?_
      show p x.1 ≤ p other
      rw [he]
    · have e1 : polygonEdgeEnds s.toSurfaceMesh x = (a, b) := Prod.ext hab.1 hab.2
      have e2 : polygonEdgeEnds s.toSurfaceMesh (other, e') = (b, a) := Prod.ext h3.1 h3.2
      rw [e1, e2]
      exact Or.inr ⟨rfl, rfl⟩

/-- Three uses of an edge are too many. -/
theorem nonManifold_of_three {s : SurfaceMesh} {x y z : PolygonEdge} (hx : IsPolygonEdge s x) (hy : IsPolygonEdge s y)
    (hz : IsPolygonEdge s z) (hxy : x ≠ y) (hxz : x ≠ z) (hyz : y ≠ z)
    (h1 : SameEdge (polygonEdgeEnds s x) (polygonEdgeEnds s z)) (h2 : SameEdge (polygonEdgeEnds s y) (polygonEdgeEnds s z)) :
    ∃ e, NonManifoldEdge s e := by
  rw [Vertices.nonManifold_unsorted]
  have hm : ∀ w, IsPolygonEdge s w → SameEdge (polygonEdgeEnds s w) (polygonEdgeEnds s z) →
      w ∈ usesOfEdge s (polygonEdgeEnds s z) := fun w hw hs =>
    List.mem_filter.2 ⟨(Plain.mem_pairs_iff _ _ _).2 hw, decide_eq_true hs⟩
  have hlen : 3 ≤ (usesOfEdge s (polygonEdgeEnds s z)).length := by
    have : [x, y, z].Nodup := by simp [hxy, hxz, hyz]
    have := this.subperm (l₂ := usesOfEdge s (polygonEdgeEnds s z)) (by
      intro w hw
      simp only [List.mem_cons, List.not_mem_nil, or_false] at hw
      rcases hw with rfl | rfl | rfl
      · exact hm _ hx h1
      · exact hm _ hy h2
      · exact hm _ hz (Renumber.sameEdge_refl _))
    exact this.length_le
  refine ⟨polygonEdgeEnds s z, fun h => ?_, ?_⟩
  · rw [h] at hlen; simp at hlen
  · by_cases hb : DeclaredBorder s (polygonEdgeEnds s z)
    · exact .inl ⟨hb, by omega⟩
    · exact .inr ⟨hb, by omega⟩

/-- Two interior edges that are the same edge of the BRep are found whatever the numbers of the polygons. -/
theorem twice_moved {m' : ModelData P} {π : Uuid → Equiv.Perm Nat}
    (hs : ∀ s ∈ m.surfaces, ∃ s' ∈ m'.surfaces, SameFace (π s.id) s.toSurfaceMesh s'.toSurfaceMesh ∧ s'.id = s.id ∧
      s'.active = s.active)
    (hids : (m.surfaces.map FaceData.id).Nodup)
    (hu : m'.uniqueVertex = m.uniqueVertex) (hno : m'.noId = m.noId)
    (hw : ∀ s ∈ m.surfaces, s.active = true → ¬ ∃ x, WrongEdge s.toSurfaceMesh x)
    (hn : ∀ s ∈ m.surfaces, s.active = true → ¬ ∃ e, NonManifoldEdge s.toSurfaceMesh e) (hadj : AdjacentsExist m)
    (h : TwiceInterior m) : TwiceInterior m' := by
  obtain ⟨s, x, u, v, t, y, u', v', hx, hy, hne, hsame⟩ := h
  obtain ⟨s', hs1, hs2, hs3, hs4⟩ := hs s hx.1
  obtain ⟨t', ht1, ht2, ht3, ht4⟩ := hs t hy.1
  obtain ⟨z, hz⟩ := interior_moved hs2 hs3 hs4 hs1 hu hno (hw s hx.1 hx.2.1) (hadj s hx.1 hx.2.1) hx
  obtain ⟨w, hv⟩ := interior_moved ht2 ht3 ht4 ht1 hu hno (hw t hy.1 hy.2.1) (hadj t hy.1 hy.2.1) hy
  have hdiff : s'.id ≠ t'.id ∨ newElement (π s.id) z ≠ newElement (π t.id) w := by
    by_cases hid : s.id = t.id
    · right
      obtain rfl := List.inj_on_of_nodup_map hids hx.1 hy.1 hid
      have hne : x ≠ y := hne.resolve_left fun h => h rfl
      intro he
      obtain rfl := newElement_injective _ he
      obtain ⟨_, _, hx3, ⟨ox, hox, hxle⟩, _⟩ := hx
      obtain ⟨_, _, hy3, ⟨oy, hoy, hyle⟩, _⟩ := hy
      rcases hz with ⟨_, rfl⟩ | ⟨_, hz1, hz2, hz3, hz4⟩
      · rcases hv with ⟨_, rfl⟩ | ⟨_, hw1, hw2, hw3, hw4⟩
        · exact hne rfl
        · have : @Eq Nat ox y.1 := Option.some.inj (hox.symm.trans hw2)
          omega
      · rcases hv with ⟨_, rfl⟩ | ⟨_, hw1, hw2, hw3, hw4⟩
        · have : @Eq Nat oy x.1 := Option.some.inj (hoy.symm.trans hz2)
          omega
        · refine hn s ‹_› ‹_› (nonManifold_of_three hx3 hy3 hz1 hne ?_ ?_ hz4 hw4)
          · rintro rfl; omega
          · rintro rfl; omega
    · left
      rw [hs3, ht3]
      exact hid
  rcases hz with ⟨hz, _⟩ | ⟨hz, _⟩ <;> rcases hv with ⟨hv, _⟩ | ⟨hv, _⟩ <;>
    refine ⟨_, _, _, _, _, _, _, _, hz, hv, hdiff, ?_⟩ <;> rcases hsame with ⟨rfl, rfl⟩ | ⟨rfl, rfl⟩ <;> simp

theorem twiceInterior (h : ElementNumbersOf π ε m) (hids : (m.surfaces.map FaceData.id).Nodup) (hadj : AdjacentsExist m)
    (hd : ¬ ∃ s ∈ m.surfaces, s.active = true ∧ PlainSurfaceDefect lib m s) :
    TwiceInterior (withElements π ε m) ↔ TwiceInterior m := by
  have hw : ∀ s ∈ m.surfaces, s.active = true → ¬ ∃ x, WrongEdge s.toSurfaceMesh x := fun s hs ha hx =>
    hd ⟨s, hs, ha, .inr (.inl hx)⟩
  have hn : ∀ s ∈ m.surfaces, s.active = true → ¬ ∃ e, NonManifoldEdge s.toSurfaceMesh e := fun s hs ha hx =>
    hd ⟨s, hs, ha, .inr (.inr (.inr (.inr (.inr (.inr hx)))))⟩
  have hids' : ((withElements π ε m).surfaces.map FaceData.id).Nodup := by
    simpa [withElements, facePolygons, Function.comp_def] using hids
  constructor
  · refine twice_moved (π := fun id => (π id).symm) ?_ hids' rfl rfl ?_ ?_ ?_
    · intro s' hs'
      obtain ⟨s, hs, rfl⟩ := List.mem_map.1 hs'
      exact ⟨s, hs, (sameFace (h.polygons s hs)).symm, rfl, rfl⟩
    · intro s' hs' ha hx
      obtain ⟨s, hs, rfl⟩ := List.mem_map.1 hs'
      exact hw s hs ha ((ex_element (π s.id) fun x => wrongEdge (sameFace (h.polygons s hs)) x).1 hx)
    · rintro s' hs' ha ⟨e, he⟩
      obtain ⟨s, hs, rfl⟩ := List.mem_map.1 hs'
      exact hn s hs ha ⟨e, (nonManifoldEdge (sameFace (h.polygons s hs)) e).1 he⟩
    · intro s' hs' ha x q hx hq
      obtain ⟨s, hs, rfl⟩ := List.mem_map.1 hs'
      have hf := sameFace (e := ε s.id) (h.polygons s hs)
      obtain ⟨x, rfl⟩ := newElement_surjective (π s.id) x
      rw [hf.adjacent] at hq
      obtain ⟨q, hq', rfl⟩ := Option.map_eq_some_iff.1 hq
      exact (h.polygons s hs q).2 (hadj s hs ha x q ((isEdge hf x).1 hx) hq')
  · refine twice_moved (π := π) ?_ hids rfl rfl hw hn hadj
    intro s hs
    exact ⟨_, List.mem_map_of_mem hs, sameFace (h.polygons s hs), rfl, rfl⟩

theorem floatingFacet (h : ElementNumbersOf π ε m) {s : FaceData P} (hs : s ∈ m.surfaces) :
    FloatingFacet (withElements π ε m) (facePolygons (π s.id) (ε s.id) s) ↔ FloatingFacet m s := by
  unfold FloatingFacet
  refine and_congr Iff.rfl (and_congr_right fun hn => and_congr Iff.rfl ?_)
  have hn : s.nbPolygons = 1 := hn
  have h0 : (π s.id).symm 0 = 0 := by
    have := (h.polygons s hs ((π s.id).symm 0)).1 (by rw [Equiv.apply_symm_apply, hn]; decide)
    omega
  show (∀ i < s.nbPolygonVertices ((π s.id).symm 0), AloneAtUniqueVertex m .surface s.id
    (s.polygonVertex ((π s.id).symm 0, i))) ↔ _
  rw [h0]

theorem meshDefect (h : ElementNumbersOf π ε m) (ht : TurnsAgree m) (hids : (m.surfaces.map FaceData.id).Nodup)
    (hadj : AdjacentsExist m) : PlainBRepMeshDefect lib (withElements π ε m) ↔ PlainBRepMeshDefect lib m := by
  have hsurf : (∃ s ∈ (withElements π ε m).surfaces, s.active = true ∧ PlainSurfaceDefect lib (withElements π ε m) s) ↔
      ∃ s ∈ m.surfaces, s.active = true ∧ PlainSurfaceDefect lib m s := by
    rw [ex_face]
    exact exists_congr fun s => and_congr_right fun hs => and_congr Iff.rfl (surfaceDefect h hs)
  have hblock : (∃ s ∈ (withElements π ε m).blocks, s.active = true ∧ PlainBlockDefect lib (withElements π ε m) s) ↔
      ∃ s ∈ m.blocks, s.active = true ∧ PlainBlockDefect lib m s := by
    rw [ex_volume]
    exact exists_congr fun s => and_congr_right fun hs => and_congr_right fun ha => blockDefect h ht hs ha
  have hfloat : (∃ s ∈ (withElements π ε m).surfaces, FloatingFacet (withElements π ε m) s) ↔
      ∃ s ∈ m.surfaces, FloatingFacet m s := by
    rw [ex_face]
    exact exists_congr fun s => and_congr_right fun hs => floatingFacet h hs
  unfold PlainBRepMeshDefect
  rw [hsurf, hblock, hfloat, colocatedUvs, polygonsMeet h fun p q r1 r2 t1 t2 => brepMeet lib.geometry p q r1 r2 t1 t2]
  simp only [differentPoints]
  by_cases hd : ∃ s ∈ m.surfaces, s.active = true ∧ PlainSurfaceDefect lib m s
  · simp only [hd, true_or, or_true]
  · rw [twiceInterior h hids hadj hd]
    exact Iff.rfl

/-! ### the topology of the model -/

/-- The topology of the model, its polygons having other numbers. -/
def shuffled (π : Uuid → Equiv.Perm Nat) (t : TopologyModel) : TopologyModel :=
  { t with
    blockPolygons := fun s i => t.blockPolygons s ((π s).symm i)
    polygonVertices := fun s i => t.polygonVertices s ((π s).symm i) }

theorem shuffled_ok (h : ElementNumbersOf π ε m) (rt : ModelRuntime) : Shuffled π (m.topology rt) (shuffled π (m.topology rt)) where
  range c hc := by
    obtain ⟨s, hs, rfl⟩ := List.mem_map.1 hc
    exact h.polygons s hs
  same := rfl
  blockPolygons s i := by simp [shuffled]
  polygonVertices s i := by simp [shuffled]

theorem turned (rt rt' : ModelRuntime) :
    Vertices.Turned LineEdges.same (shuffled π (m.topology rt)) ((withElements π ε m).topology rt') where
  range _ _ _ _ := Iff.rfl
  components := by
    funext kind
    cases kind
    case surface => simp [ModelData.topology, withElements, facePolygons, shuffled]
    case block => simp [ModelData.topology, withElements, volumePolyhedra, shuffled]
    all_goals rfl
  nbUniqueVertices := rfl
  cmvs v := by
    have : vertexOf LineEdges.same = id := rfl
    rw [this, List.map_id]
    rfl
  uniqueVertex c := rfl
  isBoundary := rfl
  isInternal := rfl
  embeddings := rfl
  incidences := rfl
  boundaries := rfl
  isVertexOnBorder _ _ := rfl
  blockPolygons := rfl
  polygonVertices id p := by
    show _ = List.map _ _
    simp only [Equiv.coe_refl, List.map_id]
    simp only [shuffled, ModelData.topology, withElements, List.find?_map]
    have : ((fun s : FaceData P => s.id == id) ∘ fun s => facePolygons (π s.id) (ε s.id) s) = fun s => s.id == id := rfl
    rw [this]
    cases hs : m.surfaces.find? fun s => s.id == id with
    | none => rfl
    | some s =>
      have hid : s.id = id := by simpa using List.find?_some hs
      subst hid
      rfl
  surfaceEdges := rfl
  blockEdges := rfl

end

/-! ### the Surfaces in no Block -/

/-- The defects depend on the answers about the Surfaces which have polygons only. -/
theorem blocksOracle_iff {t : TopologyModel} {o : BlocksOracle} {f : Uuid → Uuid → Except Failure Bool}
    (h : ∀ s ∈ t.components .surface, s.nbElements ≠ 0 → ∀ b ∈ t.components .block,
      f s.id b.id = o.isInsideBlock s.id b.id) :
    BlocksDefect t { o with isInsideBlock := f } ↔ BlocksDefect t o := by
  have key : ∀ s, OutsideBlocks t f s ↔ OutsideBlocks t o.isInsideBlock s := by
    intro s
    unfold OutsideBlocks
    refine and_congr_right fun ⟨c, hc, hid, hn⟩ => forall_congr' fun b => forall_congr' fun hb => ?_
    subst hid
    rw [h c hc hn b hb]
  have hw : ∀ v, SurfaceWrongForBlocks t v f ↔ SurfaceWrongForBlocks t v o.isInsideBlock := by
    intro v
    unfold SurfaceWrongForBlocks
    simp only [key]
  unfold BlocksDefect
  simp only [hw]

theorem brepOracle_iff {t : TopologyModel} {o : BlocksOracle} {f : Uuid → Uuid → Except Failure Bool}
    (h : ∀ s ∈ t.components .surface, s.nbElements ≠ 0 → ∀ b ∈ t.components .block,
      f s.id b.id = o.isInsideBlock s.id b.id) :
    BRepTopologyDefect t { o with isInsideBlock := f } ↔ BRepTopologyDefect t o := by
  unfold BRepTopologyDefect
  rw [blocksOracle_iff h]

theorem otherOracle_iff {t : TopologyModel} {o : BlocksOracle} {f : Uuid → Uuid → Except Failure Bool}
    (h : ∀ s ∈ t.components .surface, s.nbElements ≠ 0 → ∀ b ∈ t.components .block,
      f s.id b.id = o.isInsideBlock s.id b.id) :
    OtherTopologyDefect t { o with isInsideBlock := f } ↔ OtherTopologyDefect t o := by
  unfold OtherTopologyDefect
  rw [blocksOracle_iff h]

theorem given_oracle {P : Type} {lib : ModelLibrary P} {m : ModelData P} (o : BlocksOracle) (s : FaceData P) (r : ModelSurface P) :
    GivenSurface lib { m with blocksOracle := o } s r ↔ GivenSurface lib m s r :=
  ⟨fun h => ⟨h.id, h.active, h.nbPolygons, h.polygonVertices, h.nbVertices, h.point, h.uniqueVertex⟩,
    fun h => ⟨h.id, h.active, h.nbPolygons, h.polygonVertices, h.nbVertices, h.point, h.uniqueVertex⟩⟩

theorem meshDefect_oracle {P : Type} {lib : ModelLibrary P} {m : ModelData P} (o : BlocksOracle) :
    PlainBRepMeshDefect lib { m with blocksOracle := o } ↔ PlainBRepMeshDefect lib m := by
  unfold PlainBRepMeshDefect PlainPolygonsMeet
  simp only [given_oracle]
  exact Iff.rfl

theorem lineMeets_oracle {P : Type} {lib : ModelLibrary P} {m : ModelData P} (o : BlocksOracle) :
    PlainLineMeetsSurface lib { m with blocksOracle := o } ↔ PlainLineMeetsSurface lib m := by
  unfold PlainLineMeetsSurface
  simp only [given_oracle]

/-- The polygon which has now the number 0 is on the same side as the one which had it. -/
theorem same_side {P : Type} {m : ModelData P} {π ε : Uuid → Equiv.Perm Nat} (hn : ElementNumbersOf π ε m)
    {inside : Uuid → Index → Uuid → Except Failure Bool}
    (h1 : PolygonsIn inside m) (h2 : OnOneSide inside m) (rt : ModelRuntime) :
    ∀ s ∈ (m.topology rt).components .surface, s.nbElements ≠ 0 → ∀ b ∈ (m.topology rt).components .block,
      inside s.id ((π s.id).symm 0) b.id = m.blocksOracle.isInsideBlock s.id b.id := by
  intro s hs h0 b hb
  obtain ⟨s, hs', rfl⟩ := List.mem_map.1 hs
  obtain ⟨b, hb', rfl⟩ := List.mem_map.1 hb
  rw [h1]
  have h0 : s.nbPolygons ≠ 0 := h0
  exact h2 s hs' _ ((renumbers_symm (hn.polygons s hs') 0).2 (Nat.pos_of_ne_zero h0)) b hb'

end Inspector.Polygons
