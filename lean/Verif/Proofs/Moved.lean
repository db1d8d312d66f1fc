import Verif.Spec.Moved
import Verif.Proofs.Plain
/-
Proofs for C128: the defects of a model do not depend on the place where it is.
-/
namespace Inspector.Place
open Inspector Spec

section
variable {P Q : Type} {f : P → Q} {lib : ModelLibrary P} {lib' : ModelLibrary Q} {m : ModelData P} {m' : ModelData Q}

/-- A Line with its points moved. -/
abbrev line (f : P → Q) (l : LineData P) : LineData Q := { l with points := l.points.map f }
/-- A Surface with its points moved. -/
abbrev face (f : P → Q) (s : FaceData P) : FaceData Q := { s with points := s.points.map f }
/-- A Block with its points moved. -/
abbrev volume (f : P → Q) (b : VolumeData P) : VolumeData Q := { b with points := b.points.map f }

variable (mv : PointsMoved f m m')
include mv

theorem isActiveId (id : Uuid) : IsActiveId m' id ↔ IsActiveId m id := by
  unfold IsActiveId
  simp only [mv.corners, mv.lines, mv.surfaces, mv.blocks, List.mem_map, exists_exists_and_eq_and]

theorem pointsOf (c : ComponentID) (points' : List Q) :
    PointsOf m' c points' ↔ ∃ points, PointsOf m c points ∧ points.map f = points' := by
  unfold PointsOf
  cases c.type <;>
    simp only [mv.corners, mv.lines, mv.surfaces, mv.blocks, List.mem_map, exists_exists_and_eq_and, false_and, exists_false]
  all_goals
    constructor
    · rintro ⟨a, h1, h2, h3⟩
      exact ⟨_, ⟨a, h1, h2, rfl⟩, h3⟩
    · rintro ⟨_, ⟨a, h1, h2, rfl⟩, h3⟩
      exact ⟨a, h1, h2, h3⟩

omit mv in
theorem hasPoint_of (c : ComponentID) (points : List P) (h : PointsOf m c points) (p : P) (hp : p ∈ points) :
    HasPoint m p := by
  unfold PointsOf at h
  unfold HasPoint
  cases hc : c.type <;> rw [hc] at h
  · obtain ⟨x, h1, _, rfl⟩ := h; exact .inl ⟨x, h1, hp⟩
  · obtain ⟨x, h1, _, rfl⟩ := h; exact .inr (.inl ⟨x, h1, hp⟩)
  · obtain ⟨x, h1, _, rfl⟩ := h; exact .inr (.inr (.inl ⟨x, h1, hp⟩))
  · obtain ⟨x, h1, _, rfl⟩ := h; exact .inr (.inr (.inr ⟨x, h1, hp⟩))
  · exact h.elim

theorem isAt (cmv : ComponentMeshVertex)
    (h : ∃ points, PointsOf m cmv.component_id points ∧ cmv.vertex < points.length) (q : Q) :
    IsAt lib' m' cmv q ↔ ∃ p, HasPoint m p ∧ IsAt lib m cmv p ∧ f p = q := by
  obtain ⟨points, hp, hv⟩ := h
  unfold IsAt
  constructor
  · rintro (⟨points', h1, h2⟩ | ⟨h1, _⟩)
    · obtain ⟨pts, h3, rfl⟩ := (pointsOf mv _ _).1 h1
      rw [List.getElem?_map, Option.map_eq_some_iff] at h2
      obtain ⟨p, h4, rfl⟩ := h2
      exact ⟨p, hasPoint_of _ _ h3 _ (List.mem_of_getElem? h4), .inl ⟨pts, h3, h4⟩, rfl⟩
    · exact absurd ⟨points.map f, f points[cmv.vertex], (pointsOf mv _ _).2 ⟨points, hp, rfl⟩,
        by rw [List.getElem?_map, List.getElem?_eq_getElem hv]; rfl⟩ h1
  · rintro ⟨p, _, (⟨pts, h3, h4⟩ | ⟨h1, _⟩), rfl⟩
    · exact .inl ⟨pts.map f, (pointsOf mv _ _).2 ⟨pts, h3, rfl⟩, by rw [List.getElem?_map, h4]; rfl⟩
    · exact absurd ⟨points, _, hp, List.getElem?_eq_getElem hv⟩ h1

theorem firstActive (uv : Index) (first : ComponentMeshVertex) : FirstActive m' uv first ↔ FirstActive m uv first := by
  unfold FirstActive
  simp only [mv.componentMeshVertices, isActiveId mv]

theorem numberOf (kind : ComponentType) (id : Uuid) (v n : Index) : NumberOf m' kind id v n ↔ NumberOf m kind id v n := by
  unfold NumberOf
  rw [mv.uniqueVertex, mv.noId]

omit mv in
theorem first_known (vk : VerticesKnown m) {uv : Index} (h : uv < m.nbUniqueVertices) {first : ComponentMeshVertex}
    (hf : FirstActive m uv first) : ∃ points, PointsOf m first.component_id points ∧ first.vertex < points.length := by
  obtain ⟨before, after, h1, h2, _⟩ := hf
  exact vk.links uv h first (by rw [h1]; simp) h2

theorem differentPoints (vk : VerticesKnown m) (ans : AnswersFollow f (HasPoint m) lib lib') (uv : Index)
    (h : uv < m.nbUniqueVertices) : PlainDifferentPoints lib' m' uv ↔ PlainDifferentPoints lib m uv := by
  unfold PlainDifferentPoints
  constructor
  · rintro ⟨first, p, cmv, q, h1, h2, h3, h4, h5, h6⟩
    rw [mv.componentMeshVertices] at h3
    rw [firstActive mv] at h1
    rw [isActiveId mv] at h4
    obtain ⟨p, hp, k2, rfl⟩ := (isAt mv (lib := lib) first (first_known vk h h1) p).1 h2
    obtain ⟨q, hq, k5, rfl⟩ := (isAt mv (lib := lib) cmv (vk.links uv h cmv h3 h4) q).1 h5
    rw [ans.inexactEqual _ _ hp hq] at h6
    exact ⟨first, p, cmv, q, h1, k2, h3, h4, k5, h6⟩
  · rintro ⟨first, p, cmv, q, h1, h2, h3, h4, h5, h6⟩
    have at1 := isAt mv (lib := lib) (lib' := lib') first (first_known vk h h1)
    have at2 := isAt mv (lib := lib) (lib' := lib') cmv (vk.links uv h cmv h3 h4)
    have hp : HasPoint m p := by
      rcases h2 with ⟨pts, a, b⟩ | ⟨a, _⟩
      · exact hasPoint_of _ _ a _ (List.mem_of_getElem? b)
      · obtain ⟨pts, x, y⟩ := first_known vk h h1
        exact absurd ⟨pts, _, x, List.getElem?_eq_getElem y⟩ a
    have hq : HasPoint m q := by
      rcases h5 with ⟨pts, a, b⟩ | ⟨a, _⟩
      · exact hasPoint_of _ _ a _ (List.mem_of_getElem? b)
      · obtain ⟨pts, x, y⟩ := vk.links uv h cmv h3 h4
        exact absurd ⟨pts, _, x, List.getElem?_eq_getElem y⟩ a
    refine ⟨first, f p, cmv, f q, (firstActive mv _ _).2 h1, (at1 _).2 ⟨p, hp, h2, rfl⟩, ?_, (isActiveId mv _).2 h4,
      (at2 _).2 ⟨q, hq, h5, rfl⟩, ?_⟩
    · rw [mv.componentMeshVertices]; exact h3
    · rw [ans.inexactEqual _ _ hp hq]; exact h6

omit mv in
theorem at_known {cmv : ComponentMeshVertex} {p : P}
    (h : ∃ points, PointsOf m cmv.component_id points ∧ cmv.vertex < points.length) (hp : IsAt lib m cmv p) :
    HasPoint m p := by
  rcases hp with ⟨pts, a, b⟩ | ⟨a, _⟩
  · exact hasPoint_of _ _ a _ (List.mem_of_getElem? b)
  · obtain ⟨pts, x, y⟩ := h
    exact absurd ⟨pts, _, x, List.getElem?_eq_getElem y⟩ a

theorem places (vk : VerticesKnown m) : ∀ (uvs : List Index) (points' : List Q), (∀ uv ∈ uvs, uv < m.nbUniqueVertices) →
    (List.Forall₂ (fun uv p => ∃ first, FirstActive m' uv first ∧ IsAt lib' m' first p) uvs points' ↔
      ∃ points, List.Forall₂ (fun uv p => ∃ first, FirstActive m uv first ∧ IsAt lib m first p) uvs points ∧
        (∀ p ∈ points, HasPoint m p) ∧ points.map f = points')
  | [], points', _ => by
    constructor
    · intro h; cases h; exact ⟨[], .nil, by simp, rfl⟩
    · rintro ⟨points, h, _, rfl⟩; cases h; exact .nil
  | uv :: uvs, points', hu => by
    have hu0 := hu uv (by simp)
    have ih := fun pts => places vk uvs pts fun x hx => hu x (by simp [hx])
    constructor
    · intro h
      cases h with
      | cons h1 h2 =>
        obtain ⟨first, a, b⟩ := h1
        rw [firstActive mv] at a
        obtain ⟨p, hp, k, rfl⟩ := (isAt mv (lib := lib) first (first_known vk hu0 a) _).1 b
        obtain ⟨pts, h3, h4, rfl⟩ := (ih _).1 h2
        refine ⟨p :: pts, .cons ⟨first, a, k⟩ h3, ?_, rfl⟩
        intro x hx
        rcases List.mem_cons.1 hx with rfl | hx
        · exact hp
        · exact h4 x hx
    · rintro ⟨points, h, hD, rfl⟩
      cases h with
      | cons h1 h2 =>
        obtain ⟨first, a, b⟩ := h1
        refine .cons ⟨first, (firstActive mv _ _).2 a, (isAt mv first (first_known vk hu0 a) _).2 ⟨_, hD _ (by simp), b, rfl⟩⟩
          ((ih _).2 ⟨_, h2, fun p hp => hD p (by simp [hp]), rfl⟩)

omit mv in
theorem places_known (vk : VerticesKnown m) : ∀ (uvs : List Index) (points : List P), (∀ uv ∈ uvs, uv < m.nbUniqueVertices) →
    List.Forall₂ (fun uv p => ∃ first, FirstActive m uv first ∧ IsAt lib m first p) uvs points →
    ∀ p ∈ points, HasPoint m p
  | [], _, _, h => by cases h; simp
  | uv :: uvs, _, hu, .cons h1 h2 => by
    obtain ⟨first, a, b⟩ := h1
    intro p hp
    rcases List.mem_cons.1 hp with rfl | hp
    · exact at_known (first_known vk (hu uv (by simp)) a) b
    · exact places_known vk uvs _ (fun x hx => hu x (by simp [hx])) h2 p hp

theorem colocatedUvs (vk : VerticesKnown m) (ans : AnswersFollow f (HasPoint m) lib lib') :
    PlainColocatedUniqueVertices lib' m' ↔ PlainColocatedUniqueVertices lib m := by
  have he : ∀ uvs, Exactly (· < ·) (fun uv => uv < m'.nbUniqueVertices ∧
      ∃ cmv ∈ m'.componentMeshVertices uv, IsActiveId m' cmv.component_id.id) uvs ↔
      Exactly (· < ·) (fun uv => uv < m.nbUniqueVertices ∧
      ∃ cmv ∈ m.componentMeshVertices uv, IsActiveId m cmv.component_id.id) uvs := by
    intro uvs
    simp only [mv.componentMeshVertices, mv.nbUniqueVertices, isActiveId mv]
  unfold PlainColocatedUniqueVertices ActivePoints
  constructor
  · rintro ⟨uvs, points', ⟨h1, h2⟩, a, b, uva, uvb, ha, hb, hne, hc⟩
    rw [he] at h1
    obtain ⟨points, h3, h4, rfl⟩ := (places mv (lib := lib) vk uvs points' fun uv hu => ((h1.2 uv).1 hu).1).1 h2
    exact ⟨uvs, points, ⟨h1, h3⟩, a, b, uva, uvb, ha, hb, hne, (ans.search points h4 a b).1 hc⟩
  · rintro ⟨uvs, points, ⟨h1, h2⟩, a, b, uva, uvb, ha, hb, hne, hc⟩
    have hk := places_known vk uvs points (fun uv hu => ((h1.2 uv).1 hu).1) h2
    exact ⟨uvs, points.map f, ⟨(he _).2 h1, (places mv vk uvs _ fun uv hu => ((h1.2 uv).1 hu).1).2 ⟨points, h2, hk, rfl⟩⟩,
      a, b, uva, uvb, ha, hb, hne, (ans.search points hk a b).2 hc⟩

/-! ### meshes -/

theorem splitVertices (ans : AnswersFollow f (HasPoint m) lib lib') (kind : ComponentType) (id : Uuid) (points : List P)
    (h : ∀ p ∈ points, HasPoint m p) :
    PlainSplitVertices lib' m' kind id (points.map f) ↔ PlainSplitVertices lib m kind id points := by
  unfold PlainSplitVertices
  simp only [List.length_map, ans.search points h, numberOf mv]

omit mv in
theorem edgeAtMost (ans : AnswersFollow f (HasPoint m) lib lib') (points : List P)
    (h : ∀ p ∈ points, HasPoint m p) (e : Index × Index) :
    EdgeAtMostEps lib'.toLibrary (points.map f) e ↔ EdgeAtMostEps lib.toLibrary points e := by
  unfold EdgeAtMostEps
  constructor
  · rintro ⟨p, q, h1, h2, h3⟩
    rw [List.getElem?_map, Option.map_eq_some_iff] at h1 h2
    obtain ⟨p, h1, rfl⟩ := h1
    obtain ⟨q, h2, rfl⟩ := h2
    rw [ans.distance _ _ (h _ (List.mem_of_getElem? h1)) (h _ (List.mem_of_getElem? h2)), ans.eps] at h3
    exact ⟨p, q, h1, h2, h3⟩
  · rintro ⟨p, q, h1, h2, h3⟩
    refine ⟨f p, f q, by rw [List.getElem?_map, h1]; rfl, by rw [List.getElem?_map, h2]; rfl, ?_⟩
    rw [ans.distance _ _ (h _ (List.mem_of_getElem? h1)) (h _ (List.mem_of_getElem? h2)), ans.eps]
    exact h3

omit mv in
theorem edgeBelow (ans : AnswersFollow f (HasPoint m) lib lib') (points : List P)
    (h : ∀ p ∈ points, HasPoint m p) (e : Index × Index) :
    EdgeBelowEps lib'.toLibrary (points.map f) e ↔ EdgeBelowEps lib.toLibrary points e := by
  unfold EdgeBelowEps
  constructor
  · rintro ⟨p, q, h1, h2, h3⟩
    rw [List.getElem?_map, Option.map_eq_some_iff] at h1 h2
    obtain ⟨p, h1, rfl⟩ := h1
    obtain ⟨q, h2, rfl⟩ := h2
    rw [ans.distance _ _ (h _ (List.mem_of_getElem? h1)) (h _ (List.mem_of_getElem? h2)), ans.eps] at h3
    exact ⟨p, q, h1, h2, h3⟩
  · rintro ⟨p, q, h1, h2, h3⟩
    refine ⟨f p, f q, by rw [List.getElem?_map, h1]; rfl, by rw [List.getElem?_map, h2]; rfl, ?_⟩
    rw [ans.distance _ _ (h _ (List.mem_of_getElem? h1)) (h _ (List.mem_of_getElem? h2)), ans.eps]
    exact h3

theorem lineDefect (ans : AnswersFollow f (HasPoint m) lib lib') (l : LineData P) (hl : l ∈ m.lines) :
    PlainLineDefect lib' m' (line f l) ↔ PlainLineDefect lib m l := by
  have h : ∀ p ∈ l.points, HasPoint m p := fun p hp => .inr (.inl ⟨l, hl, hp⟩)
  unfold PlainLineDefect
  simp only [splitVertices mv ans .line l.id l.points h, edgeAtMost ans l.points h]

theorem borderNotOnLine (s : FaceData P) (x : PolygonEdge) : BorderNotOnLine m' (face f s) x ↔ BorderNotOnLine m s x := by
  unfold BorderNotOnLine
  rw [mv.uniqueVertex, mv.nbUniqueVertices, mv.lineComponentMeshEdges]

omit mv in
theorem brokenFan (s : FaceData P) (v : Index) : PlainBrokenFan (face f s) v ↔ PlainBrokenFan s v := by
  unfold PlainBrokenFan
  simp only [List.length_map]

theorem surfaceDefect (ans : AnswersFollow f (HasPoint m) lib lib') (s : FaceData P) (hs : s ∈ m.surfaces) :
    PlainSurfaceDefect lib' m' (face f s) ↔ PlainSurfaceDefect lib m s := by
  have h : ∀ p ∈ s.points, HasPoint m p := fun p hp => .inr (.inr (.inl ⟨s, hs, hp⟩))
  unfold PlainSurfaceDefect
  simp only [splitVertices mv ans .surface s.id s.points h, edgeBelow ans s.points h, borderNotOnLine mv, brokenFan,
    ans.eps]

theorem borderNotOnSurface (b : VolumeData P) (x : PolyhedronFacet) :
    BorderNotOnSurface m' (volume f b) x ↔ BorderNotOnSurface m b x := by
  unfold BorderNotOnSurface
  rw [mv.uniqueVertex, mv.surfaceComponentMeshPolygons]

omit mv in
theorem brokenSolidFan (b : VolumeData P) (v : Index) : PlainBrokenSolidFan (volume f b) v ↔ PlainBrokenSolidFan b v := by
  unfold PlainBrokenSolidFan
  simp only [List.length_map]

omit mv in
theorem badTurn (b : VolumeData P) (e : Index × Index) : PlainBadTurn (volume f b) e ↔ PlainBadTurn b e := Iff.rfl

omit mv in
theorem threeTimes (ans : AnswersFollow f (HasPoint m) lib lib') (b : VolumeData P) :
    ThreeTimesSameFacet lib' (volume f b) ↔ ThreeTimesSameFacet lib b := by
  unfold ThreeTimesSameFacet
  rw [ans.cycle]

omit mv in
theorem negative (b : VolumeData P) (p : Index) : PlainNegative (volume f b) p ↔ PlainNegative b p := Iff.rfl

theorem blockDefect (ans : AnswersFollow f (HasPoint m) lib lib') (b : VolumeData P) (hb : b ∈ m.blocks) :
    PlainBlockDefect lib' m' (volume f b) ↔ PlainBlockDefect lib m b := by
  have h : ∀ p ∈ b.points, HasPoint m p := fun p hp => .inr (.inr (.inr ⟨b, hb, hp⟩))
  unfold PlainBlockDefect
  simp only [splitVertices mv ans .block b.id b.points h, edgeBelow ans b.points h, borderNotOnSurface mv, brokenSolidFan,
    badTurn, threeTimes ans, negative, ans.eps, ans.isOpposite]

/-! ### edges and facets of the whole BRep -/

theorem interiorEdge (s : FaceData P) (hs : s ∈ m.surfaces) (x : PolygonEdge) (u v : Index) :
    InteriorEdge m' (face f s) x u v ↔ InteriorEdge m s x u v := by
  have h : face f s ∈ m'.surfaces := by rw [mv.surfaces]; exact List.mem_map_of_mem hs
  unfold InteriorEdge
  simp only [numberOf mv, h, hs]

theorem twiceInterior : TwiceInterior m' ↔ TwiceInterior m := by
  have hs : ∀ s, s ∈ m'.surfaces → ∃ s0 ∈ m.surfaces, s = face f s0 := by
    intro s h
    rw [mv.surfaces] at h
    obtain ⟨s0, h0, rfl⟩ := List.mem_map.1 h
    exact ⟨s0, h0, rfl⟩
  unfold TwiceInterior
  constructor
  · rintro ⟨s, x, u, v, s', x', u', v', h1, h2, h3, h4⟩
    obtain ⟨s0, hs0, rfl⟩ := hs s h1.1
    obtain ⟨s1, hs1, rfl⟩ := hs s' h2.1
    exact ⟨s0, x, u, v, s1, x', u', v', (interiorEdge mv s0 hs0 _ _ _).1 h1, (interiorEdge mv s1 hs1 _ _ _).1 h2, h3, h4⟩
  · rintro ⟨s, x, u, v, s', x', u', v', h1, h2, h3, h4⟩
    exact ⟨face f s, x, u, v, face f s', x', u', v', (interiorEdge mv s h1.1 _ _ _).2 h1,
      (interiorEdge mv s' h2.1 _ _ _).2 h2, h3, h4⟩

theorem alone (kind : ComponentType) (id : Uuid) (v : Index) :
    AloneAtUniqueVertex m' kind id v ↔ AloneAtUniqueVertex m kind id v := by
  unfold AloneAtUniqueVertex
  simp only [numberOf mv, mv.componentMeshVertices]

theorem floatingEdge (l : LineData P) : FloatingEdge m' (line f l) ↔ FloatingEdge m l := by
  unfold FloatingEdge
  simp only [alone mv, mv.embeddings]

theorem floatingFacet (s : FaceData P) : FloatingFacet m' (face f s) ↔ FloatingFacet m s := by
  unfold FloatingFacet
  simp only [alone mv, mv.embeddings]

/-! ### intersections -/

theorem uniqueVertex_eq (s : FaceData P) :
    (m'.modelSurface lib' (face f s)).uniqueVertex = (m.modelSurface lib s).uniqueVertex := by
  funext v
  show m'.uniqueVertexId .surface s.id v = m.uniqueVertexId .surface s.id v
  unfold ModelData.uniqueVertexId
  rw [mv.uniqueVertex, mv.noId]

omit mv in
theorem point_eq (s : FaceData P) (v : Index) (h : v < s.points.length) :
    (m'.modelSurface lib' (face f s)).point v = f ((m.modelSurface lib s).point v) := by
  show ModelData.pointOf lib' (some (s.points.map f)) v = f (ModelData.pointOf lib (some s.points) v)
  simp [ModelData.pointOf, h]

omit mv in
theorem point_known (s : FaceData P) (hs : s ∈ m.surfaces) (v : Index) (h : v < s.points.length) :
    HasPoint m ((m.modelSurface lib s).point v) := by
  refine .inr (.inr (.inl ⟨s, hs, ?_⟩))
  show ModelData.pointOf lib (some s.points) v ∈ s.points
  simp [ModelData.pointOf, h]

/-- Two Surfaces as given to the tests, one with the points of the other moved, as far as the vertices `V` are concerned. -/
structure Like (f : P → Q) (D : P → Prop) (r : ModelSurface P) (r' : ModelSurface Q) (V : List Index) : Prop where
  nbVertices : r'.nbVertices = r.nbVertices
  uniqueVertex : r'.uniqueVertex = r.uniqueVertex
  points : ∀ v, v < r.nbVertices → r'.point v = f (r.point v) ∧ D (r.point v)
  known : ∀ v ∈ V, v < r.nbVertices

theorem like (s : FaceData P) (hs : s ∈ m.surfaces) (V : List Index) (hV : ∀ v ∈ V, v < s.points.length) :
    Like f (HasPoint m) (m.modelSurface lib s) (m'.modelSurface lib' (face f s)) V where
  nbVertices := by show (s.points.map f).length = s.points.length; simp
  uniqueVertex := uniqueVertex_eq mv s
  points v hv := ⟨point_eq s v hv, point_known s hs v hv⟩
  known := hV

omit mv

theorem common {D : P → Prop} {r1 r2 : ModelSurface P} {r1' r2' : ModelSurface Q} {t1 t2 : List Index}
    (l1 : Like f D r1 r1' t1) (l2 : Like f D r2 r2' t2) (c : List (Index × Index)) :
    CommonVertices r1' r2' t1 t2 c ↔ CommonVertices r1 r2 t1 t2 c := by
  have hs : ∀ v w, Shared r1' r2' v w ↔ Shared r1 r2 v w := by
    intro v w; unfold Shared; rw [l1.uniqueVertex, l2.uniqueVertex]
  have hi : ∀ v, IsShared r1' r2' t2 v ↔ IsShared r1 r2 t2 v := by
    intro v; unfold IsShared; simp only [hs]
  constructor
  · rintro ⟨h1, h2⟩
    simp only [hs] at h2
    exact ⟨by rw [h1]; exact List.filter_congr fun v _ => decide_eq_decide.2 (hi v), h2⟩
  · rintro ⟨h1, h2⟩
    refine ⟨by rw [h1]; exact List.filter_congr fun v _ => decide_eq_decide.2 (hi v).symm, ?_⟩
    simp only [hs]
    exact h2

theorem mem_edgesOf {t : List Index} {e : Index × Index} (h : e ∈ edgesOf t) : e.1 ∈ t ∧ e.2 ∈ t := by
  unfold edgesOf at h
  split at h
  · simp only [List.mem_cons, List.not_mem_nil, or_false] at h
    rcases h with rfl | rfl | rfl <;> simp
  · exact absurd h List.not_mem_nil

theorem segment {D : P → Prop} (ans : AnswersFollow f D lib lib') {r1 r2 : ModelSurface P} {r1' r2' : ModelSurface Q}
    {t1 t2 : List Index} (l1 : Like f D r1 r1' t1) (l2 : Like f D r2 r2' t2) {e1 e2 : Index × Index}
    (h1 : e1.1 ∈ t1 ∧ e1.2 ∈ t1) (h2 : e2.1 ∈ t2 ∧ e2.2 ∈ t2) :
    lib'.geometry.segmentSegment (segmentOf r1' e1) (segmentOf r2' e2) =
      lib.geometry.segmentSegment (segmentOf r1 e1) (segmentOf r2 e2) := by
  obtain ⟨a1, a2⟩ := l1.points _ (l1.known _ h1.1)
  obtain ⟨b1, b2⟩ := l1.points _ (l1.known _ h1.2)
  obtain ⟨c1, c2⟩ := l2.points _ (l2.known _ h2.1)
  obtain ⟨d1, d2⟩ := l2.points _ (l2.known _ h2.2)
  unfold segmentOf
  rw [a1, b1, c1, d1]
  exact ans.segmentSegment _ _ _ _ a2 b2 c2 d2

theorem edge {D : P → Prop} (ans : AnswersFollow f D lib lib') {r1 r2 : ModelSurface P} {r1' r2' : ModelSurface Q}
    {t1 t2 : List Index} (l1 : Like f D r1 r1' t1) (l2 : Like f D r2 r2' t2) {e1 : Index × Index} {a b c : Index}
    (h1 : e1.1 ∈ t1 ∧ e1.2 ∈ t1) (h2 : a ∈ t2 ∧ b ∈ t2 ∧ c ∈ t2) :
    lib'.geometry.segmentTriangle (segmentOf r1' e1) (r2'.point a, r2'.point b, r2'.point c) =
      lib.geometry.segmentTriangle (segmentOf r1 e1) (r2.point a, r2.point b, r2.point c) := by
  obtain ⟨a1, a2⟩ := l1.points _ (l1.known _ h1.1)
  obtain ⟨b1, b2⟩ := l1.points _ (l1.known _ h1.2)
  obtain ⟨c1, c2⟩ := l2.points _ (l2.known _ h2.1)
  obtain ⟨d1, d2⟩ := l2.points _ (l2.known _ h2.2.1)
  obtain ⟨e1, e2⟩ := l2.points _ (l2.known _ h2.2.2)
  unfold segmentOf
  rw [a1, b1, c1, d1, e1]
  exact ans.segmentTriangle _ _ _ _ _ a2 b2 c2 d2 e2

theorem triangleOf (r : ModelSurface P) (a b c : Index) (x : P × P × P) :
    TriangleOf r [a, b, c] x ↔ x = (r.point a, r.point b, r.point c) := by
  unfold TriangleOf
  constructor
  · rintro ⟨a', b', c', h, rfl⟩
    simp only [List.cons.injEq, and_true] at h
    obtain ⟨rfl, rfl, rfl⟩ := h
    rfl
  · rintro rfl
    exact ⟨a, b, c, rfl, rfl⟩

theorem first_mem {p : Index → Prop} {t : List Index} {y : Index} (h : FirstOf p t y) : y ∈ t := by
  obtain ⟨_, _, rfl, _⟩ := h
  simp

theorem common_mem {r1 r2 : ModelSurface P} {t1 t2 : List Index} {common : List (Index × Index)}
    (h : CommonVertices r1 r2 t1 t2 common) {c : Index × Index} (hc : c ∈ common) : c.1 ∈ t1 ∧ c.2 ∈ t2 := by
  refine ⟨?_, first_mem (h.others c hc)⟩
  have : c.1 ∈ common.map Prod.fst := List.mem_map_of_mem hc
  rw [h.vertices] at this
  exact (List.mem_filter.1 this).1

theorem sectionMeet {D : P → Prop} (ans : AnswersFollow f D lib lib') {r1 r2 : ModelSurface P} {r1' r2' : ModelSurface Q}
    {t1 t2 : List Index} (l1 : Like f D r1 r1' t1) (l2 : Like f D r2 r2' t2) (h1 : ∃ a b c, t1 = [a, b, c])
    (h2 : ∃ a b c, t2 = [a, b, c]) :
    SectionTrianglesMeet lib'.geometry r1' r2' t1 t2 ↔ SectionTrianglesMeet lib.geometry r1 r2 t1 t2 := by
  have cross : ∀ e1 ∈ edgesOf t1, ∀ e2 ∈ edgesOf t2,
      lib'.geometry.segmentSegment (segmentOf r1' e1) (segmentOf r2' e2) =
        lib.geometry.segmentSegment (segmentOf r1 e1) (segmentOf r2 e2) :=
    fun e1 h1 e2 h2 => segment ans l1 l2 (mem_edgesOf h1) (mem_edgesOf h2)
  unfold SectionTrianglesMeet
  simp only [common l1 l2]
  refine exists_congr fun com => and_congr_right fun hcom => ?_
  split
  · refine exists_congr fun e1 => and_congr_right fun m1 => exists_congr fun e2 => and_congr_right fun m2 => ?_
    unfold EdgesCross
    rw [cross e1 m1 e2 m2]
  · refine exists_congr fun e1 => and_congr_right fun m1 => exists_congr fun e2 => and_congr_right fun m2 => ?_
    unfold EdgesCross FoundAt
    rw [cross e1 m1 e2 m2, ans.positionToIndex]
  · rename_i c0 c1
    rw [l1.nbVertices]
    refine and_congr_right fun hlt => ?_
    obtain ⟨k0, k0'⟩ := common_mem hcom (c := c0) (by simp)
    obtain ⟨k1, k1'⟩ := common_mem hcom (c := c1) (by simp)
    obtain ⟨a1, b1, d1, rfl⟩ := h1
    obtain ⟨a2, b2, d2, rfl⟩ := h2
    unfold SectionAdjacentMeet
    simp only [triangleOf]
    obtain ⟨q1, q1'⟩ := l1.points _ (l1.known _ k0)
    obtain ⟨q2, q2'⟩ := l1.points _ hlt
    obtain ⟨u1, u1'⟩ := l1.points a1 (l1.known _ (by simp))
    obtain ⟨u2, u2'⟩ := l1.points b1 (l1.known _ (by simp))
    obtain ⟨u3, u3'⟩ := l1.points d1 (l1.known _ (by simp))
    obtain ⟨v1, v1'⟩ := l2.points a2 (l2.known _ (by simp))
    obtain ⟨v2, v2'⟩ := l2.points b2 (l2.known _ (by simp))
    obtain ⟨v3, v3'⟩ := l2.points d2 (l2.known _ (by simp))
    have key : ∀ x y, x ∈ [a1, b1, d1] → y ∈ [a2, b2, d2] →
        (FoldedTriangles lib'.geometry (r1'.point c0.1) (r1'.point c1.2) (r1'.point x) (r2'.point y)
          (r1'.point a1, r1'.point b1, r1'.point d1) (r2'.point a2, r2'.point b2, r2'.point d2) ↔
        FoldedTriangles lib.geometry (r1.point c0.1) (r1.point c1.2) (r1.point x) (r2.point y)
          (r1.point a1, r1.point b1, r1.point d1) (r2.point a2, r2.point b2, r2.point d2)) := by
      intro x y hx hy
      obtain ⟨x1, x2⟩ := l1.points x (l1.known _ hx)
      obtain ⟨y1, y2⟩ := l2.points y (l2.known _ hy)
      unfold FoldedTriangles
      rw [q1, q2, u1, u2, u3, v1, v2, v3, x1, y1, ans.segmentSegment _ _ _ _ q1' x2 q2' y2,
        ans.segmentSegment _ _ _ _ q2' x2 q1' y2, ans.pointTriangle _ _ _ _ x2 v1' v2' v3',
        ans.pointTriangle _ _ _ _ y2 u1' u2' u3']
    constructor
    · rintro ⟨x, y, _, _, fx, fy, rfl, rfl, h⟩
      exact ⟨x, y, _, _, fx, fy, rfl, rfl, (key x y (first_mem fx) (first_mem fy)).1 h⟩
    · rintro ⟨x, y, _, _, fx, fy, rfl, rfl, h⟩
      exact ⟨x, y, _, _, fx, fy, rfl, rfl, (key x y (first_mem fx) (first_mem fy)).2 h⟩
  · exact Iff.rfl

theorem edgeMeets {D : P → Prop} (ans : AnswersFollow f D lib lib') {r1 r2 : ModelSurface P} {r1' r2' : ModelSurface Q}
    {t1 t2 : List Index} (l1 : Like f D r1 r1' t1) (l2 : Like f D r2 r2' t2) (h2 : ∃ a b c, t2 = [a, b, c])
    {e : Index × Index} (he : e ∈ edgesOf t1) :
    EdgeMeets lib'.geometry r1' r2' e t2 ↔ EdgeMeets lib.geometry r1 r2 e t2 := by
  obtain ⟨a, b, c, rfl⟩ := h2
  unfold EdgeMeets
  simp only [triangleOf, exists_eq_left]
  rw [edge ans l1 l2 (mem_edgesOf he) (by simp)]

theorem edgeMeetsElsewhere {D : P → Prop} (ans : AnswersFollow f D lib lib') {r1 r2 : ModelSurface P}
    {r1' r2' : ModelSurface Q} {t1 t2 : List Index} (l1 : Like f D r1 r1' t1) (l2 : Like f D r2 r2' t2)
    (h2 : ∃ a b c, t2 = [a, b, c]) {e : Index × Index} (he : e ∈ edgesOf t1) (c : Index × Index) :
    EdgeMeetsElsewhere lib'.geometry r1' r2' e t2 c ↔ EdgeMeetsElsewhere lib.geometry r1 r2 e t2 c := by
  obtain ⟨a, b, d, rfl⟩ := h2
  unfold EdgeMeetsElsewhere FoundAt
  simp only [triangleOf, exists_eq_left]
  rw [edge ans l1 l2 (mem_edgesOf he) (by simp), ans.positionToIndex]

theorem brepMeet {D : P → Prop} (ans : AnswersFollow f D lib lib') {r1 r2 : ModelSurface P} {r1' r2' : ModelSurface Q}
    {t1 t2 : List Index} (l1 : Like f D r1 r1' t1) (l2 : Like f D r2 r2' t2) (h1 : ∃ a b c, t1 = [a, b, c])
    (h2 : ∃ a b c, t2 = [a, b, c]) :
    BRepTrianglesMeet lib'.geometry r1' r2' t1 t2 ↔ BRepTrianglesMeet lib.geometry r1 r2 t1 t2 := by
  unfold BRepTrianglesMeet
  simp only [common l1 l2]
  refine exists_congr fun com => and_congr_right fun hcom => ?_
  split
  · exact or_congr (exists_congr fun e => and_congr_right fun he => edgeMeets ans l1 l2 h2 he)
      (exists_congr fun e => and_congr_right fun he => edgeMeets ans l2 l1 h1 he)
  · exact or_congr (exists_congr fun e => and_congr_right fun he => edgeMeetsElsewhere ans l1 l2 h2 he _)
      (exists_congr fun e => and_congr_right fun he => edgeMeetsElsewhere ans l2 l1 h1 he _)
  · rename_i c0 c1
    obtain ⟨k0, k0'⟩ := common_mem hcom (c := c0) (by simp)
    obtain ⟨k1, k1'⟩ := common_mem hcom (c := c1) (by simp)
    obtain ⟨a, b, d, rfl⟩ := h2
    simp only [triangleOf]
    refine exists_congr fun x => ?_
    constructor
    · rintro ⟨_, fx, rfl, h⟩
      rw [edge ans l1 l2 (e1 := (c0.1, x)) ⟨k0, first_mem fx⟩ (by simp),
        edge ans l1 l2 (e1 := (c1.1, x)) ⟨k1, first_mem fx⟩ (by simp)] at h
      exact ⟨_, fx, rfl, h⟩
    · rintro ⟨_, fx, rfl, h⟩
      refine ⟨_, fx, rfl, ?_⟩
      rw [edge ans l1 l2 (e1 := (c0.1, x)) ⟨k0, first_mem fx⟩ (by simp),
        edge ans l1 l2 (e1 := (c1.1, x)) ⟨k1, first_mem fx⟩ (by simp)]
      exact h
  · exact Iff.rfl

theorem fan_known {s : FaceData P} {n : Nat} {p : Index} (h : ∀ k, k < s.nbPolygonVertices p → s.polygonVertex (p, k) < n)
    {t : List Index} (ht : t ∈ fan (s.polygonVertices p)) : ∀ v ∈ t, v < n := by
  unfold fan at ht
  obtain ⟨k, hk, rfl⟩ := List.mem_map.1 ht
  rw [List.mem_range] at hk
  have hl : (s.polygonVertices p).length = s.nbPolygonVertices p := (Plain.vertices_given _ _).1
  have hg : ∀ i, i < s.nbPolygonVertices p → (s.polygonVertices p).getD i 0 < n := by
    intro i hi
    have := (Plain.vertices_given (s.nbPolygonVertices p) fun k => s.polygonVertex (p, k)).2 i hi
    rw [List.getD_eq_getElem?_getD]
    show (((List.range (s.nbPolygonVertices p)).map fun k => s.polygonVertex (p, k))[i]?).getD 0 < n
    rw [this]
    exact h i hi
  intro v hv
  simp only [List.mem_cons, List.not_mem_nil, or_false] at hv
  rcases hv with rfl | rfl | rfl <;> exact hg _ (by omega)

theorem polygonsMeet (mv : PointsMoved f m m') (vk : VerticesKnown m)
    {Meet : ModelSurface P → ModelSurface P → List Index → List Index → Prop}
    {Meet' : ModelSurface Q → ModelSurface Q → List Index → List Index → Prop}
    (hm : ∀ (r1 r2 : ModelSurface P) (r1' r2' : ModelSurface Q) (t1 t2 : List Index), Like f (HasPoint m) r1 r1' t1 →
      Like f (HasPoint m) r2 r2' t2 → (∃ a b c, t1 = [a, b, c]) → (∃ a b c, t2 = [a, b, c]) →
      (Meet' r1' r2' t1 t2 ↔ Meet r1 r2 t1 t2)) :
    PlainPolygonsMeet lib' m' Meet' ↔ PlainPolygonsMeet lib m Meet := by
  unfold PlainPolygonsMeet
  constructor
  · rintro ⟨s1', s2', r1, r2, p, q, h1, h2, h3, h4, g1, g2, h5, h6, h7, t1, ht1, t2, ht2, hmeet⟩
    rw [mv.surfaces] at h1 h3
    obtain ⟨s1, i1, rfl⟩ := List.mem_map.1 h1
    obtain ⟨s2, i3, rfl⟩ := List.mem_map.1 h3
    have e1 := Plain.given_surface_eq g1
    have e2 := Plain.given_surface_eq g2
    subst e1 e2
    have ht1 : t1 ∈ fan (s1.polygonVertices p) := ht1
    have ht2 : t2 ∈ fan (s2.polygonVertices q) := ht2
    have k1 := fan_known (fun k hk => vk.polygons s1 i1 p k h5 hk) ht1
    have k2 := fan_known (fun k hk => vk.polygons s2 i3 q k h6 hk) ht2
    exact ⟨s1, s2, _, _, p, q, i1, h2, i3, h4, Plain.given_surface lib m s1, Plain.given_surface lib m s2, h5, h6, h7,
      t1, ht1, t2, ht2, (hm _ _ _ _ _ _ (like mv s1 i1 t1 k1) (like mv s2 i3 t2 k2) (Inspector.Meet.fan_three _ _ ht1)
        (Inspector.Meet.fan_three _ _ ht2)).1 hmeet⟩
  · rintro ⟨s1, s2, r1, r2, p, q, h1, h2, h3, h4, g1, g2, h5, h6, h7, t1, ht1, t2, ht2, hmeet⟩
    have e1 := Plain.given_surface_eq g1
    have e2 := Plain.given_surface_eq g2
    subst e1 e2
    have ht1 : t1 ∈ fan (s1.polygonVertices p) := ht1
    have ht2 : t2 ∈ fan (s2.polygonVertices q) := ht2
    have k1 := fan_known (fun k hk => vk.polygons s1 h1 p k h5 hk) ht1
    have k2 := fan_known (fun k hk => vk.polygons s2 h3 q k h6 hk) ht2
    exact ⟨face f s1, face f s2, _, _, p, q, by rw [mv.surfaces]; exact List.mem_map_of_mem h1, h2,
      by rw [mv.surfaces]; exact List.mem_map_of_mem h3, h4, Plain.given_surface lib' m' (face f s1),
      Plain.given_surface lib' m' (face f s2), h5, h6, h7,
      t1, ht1, t2, ht2, (hm _ _ _ _ _ _ (like mv s1 h1 t1 k1) (like mv s2 h3 t2 k2) (Inspector.Meet.fan_three _ _ ht1)
        (Inspector.Meet.fan_three _ _ ht2)).2 hmeet⟩

theorem linePoint (points : List P) (v : Index) (hv : v < points.length) (q : Q) :
    IsPoint lib' (points.map f) v q ↔ ∃ p ∈ points, IsPoint lib points v p ∧ f p = q := by
  unfold IsPoint
  rw [List.getElem?_map, List.getElem?_eq_getElem hv]
  simp only [Option.map_some, Option.some.injEq, reduceCtorEq, false_and, or_false]
  constructor
  · intro h; exact ⟨_, List.getElem_mem hv, rfl, h⟩
  · rintro ⟨p, _, rfl, h⟩; exact h

theorem lineMeets (mv : PointsMoved f m m') (vk : VerticesKnown m) (ans : AnswersFollow f (HasPoint m) lib lib') :
    PlainLineMeetsSurface lib' m' ↔ PlainLineMeetsSurface lib m := by
  have key : ∀ s ∈ m.surfaces, ∀ l ∈ m.lines, ∀ p, p < s.nbPolygons → ∀ t ∈ fan (s.polygonVertices p), ∀ a ∈ l.points,
      ∀ b ∈ l.points,
      lib'.geometry.segmentTriangle (f a, f b) ((m'.modelSurface lib' (face f s)).point (t.getD 0 0),
        (m'.modelSurface lib' (face f s)).point (t.getD 1 0), (m'.modelSurface lib' (face f s)).point (t.getD 2 0)) =
      lib.geometry.segmentTriangle (a, b) ((m.modelSurface lib s).point (t.getD 0 0),
        (m.modelSurface lib s).point (t.getD 1 0), (m.modelSurface lib s).point (t.getD 2 0)) := by
    intro s hs l hl p hp t ht a ha b hb
    have k := fan_known (fun k hk => vk.polygons s hs p k hp hk) ht
    obtain ⟨x, y, z, rfl⟩ := Inspector.Meet.fan_three _ _ ht
    have kx := k x (by simp)
    have ky := k y (by simp)
    have kz := k z (by simp)
    show lib'.geometry.segmentTriangle (f a, f b) ((m'.modelSurface lib' (face f s)).point x,
        (m'.modelSurface lib' (face f s)).point y, (m'.modelSurface lib' (face f s)).point z) =
      lib.geometry.segmentTriangle (a, b) ((m.modelSurface lib s).point x,
        (m.modelSurface lib s).point y, (m.modelSurface lib s).point z)
    rw [point_eq (m := m) (lib := lib) s x kx, point_eq (m := m) (lib := lib) s y ky, point_eq (m := m) (lib := lib) s z kz]
    exact ans.segmentTriangle _ _ _ _ _ (.inr (.inl ⟨l, hl, ha⟩)) (.inr (.inl ⟨l, hl, hb⟩)) (point_known s hs x kx)
      (point_known s hs y ky) (point_known s hs z kz)
  unfold PlainLineMeetsSurface
  rw [mv.embeddings]
  constructor
  · rintro ⟨s', l', r, p, e, a', b', h1, h2, h3, h4, h5, g, h6, h7, h8, h9, t, ht, x, hx, h10⟩
    rw [mv.surfaces] at h1
    rw [mv.lines] at h3
    obtain ⟨s, i1, rfl⟩ := List.mem_map.1 h1
    obtain ⟨l, i3, rfl⟩ := List.mem_map.1 h3
    have e1 := Plain.given_surface_eq g
    subst e1
    obtain ⟨a, ha, i8, rfl⟩ := (linePoint (lib := lib) l.points _ (vk.edges l i3 e h7).1 _).1 h8
    obtain ⟨b, hb, i9, rfl⟩ := (linePoint (lib := lib) l.points _ (vk.edges l i3 e h7).2 _).1 h9
    have e2 := key s i1 l i3 p h6 t ht a ha b hb
    rw [e2] at h10
    exact ⟨s, l, _, p, e, a, b, i1, h2, i3, h4, h5, Plain.given_surface lib m s, h6, h7, i8, i9, t, ht, x, hx, h10⟩
  · rintro ⟨s, l, r, p, e, a, b, h1, h2, h3, h4, h5, g, h6, h7, h8, h9, t, ht, x, hx, h10⟩
    have e1 := Plain.given_surface_eq g
    subst e1
    have pa : ∀ v c, v < l.points.length → IsPoint lib l.points v c → c ∈ l.points := by
      intro v c hv hc
      rcases hc with hc | ⟨hc, _⟩
      · exact List.mem_of_getElem? hc
      · rw [List.getElem?_eq_getElem hv] at hc; cases hc
    have ha := pa _ _ (vk.edges l h3 e h7).1 h8
    have hb := pa _ _ (vk.edges l h3 e h7).2 h9
    have e2 := key s h1 l h3 p h6 t ht a ha b hb
    rw [← e2] at h10
    exact ⟨face f s, line f l, _, p, e, f a, f b, by rw [mv.surfaces]; exact List.mem_map_of_mem h1, h2,
      by rw [mv.lines]; exact List.mem_map_of_mem h3, h4, h5, Plain.given_surface lib' m' (face f s), h6, h7,
      (linePoint l.points _ (vk.edges l h3 e h7).1 _).2 ⟨a, ha, h8, rfl⟩,
      (linePoint l.points _ (vk.edges l h3 e h7).2 _).2 ⟨b, hb, h9, rfl⟩, t, ht, x, hx, h10⟩

/-! ### topology and whole models -/

theorem givenTopology (mv : PointsMoved f m m') (t : TopologyModel) : GivenTopology m' t ↔ GivenTopology m t := by
  constructor
  · intro g
    obtain ⟨h1, h2, h3, h4, h5, h6, h7, h8, h9, h10, h11, h12, h13, h14, h15, h16, h17, h18, h19, h20, h21⟩ := g
    simp only [mv.corners, mv.lines, mv.surfaces, mv.blocks, List.map_map, Function.comp_def, List.length_map,
      mv.nbUniqueVertices, mv.componentMeshVertices, mv.uniqueVertex, mv.isBoundary, mv.isInternal, mv.embeddings,
      mv.incidences, mv.boundaries, mv.isVertexOnBorder, mv.surfaceEdges, mv.blockEdges, mv.blockPolygons,
      List.forall_mem_map] at *
    exact ⟨h1, h2, h3, h4, h5, h6, h7, h8, h9, h10, h11, h12, h13, h14, h15, h16, h17, h18, h19, h20, h21⟩
  · intro g
    obtain ⟨h1, h2, h3, h4, h5, h6, h7, h8, h9, h10, h11, h12, h13, h14, h15, h16, h17, h18, h19, h20, h21⟩ := g
    constructor <;>
    (try simp only [mv.corners, mv.lines, mv.surfaces, mv.blocks, List.map_map, Function.comp_def, List.length_map,
      mv.nbUniqueVertices, mv.componentMeshVertices, mv.uniqueVertex, mv.isBoundary, mv.isInternal, mv.embeddings,
      mv.incidences, mv.boundaries, mv.isVertexOnBorder, mv.surfaceEdges, mv.blockEdges, mv.blockPolygons,
      List.forall_mem_map]) <;> assumption

theorem different (mv : PointsMoved f m m') (vk : VerticesKnown m) (ans : AnswersFollow f (HasPoint m) lib lib') :
    (∃ uv, uv < m'.nbUniqueVertices ∧ PlainDifferentPoints lib' m' uv) ↔
      ∃ uv, uv < m.nbUniqueVertices ∧ PlainDifferentPoints lib m uv := by
  rw [mv.nbUniqueVertices]
  exact exists_congr fun uv => and_congr_right fun h => differentPoints mv vk ans uv h

theorem some_line (mv : PointsMoved f m m') {A : LineData P → Prop} {A' : LineData Q → Prop}
    (h : ∀ l ∈ m.lines, A' (line f l) ↔ A l) : (∃ l ∈ m'.lines, A' l) ↔ ∃ l ∈ m.lines, A l := by
  rw [mv.lines]
  simp only [List.mem_map, exists_exists_and_eq_and]
  exact exists_congr fun l => and_congr_right fun hl => h l hl

theorem some_surface (mv : PointsMoved f m m') {A : FaceData P → Prop} {A' : FaceData Q → Prop}
    (h : ∀ s ∈ m.surfaces, A' (face f s) ↔ A s) : (∃ s ∈ m'.surfaces, A' s) ↔ ∃ s ∈ m.surfaces, A s := by
  rw [mv.surfaces]
  simp only [List.mem_map, exists_exists_and_eq_and]
  exact exists_congr fun s => and_congr_right fun hs => h s hs

theorem some_block (mv : PointsMoved f m m') {A : VolumeData P → Prop} {A' : VolumeData Q → Prop}
    (h : ∀ b ∈ m.blocks, A' (volume f b) ↔ A b) : (∃ b ∈ m'.blocks, A' b) ↔ ∃ b ∈ m.blocks, A b := by
  rw [mv.blocks]
  simp only [List.mem_map, exists_exists_and_eq_and]
  exact exists_congr fun b => and_congr_right fun hb => h b hb

theorem sectionDefect (mv : PointsMoved f m m') (vk : VerticesKnown m) (ans : AnswersFollow f (HasPoint m) lib lib') :
    PlainSectionDefect lib' m' ↔ PlainSectionDefect lib m := by
  unfold PlainSectionDefect
  rw [different mv vk ans, colocatedUvs mv vk ans,
    some_line mv (A := fun l => l.active = true ∧ PlainLineDefect lib m l) fun l hl =>
      and_congr_right fun _ => lineDefect mv ans l hl,
    some_surface mv (A := fun s => s.active = true ∧
      (PlainSurfaceDefect lib m s ∨ ∃ p, p < s.nbPolygons ∧ s.polygonAreaSign p = .negative)) fun s hs =>
      and_congr_right fun _ => or_congr (surfaceDefect mv ans s hs) Iff.rfl,
    polygonsMeet mv vk (lib := lib) (Meet := SectionTrianglesMeet lib.geometry) fun _ _ _ _ _ _ l1 l2 h1 h2 => sectionMeet ans l1 l2 h1 h2]
  simp only [givenTopology mv]

theorem meshDefect (mv : PointsMoved f m m') (vk : VerticesKnown m) (ans : AnswersFollow f (HasPoint m) lib lib') :
    PlainBRepMeshDefect lib' m' ↔ PlainBRepMeshDefect lib m := by
  unfold PlainBRepMeshDefect
  rw [different mv vk ans, colocatedUvs mv vk ans,
    some_line mv (A := fun l => l.active = true ∧ PlainLineDefect lib m l) fun l hl =>
      and_congr_right fun _ => lineDefect mv ans l hl,
    some_surface mv (A := fun s => s.active = true ∧ PlainSurfaceDefect lib m s) fun s hs =>
      and_congr_right fun _ => surfaceDefect mv ans s hs,
    some_block mv (A := fun b => b.active = true ∧ PlainBlockDefect lib m b) fun b hb =>
      and_congr_right fun _ => blockDefect mv ans b hb,
    twiceInterior mv, some_line mv (A := FloatingEdge m) fun l _ => floatingEdge mv l,
    some_surface mv (A := FloatingFacet m) fun s _ => floatingFacet mv s,
    polygonsMeet mv vk (lib := lib) (Meet := BRepTrianglesMeet lib.geometry) fun _ _ _ _ _ _ l1 l2 h1 h2 => brepMeet ans l1 l2 h1 h2]

theorem brepDefect (mv : PointsMoved f m m') (vk : VerticesKnown m) (ans : AnswersFollow f (HasPoint m) lib lib') :
    PlainBRepDefect lib' m' ↔ PlainBRepDefect lib m := by
  unfold PlainBRepDefect
  rw [meshDefect mv vk ans, lineMeets mv vk ans, mv.blocksOracle]
  simp only [givenTopology mv]

theorem brepDefectBeside (mv : PointsMoved f m m') (vk : VerticesKnown m) (ans : AnswersFollow f (HasPoint m) lib lib') :
    PlainBRepDefectBesideLines lib' m' ↔ PlainBRepDefectBesideLines lib m := by
  have hl : (∀ l ∈ m'.lines, l.active = true → l.nbEdges ≠ 0) ↔ ∀ l ∈ m.lines, l.active = true → l.nbEdges ≠ 0 := by
    rw [mv.lines]
    simp only [List.forall_mem_map]
  unfold PlainBRepDefectBesideLines
  rw [meshDefect mv vk ans, lineMeets mv vk ans, mv.blocksOracle, hl]
  simp only [givenTopology mv]

theorem unreadable (mv : PointsMoved f m m') : PlainUnreadable m' ↔ PlainUnreadable m := by
  unfold PlainUnreadable
  simp only [givenTopology mv]

end
end Inspector.Place
