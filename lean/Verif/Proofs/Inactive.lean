import Verif.Spec.Inactive
import Verif.Proofs.Plain
/-
Proofs for C124: the defects of a model and the meshes of its inactive components.
-/
namespace Inspector.Inactive
open Inspector Spec

/-! ### related lists -/

theorem forall2_and {α : Type} {R S : α → α → Prop} : ∀ {l l' : List α}, List.Forall₂ R l l' → List.Forall₂ S l l' →
    List.Forall₂ (fun a b => R a b ∧ S a b) l l'
  | _, _, .nil, .nil => .nil
  | _, _, .cons h t, .cons h' t' => .cons ⟨h, h'⟩ (forall2_and t t')

theorem forall2_mem {α : Type} {R : α → α → Prop} : ∀ {l l' : List α}, List.Forall₂ R l l' →
    (∀ a ∈ l, ∃ b ∈ l', R a b) ∧ ∀ b ∈ l', ∃ a ∈ l, R a b
  | _, _, .nil => ⟨fun _ h => absurd h List.not_mem_nil, fun _ h => absurd h List.not_mem_nil⟩
  | _, _, .cons h t => by
    obtain ⟨h1, h2⟩ := forall2_mem t
    constructor
    · intro a ha
      rcases List.mem_cons.1 ha with rfl | ha
      · exact ⟨_, List.mem_cons_self, h⟩
      · obtain ⟨b, hb, hr⟩ := h1 a ha
        exact ⟨b, List.mem_cons_of_mem _ hb, hr⟩
    · intro b hb
      rcases List.mem_cons.1 hb with rfl | hb
      · exact ⟨_, List.mem_cons_self, h⟩
      · obtain ⟨a, ha, hr⟩ := h2 b hb
        exact ⟨a, List.mem_cons_of_mem _ ha, hr⟩

/-- something is true of an element of one list exactly when it is of an element of the other -/
theorem exists_iff {α : Type} {R : α → α → Prop} {l l' : List α} (h : List.Forall₂ R l l') {p p' : α → Prop}
    (hp : ∀ a b, R a b → (p' b ↔ p a)) : (∃ b ∈ l', p' b) ↔ ∃ a ∈ l, p a := by
  constructor
  · rintro ⟨b, hb, hx⟩
    obtain ⟨a, ha, hr⟩ := (forall2_mem h).2 b hb
    exact ⟨a, ha, (hp a b hr).1 hx⟩
  · rintro ⟨a, ha, hx⟩
    obtain ⟨b, hb, hr⟩ := (forall2_mem h).1 a ha
    exact ⟨b, hb, (hp a b hr).2 hx⟩

theorem all_iff {α : Type} {R : α → α → Prop} {l l' : List α} (h : List.Forall₂ R l l') {p p' : α → Prop}
    (hp : ∀ a b, R a b → (p' b ↔ p a)) : (∀ b ∈ l', p' b) ↔ ∀ a ∈ l, p a := by
  constructor
  · intro hx a ha
    obtain ⟨b, hb, hr⟩ := (forall2_mem h).1 a ha
    exact (hp a b hr).1 (hx b hb)
  · intro hx b hb
    obtain ⟨a, ha, hr⟩ := (forall2_mem h).2 b hb
    exact (hp a b hr).2 (hx a ha)

/-! ### topology -/

/-- What the topological inspections may read of a component. -/
def Similar (c c' : TopologyComponent) : Prop :=
  c'.id = c.id ∧ c'.active = c.active ∧ c'.nbVertices = c.nbVertices ∧ (c'.nbElements = 0 ↔ c.nbElements = 0) ∧
    (c.active = true → c' = c)

/-- The same topology, but for the meshes of the inactive components. -/
structure Alike (t t' : TopologyModel) : Prop where
  components : ∀ kind, List.Forall₂ Similar (t.components kind) (t'.components kind)
  nbUniqueVertices : t'.nbUniqueVertices = t.nbUniqueVertices
  cmvs : t'.componentMeshVertices = t.componentMeshVertices
  uniqueVertex : t'.uniqueVertex = t.uniqueVertex
  isBoundary : t'.isBoundary = t.isBoundary
  isInternal : t'.isInternal = t.isInternal
  embeddings : t'.embeddings = t.embeddings
  incidences : t'.incidences = t.incidences
  boundaries : t'.boundaries = t.boundaries
  isVertexOnBorder : ∀ s, Active t .surface s → t'.isVertexOnBorder s = t.isVertexOnBorder s
  surfaceEdges : ∀ s, Active t .surface s → ∀ l e n, (s, n) ∈ t'.surfaceEdges l e ↔ (s, n) ∈ t.surfaceEdges l e
  blockEdges : ∀ b, Active t .block b → ∀ l e n, (b, n) ∈ t'.blockEdges l e ↔ (b, n) ∈ t.blockEdges l e
  blockPolygons : ∀ b, Active t .block b → ∀ s p n, (b, n) ∈ t'.blockPolygons s p ↔ (b, n) ∈ t.blockPolygons s p

section
variable {t t' : TopologyModel} (s : Alike t t')
include s

theorem exists_active (kind : ComponentType) (p : TopologyComponent → Prop) :
    (∃ c ∈ t'.components kind, c.active = true ∧ p c) ↔ ∃ c ∈ t.components kind, c.active = true ∧ p c := by
  refine exists_iff (s.components kind) fun a b h => ?_
  constructor
  · rintro ⟨h1, h2⟩
    have ha : a.active = true := h.2.1 ▸ h1
    exact ⟨ha, h.2.2.2.2 ha ▸ h2⟩
  · rintro ⟨h1, h2⟩
    rw [h.2.2.2.2 h1]
    exact ⟨h1, h2⟩

theorem has (kind : ComponentType) (id : Uuid) : Has t' kind id ↔ Has t kind id :=
  exists_iff (s.components kind) fun a b h => by rw [h.1]

theorem active (kind : ComponentType) (id : Uuid) : Active t' kind id ↔ Active t kind id :=
  exists_iff (s.components kind) fun a b h => by rw [h.1, h.2.1]

theorem at_ (v : Index) (kind : ComponentType) (id : Uuid) : At t' v kind id ↔ At t v kind id := by
  unfold At; rw [s.cmvs]

theorem activeAt (v : Index) (kind : ComponentType) (id : Uuid) : ActiveAt t' v kind id ↔ ActiveAt t v kind id := by
  unfold ActiveAt; rw [at_ s, active s]

theorem allMeshed (kind : ComponentType) : AllMeshed t' kind ↔ AllMeshed t kind :=
  all_iff (s.components kind) fun a b h => by rw [ne_eq, ne_eq, h.2.2.2.1]

theorem activeCmv (kind : ComponentType) (c : ComponentMeshVertex) : ActiveCmv t' kind c ↔ ActiveCmv t kind c := by
  unfold ActiveCmv; rw [active s]

theorem notAssociated (kind : ComponentType) (c : TopologyComponent) (v : Index) :
    NotAssociated t' kind c v ↔ NotAssociated t kind c v := by
  unfold NotAssociated; rw [s.uniqueVertex]

theorem twiceActive (v : Index) (kind : ComponentType) : TwiceActive t' v kind ↔ TwiceActive t v kind := by
  unfold TwiceActive; simp only [s.cmvs, active s]

theorem bijectivelyLinked (kinds : List ComponentType) : BijectivelyLinked t' kinds ↔ BijectivelyLinked t kinds := by
  have : ∀ cmv, CmvExists t' kinds cmv ↔ CmvExists t kinds cmv := by
    intro cmv
    unfold CmvExists
    rw [exists_iff (s.components cmv.component_id.type) fun a b h => by rw [h.1, h.2.2.1]]
  unfold BijectivelyLinked
  simp only [this, active s, s.uniqueVertex, s.nbUniqueVertices, s.cmvs]

theorem unmeshed (kinds : List ComponentType) : HasUnmeshedComponent t' kinds ↔ HasUnmeshedComponent t kinds := by
  unfold HasUnmeshedComponent; simp only [exists_active s]

theorem unlinked (kinds : List ComponentType) : HasUnlinkedVertex t' kinds ↔ HasUnlinkedVertex t kinds := by
  unfold HasUnlinkedVertex; simp only [notAssociated s, exists_active s]

theorem lineNotOnBorder (v : Index) : LineNotOnBorder t' v ↔ LineNotOnBorder t v := by
  unfold LineNotOnBorder
  rw [allMeshed s, s.cmvs]
  simp only [activeAt s, activeCmv s]
  refine and_congr Iff.rfl (and_congr Iff.rfl (exists_congr fun c => and_congr Iff.rfl (and_congr_right fun h => ?_)))
  rw [s.isVertexOnBorder _ h.2]

theorem sectionVertex (v : Index) : SectionVertexDefect t' v ↔ SectionVertexDefect t v := by
  unfold SectionVertexDefect CornerWithSeveralEmbeddings CornerAlone CornerNotBoundaryOfLine LineAlone EmbeddedBefore
    EmbeddedLineIsWrong InvalidSingleLine LinesWithoutCorner TwoSurfacesWithoutLine
  simp only [ne_eq, s.cmvs, active s, at_ s, activeAt s, allMeshed s, s.embeddings, s.incidences,
    activeCmv s, twiceActive s, s.isBoundary, s.isInternal, lineNotOnBorder s]

theorem sectionTopology : SectionTopologyDefect t' ↔ SectionTopologyDefect t := by
  unfold SectionTopologyDefect
  simp only [s.nbUniqueVertices, sectionVertex s, bijectivelyLinked s, unmeshed s, unlinked s]

/-! ### BReps -/

theorem edges_find (hk : ∀ l e, ((t.surfaceEdges l e).map Prod.fst).Nodup)
    (hk' : ∀ l e, ((t'.surfaceEdges l e).map Prod.fst).Nodup) (x : Uuid) (hx : Active t .surface x) (l : Uuid) (e : Nat) :
    (t'.surfaceEdges l e).find? x = (t.surfaceEdges l e).find? x := by
  refine Option.ext fun n => ?_
  rw [← HMap.mem_iff_find? _ (hk' l e), ← HMap.mem_iff_find? _ (hk l e)]
  exact s.surfaceEdges x hx l e n

end

/-- The same for a BRep. -/
structure AlikeBRep (t t' : TopologyModel) : Prop extends Alike t t' where
  keys : ∀ l e, ((t.surfaceEdges l e).map Prod.fst).Nodup
  keys' : ∀ l e, ((t'.surfaceEdges l e).map Prod.fst).Nodup
  border : t'.isVertexOnBorder = t.isVertexOnBorder
  polygonVertices : t'.polygonVertices = t.polygonVertices
  nbPolygons : List.Forall₂ (fun c c' => c'.id = c.id ∧ c'.nbElements = c.nbElements) (t.components .surface)
    (t'.components .surface)

section
variable {t t' : TopologyModel} (b : AlikeBRep t t')
include b

theorem firstEdge (line : Uuid) : FirstEdgeIsWrong t' line ↔ FirstEdgeIsWrong t line := by
  have s := b.toAlike
  unfold FirstEdgeIsWrong
  rw [s.incidences, s.embeddings]
  simp only [active s]
  refine or_congr (exists_congr fun x => and_congr_right fun _ => and_congr_right fun ha => ?_)
    (or_congr (exists_congr fun x => and_congr_right fun _ => and_congr_right fun ha => ?_)
      (and_congr_right fun _ => and_congr_right fun _ => exists_congr fun x => exists_congr fun n => ?_))
  · rw [edges_find s b.keys b.keys' x ha]
  · rw [edges_find s b.keys b.keys' x ha]
  · exact and_congr_left fun ha => s.surfaceEdges x ha line 0 n

theorem lineWrong (v : Index) : BRepLineWrong t' v ↔ BRepLineWrong t v := by
  have s := b.toAlike
  unfold BRepLineWrong
  refine exists_congr fun line => ?_
  rw [activeAt s, firstEdge b]
  refine and_congr_right fun _ => and_congr_left fun _ => ?_
  exact exists_iff (s.components .line) fun a b h => by rw [h.1, ne_eq, ne_eq, h.2.2.2.1]

theorem surfacesAt_eq (v : Index) : surfacesAt t' v = surfacesAt t v := by
  unfold surfacesAt; rw [b.cmvs]

theorem brepVertex (v : Index) : BRepVertexDefect t' v ↔ BRepVertexDefect t v := by
  have s := b.toAlike
  unfold BRepVertexDefect CornerMultiplyEmbedded CornerAlone CornerNotOnLine BRepInvalidEmbeddedLine
    BRepInvalidSingleLine LinesWithoutCorner InvalidEmbeddedSurface InvalidMultipleSurfaces RelatedLineNotOnBorder
  simp only [ne_eq, s.cmvs, active s, at_ s, activeAt s, allMeshed s, s.embeddings, s.incidences,
    twiceActive s, s.isBoundary, s.isInternal, b.border, lineWrong b, surfacesAt_eq b]

theorem edgeWrong (line : Uuid) (e : Index) : EdgeIsWrong t' line e ↔ EdgeIsWrong t line e := by
  have s := b.toAlike
  unfold EdgeIsWrong
  rw [s.isBoundary, s.isInternal, s.embeddings, s.incidences]
  simp only [active s]
  refine or_congr (exists_congr fun x => exists_congr fun n => ?_) (or_congr (exists_congr fun x => ?_)
    (or_congr (exists_congr fun x => exists_congr fun n => ?_) ?_))
  · exact and_congr_left fun ha => s.surfaceEdges x ha.1 line e n
  · refine and_congr_right fun _ => and_congr_right fun ha => forall_congr' fun n => ?_
    rw [s.surfaceEdges x ha line e n]
  · exact and_congr_left fun ha => s.blockEdges x ha.1 line e n
  · constructor
    · rintro ⟨c, hc, h1, h2, h3, h4⟩
      obtain ⟨a, ha, hr⟩ := (forall2_mem (s.components .block)).2 c hc
      have haa : a.active = true := hr.2.1 ▸ h2
      obtain rfl := hr.2.2.2.2 haa
      exact ⟨_, ha, h1, h2, h3, fun n hn => h4 n ((s.blockEdges _ ⟨_, ha, rfl, h2⟩ line e n).2 hn)⟩
    · rintro ⟨a, ha, h1, h2, h3, h4⟩
      obtain ⟨c, hc, hr⟩ := (forall2_mem (s.components .block)).1 a ha
      obtain rfl := hr.2.2.2.2 h2
      exact ⟨_, hc, h1, h2, h3, fun n hn => h4 n ((s.blockEdges _ ⟨_, ha, rfl, h2⟩ line e n).1 hn)⟩

theorem facetWrong (surface : Uuid) (f : Index) : FacetIsWrong t' surface f ↔ FacetIsWrong t surface f := by
  have s := b.toAlike
  unfold FacetIsWrong
  rw [s.isBoundary, s.isInternal]
  refine exists_congr fun x => exists_congr fun n => ?_
  rw [active s]
  exact and_congr_left fun ha => s.blockPolygons x ha.1 surface f n

theorem cannotBound (x : Uuid) : CannotBound t' x ↔ CannotBound t x := by
  unfold CannotBound Closable; simp only [b.boundaries]

theorem sheets (x line : Uuid) : boundarySheets t' x line = boundarySheets t x line := by
  unfold boundarySheets boundarySurfaces
  simp only [b.isBoundary, b.isInternal, b.boundaries]

theorem cmvsOf_eq (v : Index) (kind : ComponentType) : cmvsOf t' v kind = cmvsOf t v kind := by
  unfold cmvsOf; rw [b.cmvs]

theorem linesAt_eq (v : Index) : linesAt t' v = linesAt t v := by
  unfold linesAt; simp only [cmvsOf_eq b, b.embeddings]

theorem lineInside (x line : Uuid) : LineInside t' x line ↔ LineInside t x line := by
  unfold LineInside; simp only [b.embeddings, b.incidences, b.isInternal]

theorem countIsRight (v : Index) (x : Uuid) : CountIsRight t' v x ↔ CountIsRight t v x := by
  unfold CountIsRight nbBlockCmvs expectedCount nbInternalSurfaceCmvs nbBoundarySurfaceCmvs nbLinesInside nbLinePassages
    nbAdditionalPassages nbSeveralPassages
  simp only [cmvsOf_eq b, linesAt_eq b, sheets b, lineInside b, b.isBoundary, b.isInternal]

theorem openBoundary (x : Uuid) : HasOpenBoundary t' x ↔ HasOpenBoundary t x := by
  unfold HasOpenBoundary; simp only [b.boundaries, b.incidences, active b.toAlike, b.isBoundary]

theorem allLinked (Q : List Uuid) : AllLinked t' Q ↔ AllLinked t Q := by
  have : (fun x y => SharesLine t' x y ∧ y ∈ Q) = fun x y => SharesLine t x y ∧ y ∈ Q := by
    funext x y
    unfold SharesLine
    simp only [b.boundaries]
  unfold AllLinked LinkedIn
  rw [this]

theorem outside (inside : Uuid → Uuid → Except Failure Bool) (x : Uuid) :
    OutsideBlocks t' inside x ↔ OutsideBlocks t inside x := by
  unfold OutsideBlocks
  exact and_congr (exists_iff (b.components .surface) fun a b h => by rw [h.1, ne_eq, ne_eq, h.2.2.2.1])
    (all_iff (b.components .block) fun a b h => by rw [h.1])

theorem blocksVertex (v : Index) (inside : Uuid → Uuid → Except Failure Bool) :
    (TwoBlocksWithoutSurface t' v ∨ BlockCountWrong t' v ∨ SingleInvalidSurface t' v ∨
      SurfaceWrongForBlocks t' v inside ∨ MultipleInvalidSurfaces t' v) ↔
    (TwoBlocksWithoutSurface t v ∨ BlockCountWrong t v ∨ SingleInvalidSurface t v ∨ SurfaceWrongForBlocks t v inside ∨
      MultipleInvalidSurfaces t v) := by
  have s := b.toAlike
  unfold TwoBlocksWithoutSurface BlockCountWrong SingleInvalidSurface SurfaceWrongForBlocks MultipleInvalidSurfaces
    RelatedSurface
  simp only [ne_eq, at_ s, activeAt s, allMeshed s, s.embeddings, s.incidences, s.isBoundary, s.isInternal,
    countIsRight b, cannotBound b, outside b]

theorem linked_eq (x : Uuid) (processed : List Uuid) :
    findLinkedProcessedSurface t' x processed = findLinkedProcessedSurface t x processed := by
  unfold findLinkedProcessedSurface TopologyModel.related
  rw [b.incidences, b.boundaries]

theorem loop_eq (fuel : Nat) : ∀ (processed Q : List Uuid) (skip : Nat),
    closedLinkedLoop t' fuel processed Q skip = closedLinkedLoop t fuel processed Q skip := by
  induction fuel with
  | zero => exact fun _ _ _ => rfl
  | succ fuel ih =>
    intro processed Q skip
    cases Q with
    | nil => rfl
    | cons x Q =>
      unfold closedLinkedLoop
      simp only [ih, linked_eq b]

theorem parts_eq (fuel n : Nat) : ∀ Q : List Uuid, linkedBoundaryParts t' fuel n Q = linkedBoundaryParts t fuel n Q := by
  induction n with
  | zero => exact fun _ => rfl
  | succ n ih =>
    intro Q
    cases Q with
    | nil => rfl
    | cons x Q =>
      unfold linkedBoundaryParts closedLinkedSurfaces
      simp only [ih, loop_eq b]

theorem queue_eq (block : Uuid) : queueWithBlockBoundaries t' block = queueWithBlockBoundaries t block := by
  unfold queueWithBlockBoundaries TopologyModel.related
  rw [b.boundaries]

theorem fusePolygon_eq (x : Uuid) : fusePolygon t' x = fusePolygon t x := by
  have : ∀ x, fuseVertex t' x = fuseVertex t x := by
    intro x
    funext f v
    unfold fuseVertex
    rw [b.uniqueVertex]
  funext f p
  unfold fusePolygon
  rw [b.polygonVertices, this]

theorem surface_eq (x : Uuid) :
    (∀ e, t.component .surface x = .error e → t'.component .surface x = .error e) ∧
    ∀ c, t.component .surface x = .ok c → ∃ c', t'.component .surface x = .ok c' ∧ c'.nbElements = c.nbElements := by
  unfold TopologyModel.component
  have := b.nbPolygons
  generalize t.components .surface = l at this ⊢
  generalize t'.components .surface = l' at this ⊢
  induction this with
  | nil => exact ⟨fun e h => h, fun c h => by cases h⟩
  | @cons a b _ _ h _ ih =>
    cases hx : (a.id == x) with
    | true =>
      simp only [List.find?_cons, h.1, hx]
      refine ⟨fun e he => ?_, fun c hc => ⟨_, rfl, ?_⟩⟩
      · cases he
      · cases hc
        exact h.2
    | false =>
      simp only [List.find?_cons, h.1, hx]
      exact ih

theorem fuse_eq (l : List Uuid) : fuseBRepSurfacesFromList t' l = fuseBRepSurfacesFromList t l := by
  unfold fuseBRepSurfacesFromList
  refine congrArg (fun f => List.foldlM f _ l) ?_
  funext fused x
  obtain ⟨h1, h2⟩ := surface_eq b x
  cases h : t.component .surface x with
  | error e => rw [h1 e h]; rfl
  | ok c =>
    obtain ⟨c', hc', hn⟩ := h2 c h
    rw [hc']
    show Except.ok _ = Except.ok _
    rw [hn, fusePolygon_eq b]

theorem encloses (g : BlockGeometry) (block : Uuid) : BoundaryEncloses t' g block ↔ BoundaryEncloses t g block := by
  have hp : ∀ mesh part, PartInside t' g mesh part ↔ PartInside t g mesh part := by
    intro mesh part
    unfold PartInside
    exact forall_congr' fun x => forall_congr' fun _ =>
      all_iff (b.components .surface) fun a b h => by rw [h.1, h.2.2.1]
  unfold BoundaryEncloses MeshEncloses
  simp only [parts_eq b, queue_eq b, fuse_eq b, hp]

theorem blocksDefect (o : BlocksOracle) : BlocksDefect t' o ↔ BlocksDefect t o := by
  unfold BlocksDefect
  have h1 : (∃ c ∈ t'.components .block, c.active = true) ↔ ∃ c ∈ t.components .block, c.active = true :=
    exists_iff (b.components .block) fun a b h => by rw [h.2.1]
  simp only [b.nbUniqueVertices, allLinked b, notAssociated b.toAlike, openBoundary b, encloses b, blocksVertex b, h1,
    exists_active b.toAlike]

theorem brepTopology (o : BlocksOracle) : BRepTopologyDefect t' o ↔ BRepTopologyDefect t o := by
  have s := b.toAlike
  unfold BRepTopologyDefect
  simp only [blocksDefect b, s.nbUniqueVertices, brepVertex b, bijectivelyLinked s, unmeshed s, unlinked s,
    notAssociated s, edgeWrong b, facetWrong b, allMeshed s, exists_active s]

theorem otherTopology (o : BlocksOracle) : OtherTopologyDefect t' o ↔ OtherTopologyDefect t o := by
  have s := b.toAlike
  unfold OtherTopologyDefect CornerMultiplyEmbedded CornerAlone CornerNotOnLine InvalidEmbeddedSurface
    InvalidMultipleSurfaces RelatedLineNotOnBorder
  simp only [ne_eq, s.cmvs, active s, at_ s, activeAt s, allMeshed s, s.embeddings, s.incidences,
      twiceActive s, s.isBoundary, s.isInternal, b.border, surfacesAt_eq b, blocksDefect b, s.nbUniqueVertices,
      bijectivelyLinked s, unmeshed s, unlinked s, notAssociated s, facetWrong b, exists_active s]

theorem unreadable : LinesUnreadable t' ↔ LinesUnreadable t := by
  have s := b.toAlike
  unfold LinesUnreadable UnreadableEmbedding EmbeddingWrong
  simp only [s.cmvs, activeCmv s, s.embeddings, s.isBoundary, allMeshed s, at_ s, has s, s.nbUniqueVertices]

end

/-! ### meshes -/

theorem forall2_left {α : Type} {R : α → α → Prop} {l l' : List α} (h : List.Forall₂ R l l') :
    List.Forall₂ (fun a b => a ∈ l ∧ R a b) l l' := by
  induction h with
  | nil => exact .nil
  | cons h _ ih =>
    exact .cons ⟨List.mem_cons_self, h⟩ (ih.imp fun _ _ x => ⟨List.mem_cons_of_mem _ x.1, x.2⟩)

theorem forall2_map {α β : Type} {R : α → α → Prop} {S : β → β → Prop} (f : α → β) {l l' : List α}
    (h : List.Forall₂ R l l') (hs : ∀ a b, R a b → S (f a) (f b)) : List.Forall₂ S (l.map f) (l'.map f) := by
  induction h with
  | nil => exact .nil
  | cons h _ ih => exact .cons (hs _ _ h) ih

/-- the identifiers and activities of the components of a model -/
def states {P : Type} (m : ModelData P) : HMap Uuid Bool :=
  m.corners.map (fun c => (c.id, c.active)) ++ m.lines.map (fun c => (c.id, c.active)) ++
    m.surfaces.map (fun c => (c.id, c.active)) ++ m.blocks.map (fun c => (c.id, c.active))

section
variable {P : Type} {lib : ModelLibrary P} {m m' : ModelData P} (r : InactiveRemeshed m m')

theorem states_nodup (hm : MeshesOk lib m) : ((states m).map Prod.fst).Nodup := by
  have := hm.ids
  unfold states
  simp only [List.map_append, List.map_map]
  exact this

theorem states_active {id : Uuid} (h : IsActiveId m id) : (id, true) ∈ states m := by
  unfold states
  simp only [List.mem_append, List.mem_map, Prod.mk.injEq]
  rcases h with h | h | h | h
  exacts [.inl (.inl (.inl h)), .inl (.inl (.inr h)), .inl (.inr h), .inr h]

theorem state_eq (hm : MeshesOk lib m) {id : Uuid} (h : IsActiveId m id) {b : Bool} (hb : (id, b) ∈ states m) : b = true := by
  have h1 := (HMap.mem_iff_find? _ (states_nodup hm) _ _).1 hb
  have h2 := (HMap.mem_iff_find? _ (states_nodup hm) _ _).1 (states_active h)
  exact Option.some.inj (h1.symm.trans h2)

include r

theorem isActiveId (id : Uuid) : IsActiveId m' id ↔ IsActiveId m id := by
  unfold IsActiveId
  rw [exists_iff r.corners fun a b h => by rw [h.1, h.2.1], exists_iff r.lines fun a b h => by rw [h.1, h.2.1],
    exists_iff r.surfaces fun a b h => by rw [h.1, h.2.1], exists_iff r.blocks fun a b h => by rw [h.1, h.2.1]]

theorem numberOf (kind : ComponentType) (id : Uuid) (v n : Index) : NumberOf m' kind id v n ↔ NumberOf m kind id v n := by
  unfold NumberOf; rw [r.uniqueVertex, r.noId]

theorem pointsOf (hm : MeshesOk lib m) (c : ComponentID) (h : IsActiveId m c.id) (points : List P) :
    PointsOf m' c points ↔ PointsOf m c points := by
  obtain ⟨kind, id⟩ := c
  have hs := fun b => state_eq (b := b) hm h
  cases kind with
  | other => exact Iff.rfl
  | corner =>
    refine exists_iff (forall2_left r.corners) fun a b x => ?_
    rw [x.2.1]
    refine and_congr_right fun e => ?_
    rw [x.2.2.2 (hs _ (e ▸ ?_))]
    exact List.mem_append_left _ (List.mem_append_left _ (List.mem_append_left _ (List.mem_map.2 ⟨a, x.1, rfl⟩)))
  | line =>
    refine exists_iff (forall2_left r.lines) fun a b x => ?_
    rw [x.2.1]
    refine and_congr_right fun e => ?_
    rw [x.2.2.2 (hs _ (e ▸ ?_))]
    exact List.mem_append_left _ (List.mem_append_left _ (List.mem_append_right _ (List.mem_map.2 ⟨a, x.1, rfl⟩)))
  | surface =>
    refine exists_iff (forall2_left r.surfaces) fun a b x => ?_
    rw [x.2.1]
    refine and_congr_right fun e => ?_
    rw [x.2.2.2 (hs _ (e ▸ ?_))]
    exact List.mem_append_left _ (List.mem_append_right _ (List.mem_map.2 ⟨a, x.1, rfl⟩))
  | block =>
    refine exists_iff (forall2_left r.blocks) fun a b x => ?_
    rw [x.2.1]
    refine and_congr_right fun e => ?_
    rw [x.2.2.2 (hs _ (e ▸ ?_))]
    exact List.mem_append_right _ (List.mem_map.2 ⟨a, x.1, rfl⟩)

theorem isAt (hm : MeshesOk lib m) (cmv : ComponentMeshVertex) (h : IsActiveId m cmv.component_id.id) (p : P) :
    IsAt lib m' cmv p ↔ IsAt lib m cmv p := by
  unfold IsAt
  simp only [pointsOf r hm _ h]

theorem firstActive (uv : Index) (first : ComponentMeshVertex) : FirstActive m' uv first ↔ FirstActive m uv first := by
  unfold FirstActive
  simp only [r.componentMeshVertices, isActiveId r]

theorem firstAt (hm : MeshesOk lib m) (uv : Index) (p : P) :
    (∃ first, FirstActive m' uv first ∧ IsAt lib m' first p) ↔ ∃ first, FirstActive m uv first ∧ IsAt lib m first p := by
  refine exists_congr fun first => ?_
  rw [firstActive r]
  exact and_congr_right fun h => isAt r hm _ (by obtain ⟨_, _, _, h, _⟩ := h; exact h) p

theorem differentPoints (hm : MeshesOk lib m) (uv : Index) :
    PlainDifferentPoints lib m' uv ↔ PlainDifferentPoints lib m uv := by
  unfold PlainDifferentPoints
  refine exists_congr fun first => exists_congr fun p => exists_congr fun cmv => exists_congr fun q => ?_
  rw [firstActive r, isActiveId r, r.componentMeshVertices]
  constructor
  · rintro ⟨h1, h2, h3, h4, h5, h6⟩
    exact ⟨h1, (isAt r hm _ (by obtain ⟨_, _, _, h, _⟩ := h1; exact h) p).1 h2, h3, h4, (isAt r hm _ h4 q).1 h5, h6⟩
  · rintro ⟨h1, h2, h3, h4, h5, h6⟩
    exact ⟨h1, (isAt r hm _ (by obtain ⟨_, _, _, h, _⟩ := h1; exact h) p).2 h2, h3, h4, (isAt r hm _ h4 q).2 h5, h6⟩

theorem activePoints (hm : MeshesOk lib m) (uvs : List Index) (points : List P) :
    ActivePoints lib m' uvs points ↔ ActivePoints lib m uvs points := by
  unfold ActivePoints
  simp only [r.nbUniqueVertices, r.componentMeshVertices, isActiveId r, firstAt r hm]

theorem colocatedUvs (hm : MeshesOk lib m) : PlainColocatedUniqueVertices lib m' ↔ PlainColocatedUniqueVertices lib m := by
  unfold PlainColocatedUniqueVertices
  simp only [activePoints r hm]

/-- an active component of one model is a component of the other -/
theorem exists_line {p p' : LineData P → Prop} (hp : ∀ l ∈ m.lines, l.active = true → (p' l ↔ p l)) :
    (∃ l ∈ m'.lines, l.active = true ∧ p' l) ↔ ∃ l ∈ m.lines, l.active = true ∧ p l := by
  refine exists_iff (forall2_left r.lines) fun a b h => ?_
  rw [h.2.2.1]
  exact and_congr_right fun ha => by rw [h.2.2.2 ha]; exact hp a h.1 ha

theorem exists_surface {p p' : FaceData P → Prop} (hp : ∀ l ∈ m.surfaces, l.active = true → (p' l ↔ p l)) :
    (∃ l ∈ m'.surfaces, l.active = true ∧ p' l) ↔ ∃ l ∈ m.surfaces, l.active = true ∧ p l := by
  refine exists_iff (forall2_left r.surfaces) fun a b h => ?_
  rw [h.2.2.1]
  exact and_congr_right fun ha => by rw [h.2.2.2 ha]; exact hp a h.1 ha

theorem exists_block {p p' : VolumeData P → Prop} (hp : ∀ l ∈ m.blocks, l.active = true → (p' l ↔ p l)) :
    (∃ l ∈ m'.blocks, l.active = true ∧ p' l) ↔ ∃ l ∈ m.blocks, l.active = true ∧ p l := by
  refine exists_iff (forall2_left r.blocks) fun a b h => ?_
  rw [h.2.2.1]
  exact and_congr_right fun ha => by rw [h.2.2.2 ha]; exact hp a h.1 ha

theorem splitVertices (kind : ComponentType) (id : Uuid) (points : List P) :
    PlainSplitVertices lib m' kind id points ↔ PlainSplitVertices lib m kind id points := by
  unfold PlainSplitVertices
  simp only [numberOf r]

theorem lineDefect (l : LineData P) : PlainLineDefect lib m' l ↔ PlainLineDefect lib m l := by
  unfold PlainLineDefect
  rw [splitVertices r]

theorem surfaceDefect (a : ReadAlike m m') (s : FaceData P) : PlainSurfaceDefect lib m' s ↔ PlainSurfaceDefect lib m s := by
  unfold PlainSurfaceDefect BorderNotOnLine
  rw [splitVertices r, r.uniqueVertex, r.nbUniqueVertices]
  simp only [ne_eq, a.lineEdges]

theorem blockDefect (a : ReadAlike m m') (b : VolumeData P) : PlainBlockDefect lib m' b ↔ PlainBlockDefect lib m b := by
  unfold PlainBlockDefect BorderNotOnSurface
  rw [splitVertices r, r.uniqueVertex]
  simp only [a.surfacePolygons]

theorem interiorEdge (s : FaceData P) (x : PolygonEdge) (u v : Index) : InteriorEdge m' s x u v ↔ InteriorEdge m s x u v := by
  have : (s ∈ m'.surfaces ∧ s.active = true) ↔ (s ∈ m.surfaces ∧ s.active = true) := by
    have := exists_surface r (p := (· = s)) (p' := (· = s)) fun _ _ _ => Iff.rfl
    constructor
    · intro h
      obtain ⟨x, h1, h2, rfl⟩ := this.1 ⟨s, h.1, h.2, rfl⟩
      exact ⟨h1, h2⟩
    · intro h
      obtain ⟨x, h1, h2, rfl⟩ := this.2 ⟨s, h.1, h.2, rfl⟩
      exact ⟨h1, h2⟩
  unfold InteriorEdge
  simp only [numberOf r, ← and_assoc, this]

theorem twiceInterior : TwiceInterior m' ↔ TwiceInterior m := by
  unfold TwiceInterior
  simp only [interiorEdge r]

theorem aloneAt (kind : ComponentType) (id : Uuid) (v : Index) :
    AloneAtUniqueVertex m' kind id v ↔ AloneAtUniqueVertex m kind id v := by
  unfold AloneAtUniqueVertex
  simp only [numberOf r, r.componentMeshVertices]

theorem floatingEdge : (∃ l ∈ m'.lines, FloatingEdge m' l) ↔ ∃ l ∈ m.lines, FloatingEdge m l := by
  unfold FloatingEdge
  exact exists_line r fun l _ _ => by rw [r.embeddings]; simp only [aloneAt r]

theorem floatingFacet : (∃ l ∈ m'.surfaces, FloatingFacet m' l) ↔ ∃ l ∈ m.surfaces, FloatingFacet m l := by
  unfold FloatingFacet
  exact exists_surface r fun l _ _ => by rw [r.embeddings]; simp only [aloneAt r]

theorem givenSurface (s : FaceData P) (x : ModelSurface P) : GivenSurface lib m' s x ↔ GivenSurface lib m s x := by
  constructor
  · intro h
    exact ⟨h.id, h.active, h.nbPolygons, h.polygonVertices, h.nbVertices, h.point, fun v => (numberOf r ..).1 (h.uniqueVertex v)⟩
  · intro h
    exact ⟨h.id, h.active, h.nbPolygons, h.polygonVertices, h.nbVertices, h.point, fun v => (numberOf r ..).2 (h.uniqueVertex v)⟩

theorem face_mem (s : FaceData P) : (s ∈ m'.surfaces ∧ s.active = true) ↔ (s ∈ m.surfaces ∧ s.active = true) := by
  have := exists_surface r (p := (· = s)) (p' := (· = s)) fun _ _ _ => Iff.rfl
  constructor
  · intro h
    obtain ⟨x, h1, h2, rfl⟩ := this.1 ⟨s, h.1, h.2, rfl⟩
    exact ⟨h1, h2⟩
  · intro h
    obtain ⟨x, h1, h2, rfl⟩ := this.2 ⟨s, h.1, h.2, rfl⟩
    exact ⟨h1, h2⟩

theorem line_mem (s : LineData P) : (s ∈ m'.lines ∧ s.active = true) ↔ (s ∈ m.lines ∧ s.active = true) := by
  have := exists_line r (p := (· = s)) (p' := (· = s)) fun _ _ _ => Iff.rfl
  constructor
  · intro h
    obtain ⟨x, h1, h2, rfl⟩ := this.1 ⟨s, h.1, h.2, rfl⟩
    exact ⟨h1, h2⟩
  · intro h
    obtain ⟨x, h1, h2, rfl⟩ := this.2 ⟨s, h.1, h.2, rfl⟩
    exact ⟨h1, h2⟩

theorem polygonsMeet (Meet : ModelSurface P → ModelSurface P → List Index → List Index → Prop) :
    PlainPolygonsMeet lib m' Meet ↔ PlainPolygonsMeet lib m Meet := by
  unfold PlainPolygonsMeet
  simp only [givenSurface r]
  refine exists_congr fun s1 => exists_congr fun s2 => exists_congr fun _ => exists_congr fun _ => exists_congr fun _ =>
    exists_congr fun _ => ?_
  have h1 := face_mem r s1
  have h2 := face_mem r s2
  tauto

theorem lineMeets : PlainLineMeetsSurface lib m' ↔ PlainLineMeetsSurface lib m := by
  unfold PlainLineMeetsSurface
  simp only [givenSurface r, r.embeddings]
  refine exists_congr fun s => exists_congr fun l => exists_congr fun _ => exists_congr fun _ => exists_congr fun _ =>
    exists_congr fun _ => exists_congr fun _ => ?_
  have h1 := face_mem r s
  have h2 := line_mem r l
  constructor
  · rintro ⟨a1, a2, a3, a4, a5⟩
    exact ⟨(h1.1 ⟨a1, a2⟩).1, a2, (h2.1 ⟨a3, a4⟩).1, a4, a5⟩
  · rintro ⟨a1, a2, a3, a4, a5⟩
    exact ⟨(h1.2 ⟨a1, a2⟩).1, a2, (h2.2 ⟨a3, a4⟩).1, a4, a5⟩

theorem meshDefect (a : ReadAlike m m') (hm : MeshesOk lib m) :
    PlainBRepMeshDefect lib m' ↔ PlainBRepMeshDefect lib m := by
  unfold PlainBRepMeshDefect
  rw [r.nbUniqueVertices, colocatedUvs r hm, exists_line r fun l _ _ => lineDefect r l,
    exists_surface r fun s _ _ => surfaceDefect r a s, exists_block r fun b _ _ => blockDefect r a b,
    twiceInterior r, floatingEdge r, floatingFacet r, polygonsMeet r]
  simp only [differentPoints r hm]

theorem alike (a : ReadAlike m m') (hm : MeshesOk lib m) (rt rt' : ModelRuntime) :
    Alike (m.topology rt) (m'.topology rt') where
  components kind := by
    cases kind with
    | corner => exact forall2_map _ (forall2_and r.corners a.corners) fun x y h =>
        ⟨h.1.1, h.1.2.1, h.2, Iff.rfl, fun ha => by rw [h.1.2.2 ha]⟩
    | line => exact forall2_map _ (forall2_and r.lines a.lines) fun x y h =>
        ⟨h.1.1, h.1.2.1, h.2.1, h.2.2, fun ha => by rw [h.1.2.2 ha]⟩
    | surface => exact forall2_map _ (forall2_and r.surfaces a.surfaces) fun x y h =>
        ⟨h.1.1, h.1.2.1, h.2.1, h.2.2, fun ha => by rw [h.1.2.2 ha]⟩
    | block => exact forall2_map _ (forall2_and r.blocks a.blocks) fun x y h =>
        ⟨h.1.1, h.1.2.1, h.2.1, h.2.2, fun ha => by rw [h.1.2.2 ha]⟩
    | other => exact .nil
  nbUniqueVertices := r.nbUniqueVertices
  cmvs := r.componentMeshVertices
  uniqueVertex := r.uniqueVertex
  isBoundary := r.isBoundary
  isInternal := r.isInternal
  embeddings := r.embeddings
  incidences := r.incidences
  boundaries := r.boundaries
  isVertexOnBorder := by
    rintro s ⟨c, hc, rfl, ha⟩
    obtain ⟨x, hx, rfl⟩ := List.mem_map.1 hc
    exact r.isVertexOnBorder x hx ha
  surfaceEdges := by
    rintro s ⟨c, hc, rfl, ha⟩
    obtain ⟨x, hx, rfl⟩ := List.mem_map.1 hc
    exact r.surfaceEdges x hx ha
  blockEdges := by
    rintro s ⟨c, hc, rfl, ha⟩
    obtain ⟨x, hx, rfl⟩ := List.mem_map.1 hc
    exact r.blockEdges x hx ha
  blockPolygons := by
    rintro s ⟨c, hc, rfl, ha⟩
    obtain ⟨x, hx, rfl⟩ := List.mem_map.1 hc
    exact r.blockPolygons x hx ha

theorem alikeBRep (a : ReadAlike m m') (p : SamePolygons m m') (hm : MeshesOk lib m) (rt rt' : ModelRuntime)
    (h : AroundWellFormed (m.topology rt)) (h' : AroundWellFormed (m'.topology rt')) :
    AlikeBRep (m.topology rt) (m'.topology rt') where
  toAlike := alike r a hm rt rt'
  keys := h.surfaceKeys
  keys' := h'.surfaceKeys
  border := p.isVertexOnBorder
  polygonVertices := by
    funext id n
    show ((m'.surfaces.find? fun s => s.id == id).map fun s => s.polygonVertices n).getD [] =
      ((m.surfaces.find? fun s => s.id == id).map fun s => s.polygonVertices n).getD []
    have := forall2_and r.surfaces p.polygons
    generalize m.surfaces = l at this ⊢
    generalize m'.surfaces = l' at this ⊢
    induction this with
    | nil => rfl
    | @cons a b _ _ h _ ih =>
      cases hx : (a.id == id) with
      | true =>
        simp only [List.find?_cons, h.1.1, hx, Option.map_some, Option.getD_some]
        unfold SurfaceData.polygonVertices
        rw [h.2.2.1, h.2.2.2]
      | false =>
        simp only [List.find?_cons, h.1.1, hx]
        exact ih
  nbPolygons := forall2_map _ (forall2_and r.surfaces p.polygons) fun x y h => ⟨h.1.1, h.2.1⟩

end

end Inspector.Inactive
