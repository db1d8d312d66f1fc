import Verif.Spec.Stored
import Verif.Proofs.Plain
import Verif.Props.Closed
/-
Proofs for C104: the defects of a model do not depend on the order in which it is stored.
-/
namespace Inspector.Stored
open Inspector Spec

/-- The same topology, listed in another order. -/
structure Same (t t' : TopologyModel) : Prop where
  components : ∀ kind c, c ∈ t.components kind ↔ c ∈ t'.components kind
  nbUniqueVertices : t.nbUniqueVertices = t'.nbUniqueVertices
  cmvs : ∀ v, t.componentMeshVertices v = t'.componentMeshVertices v
  uniqueVertex : ∀ c, t.uniqueVertex c = t'.uniqueVertex c
  isBoundary : ∀ a b, t.isBoundary a b = t'.isBoundary a b
  isInternal : ∀ a b, t.isInternal a b = t'.isInternal a b
  embeddings : ∀ id, (t.embeddings id).Perm (t'.embeddings id)
  incidences : ∀ id, (t.incidences id).Perm (t'.incidences id)
  boundaries : ∀ id, (t.boundaries id).Perm (t'.boundaries id)
  isVertexOnBorder : ∀ s v, t.isVertexOnBorder s v = t'.isVertexOnBorder s v
  surfaceEdges : ∀ l e, (t.surfaceEdges l e).Perm (t'.surfaceEdges l e)
  blockEdges : ∀ l e, (t.blockEdges l e).Perm (t'.blockEdges l e)
  blockPolygons : ∀ s p, (t.blockPolygons s p).Perm (t'.blockPolygons s p)
  polygonVertices : ∀ s p, t.polygonVertices s p = t'.polygonVertices s p

theorem perm_nil {α : Type} {l l' : List α} (h : l.Perm l') : l = [] ↔ l' = [] :=
  ⟨fun e => by subst e; exact h.nil_eq.symm, fun e => by subst e; exact h.symm.nil_eq.symm⟩

theorem lookup_mem {K V : Type} [DecidableEq K] : ∀ {l : List (K × V)}, (l.map Prod.fst).Nodup → ∀ {k : K} {v : V},
    HMap.find? l k = some v ↔ (k, v) ∈ l
  | [], _, k, v => by simp [HMap.find?]
  | (a, b) :: l, h, k, v => by
    have hl := List.nodup_cons.1 h
    unfold HMap.find? at *
    by_cases e : k = a
    · subst e
      rw [List.lookup_cons_self]
      constructor
      · intro h'; cases h'; simp
      · intro h'
        rcases List.mem_cons.1 h' with h' | h'
        · cases h'; rfl
        · exact absurd (List.mem_map_of_mem (f := Prod.fst) h') hl.1
    · have : (k == a) = false := by simpa using e
      rw [List.lookup_cons, this]
      have ih := lookup_mem (l := l) hl.2 (k := k) (v := v)
      unfold HMap.find? at ih
      simp only [ih, List.mem_cons, Prod.mk.injEq, e, false_and, false_or]

theorem find_perm {K V : Type} [DecidableEq K] {l l' : List (K × V)} (h : (l.map Prod.fst).Nodup) (hp : l.Perm l') (k : K) :
    HMap.find? l k = HMap.find? l' k := by
  have h' : (l'.map Prod.fst).Nodup := (hp.map _).nodup_iff.1 h
  apply Option.ext
  intro v
  rw [lookup_mem h, lookup_mem h', hp.mem_iff]

section
variable {t t' : TopologyModel} (s : Same t t')
include s

theorem has (kind : ComponentType) (id : Uuid) : Has t kind id ↔ Has t' kind id := by
  unfold Has; simp only [s.components]

theorem active (kind : ComponentType) (id : Uuid) : Active t kind id ↔ Active t' kind id := by
  unfold Active; simp only [s.components]

theorem at_ (v : Index) (kind : ComponentType) (id : Uuid) : At t v kind id ↔ At t' v kind id := by
  unfold At; simp only [s.cmvs]

theorem activeAt (v : Index) (kind : ComponentType) (id : Uuid) : ActiveAt t v kind id ↔ ActiveAt t' v kind id := by
  unfold ActiveAt; simp only [at_ s, active s]

theorem allMeshed (kind : ComponentType) : AllMeshed t kind ↔ AllMeshed t' kind := by
  unfold AllMeshed; simp only [s.components]

theorem embeddings_nil (id : Uuid) : t.embeddings id = [] ↔ t'.embeddings id = [] := perm_nil (s.embeddings id)
theorem incidences_nil (id : Uuid) : t.incidences id = [] ↔ t'.incidences id = [] := perm_nil (s.incidences id)
theorem mem_embeddings (id : Uuid) (c : ComponentID) : c ∈ t.embeddings id ↔ c ∈ t'.embeddings id :=
  (s.embeddings id).mem_iff
theorem mem_incidences (id : Uuid) (c : ComponentID) : c ∈ t.incidences id ↔ c ∈ t'.incidences id :=
  (s.incidences id).mem_iff
theorem mem_boundaries (id : Uuid) (c : ComponentID) : c ∈ t.boundaries id ↔ c ∈ t'.boundaries id :=
  (s.boundaries id).mem_iff
theorem length_embeddings (id : Uuid) : (t.embeddings id).length = (t'.embeddings id).length :=
  (s.embeddings id).length_eq

theorem activeCmv (kind : ComponentType) (c : ComponentMeshVertex) : ActiveCmv t kind c ↔ ActiveCmv t' kind c := by
  unfold ActiveCmv; simp only [active s]

theorem notAssociated (kind : ComponentType) (c : TopologyComponent) (v : Index) :
    NotAssociated t kind c v ↔ NotAssociated t' kind c v := by
  unfold NotAssociated; simp only [s.uniqueVertex]

theorem twiceActive (v : Index) (kind : ComponentType) : TwiceActive t v kind ↔ TwiceActive t' v kind := by
  unfold TwiceActive; simp only [s.cmvs, active s]

theorem bijectivelyLinked (kinds : List ComponentType) : BijectivelyLinked t kinds ↔ BijectivelyLinked t' kinds := by
  unfold BijectivelyLinked CmvExists
  simp only [s.cmvs, active s, s.components, s.uniqueVertex, s.nbUniqueVertices]

theorem unmeshed (kinds : List ComponentType) : HasUnmeshedComponent t kinds ↔ HasUnmeshedComponent t' kinds := by
  unfold HasUnmeshedComponent; simp only [s.components]

theorem unlinked (kinds : List ComponentType) : HasUnlinkedVertex t kinds ↔ HasUnlinkedVertex t' kinds := by
  unfold HasUnlinkedVertex; simp only [s.components, notAssociated s]

theorem sectionVertex (v : Index) : SectionVertexDefect t v ↔ SectionVertexDefect t' v := by
  unfold SectionVertexDefect CornerWithSeveralEmbeddings CornerAlone CornerNotBoundaryOfLine LineAlone EmbeddedBefore
    EmbeddedLineIsWrong InvalidSingleLine LinesWithoutCorner TwoSurfacesWithoutLine LineNotOnBorder
  simp only [ne_eq, s.cmvs, active s, at_ s, activeAt s, allMeshed s, embeddings_nil s, incidences_nil s, mem_embeddings s,
    length_embeddings s, activeCmv s, twiceActive s, s.isBoundary, s.isInternal, s.isVertexOnBorder]

theorem sectionTopology : SectionTopologyDefect t ↔ SectionTopologyDefect t' := by
  unfold SectionTopologyDefect
  simp only [bijectivelyLinked s, unmeshed s, unlinked s, sectionVertex s, s.nbUniqueVertices]

/-! ### BReps -/

theorem surfacesAt_eq (v : Index) : surfacesAt t v = surfacesAt t' v := by
  unfold surfacesAt; rw [s.cmvs]

theorem firstEdge (keys : ∀ l e, ((t.surfaceEdges l e).map Prod.fst).Nodup) (line : Uuid) : FirstEdgeIsWrong t line ↔ FirstEdgeIsWrong t' line := by
  have hf : ∀ k, (t.surfaceEdges line 0).find? k = (t'.surfaceEdges line 0).find? k :=
    fun k => find_perm (keys line 0) (s.surfaceEdges line 0) k
  unfold FirstEdgeIsWrong
  simp only [mem_incidences s, mem_embeddings s, incidences_nil s, active s, (s.surfaceEdges line 0).mem_iff, hf]

theorem brepVertex (keys : ∀ l e, ((t.surfaceEdges l e).map Prod.fst).Nodup) (v : Index) : BRepVertexDefect t v ↔ BRepVertexDefect t' v := by
  unfold BRepVertexDefect CornerMultiplyEmbedded CornerAlone CornerNotOnLine BRepInvalidEmbeddedLine BRepLineWrong
    BRepInvalidSingleLine LinesWithoutCorner InvalidEmbeddedSurface InvalidMultipleSurfaces RelatedLineNotOnBorder
  simp only [ne_eq, s.cmvs, active s, at_ s, activeAt s, allMeshed s, embeddings_nil s, incidences_nil s, mem_embeddings s,
    length_embeddings s, twiceActive s, s.isBoundary, s.isInternal, s.isVertexOnBorder, firstEdge s keys, s.components,
    surfacesAt_eq s]

theorem edgeWrong (line : Uuid) (e : Index) : EdgeIsWrong t line e ↔ EdgeIsWrong t' line e := by
  unfold EdgeIsWrong
  simp only [(s.surfaceEdges line e).mem_iff, (s.blockEdges line e).mem_iff, active s, s.isBoundary, s.isInternal,
    mem_embeddings s, mem_incidences s, s.components]

theorem facetWrong (surface : Uuid) (f : Index) : FacetIsWrong t surface f ↔ FacetIsWrong t' surface f := by
  unfold FacetIsWrong
  simp only [(s.blockPolygons surface f).mem_iff, active s, s.isBoundary, s.isInternal]

theorem cannotBound (x : Uuid) : CannotBound t x ↔ CannotBound t' x := by
  unfold CannotBound Closable; simp only [mem_boundaries s]

theorem boundarySurfaces_perm (b : Uuid) : (boundarySurfaces t b).Perm (boundarySurfaces t' b) :=
  ((s.boundaries b).filter _).map _

theorem sheets (b line : Uuid) : boundarySheets t b line = boundarySheets t' b line := by
  unfold boundarySheets
  rw [((boundarySurfaces_perm s b).filter _).length_eq,
    ((boundarySurfaces_perm s b).filter fun x => t.isInternal line x).length_eq]
  simp only [s.isBoundary, s.isInternal]

theorem cmvsOf_eq (v : Index) (kind : ComponentType) : cmvsOf t v kind = cmvsOf t' v kind := by
  unfold cmvsOf; rw [s.cmvs]

theorem linesAt_eq (v : Index) : linesAt t v = linesAt t' v := by
  unfold linesAt; simp only [cmvsOf_eq s, mem_embeddings s]

theorem lineInside (b line : Uuid) : LineInside t b line ↔ LineInside t' b line := by
  unfold LineInside; simp only [mem_embeddings s, mem_incidences s, s.isInternal]

theorem countIsRight (v : Index) (b : Uuid) : CountIsRight t v b ↔ CountIsRight t' v b := by
  unfold CountIsRight nbBlockCmvs expectedCount nbInternalSurfaceCmvs nbBoundarySurfaceCmvs nbLinesInside nbLinePassages
    nbAdditionalPassages nbSeveralPassages
  simp only [cmvsOf_eq s, linesAt_eq s, sheets s, lineInside s, s.isBoundary, s.isInternal]

theorem openBoundary (b : Uuid) : HasOpenBoundary t b ↔ HasOpenBoundary t' b := by
  unfold HasOpenBoundary; simp only [mem_boundaries s, mem_incidences s, active s, s.isBoundary]

theorem allLinked {Q Q' : List Uuid} (h : ∀ x, x ∈ Q ↔ x ∈ Q') : AllLinked t Q ↔ AllLinked t' Q' := by
  have : (fun x y => SharesLine t x y ∧ y ∈ Q) = fun x y => SharesLine t' x y ∧ y ∈ Q' := by
    funext x y
    unfold SharesLine
    simp only [mem_boundaries s, h]
  unfold AllLinked LinkedIn
  rw [this]
  simp only [h]

theorem blocksVertex (v : Index) (inside : Uuid → Uuid → Except Failure Bool) :
    (TwoBlocksWithoutSurface t v ∨ BlockCountWrong t v ∨ SingleInvalidSurface t v ∨ SurfaceWrongForBlocks t v inside ∨
      MultipleInvalidSurfaces t v) ↔
    (TwoBlocksWithoutSurface t' v ∨ BlockCountWrong t' v ∨ SingleInvalidSurface t' v ∨ SurfaceWrongForBlocks t' v inside ∨
      MultipleInvalidSurfaces t' v) := by
  unfold TwoBlocksWithoutSurface BlockCountWrong SingleInvalidSurface SurfaceWrongForBlocks MultipleInvalidSurfaces
    RelatedSurface OutsideBlocks
  simp only [ne_eq, at_ s, activeAt s, allMeshed s, embeddings_nil s, incidences_nil s, s.isBoundary, s.isInternal,
    countIsRight s, cannotBound s, s.components]

theorem sameBoundaries (block : Uuid) : SameBoundaries t t' block :=
  ⟨s.components .surface, fun _ => mem_boundaries s _ _, fun _ _ => mem_boundaries s _ _, s.polygonVertices,
    fun _ _ => s.uniqueVertex _⟩

end

/-- The decision of C50 is that of C103. -/
theorem encloses_iff {t : TopologyModel} (wf : WellFormed t) (coh : CoherentLines t) {g : BlockGeometry}
    (hg : RaisesOpenGeode g) (shape : InsideOfShape t g) (block : Uuid)
    (smaller : InsideIsSmaller t g (boundarySurfaces t block)) :
    BoundaryEncloses t g block ↔ ClosedBoundary t g block := by
  obtain ⟨parts, b, N, _, he, hb⟩ := C50_block_closed t wf coh g hg block
  obtain ⟨b', N', he', hb'⟩ := C103_closed t wf coh g hg shape block smaller
  have : b = b' := by
    have h1 := (he (max N N') (by omega)).2
    rw [he' (max N N') (by omega)] at h1
    cases h1; rfl
  subst this
  rw [← hb', hb]
  unfold BoundaryEncloses
  constructor
  · rintro ⟨parts', M, h, h'⟩
    have h1 := (he (max N M) (by omega)).1
    rw [h (max N M) (by omega)] at h1
    cases h1
    exact h'
  · intro h
    exact ⟨parts, N, fun fuel hf => (he fuel hf).1, h⟩

theorem boundaries_iff {t : TopologyModel} (l : List (List Uuid)) :
    (l ≠ [] ∧ ¬ AllLinked t l.flatten) ↔ ¬ AllLinked t l.flatten := by
  constructor
  · exact And.right
  · intro h
    refine ⟨fun e => h ?_, h⟩
    subst e
    intro a ha
    cases ha

theorem blocksDefect {t t' : TopologyModel} (s : Same t t') {o o' : BlocksOracle}
    (inside : o.isInsideBlock = o'.isInsideBlock) (hb : ∀ x, x ∈ o.modelBoundaries.flatten ↔ x ∈ o'.modelBoundaries.flatten)
    (he : ∀ c ∈ t.components .block, c.active = true →
      (BoundaryEncloses t o.geometry c.id ↔ BoundaryEncloses t' o'.geometry c.id)) :
    BlocksDefect t o ↔ BlocksDefect t' o' := by
  have he' : (∃ c ∈ t.components .block, c.active = true ∧ ¬ BoundaryEncloses t o.geometry c.id) ↔
      ∃ c ∈ t'.components .block, c.active = true ∧ ¬ BoundaryEncloses t' o'.geometry c.id := by
    constructor
    · rintro ⟨c, h1, h2, h3⟩
      exact ⟨c, (s.components _ _).1 h1, h2, fun h => h3 ((he c h1 h2).2 h)⟩
    · rintro ⟨c, h1, h2, h3⟩
      exact ⟨c, (s.components _ _).2 h1, h2, fun h => h3 ((he c ((s.components _ _).2 h1) h2).1 h)⟩
  unfold BlocksDefect
  rw [he', boundaries_iff, boundaries_iff]
  simp only [allLinked s hb, inside, s.components, notAssociated s, openBoundary s, s.nbUniqueVertices,
    blocksVertex s]

theorem brepTopology {t t' : TopologyModel} (s : Same t t') {o o' : BlocksOracle}
    (keys : ∀ l e, ((t.surfaceEdges l e).map Prod.fst).Nodup) (hb : BlocksDefect t o ↔ BlocksDefect t' o') :
    BRepTopologyDefect t o ↔ BRepTopologyDefect t' o' := by
  unfold BRepTopologyDefect
  rw [hb]
  simp only [bijectivelyLinked s, unmeshed s, unlinked s, brepVertex s keys, s.nbUniqueVertices, s.components, notAssociated s,
    edgeWrong s, facetWrong s, allMeshed s]

/-! ### Models -/

section
variable {P : Type} {lib : ModelLibrary P} {m m' : ModelData P} (h : StoredOtherwise m m')
include h

theorem isActiveId (id : Uuid) : IsActiveId m id ↔ IsActiveId m' id := by
  unfold IsActiveId; simp only [h.corners.mem_iff, h.lines.mem_iff, h.surfaces.mem_iff, h.blocks.mem_iff]

theorem numberOf (kind : ComponentType) (id : Uuid) (v n : Index) : NumberOf m kind id v n ↔ NumberOf m' kind id v n := by
  unfold NumberOf; simp only [h.uniqueVertex, h.noId]

theorem pointsOf (c : ComponentID) (points : List P) : PointsOf m c points ↔ PointsOf m' c points := by
  unfold PointsOf
  cases c.type <;> simp only [h.corners.mem_iff, h.lines.mem_iff, h.surfaces.mem_iff, h.blocks.mem_iff]

theorem isAt (cmv : ComponentMeshVertex) (p : P) : IsAt lib m cmv p ↔ IsAt lib m' cmv p := by
  unfold IsAt; simp only [pointsOf h]

theorem firstActive (uv : Index) (first : ComponentMeshVertex) : FirstActive m uv first ↔ FirstActive m' uv first := by
  unfold FirstActive; simp only [h.componentMeshVertices, isActiveId h]

theorem differentPoints (uv : Index) : PlainDifferentPoints lib m uv ↔ PlainDifferentPoints lib m' uv := by
  unfold PlainDifferentPoints; simp only [firstActive h, isAt h, isActiveId h, h.componentMeshVertices]

theorem colocatedUvs : PlainColocatedUniqueVertices lib m ↔ PlainColocatedUniqueVertices lib m' := by
  unfold PlainColocatedUniqueVertices ActivePoints
  simp only [firstActive h, isAt h, isActiveId h, h.componentMeshVertices, h.nbUniqueVertices]

theorem splitVertices (kind : ComponentType) (id : Uuid) (points : List P) :
    PlainSplitVertices lib m kind id points ↔ PlainSplitVertices lib m' kind id points := by
  unfold PlainSplitVertices; simp only [numberOf h]

theorem lineDefect (l : LineData P) : PlainLineDefect lib m l ↔ PlainLineDefect lib m' l := by
  unfold PlainLineDefect; simp only [splitVertices h]

theorem surfaceDefect (s : FaceData P) : PlainSurfaceDefect lib m s ↔ PlainSurfaceDefect lib m' s := by
  unfold PlainSurfaceDefect BorderNotOnLine
  simp only [ne_eq, splitVertices h, h.uniqueVertex, h.nbUniqueVertices, perm_nil (h.lineComponentMeshEdges _ _)]

theorem blockDefect (b : VolumeData P) : PlainBlockDefect lib m b ↔ PlainBlockDefect lib m' b := by
  unfold PlainBlockDefect BorderNotOnSurface
  simp only [splitVertices h, h.uniqueVertex, perm_nil (h.surfaceComponentMeshPolygons _)]

theorem interiorEdge (s : FaceData P) (x : PolygonEdge) (u v : Index) : InteriorEdge m s x u v ↔ InteriorEdge m' s x u v := by
  unfold InteriorEdge; simp only [h.surfaces.mem_iff, numberOf h]

theorem twiceInterior : TwiceInterior m ↔ TwiceInterior m' := by
  unfold TwiceInterior; simp only [interiorEdge h]

theorem alone (kind : ComponentType) (id : Uuid) (v : Index) :
    AloneAtUniqueVertex m kind id v ↔ AloneAtUniqueVertex m' kind id v := by
  unfold AloneAtUniqueVertex; simp only [numberOf h, h.componentMeshVertices]

theorem floatingEdge (l : LineData P) : FloatingEdge m l ↔ FloatingEdge m' l := by
  unfold FloatingEdge; simp only [(h.embeddings _).mem_iff, alone h]

theorem floatingFacet (s : FaceData P) : FloatingFacet m s ↔ FloatingFacet m' s := by
  unfold FloatingFacet; simp only [(h.embeddings _).mem_iff, alone h]

theorem givenSurface (s : FaceData P) (r : ModelSurface P) : GivenSurface lib m s r ↔ GivenSurface lib m' s r := by
  constructor
  · rintro ⟨h1, h2, h3, h4, h5, h6, h7⟩
    exact ⟨h1, h2, h3, h4, h5, h6, fun v => (numberOf h _ _ _ _).1 (h7 v)⟩
  · rintro ⟨h1, h2, h3, h4, h5, h6, h7⟩
    exact ⟨h1, h2, h3, h4, h5, h6, fun v => (numberOf h _ _ _ _).2 (h7 v)⟩

theorem polygonsMeet (test) : PlainPolygonsMeet lib m test ↔ PlainPolygonsMeet lib m' test := by
  unfold PlainPolygonsMeet; simp only [h.surfaces.mem_iff, givenSurface h]

theorem lineMeets : PlainLineMeetsSurface lib m ↔ PlainLineMeetsSurface lib m' := by
  unfold PlainLineMeetsSurface
  simp only [h.surfaces.mem_iff, h.lines.mem_iff, givenSurface h, (h.embeddings _).mem_iff]

theorem meshDefect : PlainBRepMeshDefect lib m ↔ PlainBRepMeshDefect lib m' := by
  unfold PlainBRepMeshDefect
  simp only [h.nbUniqueVertices, differentPoints h, colocatedUvs h, h.lines.mem_iff, lineDefect h, h.surfaces.mem_iff,
    surfaceDefect h, h.blocks.mem_iff, blockDefect h, twiceInterior h, floatingEdge h, floatingFacet h, polygonsMeet h]

theorem given_same {t t' : TopologyModel} (g : GivenTopology m t) (g' : GivenTopology m' t') : Same t t' where
  components kind c := by
    cases kind
    · rw [g.corners, g'.corners]; exact (h.corners.map _).mem_iff
    · rw [g.lines, g'.lines]; exact (h.lines.map _).mem_iff
    · rw [g.surfaces, g'.surfaces]; exact (h.surfaces.map _).mem_iff
    · rw [g.blocks, g'.blocks]; exact (h.blocks.map _).mem_iff
    · rw [g.others, g'.others]
  nbUniqueVertices := by rw [g.nbUniqueVertices, g'.nbUniqueVertices, h.nbUniqueVertices]
  cmvs v := by rw [g.componentMeshVertices, g'.componentMeshVertices, h.componentMeshVertices]
  uniqueVertex c := by rw [g.uniqueVertex, g'.uniqueVertex, h.uniqueVertex]
  isBoundary a b := by rw [g.isBoundary, g'.isBoundary, h.isBoundary]
  isInternal a b := by rw [g.isInternal, g'.isInternal, h.isInternal]
  embeddings id := by rw [g.embeddings, g'.embeddings]; exact h.embeddings id
  incidences id := by rw [g.incidences, g'.incidences]; exact h.incidences id
  boundaries id := by rw [g.boundaries, g'.boundaries]; exact h.boundaries id
  isVertexOnBorder s v := by rw [g.isVertexOnBorder, g'.isVertexOnBorder, h.isVertexOnBorder]
  surfaceEdges l e := by rw [g.surfaceEdges, g'.surfaceEdges]; exact h.surfaceEdges l e
  blockEdges l e := by rw [g.blockEdges, g'.blockEdges]; exact h.blockEdges l e
  blockPolygons s p := by rw [g.blockPolygons, g'.blockPolygons]; exact h.blockPolygons s p
  polygonVertices id p := by
    by_cases hs : ∃ s ∈ m.surfaces, s.id = id
    · obtain ⟨s, hs, rfl⟩ := hs
      obtain ⟨h1, h2⟩ := g.polygonVertices s hs p
      obtain ⟨h1', h2'⟩ := g'.polygonVertices s (h.surfaces.mem_iff.1 hs) p
      apply List.ext_getElem?
      intro k
      by_cases hk : k < s.nbPolygonVertices p
      · rw [h2 k hk, h2' k hk]
      · rw [List.getElem?_eq_none (by omega), List.getElem?_eq_none (by omega)]
    · have hn : ∀ s ∈ m.surfaces, s.id ≠ id := fun s h1 h2 => hs ⟨s, h1, h2⟩
      rw [g.noPolygon id hn, g'.noPolygon id fun s h1 => hn s (h.surfaces.mem_iff.2 h1)]

end

/-! ### What is known of the topology -/

theorem wellFormed_of_given {P : Type} {lib : ModelLibrary P} {rt : ModelRuntime} {m : ModelData P} (hm : MeshesOk lib m)
    (wf : WellFormed (m.topology rt)) {t : TopologyModel} (g : GivenTopology m t) : WellFormed t := by
  obtain ⟨i, u, c, n, p, v, rfl⟩ := Plain.given_topology_eq hm rt g
  exact ⟨wf.ids, wf.vertices, wf.embeddings, wf.incidences, wf.boundaries⟩

theorem coherent_of_given {P : Type} {rt : ModelRuntime} {m : ModelData P}
    (coh : CoherentLines (m.topology rt)) {t : TopologyModel} (g : GivenTopology m t) : CoherentLines t := by
  intro line s
  rw [g.incidences, g.boundaries]
  exact coh line s

end Inspector.Stored
