import Verif.Proofs.Parts
/-
Proofs for C129 (BReps): a BRep made of two parts which have nothing in common has a defect when, and only when, one of its
parts has one.
-/
namespace Inspector.Parts
open Inspector Spec

/-! ### topology -/

/-- The topology `t` is that of a part of the model of topology `t'`, whose components are `K`. -/
structure Sides (K : Uuid → Prop) (ι : Index → Index) (t t' : TopologyModel) : Prop where
  cmvs : ∀ v, v < t.nbUniqueVertices → t'.componentMeshVertices (ι v) = t.componentMeshVertices v
  known : ∀ v, v < t.nbUniqueVertices → ∀ c ∈ t.componentMeshVertices v, Has t c.component_id.type c.component_id.id
  knownComponents : ∀ kind, ∀ c ∈ t.components kind, K c.id
  components : ∀ kind c, K c.id → (c ∈ t'.components kind ↔ c ∈ t.components kind)
  component : ∀ kind id, K id → t'.component kind id = t.component kind id
  knownEmbeddings : ∀ id, ∀ e ∈ t.embeddings id, K e.id
  knownIncidences : ∀ id, ∀ e ∈ t.incidences id, K e.id
  knownBoundaries : ∀ id, ∀ e ∈ t.boundaries id, K e.id
  embeddings : ∀ id, K id → t'.embeddings id = t.embeddings id
  incidences : ∀ id, K id → t'.incidences id = t.incidences id
  boundaries : ∀ id, K id → t'.boundaries id = t.boundaries id
  isBoundary : ∀ a b, K a → K b → t'.isBoundary a b = t.isBoundary a b
  isInternal : ∀ a b, K a → K b → t'.isInternal a b = t.isInternal a b
  isVertexOnBorder : ∀ id, Has t .surface id → t'.isVertexOnBorder id = t.isVertexOnBorder id
  surfaceEdges : ∀ id, Has t .line id → t'.surfaceEdges id = t.surfaceEdges id
  knownSurfaceEdges : ∀ line e s n, (s, n) ∈ t.surfaceEdges line e → K s
  blockEdges : ∀ id, Has t .line id → t'.blockEdges id = t.blockEdges id
  knownBlockEdges : ∀ line e s n, (s, n) ∈ t.blockEdges line e → K s
  blockPolygons : ∀ id, Has t .surface id → t'.blockPolygons id = t.blockPolygons id
  knownBlockPolygons : ∀ surface f s n, (s, n) ∈ t.blockPolygons surface f → K s
  polygonVertices : ∀ id, Has t .surface id → t'.polygonVertices id = t.polygonVertices id
  uniqueVertex : ∀ c : ComponentMeshVertex, K c.component_id.id → t'.uniqueVertex c = (t.uniqueVertex c).map ι
  injective : Function.Injective ι
  allMeshed : AllMeshed t' .block ↔ AllMeshed t .block
  coherent : CoherentLines t
  coherent' : CoherentLines t'

section
variable {K : Uuid → Prop} {ι : Index → Index} {t t' : TopologyModel} (h : Sides K ι t t')
include h

theorem Sides.has {kind : ComponentType} {id : Uuid} (hh : Has t kind id) : K id := by
  obtain ⟨c, hc, rfl⟩ := hh
  exact h.knownComponents kind c hc

theorem Sides.active (kind : ComponentType) (id : Uuid) (hid : K id) : Active t' kind id ↔ Active t kind id := by
  constructor
  · rintro ⟨c, hc, rfl, ha⟩
    exact ⟨c, (h.components _ _ hid).1 hc, rfl, ha⟩
  · rintro ⟨c, hc, rfl, ha⟩
    exact ⟨c, (h.components _ _ hid).2 hc, rfl, ha⟩

variable {v : Index} (hv : v < t.nbUniqueVertices)
include hv

theorem Sides.has_at {kind : ComponentType} {id : Uuid} (ha : At t v kind id) : Has t kind id := by
  obtain ⟨c, hc, e⟩ := ha
  have := h.known v hv c hc
  rwa [e] at this

theorem Sides.at_iff (kind : ComponentType) (id : Uuid) : At t' (ι v) kind id ↔ At t v kind id := by
  unfold At; rw [h.cmvs v hv]

theorem Sides.activeAt (kind : ComponentType) (id : Uuid) : ActiveAt t' (ι v) kind id ↔ ActiveAt t v kind id := by
  unfold ActiveAt
  rw [h.at_iff hv]
  exact and_congr_right fun ha => h.active _ _ (h.has (h.has_at hv ha))

theorem Sides.twice (kind : ComponentType) : TwiceActive t' (ι v) kind ↔ TwiceActive t v kind := by
  unfold TwiceActive
  rw [h.cmvs v hv]
  refine exists_congr fun a => exists_congr fun b => and_congr_right fun hs => ?_
  rw [h.active _ _ (h.has (h.known v hv a (hs.subset (by simp)))),
    h.active _ _ (h.has (h.known v hv b (hs.subset (by simp))))]


/-- What is at a unique vertex of the part is known. -/
theorem Sides.at_known {kind : ComponentType} {id : Uuid} (ha : At t v kind id) : K id := h.has (h.has_at hv ha)

theorem Sides.activeAt_known {kind : ComponentType} {id : Uuid} (ha : ActiveAt t v kind id) : K id := h.at_known hv ha.1

theorem Sides.cornerMultiplyEmbedded : CornerMultiplyEmbedded t' (ι v) ↔ CornerMultiplyEmbedded t v := by
  unfold CornerMultiplyEmbedded
  simp only [h.activeAt hv]
  have a1 := @Sides.activeAt_known _ _ _ _ h _ hv
  have e1 := h.embeddings
  have e2 := h.knownEmbeddings
  have c1 := h.active
  grind

theorem Sides.cornerAlone : CornerAlone t' (ι v) ↔ CornerAlone t v := by
  unfold CornerAlone
  simp only [h.activeAt hv]
  have a1 := @Sides.activeAt_known _ _ _ _ h _ hv
  have e1 := h.embeddings
  have n1 := h.incidences
  grind

theorem Sides.cornerNotOnLine : CornerNotOnLine t' (ι v) ↔ CornerNotOnLine t v := by
  unfold CornerNotOnLine
  simp only [h.activeAt hv, h.cmvs v hv]
  have a1 := @Sides.activeAt_known _ _ _ _ h _ hv
  have b1 := h.isBoundary
  have b2 := h.isInternal
  grind

theorem Sides.invalidEmbeddedLine : BRepInvalidEmbeddedLine t' (ι v) ↔ BRepInvalidEmbeddedLine t v := by
  unfold BRepInvalidEmbeddedLine
  simp only [h.activeAt hv, h.at_iff hv, h.allMeshed]
  have a1 := @Sides.activeAt_known _ _ _ _ h _ hv
  have e1 := h.embeddings
  have e2 := h.knownEmbeddings
  have b1 := h.isBoundary
  grind

theorem Sides.singleBRepLine : BRepInvalidSingleLine t' (ι v) ↔ BRepInvalidSingleLine t v := by
  unfold BRepInvalidSingleLine
  simp only [h.activeAt hv, h.at_iff hv, h.allMeshed]
  have a1 := @Sides.activeAt_known _ _ _ _ h _ hv
  have a2 := @Sides.at_known _ _ _ _ h _ hv
  have b1 := h.isBoundary
  have b2 := h.isInternal
  have e1 := h.embeddings
  have n1 := h.incidences
  grind

theorem Sides.linesWithoutCorner : LinesWithoutCorner t' (ι v) ↔ LinesWithoutCorner t v := by
  unfold LinesWithoutCorner
  simp only [h.twice hv, h.at_iff hv]

theorem Sides.embeddedSurface : InvalidEmbeddedSurface t' (ι v) ↔ InvalidEmbeddedSurface t v := by
  unfold InvalidEmbeddedSurface
  simp only [h.activeAt hv, h.cmvs v hv, h.allMeshed]
  have a1 := @Sides.activeAt_known _ _ _ _ h _ hv
  have e1 := h.embeddings
  have e2 := h.knownEmbeddings
  have b1 := h.isBoundary
  have c1 := h.active
  grind

theorem Sides.surfacesAt_eq : surfacesAt t' (ι v) = surfacesAt t v := by
  unfold surfacesAt; rw [h.cmvs v hv]

theorem Sides.mem_surfacesAt {s : Uuid} (hs : s ∈ surfacesAt t v) : K s := by
  unfold surfacesAt at hs
  rw [List.mem_toFinset, List.mem_map] at hs
  obtain ⟨c, hc, rfl⟩ := hs
  exact h.has (h.known v hv c (List.mem_of_mem_filter hc))

theorem Sides.multipleSurfaces : InvalidMultipleSurfaces t' (ι v) ↔ InvalidMultipleSurfaces t v := by
  unfold InvalidMultipleSurfaces
  simp only [h.activeAt hv, h.at_iff hv, h.cmvs v hv, h.surfacesAt_eq hv]
  have a1 := @Sides.activeAt_known _ _ _ _ h _ hv
  have a2 := @Sides.at_known _ _ _ _ h _ hv
  refine and_congr_right fun _ => or_congr ?_ ?_
  · have b2 := h.isInternal
    grind
  · refine exists_congr fun line => exists_congr fun corner => and_congr_right fun hl => and_congr_right fun hc => ?_
    have hk : K line := by
      have : (⟨.line, line⟩ : ComponentID) ∈ ((t.componentMeshVertices v).filter fun cmv =>
        decide (cmv.component_id.type = .line)).map ComponentMeshVertex.component_id := by rw [hl]; simp
      obtain ⟨c, hc, e⟩ := List.mem_map.1 this
      have := h.has (h.known v hv c (List.mem_of_mem_filter hc))
      rwa [e] at this
    rw [h.embeddings corner (a2 hc)]
    have e : ((surfacesAt t v).filter fun s => t'.isBoundary line s = true ∨ t'.isInternal line s = true) =
        (surfacesAt t v).filter fun s => t.isBoundary line s = true ∨ t.isInternal line s = true := by
      refine Finset.filter_congr fun s hs => ?_
      have := h.mem_surfacesAt hv hs
      rw [h.isBoundary line s hk this, h.isInternal line s hk this]
    rw [e]

theorem Sides.relatedLineNotOnBorder : RelatedLineNotOnBorder t' (ι v) ↔ RelatedLineNotOnBorder t v := by
  unfold RelatedLineNotOnBorder
  simp only [h.activeAt hv, h.cmvs v hv]
  refine exists_congr fun c => and_congr_right fun hc => and_congr_right fun ht => ?_
  have hh := h.known v hv c hc
  rw [ht] at hh
  have hk := h.has hh
  rw [h.isVertexOnBorder _ hh]
  have a1 := @Sides.activeAt_known _ _ _ _ h _ hv
  have b1 := h.isBoundary
  have b2 := h.isInternal
  grind

omit hv in
theorem Sides.firstEdge (line : Uuid) (hl : Has t .line line) : FirstEdgeIsWrong t' line ↔ FirstEdgeIsWrong t line := by
  unfold FirstEdgeIsWrong
  rw [h.surfaceEdges line hl, h.incidences line (h.has hl), h.embeddings line (h.has hl)]
  have c1 := h.active
  have e2 := h.knownEmbeddings
  have n2 := h.knownIncidences
  have s2 := h.knownSurfaceEdges
  grind

theorem Sides.lineWrong : BRepLineWrong t' (ι v) ↔ BRepLineWrong t v := by
  unfold BRepLineWrong
  simp only [h.activeAt hv]
  refine exists_congr fun line => and_congr_right fun ha => ?_
  have hh := h.has_at hv ha.1
  rw [h.firstEdge line hh]
  refine and_congr_left fun _ => exists_congr fun c => ?_
  have c1 := h.components
  have := h.has hh
  grind

theorem Sides.brepVertex : BRepVertexDefect t' (ι v) ↔ BRepVertexDefect t v := by
  unfold BRepVertexDefect
  rw [h.twice hv, h.cornerMultiplyEmbedded hv, h.cornerAlone hv, h.cornerNotOnLine hv, h.invalidEmbeddedLine hv, h.lineWrong hv,
    h.singleBRepLine hv, h.linesWithoutCorner hv, h.embeddedSurface hv, h.multipleSurfaces hv, h.relatedLineNotOnBorder hv]

omit hv in
theorem Sides.edgeWrong (line : Uuid) (e : Index) (hl : Has t .line line) : EdgeIsWrong t' line e ↔ EdgeIsWrong t line e := by
  unfold EdgeIsWrong
  have hk := h.has hl
  rw [h.surfaceEdges line hl, h.blockEdges line hl, h.incidences line hk, h.embeddings line hk]
  have c1 := h.active
  have e2 := h.knownEmbeddings
  have n2 := h.knownIncidences
  have s2 := h.knownSurfaceEdges
  have s3 := h.knownBlockEdges
  have b1 := h.isBoundary
  have b2 := h.isInternal
  refine or_congr ?_ (or_congr ?_ (or_congr ?_ ?_))
  · grind
  · grind
  · grind
  · refine exists_congr fun c => ?_
    have := h.components .block c
    have := h.knownComponents .block c
    have := h.knownEmbeddings line ⟨.block, c.id⟩
    grind

omit hv in
theorem Sides.facetWrong (surface : Uuid) (f : Index) (hs : Has t .surface surface) :
    FacetIsWrong t' surface f ↔ FacetIsWrong t surface f := by
  unfold FacetIsWrong
  have hk := h.has hs
  rw [h.blockPolygons surface hs]
  have c1 := h.active
  have s2 := h.knownBlockPolygons
  have b1 := h.isBoundary
  have b2 := h.isInternal
  grind

/-! ### Blocks -/

omit hv in
theorem Sides.cannotBound (s : Uuid) (hs : K s) : CannotBound t' s ↔ CannotBound t s := by
  unfold CannotBound Closable
  refine not_congr ⟨?_, ?_⟩
  · rintro ⟨G, hG, hGs⟩
    refine ⟨fun x => G x ∧ K x, ?_, hGs, hs⟩
    rintro x ⟨hx, kx⟩ line hl
    obtain ⟨s', h1, h2, h3⟩ := hG x hx line (by rw [h.boundaries x kx]; exact hl)
    have kl : K line := h.knownBoundaries x _ hl
    have h4 := (h.coherent' line s').2 h3
    rw [h.incidences line kl] at h4
    exact ⟨s', ⟨h1, h.knownIncidences line _ h4⟩, h2, (h.coherent line s').1 h4⟩
  · rintro ⟨G, hG, hGs⟩
    refine ⟨fun x => G x ∧ K x, ?_, hGs, hs⟩
    rintro x ⟨hx, kx⟩ line hl
    rw [h.boundaries x kx] at hl
    obtain ⟨s', h1, h2, h3⟩ := hG x hx line hl
    have kl : K line := h.knownBoundaries x _ hl
    have h4 := (h.coherent line s').2 h3
    have ks := h.knownIncidences line _ h4
    exact ⟨s', ⟨h1, ks⟩, h2, by rw [h.boundaries s' ks]; exact h3⟩

omit hv in
theorem Sides.mem_boundarySurfaces {b s : Uuid} (hs : s ∈ boundarySurfaces t b) : K s := by
  obtain ⟨c, hc, rfl⟩ := List.mem_map.1 hs
  exact h.knownBoundaries b c (List.mem_of_mem_filter hc)

omit hv in
theorem Sides.sheets (b line : Uuid) (hb : K b) (hl : K line) : boundarySheets t' b line = boundarySheets t b line := by
  have e : boundarySurfaces t' b = boundarySurfaces t b := by
    unfold boundarySurfaces; rw [h.boundaries b hb]
  unfold boundarySheets
  rw [e, List.filter_congr fun s hs => h.isBoundary line s hl (h.mem_boundarySurfaces hs),
    List.filter_congr fun s hs => h.isInternal line s hl (h.mem_boundarySurfaces hs)]

theorem Sides.cmvsOf_eq (kind : ComponentType) : cmvsOf t' (ι v) kind = cmvsOf t v kind := by
  unfold cmvsOf; rw [h.cmvs v hv]

theorem Sides.mem_cmvsOf {kind : ComponentType} {c : ComponentMeshVertex} (hc : c ∈ cmvsOf t v kind) : K c.component_id.id :=
  h.has (h.known v hv c (List.mem_of_mem_filter hc))

theorem Sides.linesAt_eq : linesAt t' (ι v) = linesAt t v := by
  unfold linesAt
  rw [h.cmvsOf_eq hv]
  refine List.filter_congr fun line hl => ?_
  obtain ⟨c, hc, rfl⟩ := List.mem_map.1 hl
  rw [h.embeddings _ (h.mem_cmvsOf hv hc)]

theorem Sides.mem_linesAt {line : Uuid} (hl : line ∈ linesAt t v) : K line := by
  obtain ⟨c, hc, rfl⟩ := List.mem_map.1 (List.mem_of_mem_filter hl)
  exact h.mem_cmvsOf hv hc

omit hv in
theorem Sides.lineInside (b line : Uuid) (hb : K b) (hl : K line) : LineInside t' b line ↔ LineInside t b line := by
  unfold LineInside
  rw [h.embeddings line hl, h.incidences line hl]
  have e2 := h.knownEmbeddings
  have n2 := h.knownIncidences
  have b2 := h.isInternal
  grind

theorem Sides.countIsRight (b : Uuid) (hb : K b) : CountIsRight t' (ι v) b ↔ CountIsRight t v b := by
  have e1 : nbBlockCmvs t' (ι v) b = nbBlockCmvs t v b := by
    unfold nbBlockCmvs; rw [h.cmvsOf_eq hv]
  have e2 : nbInternalSurfaceCmvs t' (ι v) b = nbInternalSurfaceCmvs t v b := by
    unfold nbInternalSurfaceCmvs
    rw [h.cmvsOf_eq hv]
    refine congrArg List.length (List.filter_congr fun c hc => ?_)
    rw [h.isBoundary _ _ (h.mem_cmvsOf hv hc) hb, h.isInternal _ _ (h.mem_cmvsOf hv hc) hb]
  have e3 : nbBoundarySurfaceCmvs t' (ι v) b = nbBoundarySurfaceCmvs t v b := by
    unfold nbBoundarySurfaceCmvs
    rw [h.cmvsOf_eq hv]
    refine congrArg List.length (List.filter_congr fun c hc => ?_)
    rw [h.isBoundary _ _ (h.mem_cmvsOf hv hc) hb]
  have e4 : nbLinesInside t' (ι v) b = nbLinesInside t v b := by
    unfold nbLinesInside
    rw [h.linesAt_eq hv]
    refine congrArg List.length (List.filter_congr fun c hc => ?_)
    have hk := h.mem_linesAt hv hc
    rw [h.sheets b c hb hk, decide_eq_decide, h.lineInside b c hb hk]
  have e5 : nbLinePassages t' (ι v) b = nbLinePassages t v b := by
    unfold nbLinePassages
    rw [h.linesAt_eq hv]
    refine congrArg List.sum (List.map_congr_left fun c hc => ?_)
    rw [h.sheets b c hb (h.mem_linesAt hv hc)]
  have e6 : nbAdditionalPassages t' (ι v) b = nbAdditionalPassages t v b := by
    unfold nbAdditionalPassages
    rw [h.linesAt_eq hv]
    refine congrArg List.sum (List.map_congr_left fun c hc => ?_)
    rw [h.sheets b c hb (h.mem_linesAt hv hc)]
  have e7 : nbSeveralPassages t' (ι v) b = nbSeveralPassages t v b := by
    unfold nbSeveralPassages
    rw [h.linesAt_eq hv]
    refine congrArg List.length (List.filter_congr fun c hc => ?_)
    rw [h.sheets b c hb (h.mem_linesAt hv hc)]
  unfold CountIsRight expectedCount
  rw [e1, e2, e3, e4, e5, e6, e7, h.cmvsOf_eq hv]

theorem Sides.blockCountWrong : BlockCountWrong t' (ι v) ↔ BlockCountWrong t v := by
  unfold BlockCountWrong
  simp only [h.activeAt hv]
  exact exists_congr fun b => and_congr_right fun hb => not_congr (h.countIsRight hv b (h.activeAt_known hv hb))

theorem Sides.relatedSurface (s : Uuid) : RelatedSurface t' (ι v) s ↔ RelatedSurface t v s := by
  unfold RelatedSurface
  rw [h.at_iff hv]
  refine and_congr_right fun hs => ?_
  rw [h.incidences s (h.at_known hv hs), h.embeddings s (h.at_known hv hs)]

theorem Sides.twoBlocks : TwoBlocksWithoutSurface t' (ι v) ↔ TwoBlocksWithoutSurface t v := by
  unfold TwoBlocksWithoutSurface
  simp only [h.activeAt hv, h.at_iff hv]
  have a1 := @Sides.activeAt_known _ _ _ _ h _ hv
  have a2 := @Sides.at_known _ _ _ _ h _ hv
  have b1 := h.isBoundary
  grind

theorem Sides.singleInvalidSurface : SingleInvalidSurface t' (ι v) ↔ SingleInvalidSurface t v := by
  unfold SingleInvalidSurface
  simp only [h.activeAt hv, h.at_iff hv, h.allMeshed]
  refine exists_congr fun s => and_congr_right fun hs => and_congr_right fun _ => ?_
  have hk := h.activeAt_known hv hs
  rw [h.cannotBound s hk, h.embeddings s hk]
  have a2 := @Sides.at_known _ _ _ _ h _ hv
  have b1 := h.isBoundary
  have b2 := h.isInternal
  grind

theorem Sides.multipleInvalidSurfaces : MultipleInvalidSurfaces t' (ι v) ↔ MultipleInvalidSurfaces t v := by
  unfold MultipleInvalidSurfaces
  simp only [h.at_iff hv, h.relatedSurface hv]
  refine and_congr_right fun _ => and_congr_right fun _ => exists_congr fun line => and_congr_right fun hl => ?_
  have hk := h.at_known hv hl
  rw [h.embeddings line hk]
  have r1 : ∀ s, RelatedSurface t v s → K s := fun s hs => h.at_known hv hs.1
  have b1 : ∀ s, K s → t'.isBoundary line s = t.isBoundary line s := fun s hs => h.isBoundary line s hk hs
  have b2 : ∀ s, K s → t'.isInternal line s = t.isInternal line s := fun s hs => h.isInternal line s hk hs
  have b3 : ∀ s, K s → t'.embeddings s = t.embeddings s := h.embeddings
  grind

/-- The Blocks out of the part do not contain its Surfaces. -/
theorem Sides.surfaceWrong {inside : Uuid → Uuid → Except Failure Bool}
    (hout : ∀ s, Has t .surface s → ∀ b ∈ t'.components .block, ¬ K b.id → inside s b.id = .ok false) :
    SurfaceWrongForBlocks t' (ι v) inside ↔ SurfaceWrongForBlocks t v inside := by
  unfold SurfaceWrongForBlocks
  simp only [h.activeAt hv]
  refine exists_congr fun s => and_congr_right fun hs => ?_
  have hh := h.has_at hv hs.1
  have hk := h.has hh
  have ho : OutsideBlocks t' inside s ↔ OutsideBlocks t inside s := by
    unfold OutsideBlocks
    have h1 : (∃ c ∈ t'.components .surface, c.id = s ∧ c.nbElements ≠ 0) ↔
        ∃ c ∈ t.components .surface, c.id = s ∧ c.nbElements ≠ 0 := by
      have := h.components .surface
      grind
    rw [h1]
    refine and_congr_right fun _ => ⟨fun hb b hc => ?_, fun hb b hc => ?_⟩
    · exact hb b ((h.components .block b (h.knownComponents .block b hc)).2 hc)
    · by_cases kb : K b.id
      · exact hb b ((h.components .block b kb).1 hc)
      · exact hout s hh b hc kb
  rw [h.cannotBound s hk, h.incidences s hk, h.embeddings s hk, ho]

omit hv in
theorem Sides.openBoundary (b : Uuid) (hb : K b) : HasOpenBoundary t' b ↔ HasOpenBoundary t b := by
  unfold HasOpenBoundary
  rw [h.boundaries b hb]
  refine exists_congr fun s => and_congr_right fun hs => ?_
  have ks := h.knownBoundaries b _ hs
  rw [h.active _ _ ks, h.boundaries s ks]
  refine and_congr_right fun _ => exists_congr fun line => and_congr_right fun hl => ?_
  have kl := h.knownBoundaries s _ hl
  rw [h.incidences line kl]
  have n2 := h.knownIncidences line
  have b1 := h.isBoundary
  grind

/-! ### boundaries of the Blocks -/

omit hv in
theorem Sides.linked_eq (x : Uuid) (hx : K x) (processed : List Uuid) :
    findLinkedProcessedSurface t' x processed = findLinkedProcessedSurface t x processed := by
  unfold findLinkedProcessedSurface TopologyModel.related
  rw [h.boundaries x hx]
  have key : ∀ l : List Uuid, (∀ line ∈ l, K line) →
      loopAny (fun line => loopAny (fun other_surface => processed.contains other_surface)
        (((t'.incidences line).filter fun c => c.type == .surface).map ComponentID.id)) l =
      loopAny (fun line => loopAny (fun other_surface => processed.contains other_surface)
        (((t.incidences line).filter fun c => c.type == .surface).map ComponentID.id)) l := by
    intro l
    induction l with
    | nil => exact fun _ => rfl
    | cons a l ih =>
      intro hl
      unfold loopAny
      rw [h.incidences a (hl a (by simp)), ih fun y hy => hl y (by simp [hy])]
  refine key _ fun line hl => ?_
  obtain ⟨c, hc, rfl⟩ := List.mem_map.1 hl
  exact h.knownBoundaries x c (List.mem_of_mem_filter hc)

omit hv in
theorem Sides.loop_eq (fuel : Nat) : ∀ (processed Q : List Uuid) (skip : Nat), (∀ x ∈ Q, K x) →
    closedLinkedLoop t' fuel processed Q skip = closedLinkedLoop t fuel processed Q skip := by
  induction fuel with
  | zero => exact fun _ _ _ _ => rfl
  | succ fuel ih =>
    intro processed Q skip hQ
    cases Q with
    | nil => rfl
    | cons x Q =>
      have hQ' : ∀ y ∈ Q, K y := fun y hy => hQ y (by simp [hy])
      have hx := hQ x (by simp)
      unfold closedLinkedLoop
      rw [h.linked_eq x hx, ih _ Q _ hQ', ih _ Q _ hQ', ih _ (Q ++ [x]) _ fun y hy => by
        rcases List.mem_append.1 hy with hy | hy
        · exact hQ' y hy
        · rw [List.mem_singleton.1 hy]; exact hx]

omit h hv in
/-- What the loop gives is in the queue. -/
theorem loop_subset (fuel : Nat) : ∀ (processed Q : List Uuid) (skip : Nat) (r : List Uuid × List Uuid),
    closedLinkedLoop t fuel processed Q skip = .ok r → (∀ x ∈ r.1, x ∈ processed ∨ x ∈ Q) ∧ ∀ x ∈ r.2, x ∈ Q := by
  induction fuel with
  | zero => exact fun _ _ _ _ e => by cases e
  | succ fuel ih =>
    intro processed Q skip r e
    cases Q with
    | nil =>
      unfold closedLinkedLoop at e
      cases e
      exact ⟨fun x hx => .inl hx, fun x hx => hx⟩
    | cons x Q =>
      unfold closedLinkedLoop at e
      split at e
      · cases e
        exact ⟨fun x hx => .inl hx, fun x hx => hx⟩
      · split at e
        · have := ih _ _ _ _ e
          grind
        · split at e
          · have := ih _ _ _ _ e
            grind
          · have := ih _ _ _ _ e
            grind

omit hv in
theorem Sides.parts_eq (fuel n : Nat) : ∀ Q : List Uuid, (∀ x ∈ Q, K x) →
    linkedBoundaryParts t' fuel n Q = linkedBoundaryParts t fuel n Q := by
  induction n with
  | zero => exact fun _ _ => rfl
  | succ n ih =>
    intro Q hQ
    cases Q with
    | nil => rfl
    | cons x Q =>
      have hQ' : ∀ y ∈ Q, K y := fun y hy => hQ y (by simp [hy])
      unfold linkedBoundaryParts closedLinkedSurfaces
      simp only [h.loop_eq fuel [x] Q 0 hQ']
      cases e : closedLinkedLoop t fuel [x] Q 0 with
      | error f => rfl
      | ok r =>
        have := ih r.2 fun y hy => hQ' y ((loop_subset fuel _ _ _ r e).2 y hy)
        show (linkedBoundaryParts t' fuel n r.2).bind _ = (linkedBoundaryParts t fuel n r.2).bind _
        rw [this]

omit h hv in
theorem parts_subset (fuel n : Nat) : ∀ (Q : List Uuid) (parts : List (List Uuid)),
    linkedBoundaryParts t fuel n Q = .ok parts → ∀ p ∈ parts, ∀ x ∈ p, x ∈ Q := by
  induction n with
  | zero => exact fun _ _ e => by cases e
  | succ n ih =>
    intro Q parts e
    cases Q with
    | nil => cases e; exact fun p hp => absurd hp List.not_mem_nil
    | cons x Q =>
      unfold linkedBoundaryParts closedLinkedSurfaces at e
      cases e1 : closedLinkedLoop t fuel [x] Q 0 with
      | error f => simp only [e1] at e; cases e
      | ok r =>
        simp only [e1] at e
        cases e2 : linkedBoundaryParts t fuel n r.2 with
        | error f => simp only [bind, Except.bind, e2] at e; cases e
        | ok ps =>
          simp only [bind, Except.bind, e2, pure, Except.pure] at e
          cases e
          have h1 := loop_subset fuel _ _ _ r e1
          have h2 := ih r.2 ps e2
          grind

omit hv in
theorem Sides.queue_eq (b : Uuid) (hb : K b) : queueWithBlockBoundaries t' b = queueWithBlockBoundaries t b := by
  unfold queueWithBlockBoundaries TopologyModel.related
  rw [h.boundaries b hb]

omit hv in
theorem Sides.queue_known (b : Uuid) {x : Uuid} (hx : x ∈ queueWithBlockBoundaries t b) : K x := by
  have key : ∀ (l acc : List Uuid), l.foldl (fun queue surface => queue ++ [surface]) acc = acc ++ l := by
    intro l
    induction l with
    | nil => simp
    | cons a l ih => intro acc; rw [List.foldl_cons, ih]; simp
  unfold queueWithBlockBoundaries TopologyModel.related at hx
  rw [key, List.nil_append] at hx
  obtain ⟨c, hc, rfl⟩ := List.mem_map.1 hx
  exact h.knownBoundaries b c (List.mem_of_mem_filter hc)

end

/-! ### the fused surface -/

/-- A fused mesh whose mapping has the numbers of the model. -/
def inWhole (ι : Index → Index) (f : FusedSurface) : FusedSurface :=
  { f with mapping := f.mapping.map fun e => (e.1.map ι, e.2) }

theorem find_inWhole {ι : Index → Index} (hι : Function.Injective ι) (o : Option Index) (l : List (Option Index × Nat)) :
    ((l.map fun e => (e.1.map ι, e.2)).find? fun e => e.1 == o.map ι) =
      (l.find? fun e => e.1 == o).map fun e => (e.1.map ι, e.2) := by
  rw [List.find?_map]
  congr 1
  congr 1
  funext e
  simp only [Function.comp]
  have : (e.1.map ι = o.map ι) ↔ e.1 = o := (Option.map_injective hι).eq_iff
  rw [Bool.eq_iff_iff, beq_iff_eq, beq_iff_eq, this]

section
variable {K : Uuid → Prop} {ι : Index → Index} {t t' : TopologyModel} (h : Sides K ι t t')
include h

theorem Sides.fuseVertex_eq (surface : Uuid) (hs : K surface) (f : FusedSurface) (l : List Nat) (v : Index) :
    fuseVertex t' surface (inWhole ι f, l) v =
      (inWhole ι (fuseVertex t surface (f, l) v).1, (fuseVertex t surface (f, l) v).2) := by
  unfold fuseVertex
  simp only [h.uniqueVertex ⟨⟨.surface, surface⟩, v⟩ hs, inWhole, find_inWhole h.injective]
  cases e : f.mapping.find? fun e => e.1 == t.uniqueVertex ⟨⟨.surface, surface⟩, v⟩ with
  | none => simp
  | some e => simp

theorem Sides.fuseVertices_eq (surface : Uuid) (hs : K surface) (vs : List Index) : ∀ (f : FusedSurface) (l : List Nat),
    vs.foldl (fuseVertex t' surface) (inWhole ι f, l) =
      (inWhole ι (vs.foldl (fuseVertex t surface) (f, l)).1, (vs.foldl (fuseVertex t surface) (f, l)).2) := by
  induction vs with
  | nil => exact fun f l => rfl
  | cons v vs ih =>
    intro f l
    rw [List.foldl_cons, List.foldl_cons, h.fuseVertex_eq surface hs, ih]

theorem Sides.fusePolygon_eq (surface : Uuid) (hs : Has t .surface surface) (f : FusedSurface) (p : Index) :
    fusePolygon t' surface (inWhole ι f) p = inWhole ι (fusePolygon t surface f p) := by
  unfold fusePolygon
  rw [h.polygonVertices surface hs, h.fuseVertices_eq surface (h.has hs)]
  rfl

theorem Sides.fusePolygons_eq (surface : Uuid) (hs : Has t .surface surface) (ps : List Index) : ∀ f : FusedSurface,
    ps.foldl (fusePolygon t' surface) (inWhole ι f) = inWhole ι (ps.foldl (fusePolygon t surface) f) := by
  induction ps with
  | nil => exact fun f => rfl
  | cons p ps ih =>
    intro f
    rw [List.foldl_cons, List.foldl_cons, h.fusePolygon_eq surface hs, ih]

theorem Sides.fuse_eq (l : List Uuid) (hl : ∀ x ∈ l, K x) :
    fuseBRepSurfacesFromList t' l = (fuseBRepSurfacesFromList t l).map (inWhole ι) := by
  unfold fuseBRepSurfacesFromList
  have : ∀ f : FusedSurface,
      l.foldlM (fun fused surface_id => do
        let surface ← t'.component .surface surface_id
        return (List.range surface.nbElements).foldl (fusePolygon t' surface_id) fused) (inWhole ι f) =
      (l.foldlM (fun fused surface_id => do
        let surface ← t.component .surface surface_id
        return (List.range surface.nbElements).foldl (fusePolygon t surface_id) fused) f : Except Failure _).map
        (inWhole ι) := by
    induction l with
    | nil => exact fun f => rfl
    | cons x l ih =>
      intro f
      rw [List.foldlM_cons, List.foldlM_cons, h.component _ _ (hl x (by simp))]
      cases e : t.component .surface x with
      | error e => rfl
      | ok c =>
        have hs : Has t .surface x := by
          unfold TopologyModel.component at e
          split at e
          · rename_i c' hc
            have h2 := List.find?_some hc
            exact ⟨c', List.mem_of_find?_eq_some hc, by simpa using h2⟩
          · cases e
        show l.foldlM _ ((List.range c.nbElements).foldl (fusePolygon t' x) (inWhole ι f)) = _
        rw [h.fusePolygons_eq x hs, ih fun y hy => hl y (by simp [hy])]
        rfl
  exact this {}

theorem Sides.meshEncloses (g : BlockGeometry) (hg : ReadsMeshOnly g) (parts : List (List Uuid))
    (hp : ∀ p ∈ parts, ∀ x ∈ p, K x) (i : Nat) : MeshEncloses t' g parts i ↔ MeshEncloses t g parts i := by
  unfold MeshEncloses PartInside
  have hin : ∀ (mesh : FusedSurface) (q : List Uuid) (j : Nat), parts[j]? = some q →
      ((∀ s ∈ q, ∀ c ∈ t'.components .surface, c.id = s → ∀ v < c.nbVertices, g.isVertexInside (inWhole ι mesh) s v = .ok true) ↔
        ∀ s ∈ q, ∀ c ∈ t.components .surface, c.id = s → ∀ v < c.nbVertices, g.isVertexInside mesh s v = .ok true) := by
    intro mesh q j hj
    have hm : ∀ x v, g.isVertexInside (inWhole ι mesh) x v = g.isVertexInside mesh x v := hg _ _ rfl rfl
    simp only [hm]
    refine forall_congr' fun s => forall_congr' fun hs => forall_congr' fun c => ?_
    have hk := hp q (List.mem_of_getElem? hj) s hs
    have := h.components .surface c
    grind
  refine exists_congr fun p => ?_
  constructor
  · rintro ⟨mesh, h1, h2, h3⟩
    rw [h.fuse_eq p (hp p (List.mem_of_getElem? h1))] at h2
    cases e : fuseBRepSurfacesFromList t p with
    | error f => rw [e] at h2; cases h2
    | ok mesh' =>
      rw [e] at h2
      cases h2
      exact ⟨mesh', h1, rfl, fun j q hj hne => (hin mesh' q j hj).1 (h3 j q hj hne)⟩
  · rintro ⟨mesh, h1, h2, h3⟩
    refine ⟨inWhole ι mesh, h1, ?_, fun j q hj hne => (hin mesh q j hj).2 (h3 j q hj hne)⟩
    rw [h.fuse_eq p (hp p (List.mem_of_getElem? h1)), h2]
    rfl

theorem Sides.encloses (g : BlockGeometry) (hg : ReadsMeshOnly g) (b : Uuid) (hb : K b) :
    BoundaryEncloses t' g b ↔ BoundaryEncloses t g b := by
  unfold BoundaryEncloses
  rw [h.queue_eq b hb]
  refine exists_congr fun parts => exists_congr fun N => ?_
  have he : ∀ fuel, linkedBoundaryParts t' fuel fuel (queueWithBlockBoundaries t b) =
      linkedBoundaryParts t fuel fuel (queueWithBlockBoundaries t b) := fun fuel =>
    h.parts_eq fuel fuel _ fun x hx => h.queue_known b hx
  simp only [he]
  refine and_congr_right fun hf => or_congr_right (exists_congr fun i => and_congr_right fun _ => and_congr_right fun _ => ?_)
  exact h.meshEncloses g hg parts (fun p hp x hx => h.queue_known b (parts_subset N N _ _ (hf N (le_refl N)) p hp x hx)) i

/-- A vertex criterion on Blocks. -/
def BlocksVertexDefect (t : TopologyModel) (inside : Uuid → Uuid → Except Failure Bool) (v : Index) : Prop :=
  TwoBlocksWithoutSurface t v ∨ BlockCountWrong t v ∨ SingleInvalidSurface t v ∨ SurfaceWrongForBlocks t v inside ∨
    MultipleInvalidSurfaces t v

theorem Sides.blocksVertex {v : Index} (hv : v < t.nbUniqueVertices) {inside : Uuid → Uuid → Except Failure Bool}
    (hout : ∀ s, Has t .surface s → ∀ b ∈ t'.components .block, ¬ K b.id → inside s b.id = .ok false) :
    BlocksVertexDefect t' inside (ι v) ↔ BlocksVertexDefect t inside v := by
  unfold BlocksVertexDefect
  rw [h.twoBlocks hv, h.blockCountWrong hv, h.singleInvalidSurface hv, h.surfaceWrong hv hout, h.multipleInvalidSurfaces hv]

theorem Sides.notAssociated (kind : ComponentType) {c : TopologyComponent} (hc : c ∈ t.components kind) (v : Index) :
    NotAssociated t' kind c v ↔ NotAssociated t kind c v := by
  unfold NotAssociated
  rw [h.uniqueVertex ⟨⟨kind, c.id⟩, v⟩ (h.knownComponents kind c hc), Option.map_eq_none_iff]

theorem Sides.mem {kind : ComponentType} {c : TopologyComponent} (hc : c ∈ t.components kind) : c ∈ t'.components kind :=
  (h.components kind c (h.knownComponents kind c hc)).2 hc

theorem Sides.linkedAt (kinds : List ComponentType) {u : Index} (hu : u < t.nbUniqueVertices) :
    (t'.componentMeshVertices (ι u) ≠ [] ∧ ∀ cmv ∈ t'.componentMeshVertices (ι u), CmvExists t' kinds cmv ∧
      (Active t' cmv.component_id.type cmv.component_id.id → t'.uniqueVertex cmv = some (ι u))) ↔
    (t.componentMeshVertices u ≠ [] ∧ ∀ cmv ∈ t.componentMeshVertices u, CmvExists t kinds cmv ∧
      (Active t cmv.component_id.type cmv.component_id.id → t.uniqueVertex cmv = some u)) := by
  rw [h.cmvs u hu]
  refine and_congr_right fun _ => forall_congr' fun cmv => forall_congr' fun hc => ?_
  have hid : K cmv.component_id.id := h.has (h.known u hu cmv hc)
  rw [h.active _ _ hid]
  have h1 : t'.uniqueVertex cmv = some (ι u) ↔ t.uniqueVertex cmv = some u := by
    rw [h.uniqueVertex cmv hid]
    cases t.uniqueVertex cmv with
    | none => simp
    | some x => simp [h.injective.eq_iff]
  have h2 : CmvExists t' kinds cmv ↔ CmvExists t kinds cmv := by
    unfold CmvExists
    have := h.components cmv.component_id.type
    grind
  rw [h1, h2]

theorem Sides.unreadable_of {v : Index} (hv : v < t.nbUniqueVertices)
    (hd : UnreadableEmbedding t v) : UnreadableEmbedding t' (ι v) := by
  have hw : ∀ line e, K line → K e.id → (EmbeddingWrong t' (ι v) line e ↔ EmbeddingWrong t v line e) := by
    intro line e hl he
    unfold EmbeddingWrong
    rw [h.isBoundary _ _ hl he, h.allMeshed, h.at_iff hv]
  have hac : ∀ c, K c.component_id.id → (ActiveCmv t' .line c ↔ ActiveCmv t .line c) := by
    intro c hc
    unfold ActiveCmv
    rw [h.active _ _ hc]
  obtain ⟨pre, cmv, post, e, h1, h2, pre', e', post', e1, h3, h4, h5⟩ := hd
  have hk : ∀ x ∈ pre ++ cmv :: post, K x.component_id.id := by
    rw [← e]
    exact fun x hx => h.has (h.known v hv x hx)
  have hc := hk cmv (by simp)
  have he : ∀ x ∈ pre' ++ e' :: post', K x.id := by
    rw [← e1]
    exact h.knownEmbeddings _
  refine ⟨pre, cmv, post, by rw [h.cmvs v hv, e], (hac cmv hc).2 h1, ?_, pre', e', post',
    by rw [h.embeddings _ hc, e1], ?_, (hw _ _ hc (he e' (by simp))).2 h4, ?_⟩
  · intro c hc' ha x hx
    have kc := hk c (by simp [hc'])
    rw [h.embeddings _ kc] at hx
    rw [hw _ _ kc (h.knownEmbeddings _ _ hx)]
    exact h2 c hc' ((hac c kc).1 ha) x hx
  · rintro ⟨c, hc1, hc2⟩
    exact h3 ⟨c, (h.components .surface c (by rw [hc2]; exact he e' (by simp))).1 hc1, hc2⟩
  · intro x hx
    rw [hw _ _ hc (he x (by simp [hx]))]
    exact h5 x hx

end

/-! ### the parts of a BRep -/

section
variable {P : Type} {lib : ModelLibrary P} {m m1 m2 : ModelData P} {ι ι1 ι2 : Index → Index}

theorem find_id {α : Type} (l : List α) (f : α → Uuid) (hinj : ∀ a ∈ l, ∀ b ∈ l, f a = f b → a = b) {a : α} (ha : a ∈ l) :
    (l.find? fun x => f x == f a) = some a := by
  cases e : l.find? fun x => f x == f a with
  | none => exact absurd (List.find?_eq_none.1 e a ha) (by simp)
  | some b =>
    have h1 := List.find?_some e
    rw [hinj b (List.mem_of_find?_eq_some e) a ha (by simpa using h1)]

/-- Components of a kind with the same id are the same one. -/
theorem component_inj (hm : MeshesOk lib m) (rt : ModelRuntime) (kind : ComponentType) :
    ∀ a ∈ (m.topology rt).components kind, ∀ b ∈ (m.topology rt).components kind, a.id = b.id → a = b := by
  obtain ⟨i1, i2, i3, i4, _⟩ := ids hm
  intro a ha b hb e
  rw [mem_components] at ha hb
  cases kind with
  | corner =>
    obtain ⟨x, hx, rfl⟩ := ha; obtain ⟨y, hy, rfl⟩ := hb
    rw [i1 x hx y hy e]
  | line =>
    obtain ⟨x, hx, rfl⟩ := ha; obtain ⟨y, hy, rfl⟩ := hb
    rw [i2 x hx y hy e]
  | surface =>
    obtain ⟨x, hx, rfl⟩ := ha; obtain ⟨y, hy, rfl⟩ := hb
    rw [i3 x hx y hy e]
  | block =>
    obtain ⟨x, hx, rfl⟩ := ha; obtain ⟨y, hy, rfl⟩ := hb
    rw [i4 x hx y hy e]
  | other => exact ha.elim

/-- What is assumed of a BRep and one of its parts. -/
structure BRepSetting (lib : ModelLibrary P) (rt rt1 : ModelRuntime) (near : P → P → Prop) (ι : Index → Index)
    (m m1 : ModelData P) : Prop where
  part : IsBRepPart ι m1 m
  meshes : MeshesOk lib m
  meshes1 : MeshesOk lib m1
  types : KnownTypes true (m.uniqueVertices lib)
  types1 : KnownTypes true (m1.uniqueVertices lib)
  noId : NoIdIsFree m
  numbers : NumbersKnown m1
  topology1 : WellFormed (m1.topology rt1)
  around1 : AroundWellFormed (m1.topology rt1)
  coherent : CoherentLines (m.topology rt)
  coherent1 : CoherentLines (m1.topology rt1)
  search : UniqueVerticesNear lib near m
  search1 : UniqueVerticesNear lib near m1
  empty : (∃ b ∈ m.blocks, b.nbPolyhedra = 0) ↔ ∃ b ∈ m1.blocks, b.nbPolyhedra = 0
  oracle : m1.blocksOracle = m.blocksOracle
  noBoundary : m.blocksOracle.modelBoundaries = []
  mesh : ReadsMeshOnly m.blocksOracle.geometry
  inside : ∀ s ∈ m1.surfaces, ∀ b ∈ m.blocks, ¬ HasId m1 b.id → m.blocksOracle.isInsideBlock s.id b.id = .ok false

theorem BRepSetting.allMeshed {rt rt1 : ModelRuntime} {near : P → P → Prop} (s : BRepSetting lib rt rt1 near ι m m1) :
    AllMeshed (m.topology rt) .block ↔ AllMeshed (m1.topology rt1) .block := by
  have key : ∀ (m : ModelData P) (rt : ModelRuntime), AllMeshed (m.topology rt) .block ↔
      ¬ ∃ b ∈ m.blocks, b.nbPolyhedra = 0 := by
    intro m rt
    constructor
    · rintro ha ⟨b, hb, h0⟩
      exact ha _ ((mem_components m rt .block _).2 ⟨b, hb, rfl⟩) h0
    · intro hn c hc h0
      obtain ⟨b, hb, rfl⟩ := (mem_components m rt .block c).1 hc
      exact hn ⟨b, hb, h0⟩
  rw [key, key, s.empty]

theorem BRepSetting.sides {rt rt1 : ModelRuntime} {near : P → P → Prop} (s : BRepSetting lib rt rt1 near ι m m1) :
    Sides (HasId m1) ι (m1.topology rt1) (m.topology rt) where
  cmvs := s.part.componentMeshVertices
  known := s.topology1.vertices
  knownComponents kind c hc := hasId_component hc
  components kind c hid := ⟨fun hc => component_back s.part.toIsPart s.meshes rt rt1 hc hid,
    fun hc => component_of s.part.toIsPart rt rt1 hc⟩
  component kind id hid := by
    unfold TopologyModel.component
    cases e : ((m1.topology rt1).components kind).find? fun c => c.id == id with
    | some c =>
      have h1 := List.find?_some e
      have h2 : c.id = id := by simpa using h1
      have hc := component_of s.part.toIsPart rt rt1 (List.mem_of_find?_eq_some e)
      have := find_id _ TopologyComponent.id (component_inj s.meshes rt kind) hc
      rw [h2] at this
      rw [this]
    | none =>
      cases e' : ((m.topology rt).components kind).find? fun c => c.id == id with
      | none => rfl
      | some c =>
        have h1 := List.find?_some e'
        have h2 : c.id = id := by simpa using h1
        have hc := component_back s.part.toIsPart s.meshes rt rt1 (List.mem_of_find?_eq_some e') (by rw [h2]; exact hid)
        exact absurd (List.find?_eq_none.1 e c hc) (by simp [h2])
  knownEmbeddings id e he := hasId_of_has (s.topology1.embeddings id e he)
  knownIncidences id e he := hasId_of_has (s.topology1.incidences id e he)
  knownBoundaries id e he := hasId_of_has (s.topology1.boundaries id e he)
  embeddings := s.part.embeddings
  incidences := s.part.incidences
  boundaries := s.part.boundaries
  isBoundary := s.part.isBoundary
  isInternal := s.part.isInternal
  isVertexOnBorder := by
    rintro id ⟨c, hc, rfl⟩
    obtain ⟨x, hx, rfl⟩ := (mem_components m1 rt1 .surface c).1 hc
    exact s.part.isVertexOnBorder x hx
  surfaceEdges := by
    rintro id ⟨c, hc, rfl⟩
    obtain ⟨x, hx, rfl⟩ := (mem_components m1 rt1 .line c).1 hc
    exact s.part.surfaceEdges x hx
  knownSurfaceEdges line e x n hx := hasId_of_has (s.around1.surfaces line e x n hx)
  blockEdges := by
    rintro id ⟨c, hc, rfl⟩
    obtain ⟨x, hx, rfl⟩ := (mem_components m1 rt1 .line c).1 hc
    exact s.part.blockEdges x hx
  knownBlockEdges line e x n hx := hasId_of_has (s.around1.blocks line e x n hx)
  blockPolygons := by
    rintro id ⟨c, hc, rfl⟩
    obtain ⟨x, hx, rfl⟩ := (mem_components m1 rt1 .surface c).1 hc
    exact s.part.blockPolygons x hx
  knownBlockPolygons surface f x n hx := hasId_of_has (s.around1.polygons surface f x n hx)
  polygonVertices := by
    rintro id ⟨c, hc, rfl⟩
    obtain ⟨x, hx, rfl⟩ := (mem_components m1 rt1 .surface c).1 hc
    obtain ⟨_, _, i3, _⟩ := ids s.meshes
    obtain ⟨_, _, j3, _⟩ := ids s.meshes1
    funext p
    show ((m.surfaces.find? fun y => y.id == x.id).map fun y => y.polygonVertices p).getD [] =
      ((m1.surfaces.find? fun y => y.id == x.id).map fun y => y.polygonVertices p).getD []
    rw [find_id _ (fun y : FaceData P => y.id) i3 (s.part.surfaces x hx), find_id _ (fun y : FaceData P => y.id) j3 hx]
  uniqueVertex := s.part.uniqueVertex
  injective := s.part.injective
  allMeshed := s.allMeshed
  coherent := s.coherent1
  coherent' := s.coherent

theorem BRepSetting.outside {rt rt1 : ModelRuntime} {near : P → P → Prop} (s : BRepSetting lib rt rt1 near ι m m1) :
    ∀ x, Has (m1.topology rt1) .surface x → ∀ b ∈ (m.topology rt).components .block, ¬ HasId m1 b.id →
      m.blocksOracle.isInsideBlock x b.id = .ok false := by
  rintro x ⟨c, hc, rfl⟩ b hb hid
  obtain ⟨y, hy, rfl⟩ := (mem_components m1 rt1 .surface c).1 hc
  obtain ⟨z, hz, rfl⟩ := (mem_components m rt .block b).1 hb
  exact s.inside y hy z hz hid

/-- A defect of the Blocks of a part is one of the whole. -/
theorem BRepSetting.blocks_of {rt rt1 : ModelRuntime} {near : P → P → Prop} (s : BRepSetting lib rt rt1 near ι m m1)
    (hd : BlocksDefect (m1.topology rt1) m1.blocksOracle) : BlocksDefect (m.topology rt) m.blocksOracle := by
  have h := s.sides
  rw [s.oracle] at hd
  rcases hd with ⟨c, hc, h1, h2, c', hc', h3⟩ | ⟨c, hc, h1, h2, v, h3⟩ | ⟨c, hc, h1, h2⟩ | ⟨c, hc, h1, h2⟩ |
    ⟨⟨c, hc, h1⟩, ⟨h2, _⟩ | ⟨v, hv, h2⟩⟩
  · exact .inl ⟨c, h.mem hc, h1, h2, c', h.mem hc', h3⟩
  · exact .inr (.inl ⟨c, h.mem hc, h1, h2, v, (h.notAssociated .block hc v).2 h3⟩)
  · exact .inr (.inr (.inl ⟨c, h.mem hc, h1, fun h3 => h2 ((h.encloses _ s.mesh c.id (h.knownComponents _ c hc)).1 h3)⟩))
  · exact .inr (.inr (.inr (.inl ⟨c, h.mem hc, h1, (h.openBoundary c.id (h.knownComponents _ c hc)).2 h2⟩)))
  · exact absurd s.noBoundary h2
  · exact .inr (.inr (.inr (.inr ⟨⟨c, h.mem hc, h1⟩, .inr ⟨ι v, s.part.numbers v hv, (h.blocksVertex hv s.outside).2 h2⟩⟩)))

/-- A defect of the topology of a part is one of the whole. -/
theorem BRepSetting.topology_of {rt rt1 : ModelRuntime} {near : P → P → Prop} (s : BRepSetting lib rt rt1 near ι m m1)
    (hd : BRepTopologyDefect (m1.topology rt1) m1.blocksOracle) : BRepTopologyDefect (m.topology rt) m.blocksOracle := by
  have h := s.sides
  rcases hd with hd | ⟨kind, hk, c, hc, ha, hd⟩ | ⟨kind, hk, c, hc, ha, v, hd⟩ | ⟨v, hv, hd⟩ | ⟨c, hc, ha, h1, e, he, hd⟩ |
    ⟨c, hc, ha, h1, h2, f, hf, hd⟩ | hd
  · refine .inl fun hb => hd fun u hu => ?_
    exact (h.linkedAt brepKinds hu).1 (hb (ι u) (s.part.numbers u hu))
  · exact .inr (.inl ⟨kind, hk, c, h.mem hc, ha, hd⟩)
  · exact .inr (.inr (.inl ⟨kind, hk, c, h.mem hc, ha, v, (h.notAssociated kind hc v).2 hd⟩))
  · exact .inr (.inr (.inr (.inl ⟨ι v, s.part.numbers v hv, (h.brepVertex hv).2 hd⟩)))
  · exact .inr (.inr (.inr (.inr (.inl ⟨c, h.mem hc, ha, fun v hv => h1 v ((h.notAssociated .line hc v).1 hv), e, he,
      (h.edgeWrong c.id e ⟨c, hc, rfl⟩).2 hd⟩))))
  · exact .inr (.inr (.inr (.inr (.inr (.inl ⟨c, h.mem hc, ha, fun v hv => h1 v ((h.notAssociated .surface hc v).1 hv),
      s.allMeshed.2 h2, f, hf, (h.facetWrong c.id f ⟨c, hc, rfl⟩).2 hd⟩)))))
  · exact .inr (.inr (.inr (.inr (.inr (.inr (s.blocks_of hd))))))

theorem blockMeshed_iff (b : VolumeData P) :
    BlockMeshed ⟨b.id, b.active, b.points.length, b.nbPolyhedra⟩ ↔ b.points ≠ [] ∧ b.nbPolyhedra ≠ 0 := by
  unfold BlockMeshed
  simp

/-- A defect of the Blocks of the whole is one of a part. -/
theorem blocks_parts {rt rt1 rt2 : ModelRuntime} {near : P → P → Prop} (hp : MadeOf m m1 m2 ι1 ι2)
    (hb : BlocksAlike m1 m2) (s1 : BRepSetting lib rt rt1 near ι1 m m1) (s2 : BRepSetting lib rt rt2 near ι2 m m2)
    (hd : BlocksDefect (m.topology rt) m.blocksOracle) :
    BlocksDefect (m1.topology rt1) m1.blocksOracle ∨ BlocksDefect (m2.topology rt2) m2.blocksOracle := by
  have h1 := s1.sides
  have h2 := s2.sides
  rw [s1.oracle, s2.oracle]
  have hcp : ∀ {c}, c ∈ (m.topology rt).components .block →
      c ∈ (m1.topology rt1).components .block ∨ c ∈ (m2.topology rt2).components .block :=
    fun hc => component_parts hp rt rt1 rt2 hc
  have hact : (∃ c ∈ (m1.topology rt1).components .block, c.active = true) ↔
      ∃ c ∈ (m2.topology rt2).components .block, c.active = true := by
    have key : ∀ (m : ModelData P) (rt : ModelRuntime), (∃ c ∈ (m.topology rt).components .block, c.active = true) ↔
        ∃ b ∈ m.blocks, b.active = true := by
      intro m rt
      constructor
      · rintro ⟨c, hc, ha⟩
        obtain ⟨b, hb, rfl⟩ := (mem_components m rt .block c).1 hc
        exact ⟨b, hb, ha⟩
      · rintro ⟨b, hb, ha⟩
        exact ⟨_, (mem_components m rt .block _).2 ⟨b, hb, rfl⟩, ha⟩
    rw [key, key, hb.active]
  have hmesh : (∃ c ∈ (m1.topology rt1).components .block, c.active = true ∧ BlockMeshed c) ↔
      ∃ c ∈ (m2.topology rt2).components .block, c.active = true ∧ BlockMeshed c := by
    have key : ∀ (m : ModelData P) (rt : ModelRuntime),
        (∃ c ∈ (m.topology rt).components .block, c.active = true ∧ BlockMeshed c) ↔
        ∃ b ∈ m.blocks, b.active = true ∧ b.points ≠ [] ∧ b.nbPolyhedra ≠ 0 := by
      intro m rt
      constructor
      · rintro ⟨c, hc, ha, hm⟩
        obtain ⟨b, hb, rfl⟩ := (mem_components m rt .block c).1 hc
        exact ⟨b, hb, ha, (blockMeshed_iff b).1 hm⟩
      · rintro ⟨b, hb, ha, hm⟩
        exact ⟨_, (mem_components m rt .block _).2 ⟨b, hb, rfl⟩, ha, (blockMeshed_iff b).2 hm⟩
    rw [key, key, hb.meshed]
  rcases hd with ⟨c, hc, g1, g2, c', hc', g3⟩ | ⟨c, hc, g1, g2, v, g3⟩ | ⟨c, hc, g1, g2⟩ | ⟨c, hc, g1, g2⟩ |
    ⟨⟨c, hc, g1⟩, ⟨g2, _⟩ | ⟨v, hv, g2⟩⟩
  · rcases hcp hc with hc | hc <;> rcases hcp hc' with hc' | hc'
    · exact .inl (.inl ⟨c, hc, g1, g2, c', hc', g3⟩)
    · exact .inl (.inl ⟨c, hc, g1, g2, hmesh.2 ⟨c', hc', g3⟩⟩)
    · exact .inr (.inl ⟨c, hc, g1, g2, hmesh.1 ⟨c', hc', g3⟩⟩)
    · exact .inr (.inl ⟨c, hc, g1, g2, c', hc', g3⟩)
  · rcases hcp hc with hc | hc
    · exact .inl (.inr (.inl ⟨c, hc, g1, g2, v, (h1.notAssociated .block hc v).1 g3⟩))
    · exact .inr (.inr (.inl ⟨c, hc, g1, g2, v, (h2.notAssociated .block hc v).1 g3⟩))
  · rcases hcp hc with hc | hc
    · exact .inl (.inr (.inr (.inl ⟨c, hc, g1, fun g3 => g2 ((h1.encloses _ s1.mesh c.id (h1.knownComponents _ c hc)).2 g3)⟩)))
    · exact .inr (.inr (.inr (.inl ⟨c, hc, g1, fun g3 => g2 ((h2.encloses _ s1.mesh c.id (h2.knownComponents _ c hc)).2 g3)⟩)))
  · rcases hcp hc with hc | hc
    · exact .inl (.inr (.inr (.inr (.inl ⟨c, hc, g1, (h1.openBoundary c.id (h1.knownComponents _ c hc)).1 g2⟩))))
    · exact .inr (.inr (.inr (.inr (.inl ⟨c, hc, g1, (h2.openBoundary c.id (h2.knownComponents _ c hc)).1 g2⟩))))
  · exact absurd s1.noBoundary g2
  · have hboth : (∃ c ∈ (m1.topology rt1).components .block, c.active = true) ∧
        ∃ c ∈ (m2.topology rt2).components .block, c.active = true := by
      rcases hcp hc with hc | hc
      · exact ⟨⟨c, hc, g1⟩, hact.1 ⟨c, hc, g1⟩⟩
      · exact ⟨hact.2 ⟨c, hc, g1⟩, ⟨c, hc, g1⟩⟩
    rcases hp.vertices v hv with ⟨u, hu, rfl⟩ | ⟨u, hu, rfl⟩
    · exact .inl (.inr (.inr (.inr (.inr ⟨hboth.1, .inr ⟨u, hu, (h1.blocksVertex hu s1.outside).1 g2⟩⟩))))
    · exact .inr (.inr (.inr (.inr (.inr ⟨hboth.2, .inr ⟨u, hu, (h2.blocksVertex hu s2.outside).1 g2⟩⟩))))

/-- A defect of the topology of the whole is one of a part. -/
theorem topology_parts {rt rt1 rt2 : ModelRuntime} {near : P → P → Prop} (hp : MadeOf m m1 m2 ι1 ι2)
    (hb : BlocksAlike m1 m2) (s1 : BRepSetting lib rt rt1 near ι1 m m1) (s2 : BRepSetting lib rt rt2 near ι2 m m2)
    (hd : BRepTopologyDefect (m.topology rt) m.blocksOracle) :
    BRepTopologyDefect (m1.topology rt1) m1.blocksOracle ∨ BRepTopologyDefect (m2.topology rt2) m2.blocksOracle := by
  have h1 := s1.sides
  have h2 := s2.sides
  rcases hd with hd | ⟨kind, hk, c, hc, ha, hd⟩ | ⟨kind, hk, c, hc, ha, v, hd⟩ | ⟨v, hv, hd⟩ | ⟨c, hc, ha, g1, e, he, hd⟩ |
    ⟨c, hc, ha, g1, g2, f, hf, hd⟩ | hd
  · by_cases hl1 : BijectivelyLinked (m1.topology rt1) brepKinds
    swap
    · exact .inl (.inl hl1)
    refine .inr (.inl fun hl2 => hd fun u hu => ?_)
    rcases hp.vertices u hu with ⟨v, hv, rfl⟩ | ⟨v, hv, rfl⟩
    · exact (h1.linkedAt brepKinds hv).2 (hl1 v hv)
    · exact (h2.linkedAt brepKinds hv).2 (hl2 v hv)
  · rcases component_parts hp rt rt1 rt2 hc with hc | hc
    · exact .inl (.inr (.inl ⟨kind, hk, c, hc, ha, hd⟩))
    · exact .inr (.inr (.inl ⟨kind, hk, c, hc, ha, hd⟩))
  · rcases component_parts hp rt rt1 rt2 hc with hc | hc
    · exact .inl (.inr (.inr (.inl ⟨kind, hk, c, hc, ha, v, (h1.notAssociated kind hc v).1 hd⟩)))
    · exact .inr (.inr (.inr (.inl ⟨kind, hk, c, hc, ha, v, (h2.notAssociated kind hc v).1 hd⟩)))
  · rcases hp.vertices v hv with ⟨u, hu, rfl⟩ | ⟨u, hu, rfl⟩
    · exact .inl (.inr (.inr (.inr (.inl ⟨u, hu, (h1.brepVertex hu).1 hd⟩))))
    · exact .inr (.inr (.inr (.inr (.inl ⟨u, hu, (h2.brepVertex hu).1 hd⟩))))
  · rcases component_parts hp rt rt1 rt2 hc with hc | hc
    · exact .inl (.inr (.inr (.inr (.inr (.inl ⟨c, hc, ha, fun v hv => g1 v ((h1.notAssociated .line hc v).2 hv), e, he,
        (h1.edgeWrong c.id e ⟨c, hc, rfl⟩).1 hd⟩)))))
    · exact .inr (.inr (.inr (.inr (.inr (.inl ⟨c, hc, ha, fun v hv => g1 v ((h2.notAssociated .line hc v).2 hv), e, he,
        (h2.edgeWrong c.id e ⟨c, hc, rfl⟩).1 hd⟩)))))
  · rcases component_parts hp rt rt1 rt2 hc with hc | hc
    · exact .inl (.inr (.inr (.inr (.inr (.inr (.inl ⟨c, hc, ha, fun v hv => g1 v ((h1.notAssociated .surface hc v).2 hv),
        s1.allMeshed.1 g2, f, hf, (h1.facetWrong c.id f ⟨c, hc, rfl⟩).1 hd⟩))))))
    · exact .inr (.inr (.inr (.inr (.inr (.inr (.inl ⟨c, hc, ha, fun v hv => g1 v ((h2.notAssociated .surface hc v).2 hv),
        s2.allMeshed.1 g2, f, hf, (h2.facetWrong c.id f ⟨c, hc, rfl⟩).1 hd⟩))))))
  · exact (blocks_parts hp hb s1 s2 hd).imp (fun x => .inr (.inr (.inr (.inr (.inr (.inr x))))))
      fun x => .inr (.inr (.inr (.inr (.inr (.inr x)))))

end

/-! ### meshes of a BRep -/

section
variable {P : Type} {lib : ModelLibrary P} {m m1 m2 : ModelData P} {ι ι1 ι2 : Index → Index} {rt rt1 rt2 : ModelRuntime}
  {near : P → P → Prop} (s : BRepSetting lib rt rt1 near ι m m1)
include s

theorem BRepSetting.borderNotOnSurface {b : VolumeData P} (hb : b ∈ m1.blocks) (x : PolyhedronFacet) :
    BorderNotOnSurface m b x ↔ BorderNotOnSurface m1 b x := by
  have hid : HasId m1 b.id := .inr (.inr (.inr ⟨b, hb, rfl⟩))
  have huv : ∀ v, m.uniqueVertex ⟨⟨.block, b.id⟩, v⟩ = (m1.uniqueVertex ⟨⟨.block, b.id⟩, v⟩).map ι :=
    fun v => s.part.uniqueVertex ⟨⟨.block, b.id⟩, v⟩ hid
  unfold BorderNotOnSurface
  refine and_congr_right fun _ => and_congr_right fun _ => ?_
  have hr : ∀ vs uvs : List Index, List.Forall₂ (fun v uv => m1.uniqueVertex ⟨⟨.block, b.id⟩, v⟩ = some uv) vs uvs →
      ∀ u ∈ uvs, u < m1.nbUniqueVertices := by
    intro vs uvs h
    induction h with
    | nil => exact fun u hu => absurd hu List.not_mem_nil
    | cons h1 _ ih =>
      intro u hu
      rcases List.mem_cons.1 hu with rfl | hu
      · exact s.numbers.range _ _ h1
      · exact ih u hu
  have hf : ∀ vs uvs : List Index, List.Forall₂ (fun v uv => m.uniqueVertex ⟨⟨.block, b.id⟩, v⟩ = some uv) vs uvs →
      ∃ us : List Index, uvs = us.map ι ∧ List.Forall₂ (fun v uv => m1.uniqueVertex ⟨⟨.block, b.id⟩, v⟩ = some uv) vs us := by
    intro vs uvs h
    induction h with
    | nil => exact ⟨[], rfl, .nil⟩
    | cons h1 _ ih =>
      obtain ⟨us, rfl, h2⟩ := ih
      rw [huv, Option.map_eq_some_iff] at h1
      obtain ⟨u, h3, rfl⟩ := h1
      exact ⟨u :: us, rfl, .cons h3 h2⟩
  constructor
  · rintro ⟨uvs, h1, h2⟩
    obtain ⟨us, rfl, h3⟩ := hf _ _ h1
    exact ⟨us, h3, (s.part.surfaceComponentMeshPolygons us (hr _ _ h3)).1 h2⟩
  · rintro ⟨us, h1, h2⟩
    refine ⟨us.map ι, ?_, (s.part.surfaceComponentMeshPolygons us (hr _ _ h1)).2 h2⟩
    rw [List.forall₂_map_right_iff]
    exact h1.imp fun v uv h3 => by rw [huv, h3]; rfl

theorem BRepSetting.blockDefect {b : VolumeData P} (hb : b ∈ m1.blocks) :
    PlainBlockDefect lib m b ↔ PlainBlockDefect lib m1 b := by
  unfold PlainBlockDefect
  rw [splitVertices s.part.toIsPart s.noId s.numbers .block (.inr (.inr (.inr ⟨b, hb, rfl⟩)))]
  simp only [s.borderNotOnSurface hb]

theorem BRepSetting.polygonVertex_lt {x : FaceData P} (hx : x ∈ m1.surfaces) {p k : Index} (hp : p < x.nbPolygons)
    (hk : k < x.nbPolygonVertices p) : x.polygonVertex (p, k) < x.points.length := by
  have hg := (Plain.given_topology s.meshes1 rt1).polygonVertices x hx p
  have hc := (mem_components m1 rt1 .surface ⟨x.id, x.active, x.points.length, x.nbPolygons⟩).2 ⟨x, hx, rfl⟩
  exact s.around1.facetVertices _ hc p hp _ (List.mem_of_getElem? (hg.2 k hk))

/-- A vertex of an active Surface without unique vertex is a defect of the topology. -/
theorem BRepSetting.unlinked {x : FaceData P} (hx : x ∈ m1.surfaces) (ha : x.active = true) {v : Index}
    (hv : v < x.points.length) (hu : m1.uniqueVertex ⟨⟨.surface, x.id⟩, v⟩ = none) :
    BRepTopologyDefect (m1.topology rt1) m1.blocksOracle :=
  .inr (.inr (.inl ⟨.surface, by simp [sectionKinds], _, (mem_components m1 rt1 .surface _).2 ⟨x, hx, rfl⟩, ha, v, hv, hu⟩))

/-- The ends of a polygon edge are vertices. -/
theorem BRepSetting.ends {x : FaceData P} (hx : x ∈ m1.surfaces) {e : PolygonEdge} (he : IsPolygonEdge x.toSurfaceMesh e)
    {a b : Index} (hab : EdgeFromTo x.toSurfaceMesh e.1 e.2 a b) : a < x.points.length ∧ b < x.points.length := by
  obtain ⟨h1, h2⟩ := he
  obtain ⟨rfl, rfl⟩ := hab
  exact ⟨s.polygonVertex_lt hx h1 h2, s.polygonVertex_lt hx h1 (Nat.mod_lt _ (by omega))⟩

/-- Two vertices of Surfaces of the part have the same number in the model when they have in the part. -/
theorem BRepSetting.number_iff {x y : FaceData P} (hx : x ∈ m1.surfaces) (hy : y ∈ m1.surfaces) {a b u v u' v' : Index}
    (h1 : NumberOf m .surface x.id a u) (h2 : NumberOf m .surface y.id b v) (h3 : NumberOf m1 .surface x.id a u')
    (h4 : NumberOf m1 .surface y.id b v') : u = v ↔ u' = v' := by
  rw [numberOf_iff] at h1 h2 h3 h4
  subst h1 h2 h3 h4
  rw [getD_inj s.noId, getD_inj s.numbers.noId, uniqueVertex_inj s.part.toIsPart (c := ⟨⟨.surface, x.id⟩, a⟩)
    (c' := ⟨⟨.surface, y.id⟩, b⟩) (.inr (.inr (.inl ⟨x, hx, rfl⟩))) (.inr (.inr (.inl ⟨y, hy, rfl⟩)))]

omit s in
theorem exists_number (m : ModelData P) (kind : ComponentType) (id : Uuid) (v : Index) : ∃ n, NumberOf m kind id v n :=
  ⟨_, (numberOf_iff m kind id v _).2 rfl⟩

theorem BRepSetting.twice_of (hd : TwiceInterior m1) : TwiceInterior m := by
  obtain ⟨x, e, u, v, x', e', u', v', ⟨hx, ha, he, ho, a, b, hab, hu, hv⟩, ⟨hx', ha', he', ho', a', b', hab', hu', hv'⟩, hne, heq⟩ := hd
  obtain ⟨U, hU⟩ := exists_number m .surface x.id a
  obtain ⟨V, hV⟩ := exists_number m .surface x.id b
  obtain ⟨U', hU'⟩ := exists_number m .surface x'.id a'
  obtain ⟨V', hV'⟩ := exists_number m .surface x'.id b'
  refine ⟨x, e, U, V, x', e', U', V', ⟨s.part.surfaces x hx, ha, he, ho, a, b, hab, hU, hV⟩,
    ⟨s.part.surfaces x' hx', ha', he', ho', a', b', hab', hU', hV'⟩, hne, ?_⟩
  rw [s.number_iff hx hx' hU hU' hu hu', s.number_iff hx hx' hV hV' hv hv', s.number_iff hx hx' hU hV' hu hv',
    s.number_iff hx hx' hV hU' hv hu']
  exact heq

/-- Two edges of Surfaces of the part which are the same edge of the model. -/
theorem BRepSetting.twice_part {x x' : FaceData P} {e e' : PolygonEdge} {u v u' v' : Index} (hx : x ∈ m1.surfaces)
    (hx' : x' ∈ m1.surfaces) (h1 : InteriorEdge m x e u v) (h2 : InteriorEdge m x' e' u' v') (hne : x.id ≠ x'.id ∨ e ≠ e')
    (heq : (u = u' ∧ v = v') ∨ (u = v' ∧ v = u')) : TwiceInterior m1 := by
  obtain ⟨_, ha, he, ho, a, b, hab, hu, hv⟩ := h1
  obtain ⟨_, ha', he', ho', a', b', hab', hu', hv'⟩ := h2
  obtain ⟨U, hU⟩ := exists_number m1 .surface x.id a
  obtain ⟨V, hV⟩ := exists_number m1 .surface x.id b
  obtain ⟨U', hU'⟩ := exists_number m1 .surface x'.id a'
  obtain ⟨V', hV'⟩ := exists_number m1 .surface x'.id b'
  refine ⟨x, e, U, V, x', e', U', V', ⟨hx, ha, he, ho, a, b, hab, hU, hV⟩, ⟨hx', ha', he', ho', a', b', hab', hU', hV'⟩, hne, ?_⟩
  rw [← s.number_iff hx hx' hu hu' hU hU', ← s.number_iff hx hx' hv hv' hV hV', ← s.number_iff hx hx' hu hv' hU hV',
    ← s.number_iff hx hx' hv hu' hV hU']
  exact heq

/-- A vertex of a component of the part with a unique vertex is alone in the model when it is in the part. -/
theorem BRepSetting.alone (kind : ComponentType) {id : Uuid} (hid : HasId m1 id) {v : Index}
    (hu : m1.uniqueVertex ⟨⟨kind, id⟩, v⟩ ≠ none) : AloneAtUniqueVertex m kind id v ↔ AloneAtUniqueVertex m1 kind id v := by
  unfold AloneAtUniqueVertex
  simp only [numberOf_iff, exists_eq_left]
  cases e : m1.uniqueVertex ⟨⟨kind, id⟩, v⟩ with
  | none => exact absurd e hu
  | some u =>
    rw [s.part.uniqueVertex ⟨⟨kind, id⟩, v⟩ hid, e]
    simp only [Option.map_some, Option.getD_some]
    rw [s.part.componentMeshVertices u (s.numbers.range _ _ e)]

theorem BRepSetting.floatingEdge {l : LineData P} (hl : l ∈ m1.lines)
    (hfirst : ∀ x ∈ [(l.edgeVertices 0).1, (l.edgeVertices 0).2], l.active = true → l.nbEdges ≠ 0 →
      m1.uniqueVertex ⟨⟨.line, l.id⟩, x⟩ ≠ none) : FloatingEdge m l ↔ FloatingEdge m1 l := by
  have hid : HasId m1 l.id := .inr (.inl ⟨l, hl, rfl⟩)
  unfold FloatingEdge
  rw [s.part.embeddings l.id hid]
  refine and_congr_right fun ha => and_congr_right fun h1 => and_congr_right fun _ => ?_
  rw [s.alone .line hid (hfirst _ (by simp) ha (by omega)), s.alone .line hid (hfirst _ (by simp) ha (by omega))]

/-- A Surface of the part touches nothing in the model when it does in the part, unless its vertices have no unique vertex. -/
theorem BRepSetting.floatingFacet {x : FaceData P} (hx : x ∈ m1.surfaces) :
    (x.active = true ∧ BRepTopologyDefect (m1.topology rt1) m1.blocksOracle) ∨ (FloatingFacet m x ↔ FloatingFacet m1 x) := by
  have hid : HasId m1 x.id := .inr (.inr (.inl ⟨x, hx, rfl⟩))
  by_cases ha : x.active = true
  swap
  · exact .inr (iff_of_false (fun h => ha h.1) fun h => ha h.1)
  by_cases h1 : x.nbPolygons = 1
  swap
  · exact .inr (iff_of_false (fun h => h1 h.2.1) fun h => h1 h.2.1)
  by_cases hu : ∀ i < x.nbPolygonVertices 0, m1.uniqueVertex ⟨⟨.surface, x.id⟩, x.polygonVertex (0, i)⟩ ≠ none
  · refine .inr ?_
    unfold FloatingFacet
    rw [s.part.embeddings x.id hid]
    refine and_congr_right fun _ => and_congr_right fun _ => and_congr_right fun _ => forall_congr' fun i => forall_congr' fun hi => ?_
    exact s.alone .surface hid (hu i hi)
  · push Not at hu
    obtain ⟨i, hi, h2⟩ := hu
    exact .inl ⟨ha, s.unlinked hx ha (s.polygonVertex_lt hx (by rw [h1]; exact Nat.one_pos) hi) h2⟩

omit s in
theorem brepMeet (h : IsPart ι m1 m) (hn : NoIdIsFree m) (hn1 : NumbersKnown m1) {s1 s2 : FaceData P} (h1 : s1 ∈ m1.surfaces)
    (h2 : s2 ∈ m1.surfaces) (r1 r2 : ModelSurface P) (t1 t2 : List Index) :
    BRepTrianglesMeet lib.geometry (withUv m s1 r1) (withUv m s2 r2) t1 t2 ↔
      BRepTrianglesMeet lib.geometry (withUv m1 s1 r1) (withUv m1 s2 r2) t1 t2 := by
  unfold BRepTrianglesMeet
  simp only [common h hn hn1 h1 h2]
  rfl

theorem BRepSetting.meet_part {s1 s2 : FaceData P} (h1 : s1 ∈ m1.surfaces) (h2 : s2 ∈ m1.surfaces) {r1 r2 : ModelSurface P}
    (g1 : GivenSurface lib m s1 r1) (g2 : GivenSurface lib m s2 r2) {t1 t2 : List Index}
    (hmeet : BRepTrianglesMeet lib.geometry r1 r2 t1 t2) :
    BRepTrianglesMeet lib.geometry (withUv m1 s1 r1) (withUv m1 s2 r2) t1 t2 := by
  rw [given_eq g1, given_eq g2] at hmeet
  exact (brepMeet s.part.toIsPart s.noId s.numbers h1 h2 r1 r2 t1 t2).1 hmeet

theorem BRepSetting.meet_whole {s1 s2 : FaceData P} (h1 : s1 ∈ m1.surfaces) (h2 : s2 ∈ m1.surfaces) {r1 r2 : ModelSurface P}
    (g1 : GivenSurface lib m1 s1 r1) (g2 : GivenSurface lib m1 s2 r2) {t1 t2 : List Index}
    (hmeet : BRepTrianglesMeet lib.geometry r1 r2 t1 t2) :
    BRepTrianglesMeet lib.geometry (withUv m s1 r1) (withUv m s2 r2) t1 t2 := by
  rw [given_eq g1, given_eq g2] at hmeet
  exact (brepMeet s.part.toIsPart s.noId s.numbers h1 h2 r1 r2 t1 t2).2 hmeet

theorem BRepSetting.polygonsMeet_of (hd : PlainPolygonsMeet lib m1 (BRepTrianglesMeet lib.geometry)) :
    PlainPolygonsMeet lib m (BRepTrianglesMeet lib.geometry) := by
  obtain ⟨s1, s2, r1, r2, p, q, h1, a1, h2, a2, g1, g2, hp, hq, hne, t1, ht1, t2, ht2, hmeet⟩ := hd
  exact ⟨s1, s2, withUv m s1 r1, withUv m s2 r2, p, q, s.part.surfaces s1 h1, a1, s.part.surfaces s2 h2, a2, given_withUv g1 m,
    given_withUv g2 m, hp, hq, hne, t1, ht1, t2, ht2, s.meet_whole h1 h2 g1 g2 hmeet⟩

theorem BRepSetting.lineMeets_of (hd : PlainLineMeetsSurface lib m1) : PlainLineMeetsSurface lib m := by
  obtain ⟨x, l, r, p, e, a, b, hx, ax, hl, al, hemb, g, hp, he, ha, hb, t, ht, hmeet⟩ := hd
  exact ⟨x, l, withUv m x r, p, e, a, b, s.part.surfaces x hx, ax, s.part.lines l hl, al,
    by rw [s.part.embeddings l.id (.inr (.inl ⟨l, hl, rfl⟩))]; exact hemb, given_withUv g m, hp, he, ha, hb, t, ht, hmeet⟩

omit s in
/-- The defects of the topology do not depend on texts. -/
theorem topology_texts (o : BlocksOracle) : ∀ t i u c n p v, BRepTopologyDefect { t with
      iterate := i, uuidString := u, componentString := c, nameOf := n, pointString := p, cmvString := v } o →
    BRepTopologyDefect t o := by
  rintro t i u c n p v (hd | hd | hd | hd | hd | hd | hd)
  exacts [.inl hd, .inr (.inl hd), .inr (.inr (.inl hd)), .inr (.inr (.inr (.inl hd))),
    .inr (.inr (.inr (.inr (.inl hd)))), .inr (.inr (.inr (.inr (.inr (.inl hd))))),
    .inr (.inr (.inr (.inr (.inr (.inr (Plain.blocks_congr t i u c n p v _ hd))))))]

/-- A defect of a part is a defect of the whole. -/
theorem BRepSetting.whole_of_part (hfirst : ∀ l ∈ m1.lines, l.active = true → l.nbEdges ≠ 0 →
      ∀ x ∈ [(l.edgeVertices 0).1, (l.edgeVertices 0).2], m1.uniqueVertex ⟨⟨.line, l.id⟩, x⟩ ≠ none)
    (hd : PlainBRepDefect lib m1) : PlainBRepDefect lib m := by
  have h := s.part.toIsPart
  have hm := s.meshes
  have ht := Plain.topology_iff s.meshes rt (fun t => BRepTopologyDefect t m.blocksOracle) (topology_texts _)
  have ht1 := Plain.topology_iff s.meshes1 rt1 (fun t => BRepTopologyDefect t m1.blocksOracle) (topology_texts _)
  have top : BRepTopologyDefect (m1.topology rt1) m1.blocksOracle → PlainBRepDefect lib m := fun x =>
    .inr (.inr (ht.1 (s.topology_of x)))
  rcases hd with (⟨u, hu, hd⟩ | hd | ⟨l, hl, ha, hd⟩ | ⟨x, hx, ha, hd⟩ | ⟨x, hx, ha, hd⟩ | hd | ⟨l, hl, hd⟩ | ⟨x, hx, hd⟩ | hd) |
    hd | hd
  · exact .inl (.inl ⟨ι u, h.numbers u hu, (differentPoints h hm rt1 s.topology1 u hu).2 hd⟩)
  · refine .inl (.inr (.inl ?_))
    rw [Numbers.colocated_near s.meshes1 s.types1 s.search1] at hd
    rw [Numbers.colocated_near s.meshes s.types s.search]
    obtain ⟨u, v, p, q, fu, fv, hu, hv, huv, hfu, hpu, hfv, hpv, hnear⟩ := hd
    have hk : ∀ u f, u < m1.nbUniqueVertices → FirstActive m1 u f → HasId m1 f.component_id.id := by
      rintro u f hu ⟨pre, post, e, _⟩
      exact hasId_of_has (s.topology1.vertices u hu f (by
        show f ∈ m1.componentMeshVertices u
        rw [e]; simp))
    exact ⟨ι u, ι v, p, q, fu, fv, h.numbers u hu, h.numbers v hv, fun e => huv (h.injective e),
      (firstActive h hm rt1 s.topology1 u hu fu).2 hfu, (isAt h hm (hk u fu hu hfu) p).2 hpu,
      (firstActive h hm rt1 s.topology1 v hv fv).2 hfv, (isAt h hm (hk v fv hv hfv) q).2 hpv, hnear⟩
  · exact .inl (.inr (.inr (.inl ⟨l, h.lines l hl, ha, (lineDefect h s.noId s.numbers hl).2 hd⟩)))
  · exact .inl (.inr (.inr (.inr (.inl ⟨x, h.surfaces x hx, ha, (surfaceDefect h s.noId s.numbers hx).2 hd⟩))))
  · exact .inl (.inr (.inr (.inr (.inr (.inl ⟨x, h.blocks x hx, ha, (s.blockDefect hx).2 hd⟩)))))
  · exact .inl (.inr (.inr (.inr (.inr (.inr (.inl (s.twice_of hd)))))))
  · exact .inl (.inr (.inr (.inr (.inr (.inr (.inr (.inl ⟨l, h.lines l hl, (s.floatingEdge hl fun y hy h1 h2 => hfirst l hl h1 h2 y hy).2 hd⟩)))))))
  · rcases s.floatingFacet hx with ⟨_, h1⟩ | h1
    · exact top h1
    · exact .inl (.inr (.inr (.inr (.inr (.inr (.inr (.inr (.inl ⟨x, h.surfaces x hx, h1.2 hd⟩))))))))
  · exact .inl (.inr (.inr (.inr (.inr (.inr (.inr (.inr (.inr (s.polygonsMeet_of hd)))))))))
  · exact .inr (.inl (s.lineMeets_of hd))
  · exact top (ht1.2 hd)

end

section
variable {P : Type} {lib : ModelLibrary P} {m m1 m2 : ModelData P} {ι1 ι2 : Index → Index} {rt rt1 rt2 : ModelRuntime}
  {near : P → P → Prop}

/-- A vertex of one part and a vertex of the other with the same number: one of the parts is wrong. -/
theorem number_cross (h : MadeOf m m1 m2 ι1 ι2) (s1 : BRepSetting lib rt rt1 near ι1 m m1)
    (s2 : BRepSetting lib rt rt2 near ι2 m m2) {x y : FaceData P} (hx : x ∈ m1.surfaces) (ax : x.active = true)
    (hy : y ∈ m2.surfaces) (ay : y.active = true) {a b n : Index} (ha : a < x.points.length) (hb : b < y.points.length)
    (h1 : NumberOf m .surface x.id a n) (h2 : NumberOf m .surface y.id b n) :
    BRepTopologyDefect (m1.topology rt1) m1.blocksOracle ∨ BRepTopologyDefect (m2.topology rt2) m2.blocksOracle := by
  rw [numberOf_iff] at h1 h2
  have he := (getD_inj s1.noId _ _).1 (h1.symm.trans h2)
  rw [s1.part.uniqueVertex ⟨⟨.surface, x.id⟩, a⟩ (.inr (.inr (.inl ⟨x, hx, rfl⟩))),
    s2.part.uniqueVertex ⟨⟨.surface, y.id⟩, b⟩ (.inr (.inr (.inl ⟨y, hy, rfl⟩)))] at he
  cases e1 : m1.uniqueVertex ⟨⟨.surface, x.id⟩, a⟩ with
  | none => exact .inl (s1.unlinked hx ax ha e1)
  | some w1 =>
    cases e2 : m2.uniqueVertex ⟨⟨.surface, y.id⟩, b⟩ with
    | none => exact .inr (s2.unlinked hy ay hb e2)
    | some w2 =>
      rw [e1, e2] at he
      simp only [Option.map_some, Option.some.injEq] at he
      have r1 := s1.numbers.range _ _ e1
      have r2 := s2.numbers.range _ _ e2
      have hc : m1.componentMeshVertices w1 = m2.componentMeshVertices w2 := by
        rw [← s1.part.componentMeshVertices w1 r1, ← s2.part.componentMeshVertices w2 r2, he]
      by_cases hl1 : BijectivelyLinked (m1.topology rt1) brepKinds
      swap
      · exact .inl (.inl hl1)
      exfalso
      obtain ⟨c, hmem⟩ := List.exists_mem_of_ne_nil _ (hl1 w1 r1).1
      have k1 := hasId_of_has (s1.topology1.vertices w1 r1 c hmem)
      have hmem2 : c ∈ m2.componentMeshVertices w2 := hc ▸ hmem
      exact h.different _ k1 (hasId_of_has (s2.topology1.vertices w2 r2 c hmem2))

/-- Two edges of Surfaces of different parts which are the same edge of the model: one of the parts is wrong. -/
theorem twice_cross (h : MadeOf m m1 m2 ι1 ι2) (s1 : BRepSetting lib rt rt1 near ι1 m m1)
    (s2 : BRepSetting lib rt rt2 near ι2 m m2) {x x' : FaceData P} {e e' : PolygonEdge} {u v u' v' : Index}
    (hx : x ∈ m1.surfaces) (hx' : x' ∈ m2.surfaces) (h1 : InteriorEdge m x e u v) (h2 : InteriorEdge m x' e' u' v')
    (heq : (u = u' ∧ v = v') ∨ (u = v' ∧ v = u')) :
    BRepTopologyDefect (m1.topology rt1) m1.blocksOracle ∨ BRepTopologyDefect (m2.topology rt2) m2.blocksOracle := by
  obtain ⟨_, ha, he, ho, a, b, hab, hu, hv⟩ := h1
  obtain ⟨_, ha', he', ho', a', b', hab', hu', hv'⟩ := h2
  obtain ⟨l1, l2⟩ := s1.ends hx he hab
  obtain ⟨l1', l2'⟩ := s2.ends hx' he' hab'
  rcases heq with ⟨rfl, rfl⟩ | ⟨rfl, rfl⟩
  · exact number_cross h s1 s2 hx ha hx' ha' l1 l1' hu hu'
  · exact number_cross h s1 s2 hx ha hx' ha' l1 l2' hu hv'

/-- A defect of the whole is a defect of a part. -/
theorem brep_part_of_whole (h : MadeOf m m1 m2 ι1 ι2)
    (far : FarApart lib (BRepTrianglesMeet lib.geometry) near m m1 m2) (hb : BlocksAlike m1 m2)
    (ha12 : BlocksApart lib m m1 m2) (ha21 : BlocksApart lib m m2 m1)
    (s1 : BRepSetting lib rt rt1 near ι1 m m1) (s2 : BRepSetting lib rt rt2 near ι2 m m2)
    (hfirst1 : ∀ l ∈ m1.lines, l.active = true → l.nbEdges ≠ 0 →
      ∀ x ∈ [(l.edgeVertices 0).1, (l.edgeVertices 0).2], m1.uniqueVertex ⟨⟨.line, l.id⟩, x⟩ ≠ none)
    (hfirst2 : ∀ l ∈ m2.lines, l.active = true → l.nbEdges ≠ 0 →
      ∀ x ∈ [(l.edgeVertices 0).1, (l.edgeVertices 0).2], m2.uniqueVertex ⟨⟨.line, l.id⟩, x⟩ ≠ none)
    (hd : PlainBRepDefect lib m) : PlainBRepDefect lib m1 ∨ PlainBRepDefect lib m2 := by
  have hm := s1.meshes
  have ht := Plain.topology_iff s1.meshes rt (fun t => BRepTopologyDefect t m.blocksOracle) (topology_texts _)
  have ht1 := Plain.topology_iff s1.meshes1 rt1 (fun t => BRepTopologyDefect t m1.blocksOracle) (topology_texts _)
  have ht2 := Plain.topology_iff s2.meshes1 rt2 (fun t => BRepTopologyDefect t m2.blocksOracle) (topology_texts _)
  have top : BRepTopologyDefect (m1.topology rt1) m1.blocksOracle ∨ BRepTopologyDefect (m2.topology rt2) m2.blocksOracle →
      PlainBRepDefect lib m1 ∨ PlainBRepDefect lib m2 := fun x =>
    x.imp (fun x => .inr (.inr (ht1.1 x))) fun x => .inr (.inr (ht2.1 x))
  rcases hd with (⟨u, hu, hd⟩ | hd | ⟨l, hl, ha, hd⟩ | ⟨x, hx, ha, hd⟩ | ⟨x, hx, ha, hd⟩ | hd | ⟨l, hl, hd⟩ | ⟨x, hx, hd⟩ | hd) |
    hd | hd
  · rcases h.vertices u hu with ⟨v, hv, rfl⟩ | ⟨v, hv, rfl⟩
    · exact .inl (.inl (.inl ⟨v, hv, (differentPoints h.first hm rt1 s1.topology1 v hv).1 hd⟩))
    · exact .inr (.inl (.inl ⟨v, hv, (differentPoints h.second hm rt2 s2.topology1 v hv).1 hd⟩))
  · by_cases hl1 : BijectivelyLinked (m1.topology rt1) brepKinds
    swap
    · exact top (.inl (.inl hl1))
    by_cases hl2 : BijectivelyLinked (m2.topology rt2) brepKinds
    swap
    · exact top (.inr (.inl hl2))
    rw [Numbers.colocated_near s1.meshes s1.types s1.search] at hd
    obtain ⟨u, v, p, q, fu, fv, hu, hv, huv, hfu, hpu, hfv, hpv, hnear⟩ := hd
    have hmem1 : ∀ u f, FirstActive m1 u f → f ∈ m1.componentMeshVertices u := by
      rintro u f ⟨pre, post, e, _⟩
      rw [e]; simp
    have hmem2 : ∀ u f, FirstActive m2 u f → f ∈ m2.componentMeshVertices u := by
      rintro u f ⟨pre, post, e, _⟩
      rw [e]; simp
    have side1 : ∀ u f p, u < m1.nbUniqueVertices → FirstActive m (ι1 u) f → IsAt lib m f p →
        FirstActive m1 u f ∧ IsAt lib m1 f p := by
      intro u f p hu hf hp
      have hf1 := (firstActive h.first hm rt1 s1.topology1 u hu f).1 hf
      exact ⟨hf1, (isAt h.first hm (hasId_of_has (s1.topology1.vertices u hu f (hmem1 u f hf1))) p).1 hp⟩
    have side2 : ∀ u f p, u < m2.nbUniqueVertices → FirstActive m (ι2 u) f → IsAt lib m f p →
        FirstActive m2 u f ∧ IsAt lib m2 f p := by
      intro u f p hu hf hp
      have hf1 := (firstActive h.second hm rt2 s2.topology1 u hu f).1 hf
      exact ⟨hf1, (isAt h.second hm (hasId_of_has (s2.topology1.vertices u hu f (hmem2 u f hf1))) p).1 hp⟩
    rcases h.vertices u hu with ⟨u1, hu1, rfl⟩ | ⟨u1, hu1, rfl⟩ <;> rcases h.vertices v hv with ⟨v1, hv1, rfl⟩ | ⟨v1, hv1, rfl⟩
    · obtain ⟨a1, a2⟩ := side1 u1 fu p hu1 hfu hpu
      obtain ⟨b1, b2⟩ := side1 v1 fv q hv1 hfv hpv
      refine .inl (.inl (.inr (.inl ?_)))
      rw [Numbers.colocated_near s1.meshes1 s1.types1 s1.search1]
      exact ⟨u1, v1, p, q, fu, fv, hu1, hv1, fun e => huv (congrArg ι1 e), a1, a2, b1, b2, hnear⟩
    · obtain ⟨a1, a2⟩ := side1 u1 fu p hu1 hfu hpu
      obtain ⟨b1, b2⟩ := side2 v1 fv q hv1 hfv hpv
      obtain ⟨c1, ps1, e1, i1⟩ := isAt_points s1.topology1 hu1 (hmem1 _ _ a1) hl1 a2
      obtain ⟨c2, ps2, e2, i2⟩ := isAt_points s2.topology1 hv1 (hmem2 _ _ b1) hl2 b2
      exact absurd hnear (far.points c1 c2 ps1 ps2 e1 e2 p i1 q i2).1
    · obtain ⟨a1, a2⟩ := side2 u1 fu p hu1 hfu hpu
      obtain ⟨b1, b2⟩ := side1 v1 fv q hv1 hfv hpv
      obtain ⟨c1, ps1, e1, i1⟩ := isAt_points s2.topology1 hu1 (hmem2 _ _ a1) hl2 a2
      obtain ⟨c2, ps2, e2, i2⟩ := isAt_points s1.topology1 hv1 (hmem1 _ _ b1) hl1 b2
      exact absurd hnear (far.points c2 c1 ps2 ps1 e2 e1 q i2 p i1).2
    · obtain ⟨a1, a2⟩ := side2 u1 fu p hu1 hfu hpu
      obtain ⟨b1, b2⟩ := side2 v1 fv q hv1 hfv hpv
      refine .inr (.inl (.inr (.inl ?_)))
      rw [Numbers.colocated_near s2.meshes1 s2.types1 s2.search1]
      exact ⟨u1, v1, p, q, fu, fv, hu1, hv1, fun e => huv (congrArg ι2 e), a1, a2, b1, b2, hnear⟩
  · rcases h.lines l hl with hl | hl
    · exact .inl (.inl (.inr (.inr (.inl ⟨l, hl, ha, (lineDefect h.first s1.noId s1.numbers hl).1 hd⟩))))
    · exact .inr (.inl (.inr (.inr (.inl ⟨l, hl, ha, (lineDefect h.second s2.noId s2.numbers hl).1 hd⟩))))
  · rcases h.surfaces x hx with hx | hx
    · exact .inl (.inl (.inr (.inr (.inr (.inl ⟨x, hx, ha, (surfaceDefect h.first s1.noId s1.numbers hx).1 hd⟩)))))
    · exact .inr (.inl (.inr (.inr (.inr (.inl ⟨x, hx, ha, (surfaceDefect h.second s2.noId s2.numbers hx).1 hd⟩)))))
  · rcases h.blocks x hx with hx | hx
    · exact .inl (.inl (.inr (.inr (.inr (.inr (.inl ⟨x, hx, ha, (s1.blockDefect hx).1 hd⟩))))))
    · exact .inr (.inl (.inr (.inr (.inr (.inr (.inl ⟨x, hx, ha, (s2.blockDefect hx).1 hd⟩))))))
  · obtain ⟨x, e, u, v, x', e', u', v', h1, h2, hne, heq⟩ := hd
    rcases h.surfaces x h1.1 with hx | hx <;> rcases h.surfaces x' h2.1 with hx' | hx'
    · exact .inl (.inl (.inr (.inr (.inr (.inr (.inr (.inl (s1.twice_part hx hx' h1 h2 hne heq))))))))
    · exact top (twice_cross h s1 s2 hx hx' h1 h2 heq)
    · refine top (twice_cross h s1 s2 hx' hx h2 h1 ?_)
      rcases heq with ⟨rfl, rfl⟩ | ⟨rfl, rfl⟩
      · exact .inl ⟨rfl, rfl⟩
      · exact .inr ⟨rfl, rfl⟩
    · exact .inr (.inl (.inr (.inr (.inr (.inr (.inr (.inl (s2.twice_part hx hx' h1 h2 hne heq))))))))
  · rcases h.lines l hl with hl | hl
    · exact .inl (.inl (.inr (.inr (.inr (.inr (.inr (.inr (.inl ⟨l, hl,
        (s1.floatingEdge hl fun y hy h1 h2 => hfirst1 l hl h1 h2 y hy).1 hd⟩))))))))
    · exact .inr (.inl (.inr (.inr (.inr (.inr (.inr (.inr (.inl ⟨l, hl,
        (s2.floatingEdge hl fun y hy h1 h2 => hfirst2 l hl h1 h2 y hy).1 hd⟩))))))))
  · rcases h.surfaces x hx with hx | hx
    · rcases s1.floatingFacet hx with ⟨_, h1⟩ | h1
      · exact top (.inl h1)
      · exact .inl (.inl (.inr (.inr (.inr (.inr (.inr (.inr (.inr (.inl ⟨x, hx, h1.1 hd⟩)))))))))
    · rcases s2.floatingFacet hx with ⟨_, h1⟩ | h1
      · exact top (.inr h1)
      · exact .inr (.inl (.inr (.inr (.inr (.inr (.inr (.inr (.inr (.inl ⟨x, hx, h1.1 hd⟩)))))))))
  · obtain ⟨x1, x2, r1, r2, p, q, h1, a1, h2, a2, g1, g2, hp, hq, hne, t1, ht1, t2, ht2, hmeet⟩ := hd
    rcases h.surfaces x1 h1 with h1 | h1 <;> rcases h.surfaces x2 h2 with h2 | h2
    · exact .inl (.inl (.inr (.inr (.inr (.inr (.inr (.inr (.inr (.inr ⟨x1, x2, withUv m1 x1 r1, withUv m1 x2 r2, p, q, h1, a1,
        h2, a2, given_withUv g1 m1, given_withUv g2 m1, hp, hq, hne, t1, ht1, t2, ht2, s1.meet_part h1 h2 g1 g2 hmeet⟩)))))))))
    · exact absurd hmeet (far.polygons x1 h1 x2 h2 a1 a2 r1 r2 g1 g2 p q hp hq t1 ht1 t2 ht2).1
    · exact absurd hmeet (far.polygons x2 h2 x1 h1 a2 a1 r2 r1 g2 g1 q p hq hp t2 ht2 t1 ht1).2
    · exact .inr (.inl (.inr (.inr (.inr (.inr (.inr (.inr (.inr (.inr ⟨x1, x2, withUv m2 x1 r1, withUv m2 x2 r2, p, q, h1, a1,
        h2, a2, given_withUv g1 m2, given_withUv g2 m2, hp, hq, hne, t1, ht1, t2, ht2, s2.meet_part h1 h2 g1 g2 hmeet⟩)))))))))
  · obtain ⟨x, l, r, p, e, a, b, hx, ax, hl, al, hemb, g, hp, he, ha, hb, t, ht, hmeet⟩ := hd
    rcases h.lines l hl with hl | hl <;> rcases h.surfaces x hx with hx | hx
    · exact .inl (.inr (.inl ⟨x, l, withUv m1 x r, p, e, a, b, hx, ax, hl, al,
        by rw [← s1.part.embeddings l.id (.inr (.inl ⟨l, hl, rfl⟩))]; exact hemb, given_withUv g m1, hp, he, ha, hb, t, ht,
        hmeet⟩))
    · exact absurd hmeet (ha12.edges l hl al hemb x hx ax r g e a b p he hp ha hb t ht)
    · exact absurd hmeet (ha21.edges l hl al hemb x hx ax r g e a b p he hp ha hb t ht)
    · exact .inr (.inr (.inl ⟨x, l, withUv m2 x r, p, e, a, b, hx, ax, hl, al,
        by rw [← s2.part.embeddings l.id (.inr (.inl ⟨l, hl, rfl⟩))]; exact hemb, given_withUv g m2, hp, he, ha, hb, t, ht,
        hmeet⟩))
  · exact top (topology_parts h hb s1 s2 (ht.2 hd))

/-- An unreadable part makes the whole unreadable. -/
theorem BRepSetting.unreadable (s : BRepSetting lib rt rt1 near ι1 m m1) (hd : PlainUnreadable m1) : PlainUnreadable m := by
  rw [PlainUnreadable, ← Plain.topology_iff s.meshes1 rt1 LinesUnreadable (fun _ _ _ _ _ _ _ hd => hd)] at hd
  rw [PlainUnreadable, ← Plain.topology_iff s.meshes rt LinesUnreadable (fun _ _ _ _ _ _ _ hd => hd)]
  obtain ⟨v, hv, hd⟩ := hd
  exact ⟨ι1 v, s.part.numbers v hv, s.sides.unreadable_of hv hd⟩

end
end Inspector.Parts
