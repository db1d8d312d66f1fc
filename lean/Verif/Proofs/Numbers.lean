import Verif.Spec.Numbers
import Verif.Proofs.Stored
import Verif.Proofs.Renumber
/-
Proofs for C122: the defects of a model do not depend on the numbers of its unique vertices.
-/
namespace Inspector.Numbers
open Inspector Spec

/-- The same topology, with other numbers of unique vertices. -/
structure Moved (σ : Equiv.Perm Nat) (t t' : TopologyModel) : Prop where
  range : ∀ v, σ v < t.nbUniqueVertices ↔ v < t.nbUniqueVertices
  components : t'.components = t.components
  nbUniqueVertices : t'.nbUniqueVertices = t.nbUniqueVertices
  cmvs : ∀ v, t'.componentMeshVertices (σ v) = t.componentMeshVertices v
  uniqueVertex : ∀ c, t'.uniqueVertex c = (t.uniqueVertex c).map σ
  isBoundary : t'.isBoundary = t.isBoundary
  isInternal : t'.isInternal = t.isInternal
  embeddings : t'.embeddings = t.embeddings
  incidences : t'.incidences = t.incidences
  boundaries : t'.boundaries = t.boundaries
  isVertexOnBorder : t'.isVertexOnBorder = t.isVertexOnBorder
  surfaceEdges : t'.surfaceEdges = t.surfaceEdges
  blockEdges : t'.blockEdges = t.blockEdges
  blockPolygons : t'.blockPolygons = t.blockPolygons
  polygonVertices : t'.polygonVertices = t.polygonVertices

theorem exists_moved {σ : Equiv.Perm Nat} {n : Nat} (hr : ∀ v, σ v < n ↔ v < n) {q q' : Nat → Prop}
    (h : ∀ v, q' (σ v) ↔ q v) : (∃ v, v < n ∧ q' v) ↔ ∃ v, v < n ∧ q v := by
  constructor
  · rintro ⟨v, h1, h2⟩
    obtain ⟨u, rfl⟩ := σ.surjective v
    exact ⟨u, (hr u).1 h1, (h u).1 h2⟩
  · rintro ⟨v, h1, h2⟩
    exact ⟨σ v, (hr v).2 h1, (h v).2 h2⟩

theorem map_eq_some (σ : Equiv.Perm Nat) (o : Option Nat) (n : Nat) : o.map σ = some (σ n) ↔ o = some n := by
  cases o with
  | none => simp
  | some x => simp [σ.injective.eq_iff]

section
variable {σ : Equiv.Perm Nat} {t t' : TopologyModel} (s : Moved σ t t')
include s

theorem active (kind : ComponentType) (id : Uuid) : Active t' kind id ↔ Active t kind id := by
  unfold Active; rw [s.components]

theorem at_ (v : Index) (kind : ComponentType) (id : Uuid) : At t' (σ v) kind id ↔ At t v kind id := by
  unfold At; simp only [s.cmvs]

theorem activeAt (v : Index) (kind : ComponentType) (id : Uuid) : ActiveAt t' (σ v) kind id ↔ ActiveAt t v kind id := by
  unfold ActiveAt; simp only [at_ s, active s]

theorem allMeshed (kind : ComponentType) : AllMeshed t' kind ↔ AllMeshed t kind := by
  unfold AllMeshed; rw [s.components]

theorem activeCmv (kind : ComponentType) (c : ComponentMeshVertex) : ActiveCmv t' kind c ↔ ActiveCmv t kind c := by
  unfold ActiveCmv; simp only [active s]

theorem notAssociated (kind : ComponentType) (c : TopologyComponent) (v : Index) :
    NotAssociated t' kind c v ↔ NotAssociated t kind c v := by
  unfold NotAssociated; simp only [s.uniqueVertex, Option.map_eq_none_iff]

theorem twiceActive (v : Index) (kind : ComponentType) : TwiceActive t' (σ v) kind ↔ TwiceActive t v kind := by
  unfold TwiceActive; simp only [s.cmvs, active s]

theorem bijectivelyLinked (kinds : List ComponentType) : BijectivelyLinked t' kinds ↔ BijectivelyLinked t kinds := by
  unfold BijectivelyLinked CmvExists
  simp only [s.components, active s, s.uniqueVertex, s.nbUniqueVertices]
  constructor
  · intro h uv hu
    have := h (σ uv) ((s.range uv).2 hu)
    simpa only [s.cmvs, map_eq_some] using this
  · intro h uv hu
    obtain ⟨v, rfl⟩ := σ.surjective uv
    have := h v ((s.range v).1 hu)
    simpa only [s.cmvs, map_eq_some] using this

theorem unmeshed (kinds : List ComponentType) : HasUnmeshedComponent t' kinds ↔ HasUnmeshedComponent t kinds := by
  unfold HasUnmeshedComponent; simp only [s.components]

theorem unlinked (kinds : List ComponentType) : HasUnlinkedVertex t' kinds ↔ HasUnlinkedVertex t kinds := by
  unfold HasUnlinkedVertex; simp only [s.components, notAssociated s]

theorem sectionVertex (v : Index) : SectionVertexDefect t' (σ v) ↔ SectionVertexDefect t v := by
  unfold SectionVertexDefect CornerWithSeveralEmbeddings CornerAlone CornerNotBoundaryOfLine LineAlone EmbeddedBefore
    EmbeddedLineIsWrong InvalidSingleLine LinesWithoutCorner TwoSurfacesWithoutLine LineNotOnBorder
  simp only [ne_eq, s.cmvs, active s, at_ s, activeAt s, allMeshed s, s.embeddings, s.incidences,
    activeCmv s, twiceActive s, s.isBoundary, s.isInternal, s.isVertexOnBorder]

theorem sectionTopology : SectionTopologyDefect t' ↔ SectionTopologyDefect t := by
  unfold SectionTopologyDefect
  rw [s.nbUniqueVertices, exists_moved s.range (sectionVertex s), bijectivelyLinked s, unmeshed s, unlinked s]

/-! ### BReps -/

theorem surfacesAt_eq (v : Index) : surfacesAt t' (σ v) = surfacesAt t v := by
  unfold surfacesAt; rw [s.cmvs]

theorem firstEdge (line : Uuid) : FirstEdgeIsWrong t' line ↔ FirstEdgeIsWrong t line := by
  unfold FirstEdgeIsWrong
  simp only [s.incidences, s.embeddings, active s, s.surfaceEdges]

theorem brepVertex (v : Index) : BRepVertexDefect t' (σ v) ↔ BRepVertexDefect t v := by
  unfold BRepVertexDefect CornerMultiplyEmbedded CornerAlone CornerNotOnLine BRepInvalidEmbeddedLine BRepLineWrong
    BRepInvalidSingleLine LinesWithoutCorner InvalidEmbeddedSurface InvalidMultipleSurfaces RelatedLineNotOnBorder
  simp only [ne_eq, s.cmvs, active s, at_ s, activeAt s, allMeshed s, s.embeddings, s.incidences,
    twiceActive s, s.isBoundary, s.isInternal, s.isVertexOnBorder, firstEdge s, s.components, surfacesAt_eq s]

theorem edgeWrong (line : Uuid) (e : Index) : EdgeIsWrong t' line e ↔ EdgeIsWrong t line e := by
  unfold EdgeIsWrong
  simp only [s.surfaceEdges, s.blockEdges, active s, s.isBoundary, s.isInternal, s.embeddings, s.incidences, s.components]

theorem facetWrong (surface : Uuid) (f : Index) : FacetIsWrong t' surface f ↔ FacetIsWrong t surface f := by
  unfold FacetIsWrong
  simp only [s.blockPolygons, active s, s.isBoundary, s.isInternal]

theorem cannotBound (x : Uuid) : CannotBound t' x ↔ CannotBound t x := by
  unfold CannotBound Closable; simp only [s.boundaries]

theorem sheets (b line : Uuid) : boundarySheets t' b line = boundarySheets t b line := by
  unfold boundarySheets boundarySurfaces
  simp only [s.isBoundary, s.isInternal, s.boundaries]

theorem cmvsOf_eq (v : Index) (kind : ComponentType) : cmvsOf t' (σ v) kind = cmvsOf t v kind := by
  unfold cmvsOf; rw [s.cmvs]

theorem linesAt_eq (v : Index) : linesAt t' (σ v) = linesAt t v := by
  unfold linesAt; simp only [cmvsOf_eq s, s.embeddings]

theorem lineInside (b line : Uuid) : LineInside t' b line ↔ LineInside t b line := by
  unfold LineInside; simp only [s.embeddings, s.incidences, s.isInternal]

theorem countIsRight (v : Index) (b : Uuid) : CountIsRight t' (σ v) b ↔ CountIsRight t v b := by
  unfold CountIsRight nbBlockCmvs expectedCount nbInternalSurfaceCmvs nbBoundarySurfaceCmvs nbLinesInside nbLinePassages
    nbAdditionalPassages nbSeveralPassages
  simp only [cmvsOf_eq s, linesAt_eq s, sheets s, lineInside s, s.isBoundary, s.isInternal]

theorem openBoundary (b : Uuid) : HasOpenBoundary t' b ↔ HasOpenBoundary t b := by
  unfold HasOpenBoundary; simp only [s.boundaries, s.incidences, active s, s.isBoundary]

theorem allLinked (Q : List Uuid) : AllLinked t' Q ↔ AllLinked t Q := by
  have : (fun x y => SharesLine t' x y ∧ y ∈ Q) = fun x y => SharesLine t x y ∧ y ∈ Q := by
    funext x y
    unfold SharesLine
    simp only [s.boundaries]
  unfold AllLinked LinkedIn
  rw [this]

theorem blocksVertex (v : Index) (inside : Uuid → Uuid → Except Failure Bool) :
    (TwoBlocksWithoutSurface t' (σ v) ∨ BlockCountWrong t' (σ v) ∨ SingleInvalidSurface t' (σ v) ∨
      SurfaceWrongForBlocks t' (σ v) inside ∨ MultipleInvalidSurfaces t' (σ v)) ↔
    (TwoBlocksWithoutSurface t v ∨ BlockCountWrong t v ∨ SingleInvalidSurface t v ∨ SurfaceWrongForBlocks t v inside ∨
      MultipleInvalidSurfaces t v) := by
  unfold TwoBlocksWithoutSurface BlockCountWrong SingleInvalidSurface SurfaceWrongForBlocks MultipleInvalidSurfaces
    RelatedSurface OutsideBlocks
  simp only [ne_eq, at_ s, activeAt s, allMeshed s, s.embeddings, s.incidences, s.isBoundary, s.isInternal,
    countIsRight s, cannotBound s, s.components]

theorem linked_eq (x : Uuid) (processed : List Uuid) :
    findLinkedProcessedSurface t' x processed = findLinkedProcessedSurface t x processed := by
  unfold findLinkedProcessedSurface TopologyModel.related
  rw [s.incidences, s.boundaries]

theorem loop_eq (fuel : Nat) : ∀ (processed Q : List Uuid) (skip : Nat),
    closedLinkedLoop t' fuel processed Q skip = closedLinkedLoop t fuel processed Q skip := by
  induction fuel with
  | zero => exact fun _ _ _ => rfl
  | succ fuel ih =>
    intro processed Q skip
    cases Q with
    | nil => rfl
    | cons x Q =>
      unfold closedLinkedLoop
      simp only [ih, linked_eq s]

/-- The queues of linked surfaces do not read the unique vertices. -/
theorem parts_eq (fuel n : Nat) : ∀ Q : List Uuid, linkedBoundaryParts t' fuel n Q = linkedBoundaryParts t fuel n Q := by
  induction n with
  | zero => exact fun _ => rfl
  | succ n ih =>
    intro Q
    cases Q with
    | nil => rfl
    | cons x Q =>
      unfold linkedBoundaryParts closedLinkedSurfaces
      simp only [ih, loop_eq s]

theorem queue_eq (block : Uuid) : queueWithBlockBoundaries t' block = queueWithBlockBoundaries t block := by
  obtain ⟨_, h1, _, _, _, h4, h5, h6, h7, h8, h9, h10, h11, h12, h13⟩ := s
  obtain ⟨⟩ := t
  obtain ⟨⟩ := t'
  simp only at h1 h4 h5 h6 h7 h8 h9 h10 h11 h12 h13
  subst h1 h4 h5 h6 h7 h8 h9 h10 h11 h12 h13
  rfl

theorem component_eq (kind : ComponentType) (id : Uuid) : t'.component kind id = t.component kind id := by
  unfold TopologyModel.component
  rw [s.components]

end

/-! ### the fused surface -/

/-- A fused mesh whose mapping has the other numbers. -/
def moveFused (σ : Equiv.Perm Nat) (f : FusedSurface) : FusedSurface :=
  { f with mapping := f.mapping.map fun e => (e.1.map σ, e.2) }

theorem find_moved (σ : Equiv.Perm Nat) (o : Option Index) (l : List (Option Index × Nat)) :
    ((l.map fun e => (e.1.map σ, e.2)).find? fun e => e.1 == o.map σ) =
      (l.find? fun e => e.1 == o).map fun e => (e.1.map σ, e.2) := by
  rw [List.find?_map]
  congr 1
  congr 1
  funext e
  simp only [Function.comp]
  have : (e.1.map σ = o.map σ) ↔ e.1 = o := (Option.map_injective σ.injective).eq_iff
  rw [Bool.eq_iff_iff, beq_iff_eq, beq_iff_eq, this]

section
variable {σ : Equiv.Perm Nat} {t t' : TopologyModel} (s : Moved σ t t')
include s

theorem fuseVertex_moved (surface : Uuid) (f : FusedSurface) (l : List Nat) (v : Index) :
    fuseVertex t' surface (moveFused σ f, l) v =
      (moveFused σ (fuseVertex t surface (f, l) v).1, (fuseVertex t surface (f, l) v).2) := by
  unfold fuseVertex
  simp only [s.uniqueVertex, moveFused, find_moved]
  cases h : f.mapping.find? fun e => e.1 == t.uniqueVertex ⟨⟨.surface, surface⟩, v⟩ with
  | none => simp
  | some e => simp

theorem fuseVertices_moved (surface : Uuid) (vs : List Index) : ∀ (f : FusedSurface) (l : List Nat),
    vs.foldl (fuseVertex t' surface) (moveFused σ f, l) =
      (moveFused σ (vs.foldl (fuseVertex t surface) (f, l)).1, (vs.foldl (fuseVertex t surface) (f, l)).2) := by
  induction vs with
  | nil => exact fun f l => rfl
  | cons v vs ih =>
    intro f l
    rw [List.foldl_cons, List.foldl_cons, fuseVertex_moved s, ih]

theorem fusePolygon_moved (surface : Uuid) (f : FusedSurface) (p : Index) :
    fusePolygon t' surface (moveFused σ f) p = moveFused σ (fusePolygon t surface f p) := by
  unfold fusePolygon
  rw [s.polygonVertices, fuseVertices_moved s]
  rfl

theorem fusePolygons_moved (surface : Uuid) (ps : List Index) : ∀ f : FusedSurface,
    ps.foldl (fusePolygon t' surface) (moveFused σ f) = moveFused σ (ps.foldl (fusePolygon t surface) f) := by
  induction ps with
  | nil => exact fun f => rfl
  | cons p ps ih =>
    intro f
    rw [List.foldl_cons, List.foldl_cons, fusePolygon_moved s, ih]

theorem fuse_moved (l : List Uuid) : fuseBRepSurfacesFromList t' l = (fuseBRepSurfacesFromList t l).map (moveFused σ) := by
  unfold fuseBRepSurfacesFromList
  have : ∀ f : FusedSurface,
      l.foldlM (fun fused surface_id => do
        let surface ← t'.component .surface surface_id
        return (List.range surface.nbElements).foldl (fusePolygon t' surface_id) fused) (moveFused σ f) =
      (l.foldlM (fun fused surface_id => do
        let surface ← t.component .surface surface_id
        return (List.range surface.nbElements).foldl (fusePolygon t surface_id) fused) f : Except Failure _).map
        (moveFused σ) := by
    induction l with
    | nil => exact fun f => rfl
    | cons x l ih =>
      intro f
      rw [List.foldlM_cons, List.foldlM_cons, component_eq s]
      cases h : t.component .surface x with
      | error e => rfl
      | ok c =>
        show l.foldlM _ ((List.range c.nbElements).foldl (fusePolygon t' x) (moveFused σ f)) = _
        rw [fusePolygons_moved s, ih]
        rfl
  exact this {}

theorem meshEncloses (g : BlockGeometry) (hg : ReadsMeshOnly g) (parts : List (List Uuid)) (i : Nat) :
    MeshEncloses t' g parts i ↔ MeshEncloses t g parts i := by
  unfold MeshEncloses PartInside
  rw [s.components]
  refine exists_congr fun p => ?_
  rw [fuse_moved s]
  cases h : fuseBRepSurfacesFromList t p with
  | error e => simp [Except.map]
  | ok mesh =>
    have hm : ∀ x v, g.isVertexInside (moveFused σ mesh) x v = g.isVertexInside mesh x v := hg _ _ rfl rfl
    simp only [Except.map, Except.ok.injEq, exists_eq_left', hm, ↓existsAndEq, true_and, and_true]

theorem encloses (g : BlockGeometry) (hg : ReadsMeshOnly g) (block : Uuid) :
    BoundaryEncloses t' g block ↔ BoundaryEncloses t g block := by
  unfold BoundaryEncloses
  simp only [parts_eq s, queue_eq s, meshEncloses s g hg]

theorem blocksDefect (o : BlocksOracle) (hg : ReadsMeshOnly o.geometry) : BlocksDefect t' o ↔ BlocksDefect t o := by
  unfold BlocksDefect
  rw [s.nbUniqueVertices, exists_moved s.range fun v => blocksVertex s v o.isInsideBlock]
  simp only [allLinked s, s.components, notAssociated s, openBoundary s, encloses s o.geometry hg]

theorem brepTopology (o : BlocksOracle) (hg : ReadsMeshOnly o.geometry) :
    BRepTopologyDefect t' o ↔ BRepTopologyDefect t o := by
  unfold BRepTopologyDefect
  rw [blocksDefect s o hg, s.nbUniqueVertices, exists_moved s.range (brepVertex s)]
  simp only [bijectivelyLinked s, unmeshed s, unlinked s, s.components, notAssociated s, edgeWrong s, facetWrong s,
    allMeshed s]

theorem otherTopology (o : BlocksOracle) (hg : ReadsMeshOnly o.geometry) :
    OtherTopologyDefect t' o ↔ OtherTopologyDefect t o := by
  have hv : ∀ v, (TwiceActive t' (σ v) .corner ∨ CornerMultiplyEmbedded t' (σ v) ∨ CornerAlone t' (σ v) ∨
      CornerNotOnLine t' (σ v) ∨ InvalidEmbeddedSurface t' (σ v) ∨ InvalidMultipleSurfaces t' (σ v) ∨
      RelatedLineNotOnBorder t' (σ v)) ↔ (TwiceActive t v .corner ∨ CornerMultiplyEmbedded t v ∨ CornerAlone t v ∨
      CornerNotOnLine t v ∨ InvalidEmbeddedSurface t v ∨ InvalidMultipleSurfaces t v ∨ RelatedLineNotOnBorder t v) := by
    intro v
    unfold CornerMultiplyEmbedded CornerAlone CornerNotOnLine InvalidEmbeddedSurface InvalidMultipleSurfaces
      RelatedLineNotOnBorder
    simp only [ne_eq, s.cmvs, active s, at_ s, activeAt s, allMeshed s, s.embeddings, s.incidences,
      twiceActive s, s.isBoundary, s.isInternal, s.isVertexOnBorder, s.components, surfacesAt_eq s]
  unfold OtherTopologyDefect
  rw [blocksDefect s o hg, s.nbUniqueVertices, exists_moved s.range hv]
  simp only [bijectivelyLinked s, unmeshed s, unlinked s, s.components, notAssociated s, facetWrong s, allMeshed s]

theorem unreadableEmbedding (v : Index) : UnreadableEmbedding t' (σ v) ↔ UnreadableEmbedding t v := by
  unfold UnreadableEmbedding EmbeddingWrong Has
  simp only [s.cmvs, activeCmv s, s.embeddings, s.isBoundary, allMeshed s, at_ s, s.components]

theorem unreadable : LinesUnreadable t' ↔ LinesUnreadable t := by
  unfold LinesUnreadable
  rw [s.nbUniqueVertices, exists_moved s.range (unreadableEmbedding s)]

theorem linesTopology : LinesTopologyDefect t' ↔ LinesTopologyDefect t := by
  have hv : ∀ v, (BRepInvalidEmbeddedLine t' (σ v) ∨ BRepLineWrong t' (σ v) ∨ BRepInvalidSingleLine t' (σ v) ∨
      LinesWithoutCorner t' (σ v)) ↔ (BRepInvalidEmbeddedLine t v ∨ BRepLineWrong t v ∨ BRepInvalidSingleLine t v ∨
      LinesWithoutCorner t v) := by
    intro v
    unfold BRepInvalidEmbeddedLine BRepLineWrong BRepInvalidSingleLine LinesWithoutCorner
    simp only [ne_eq, at_ s, activeAt s, allMeshed s, s.embeddings, s.incidences,
      twiceActive s, s.isBoundary, s.isInternal, firstEdge s, s.components]
  unfold LinesTopologyDefect
  rw [s.nbUniqueVertices, exists_moved s.range hv]
  simp only [unmeshed s, unlinked s, s.components, notAssociated s, edgeWrong s]

end

/-! ### models -/

section
variable {P : Type} {lib : ModelLibrary P} {σ : Equiv.Perm Nat} {m : ModelData P} (h : NumbersOf σ m)

theorem isActiveId (id : Uuid) : IsActiveId (withNumbers σ m) id ↔ IsActiveId m id := Iff.rfl

theorem isAt (cmv : ComponentMeshVertex) (p : P) : IsAt lib (withNumbers σ m) cmv p ↔ IsAt lib m cmv p := Iff.rfl

theorem cmvs (uv : Index) : (withNumbers σ m).componentMeshVertices (σ uv) = m.componentMeshVertices uv := by
  show m.componentMeshVertices (σ.symm (σ uv)) = _
  rw [Equiv.symm_apply_apply]

theorem firstActive (uv : Index) (first : ComponentMeshVertex) :
    FirstActive (withNumbers σ m) (σ uv) first ↔ FirstActive m uv first := by
  unfold FirstActive
  rw [cmvs]
  rfl

theorem differentPoints (uv : Index) :
    PlainDifferentPoints lib (withNumbers σ m) (σ uv) ↔ PlainDifferentPoints lib m uv := by
  unfold PlainDifferentPoints
  simp only [firstActive, isAt, isActiveId, cmvs]

include h

theorem moved (rt rt' : ModelRuntime) : Moved σ (m.topology rt) ((withNumbers σ m).topology rt') where
  range := h.range
  components := rfl
  nbUniqueVertices := rfl
  cmvs v := cmvs v
  uniqueVertex c := rfl
  isBoundary := rfl
  isInternal := rfl
  embeddings := rfl
  incidences := rfl
  boundaries := rfl
  isVertexOnBorder := rfl
  surfaceEdges := rfl
  blockEdges := rfl
  blockPolygons := rfl
  polygonVertices := rfl

theorem numberOf (kind : ComponentType) (id : Uuid) (v n : Index) :
    NumberOf (withNumbers σ m) kind id v (σ n) ↔ NumberOf m kind id v n := by
  unfold NumberOf
  show ((m.uniqueVertex _).map σ = _ ∨ (m.uniqueVertex _).map σ = none ∧ σ n = m.noId) ↔ _
  rw [map_eq_some, Option.map_eq_none_iff]
  have : σ n = m.noId ↔ n = m.noId := by
    conv_lhs => rw [← h.noId]
    exact σ.injective.eq_iff
  rw [this]

theorem splitVertices (kind : ComponentType) (id : Uuid) (points : List P) :
    PlainSplitVertices lib (withNumbers σ m) kind id points ↔ PlainSplitVertices lib m kind id points := by
  unfold PlainSplitVertices
  refine exists_congr fun i => exists_congr fun j => and_congr_right fun _ => and_congr_right fun _ =>
    and_congr_right fun _ => ?_
  constructor
  · rintro ⟨ni, nj, h1, h2, h3⟩
    obtain ⟨a, rfl⟩ := σ.surjective ni
    obtain ⟨b, rfl⟩ := σ.surjective nj
    exact ⟨a, b, (numberOf h _ _ _ _).1 h1, (numberOf h _ _ _ _).1 h2, fun e => h3 (congrArg σ e)⟩
  · rintro ⟨a, b, h1, h2, h3⟩
    exact ⟨σ a, σ b, (numberOf h _ _ _ _).2 h1, (numberOf h _ _ _ _).2 h2, fun e => h3 (σ.injective e)⟩

theorem lineDefect (l : LineData P) : PlainLineDefect lib (withNumbers σ m) l ↔ PlainLineDefect lib m l := by
  unfold PlainLineDefect; simp only [splitVertices h]

theorem borderNotOnLine (s : FaceData P) (x : PolygonEdge) :
    BorderNotOnLine (withNumbers σ m) s x ↔ BorderNotOnLine m s x := by
  unfold BorderNotOnLine
  refine and_congr_right fun _ => and_congr_right fun _ => not_congr ?_
  refine exists_congr fun a => exists_congr fun b => ?_
  show (∃ u v, EdgeFromTo s.toSurfaceMesh x.1 x.2 a b ∧ (m.uniqueVertex ⟨⟨.surface, s.id⟩, a⟩).map σ = some u ∧
      (m.uniqueVertex ⟨⟨.surface, s.id⟩, b⟩).map σ = some v ∧ u < m.nbUniqueVertices ∧ v < m.nbUniqueVertices ∧
      m.lineComponentMeshEdges (σ.symm u) (σ.symm v) ≠ []) ↔ _
  constructor
  · rintro ⟨u, v, h1, h2, h3, h4, h5, h6⟩
    obtain ⟨u, rfl⟩ := σ.surjective u
    obtain ⟨v, rfl⟩ := σ.surjective v
    rw [map_eq_some] at h2 h3
    rw [h.range] at h4 h5
    rw [Equiv.symm_apply_apply, Equiv.symm_apply_apply] at h6
    exact ⟨u, v, h1, h2, h3, h4, h5, h6⟩
  · rintro ⟨u, v, h1, h2, h3, h4, h5, h6⟩
    refine ⟨σ u, σ v, h1, (map_eq_some _ _ _).2 h2, (map_eq_some _ _ _).2 h3, (h.range _).2 h4, (h.range _).2 h5, ?_⟩
    rw [Equiv.symm_apply_apply, Equiv.symm_apply_apply]
    exact h6

theorem surfaceDefect (s : FaceData P) : PlainSurfaceDefect lib (withNumbers σ m) s ↔ PlainSurfaceDefect lib m s := by
  unfold PlainSurfaceDefect
  simp only [splitVertices h, borderNotOnLine h]

omit h in
theorem numbers_moved (f : Index → Option Index) (vs uvs : List Index) :
    List.Forall₂ (fun v uv => (f v).map σ = some uv) vs uvs ↔
      List.Forall₂ (fun v uv => f v = some uv) vs (uvs.map σ.symm) := by
  rw [List.forall₂_map_right_iff]
  have : ∀ v uv, ((f v).map σ = some uv) ↔ f v = some (σ.symm uv) := by
    intro v uv
    obtain ⟨u, rfl⟩ := σ.surjective uv
    rw [map_eq_some, Equiv.symm_apply_apply]
  simp only [this]

theorem borderNotOnSurface (b : VolumeData P) (x : PolyhedronFacet) :
    BorderNotOnSurface (withNumbers σ m) b x ↔ BorderNotOnSurface m b x := by
  unfold BorderNotOnSurface
  refine and_congr_right fun _ => and_congr_right fun _ => ?_
  show (∃ uvs : List Index, List.Forall₂ (fun v uv => (m.uniqueVertex ⟨⟨.block, b.id⟩, v⟩).map σ = some uv)
      (b.polyhedronFacetVertices x) uvs ∧ m.surfaceComponentMeshPolygons (uvs.map σ.symm) = []) ↔ _
  simp only [numbers_moved fun v => m.uniqueVertex ⟨⟨.block, b.id⟩, v⟩]
  constructor
  · rintro ⟨uvs, h1, h2⟩
    exact ⟨_, h1, h2⟩
  · rintro ⟨uvs, h1, h2⟩
    refine ⟨uvs.map σ, ?_⟩
    have : (uvs.map σ).map σ.symm = uvs := by simp
    rw [this]
    exact ⟨h1, h2⟩

theorem blockDefect (b : VolumeData P) : PlainBlockDefect lib (withNumbers σ m) b ↔ PlainBlockDefect lib m b := by
  unfold PlainBlockDefect
  simp only [splitVertices h, borderNotOnSurface h]

theorem interiorEdge (s : FaceData P) (x : PolygonEdge) (u v : Index) :
    InteriorEdge (withNumbers σ m) s x (σ u) (σ v) ↔ InteriorEdge m s x u v := by
  unfold InteriorEdge
  simp only [numberOf h]
  rfl

theorem twiceInterior : TwiceInterior (withNumbers σ m) ↔ TwiceInterior m := by
  unfold TwiceInterior
  constructor
  · rintro ⟨s, x, u, v, s', x', u', v', h1, h2, h3, h4⟩
    obtain ⟨u, rfl⟩ := σ.surjective u
    obtain ⟨v, rfl⟩ := σ.surjective v
    obtain ⟨u', rfl⟩ := σ.surjective u'
    obtain ⟨v', rfl⟩ := σ.surjective v'
    simp only [σ.injective.eq_iff] at h4
    exact ⟨s, x, u, v, s', x', u', v', (interiorEdge h _ _ _ _).1 h1, (interiorEdge h _ _ _ _).1 h2, h3, h4⟩
  · rintro ⟨s, x, u, v, s', x', u', v', h1, h2, h3, h4⟩
    refine ⟨s, x, σ u, σ v, s', x', σ u', σ v', (interiorEdge h _ _ _ _).2 h1, (interiorEdge h _ _ _ _).2 h2, h3, ?_⟩
    simp only [σ.injective.eq_iff]
    exact h4

theorem alone (kind : ComponentType) (id : Uuid) (v : Index) :
    AloneAtUniqueVertex (withNumbers σ m) kind id v ↔ AloneAtUniqueVertex m kind id v := by
  unfold AloneAtUniqueVertex
  constructor
  · rintro ⟨n, h1, h2⟩
    obtain ⟨n, rfl⟩ := σ.surjective n
    rw [cmvs] at h2
    exact ⟨n, (numberOf h _ _ _ _).1 h1, h2⟩
  · rintro ⟨n, h1, h2⟩
    refine ⟨σ n, (numberOf h _ _ _ _).2 h1, ?_⟩
    rw [cmvs]
    exact h2

theorem floatingEdge (l : LineData P) : FloatingEdge (withNumbers σ m) l ↔ FloatingEdge m l := by
  unfold FloatingEdge
  simp only [alone h]
  rfl

theorem floatingFacet (s : FaceData P) : FloatingFacet (withNumbers σ m) s ↔ FloatingFacet m s := by
  unfold FloatingFacet
  simp only [alone h]
  rfl

omit h in
/-- A Surface with other numbers of unique vertices. -/
def moveSurface (σ : Equiv.Perm Nat) (r : ModelSurface P) : ModelSurface P :=
  { r with uniqueVertex := fun v => σ (r.uniqueVertex v) }

theorem givenSurface (s : FaceData P) (r : ModelSurface P) (g : GivenSurface lib m s r) :
    GivenSurface lib (withNumbers σ m) s (moveSurface σ r) :=
  ⟨g.id, g.active, g.nbPolygons, g.polygonVertices, g.nbVertices, g.point, fun v => (numberOf h _ _ _ _).2 (g.uniqueVertex v)⟩

theorem givenSurface_back (s : FaceData P) (r : ModelSurface P) (g : GivenSurface lib (withNumbers σ m) s r) :
    ∃ r0, GivenSurface lib m s r0 ∧ r = moveSurface σ r0 := by
  refine ⟨{ r with uniqueVertex := fun v => σ.symm (r.uniqueVertex v) },
    ⟨g.id, g.active, g.nbPolygons, g.polygonVertices, g.nbVertices, g.point, fun v => ?_⟩, ?_⟩
  · refine (numberOf h _ _ _ _).1 ?_
    rw [Equiv.apply_symm_apply]
    exact g.uniqueVertex v
  · unfold moveSurface
    simp only [Equiv.apply_symm_apply]

omit h in
theorem shared (r1 r2 : ModelSurface P) : Shared (moveSurface σ r1) (moveSurface σ r2) = Shared r1 r2 := by
  funext v w
  exact propext σ.injective.eq_iff

omit h in
theorem common (r1 r2 : ModelSurface P) (t1 t2 : List Index) (c : List (Index × Index)) :
    CommonVertices (moveSurface σ r1) (moveSurface σ r2) t1 t2 c ↔ CommonVertices r1 r2 t1 t2 c := by
  have hs : ∀ v, IsShared (moveSurface σ r1) (moveSurface σ r2) t2 v ↔ IsShared r1 r2 t2 v := by
    intro v
    unfold IsShared
    rw [shared]
  constructor
  · rintro ⟨h1, h2⟩
    rw [shared] at h2
    exact ⟨by rw [h1]; exact List.filter_congr fun v _ => decide_eq_decide.2 (hs v), h2⟩
  · rintro ⟨h1, h2⟩
    refine ⟨by rw [h1]; exact List.filter_congr fun v _ => decide_eq_decide.2 (hs v).symm, ?_⟩
    rw [shared]
    exact h2

omit h in
theorem sectionMeet (g : Geometry P) (r1 r2 : ModelSurface P) (t1 t2 : List Index) :
    SectionTrianglesMeet g (moveSurface σ r1) (moveSurface σ r2) t1 t2 ↔ SectionTrianglesMeet g r1 r2 t1 t2 := by
  unfold SectionTrianglesMeet
  simp only [common]
  rfl

omit h in
theorem brepMeet (g : Geometry P) (r1 r2 : ModelSurface P) (t1 t2 : List Index) :
    BRepTrianglesMeet g (moveSurface σ r1) (moveSurface σ r2) t1 t2 ↔ BRepTrianglesMeet g r1 r2 t1 t2 := by
  unfold BRepTrianglesMeet
  simp only [common]
  rfl

theorem polygonsMeet {Meet : ModelSurface P → ModelSurface P → List Index → List Index → Prop}
    (hm : ∀ r1 r2 t1 t2, Meet (moveSurface σ r1) (moveSurface σ r2) t1 t2 ↔ Meet r1 r2 t1 t2) :
    PlainPolygonsMeet lib (withNumbers σ m) Meet ↔ PlainPolygonsMeet lib m Meet := by
  unfold PlainPolygonsMeet
  constructor
  · rintro ⟨s1, s2, r1, r2, p, q, h1, h2, h3, h4, g1, g2, h5, h6, h7, t1, ht1, t2, ht2, hmeet⟩
    obtain ⟨r1', g1', e1⟩ := givenSurface_back h s1 r1 g1
    obtain ⟨r2', g2', e2⟩ := givenSurface_back h s2 r2 g2
    subst e1 e2
    exact ⟨s1, s2, r1', r2', p, q, h1, h2, h3, h4, g1', g2', h5, h6, h7, t1, ht1, t2, ht2, (hm _ _ _ _).1 hmeet⟩
  · rintro ⟨s1, s2, r1, r2, p, q, h1, h2, h3, h4, g1, g2, h5, h6, h7, t1, ht1, t2, ht2, hmeet⟩
    exact ⟨s1, s2, moveSurface σ r1, moveSurface σ r2, p, q, h1, h2, h3, h4, givenSurface h s1 r1 g1,
      givenSurface h s2 r2 g2, h5, h6, h7, t1, ht1, t2, ht2, (hm _ _ _ _).2 hmeet⟩

theorem lineMeets : PlainLineMeetsSurface lib (withNumbers σ m) ↔ PlainLineMeetsSurface lib m := by
  unfold PlainLineMeetsSurface
  constructor
  · rintro ⟨s, l, r, p, e, a, b, h1, h2, h3, h4, h5, g, h6⟩
    obtain ⟨r', g', e'⟩ := givenSurface_back h s r g
    subst e'
    exact ⟨s, l, r', p, e, a, b, h1, h2, h3, h4, h5, g', h6⟩
  · rintro ⟨s, l, r, p, e, a, b, h1, h2, h3, h4, h5, g, h6⟩
    exact ⟨s, l, moveSurface σ r, p, e, a, b, h1, h2, h3, h4, h5, givenSurface h s r g, h6⟩

end

/-! ### colocated unique vertices -/

section
variable {P : Type} {lib : ModelLibrary P} {σ : Equiv.Perm Nat} {m : ModelData P} {brep : Bool}

theorem colocated_near (hm : MeshesOk lib m) (ht : KnownTypes brep (m.uniqueVertices lib)) {near : P → P → Prop}
    (hn : UniqueVerticesNear lib near m) :
    PlainColocatedUniqueVertices lib m ↔ ∃ u v p q fu fv, u < m.nbUniqueVertices ∧ v < m.nbUniqueVertices ∧ u ≠ v ∧
      FirstActive m u fu ∧ IsAt lib m fu p ∧ FirstActive m v fv ∧ IsAt lib m fv q ∧ near p q := by
  have hex : ActivePoints lib m _ _ := (Plain.activePoints_iff hm ht _ _).2 ⟨rfl, rfl⟩
  have hun : PlainColocatedUniqueVertices lib m ↔ ∃ (a b : Nat) (uva uvb : Index),
      (activeUvs (m.uniqueVertices lib))[a]? = some uva ∧ (activeUvs (m.uniqueVertices lib))[b]? = some uvb ∧ uva ≠ uvb ∧
      Colocated (lib.search (activePositions (m.uniqueVertices lib))) a b :=
    (Plain.colocatedUvs_iff hm ht).symm
  rw [hun]
  have hfind := hn _ _ hex
  obtain ⟨⟨hsort, hmem⟩, hpts⟩ := hex
  generalize activeUvs (m.uniqueVertices lib) = uvs at *
  generalize activePositions (m.uniqueVertices lib) = points at *
  have hlen : uvs.length = points.length := hpts.length_eq
  have hget : ∀ (i : Nat) (u : Index) (p : P), uvs[i]? = some u → points[i]? = some p → ∃ first, FirstActive m u first ∧ IsAt lib m first p := by
    intro i u p hu hp
    obtain ⟨hi, hu⟩ := List.getElem?_eq_some_iff.1 hu
    obtain ⟨hi', hp⟩ := List.getElem?_eq_some_iff.1 hp
    have := (List.forall₂_iff_get.1 hpts).2 i hi hi'
    simp only [List.get_eq_getElem, hu, hp] at this
    exact this
  have hne : ∀ (i j : Nat) (u v : Index), uvs[i]? = some u → uvs[j]? = some v → (u ≠ v ↔ i ≠ j) := by
    intro i j u v hu hv
    have hnd : uvs.Nodup := hsort.imp fun h => Nat.ne_of_lt h
    obtain ⟨hi, hu⟩ := List.getElem?_eq_some_iff.1 hu
    obtain ⟨hj, hv⟩ := List.getElem?_eq_some_iff.1 hv
    subst hu hv
    rw [ne_eq, ne_eq, hnd.getElem_inj_iff]
  have hcol : (∃ (a b : Nat) (uva uvb : Index), uvs[a]? = some uva ∧ uvs[b]? = some uvb ∧ uva ≠ uvb ∧ Colocated (lib.search points) a b) ↔
      HasColocatedVertices lib.toLibrary points := by
    constructor
    · rintro ⟨a, b, uva, uvb, ha, hb, hab, hc⟩
      have hab' := (hne a b _ _ ha hb).1 hab
      have hla : a < points.length := by rw [← hlen]; exact (List.getElem?_eq_some_iff.1 ha).1
      have hlb : b < points.length := by rw [← hlen]; exact (List.getElem?_eq_some_iff.1 hb).1
      rcases Nat.lt_or_gt_of_ne hab' with h | h
      · exact ⟨a, b, h, hlb, hc⟩
      · obtain ⟨u, h1, h2⟩ := hc
        exact ⟨b, a, h, hla, u, h2, h1⟩
    · rintro ⟨i, j, hij, hj, hc⟩
      have hi' : i < uvs.length := by rw [hlen]; exact Nat.lt_trans hij hj
      have hj' : j < uvs.length := by rw [hlen]; exact hj
      exact ⟨i, j, _, _, List.getElem?_eq_getElem hi', List.getElem?_eq_getElem hj',
        (hne i j _ _ (List.getElem?_eq_getElem hi') (List.getElem?_eq_getElem hj')).2 (Nat.ne_of_lt hij), hc⟩
  unfold FindsNear at hfind
  rw [hcol, hfind]
  constructor
  · rintro ⟨i, j, a, b, hij, ha, hb, hnear⟩
    have hi' : i < uvs.length := by rw [hlen]; exact (List.getElem?_eq_some_iff.1 ha).1
    have hj' : j < uvs.length := by rw [hlen]; exact (List.getElem?_eq_some_iff.1 hb).1
    have hu := List.getElem?_eq_getElem hi'
    have hv := List.getElem?_eq_getElem hj'
    obtain ⟨fu, hfu, hpu⟩ := hget i _ a hu ha
    obtain ⟨fv, hfv, hpv⟩ := hget j _ b hv hb
    exact ⟨uvs[i], uvs[j], a, b, fu, fv, ((hmem _).1 (List.getElem_mem hi')).1, ((hmem _).1 (List.getElem_mem hj')).1,
      (hne i j _ _ hu hv).2 hij, hfu, hpu, hfv, hpv, hnear⟩
  · rintro ⟨u, v, p, q, fu, fv, hu, hv, huv, hfu, hpu, hfv, hpv, hnear⟩
    have hidx : ∀ (u : Index) (fu : ComponentMeshVertex) (p : P), u < m.nbUniqueVertices → FirstActive m u fu → IsAt lib m fu p →
        ∃ i : Nat, uvs[i]? = some u ∧ points[i]? = some p := by
      intro u fu p hu hfu hpu
      have hcmv : fu ∈ m.componentMeshVertices u := by
        obtain ⟨before, after, he, _⟩ := hfu
        rw [he]; simp
      have hact : IsActiveId m fu.component_id.id := by
        obtain ⟨before, after, _, ha, _⟩ := hfu
        exact ha
      obtain ⟨i, hi, he⟩ := List.mem_iff_getElem.1 ((hmem u).2 ⟨hu, fu, hcmv, hact⟩)
      have hi' : i < points.length := by rw [← hlen]; exact hi
      refine ⟨i, by rw [List.getElem?_eq_getElem hi, he], ?_⟩
      rw [List.getElem?_eq_getElem hi']
      obtain ⟨f', hf', hp'⟩ := hget i u _ (by rw [List.getElem?_eq_getElem hi, he]) (List.getElem?_eq_getElem hi')
      have hff : f' = fu := by
        rw [Plain.firstActive_iff lib m] at hf' hfu
        rw [hf'] at hfu
        exact Option.some.inj hfu
      subst hff
      have hty := (ht u f' hcmv).1
      rw [Plain.isAt_iff hm f' hty] at hp' hpu
      rw [hp', hpu]
    obtain ⟨i, hi, hp⟩ := hidx u fu p hu hfu hpu
    obtain ⟨j, hj, hq⟩ := hidx v fv q hv hfv hpv
    exact ⟨i, j, p, q, (hne i j _ _ hi hj).1 huv, hp, hq, hnear⟩

theorem colocatedUvs (h : NumbersOf σ m) (hm : MeshesOk lib m) (ht : KnownTypes brep (m.uniqueVertices lib))
    (hm' : MeshesOk lib (withNumbers σ m)) (ht' : KnownTypes brep ((withNumbers σ m).uniqueVertices lib))
    {near : P → P → Prop} (hn : UniqueVerticesNear lib near m) (hn' : UniqueVerticesNear lib near (withNumbers σ m)) :
    PlainColocatedUniqueVertices lib (withNumbers σ m) ↔ PlainColocatedUniqueVertices lib m := by
  rw [colocated_near hm ht hn, colocated_near hm' ht' hn']
  constructor
  · rintro ⟨u, v, p, q, fu, fv, hu, hv, huv, hfu, hpu, hfv, hpv, hnear⟩
    obtain ⟨u', e1⟩ := σ.surjective u
    obtain ⟨v', e2⟩ := σ.surjective v
    subst e1 e2
    exact ⟨u', v', p, q, fu, fv, (h.range _).1 hu, (h.range _).1 hv, fun e => huv (congrArg σ e), (firstActive _ _).1 hfu, hpu,
      (firstActive _ _).1 hfv, hpv, hnear⟩
  · rintro ⟨u, v, p, q, fu, fv, hu, hv, huv, hfu, hpu, hfv, hpv, hnear⟩
    exact ⟨σ u, σ v, p, q, fu, fv, (h.range _).2 hu, (h.range _).2 hv, fun e => huv (σ.injective e), (firstActive _ _).2 hfu,
      hpu, (firstActive _ _).2 hfv, hpv, hnear⟩

end

end Inspector.Numbers
