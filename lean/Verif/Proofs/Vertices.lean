import Verif.Spec.Vertices
import Verif.Proofs.Numbers
import Verif.Proofs.Renumber
import Verif.Proofs.TrianglesMeet
/-
Proofs for C132: the defects of a model do not depend on the numbers of the vertices of the meshes of its components.
-/
namespace Inspector.Vertices
open Inspector Spec

/-- The same topology, with other numbers of vertices, beside the edges around those of the Lines. -/
structure Places (σ : ComponentID → Equiv.Perm Nat) (t t' : TopologyModel) : Prop where
  range : ∀ kind, ∀ c ∈ t.components kind, Renumbers (σ ⟨kind, c.id⟩) c.nbVertices
  components : t'.components = t.components
  nbUniqueVertices : t'.nbUniqueVertices = t.nbUniqueVertices
  cmvs : ∀ v, t'.componentMeshVertices v = (t.componentMeshVertices v).map (vertexOf σ)
  uniqueVertex : ∀ c, t'.uniqueVertex (vertexOf σ c) = t.uniqueVertex c
  isBoundary : t'.isBoundary = t.isBoundary
  isInternal : t'.isInternal = t.isInternal
  embeddings : t'.embeddings = t.embeddings
  incidences : t'.incidences = t.incidences
  boundaries : t'.boundaries = t.boundaries
  isVertexOnBorder : ∀ id v, t'.isVertexOnBorder id (σ ⟨.surface, id⟩ v) = t.isVertexOnBorder id v
  blockPolygons : t'.blockPolygons = t.blockPolygons
  polygonVertices : ∀ id p, t'.polygonVertices id p = (t.polygonVertices id p).map (σ ⟨.surface, id⟩)

/-- The same topology, with other numbers of vertices. -/
structure Turned (σ : ComponentID → Equiv.Perm Nat) (t t' : TopologyModel) : Prop extends Places σ t t' where
  surfaceEdges : t'.surfaceEdges = t.surfaceEdges
  blockEdges : t'.blockEdges = t.blockEdges

theorem component_id (σ : ComponentID → Equiv.Perm Nat) (c : ComponentMeshVertex) :
    (vertexOf σ c).component_id = c.component_id := rfl

theorem filter_component (σ : ComponentID → Equiv.Perm Nat) (l : List ComponentMeshVertex) (q : ComponentID → Bool) :
    (l.map (vertexOf σ)).filter (fun c => q c.component_id) = (l.filter fun c => q c.component_id).map (vertexOf σ) := by
  rw [List.filter_map]; rfl

theorem map_component {α : Type} (σ : ComponentID → Equiv.Perm Nat) (l : List ComponentMeshVertex) (q : ComponentID → α) :
    (l.map (vertexOf σ)).map (fun c => q c.component_id) = l.map fun c => q c.component_id := by
  rw [List.map_map]; rfl

theorem sublist_two (σ : ComponentID → Equiv.Perm Nat) (l : List ComponentMeshVertex) (q : ComponentID → ComponentID → Prop) :
    (∃ a b, [a, b].Sublist (l.map (vertexOf σ)) ∧ q a.component_id b.component_id) ↔
      ∃ a b, [a, b].Sublist l ∧ q a.component_id b.component_id := by
  constructor
  · rintro ⟨a, b, h1, h2⟩
    obtain ⟨l', h3, h4⟩ := List.sublist_map_iff.1 h1
    match l', h4 with
    | [x, y], h4 =>
      simp only [List.map_cons, List.map_nil, List.cons.injEq, and_true] at h4
      obtain ⟨rfl, rfl⟩ := h4
      exact ⟨x, y, h3, h2⟩
  · rintro ⟨a, b, h1, h2⟩
    exact ⟨vertexOf σ a, vertexOf σ b, by simpa using h1.map (vertexOf σ), h2⟩

section
variable {σ : ComponentID → Equiv.Perm Nat} {t t' : TopologyModel} (s : Places σ t t')
include s

theorem active (kind : ComponentType) (id : Uuid) : Active t' kind id ↔ Active t kind id := by
  unfold Active; rw [s.components]

theorem ex_cmv (v : Index) (q : ComponentMeshVertex → Prop) :
    (∃ c ∈ t'.componentMeshVertices v, q c) ↔ ∃ c ∈ t.componentMeshVertices v, q (vertexOf σ c) := by
  simp only [s.cmvs, List.mem_map, exists_exists_and_eq_and]

theorem all_cmv (v : Index) (q : ComponentMeshVertex → Prop) :
    (∀ c ∈ t'.componentMeshVertices v, q c) ↔ ∀ c ∈ t.componentMeshVertices v, q (vertexOf σ c) := by
  simp only [s.cmvs, List.mem_map, forall_exists_index, and_imp, forall_apply_eq_imp_iff₂]

theorem at_ (v : Index) (kind : ComponentType) (id : Uuid) : At t' v kind id ↔ At t v kind id := by
  unfold At; rw [ex_cmv s]; rfl

theorem activeAt (v : Index) (kind : ComponentType) (id : Uuid) : ActiveAt t' v kind id ↔ ActiveAt t v kind id := by
  unfold ActiveAt; simp only [at_ s, active s]

theorem allMeshed (kind : ComponentType) : AllMeshed t' kind ↔ AllMeshed t kind := by
  unfold AllMeshed; rw [s.components]

theorem activeCmv (kind : ComponentType) (c : ComponentMeshVertex) : ActiveCmv t' kind (vertexOf σ c) ↔ ActiveCmv t kind c := by
  unfold ActiveCmv; simp only [active s]; rfl

theorem uniqueVertex (kind : ComponentType) (id : Uuid) (v : Index) :
    t'.uniqueVertex ⟨⟨kind, id⟩, σ ⟨kind, id⟩ v⟩ = t.uniqueVertex ⟨⟨kind, id⟩, v⟩ := s.uniqueVertex ⟨⟨kind, id⟩, v⟩

theorem ex_vertex {kind : ComponentType} {c : TopologyComponent} (hc : c ∈ t.components kind) :
    (∃ v, NotAssociated t' kind c v) ↔ ∃ v, NotAssociated t kind c v := by
  unfold NotAssociated
  exact Numbers.exists_moved (s.range kind c hc) fun v => by rw [uniqueVertex s]

theorem twiceActive (v : Index) (kind : ComponentType) : TwiceActive t' v kind ↔ TwiceActive t v kind := by
  unfold TwiceActive
  simp only [s.cmvs, active s]
  exact sublist_two σ (t.componentMeshVertices v) fun a b => a.type = kind ∧ Active t kind a.id ∧ b.type = kind ∧ Active t kind b.id

theorem no_cmv (v : Index) (id : Uuid) : (∀ cmv ∈ t'.componentMeshVertices v, cmv.component_id.id ≠ id) ↔
    ∀ cmv ∈ t.componentMeshVertices v, cmv.component_id.id ≠ id := by
  rw [all_cmv s]; rfl

theorem cmvExists (kinds : List ComponentType) (c : ComponentMeshVertex) :
    CmvExists t' kinds (vertexOf σ c) ↔ CmvExists t kinds c := by
  unfold CmvExists
  rw [s.components]
  refine and_congr_right fun _ => exists_congr fun x => and_congr_right fun hx => and_congr_right fun hid => ?_
  have := s.range _ x hx
  show σ c.component_id c.vertex < _ ↔ _
  rw [show c.component_id = ⟨c.component_id.type, x.id⟩ by rw [show x.id = c.component_id.id from hid]]
  exact this _

theorem bijectivelyLinked (kinds : List ComponentType) : BijectivelyLinked t' kinds ↔ BijectivelyLinked t kinds := by
  unfold BijectivelyLinked
  simp only [s.nbUniqueVertices, all_cmv s, cmvExists s, s.uniqueVertex, active s, component_id]
  simp only [s.cmvs, ne_eq, List.map_eq_nil_iff]

theorem unmeshed (kinds : List ComponentType) : HasUnmeshedComponent t' kinds ↔ HasUnmeshedComponent t kinds := by
  unfold HasUnmeshedComponent; simp only [s.components]

theorem unlinked (kinds : List ComponentType) : HasUnlinkedVertex t' kinds ↔ HasUnlinkedVertex t kinds := by
  unfold HasUnlinkedVertex
  rw [s.components]
  refine exists_congr fun kind => and_congr_right fun _ => exists_congr fun c => and_congr_right fun hc =>
    and_congr_right fun _ => ex_vertex s hc

theorem all_associated {kind : ComponentType} {c : TopologyComponent} (hc : c ∈ t.components kind) :
    (∀ v, ¬ NotAssociated t' kind c v) ↔ ∀ v, ¬ NotAssociated t kind c v := by
  rw [← not_exists, ← not_exists, ex_vertex s hc]

theorem onBorder (c : ComponentMeshVertex) (h : c.component_id.type = .surface) :
    t'.isVertexOnBorder (vertexOf σ c).component_id.id (vertexOf σ c).vertex =
      t.isVertexOnBorder c.component_id.id c.vertex := by
  obtain ⟨⟨kind, id⟩, v⟩ := c
  obtain rfl : kind = .surface := h
  exact s.isVertexOnBorder id v

theorem embeddedBefore (v : Index) : EmbeddedBefore t' v (t'.componentMeshVertices v) ↔
    EmbeddedBefore t v (t.componentMeshVertices v) := by
  have hw : ∀ line, EmbeddedLineIsWrong t' v line ↔ EmbeddedLineIsWrong t v line := by
    intro line
    unfold EmbeddedLineIsWrong
    simp only [s.embeddings, s.incidences, allMeshed s, active s, no_cmv s]
  unfold EmbeddedBefore
  simp only [hw, s.embeddings, s.cmvs]
  constructor
  · rintro ⟨pre, c, post, h1, h2, h3, h4, h5⟩
    obtain ⟨pre', rest, h6, rfl, h7⟩ := List.map_eq_append_iff.1 h1
    obtain ⟨c', post', rfl, rfl, rfl⟩ := List.map_eq_cons_iff.1 h7
    exact ⟨pre', c', post', h6, (activeCmv s _ _).1 h2, h3, h4, fun x hx ha =>
      h5 (vertexOf σ x) (List.mem_map_of_mem hx) ((activeCmv s _ _).2 ha)⟩
  · rintro ⟨pre, c, post, h1, h2, h3, h4, h5⟩
    refine ⟨pre.map (vertexOf σ), vertexOf σ c, post.map (vertexOf σ), by rw [h1]; simp, (activeCmv s _ _).2 h2, h3, h4, ?_⟩
    intro x hx ha
    obtain ⟨x, hx', rfl⟩ := List.mem_map.1 hx
    exact h5 x hx' ((activeCmv s _ _).1 ha)

theorem lineNotOnBorder (v : Index) : LineNotOnBorder t' v ↔ LineNotOnBorder t v := by
  unfold LineNotOnBorder
  simp only [allMeshed s, activeAt s, ex_cmv s]
  refine and_congr_right fun _ => and_congr_right fun _ => exists_congr fun c => and_congr_right fun _ => ?_
  rw [activeCmv s]
  exact and_congr_right fun h => by rw [onBorder s c h.1]

theorem sectionVertex (v : Index) : SectionVertexDefect t' v ↔ SectionVertexDefect t v := by
  unfold SectionVertexDefect
  rw [embeddedBefore s, lineNotOnBorder s]
  unfold CornerWithSeveralEmbeddings CornerAlone CornerNotBoundaryOfLine LineAlone InvalidSingleLine LinesWithoutCorner
    TwoSurfacesWithoutLine
  simp only [ne_eq, active s, at_ s, activeAt s, allMeshed s, s.embeddings, s.incidences,
    twiceActive s, s.isBoundary, s.isInternal]

theorem sectionTopology : SectionTopologyDefect t' ↔ SectionTopologyDefect t := by
  unfold SectionTopologyDefect
  simp only [s.nbUniqueVertices, sectionVertex s, bijectivelyLinked s, unmeshed s, unlinked s]

/-! ### BReps -/

theorem surfacesAt_eq (v : Index) : surfacesAt t' v = surfacesAt t v := by
  unfold surfacesAt
  rw [s.cmvs, List.filter_map, List.map_map]
  rfl

omit s in
theorem firstEdge (s : Turned σ t t') (line : Uuid) : FirstEdgeIsWrong t' line ↔ FirstEdgeIsWrong t line := by
  unfold FirstEdgeIsWrong
  have p := s.toPlaces
  simp only [s.incidences, s.embeddings, active p, s.surfaceEdges]

omit s in
theorem brepLineWrong (s : Turned σ t t') (v : Index) : BRepLineWrong t' v ↔ BRepLineWrong t v := by
  unfold BRepLineWrong
  have p := s.toPlaces
  simp only [activeAt p, firstEdge s, s.components]

theorem cmvs_of (v : Index) (id : Uuid) :
    ((t'.componentMeshVertices v).filter fun cmv => cmv.component_id.id == id).length =
      ((t.componentMeshVertices v).filter fun cmv => cmv.component_id.id == id).length := by
  rw [s.cmvs, filter_component σ _ fun c => c.id == id, List.length_map]

theorem lineCmvs (v : Index) :
    ((t'.componentMeshVertices v).filter fun cmv => decide (cmv.component_id.type = .line)).map
        ComponentMeshVertex.component_id =
    ((t.componentMeshVertices v).filter fun cmv => decide (cmv.component_id.type = .line)).map
        ComponentMeshVertex.component_id := by
  rw [s.cmvs, filter_component σ _ fun c => decide (c.type = .line), List.map_map]
  rfl

theorem relatedLine (v : Index) : RelatedLineNotOnBorder t' v ↔ RelatedLineNotOnBorder t v := by
  unfold RelatedLineNotOnBorder
  simp only [ex_cmv s, activeAt s, s.isBoundary, s.isInternal, s.embeddings, s.incidences]
  refine exists_congr fun c => and_congr_right fun _ => ?_
  exact and_congr_right fun h => by rw [onBorder s c h]; rfl

theorem cornerNotOnLine (v : Index) : CornerNotOnLine t' v ↔ CornerNotOnLine t v := by
  unfold CornerNotOnLine
  simp only [activeAt s, s.isBoundary, s.isInternal, cmvs_of s]

theorem invalidMultiple (v : Index) : InvalidMultipleSurfaces t' v ↔ InvalidMultipleSurfaces t v := by
  unfold InvalidMultipleSurfaces
  simp only [ne_eq, at_ s, activeAt s, s.isBoundary, s.isInternal, s.embeddings, surfacesAt_eq s, lineCmvs s]

theorem invalidEmbeddedSurface (v : Index) : InvalidEmbeddedSurface t' v ↔ InvalidEmbeddedSurface t v := by
  unfold InvalidEmbeddedSurface
  simp only [activeAt s, active s, allMeshed s, s.embeddings, s.isBoundary, no_cmv s]

theorem brepVertex (v : Index) (hl : BRepLineWrong t' v ↔ BRepLineWrong t v) :
    BRepVertexDefect t' v ↔ BRepVertexDefect t v := by
  unfold BRepVertexDefect
  simp only [cornerNotOnLine s, invalidMultiple s, invalidEmbeddedSurface s, relatedLine s, hl]
  unfold CornerMultiplyEmbedded CornerAlone BRepInvalidEmbeddedLine BRepInvalidSingleLine LinesWithoutCorner
  simp only [ne_eq, active s, at_ s, activeAt s, allMeshed s, s.embeddings, s.incidences,
    twiceActive s, s.isBoundary, s.isInternal, s.components]

omit s in
theorem edgeWrong (s : Turned σ t t') (line : Uuid) (e : Index) : EdgeIsWrong t' line e ↔ EdgeIsWrong t line e := by
  unfold EdgeIsWrong
  have p := s.toPlaces
  simp only [s.surfaceEdges, s.blockEdges, active p, s.isBoundary, s.isInternal, s.embeddings, s.incidences, s.components]

theorem facetWrong (surface : Uuid) (f : Index) : FacetIsWrong t' surface f ↔ FacetIsWrong t surface f := by
  unfold FacetIsWrong
  simp only [s.blockPolygons, active s, s.isBoundary, s.isInternal]

theorem cannotBound (x : Uuid) : CannotBound t' x ↔ CannotBound t x := by
  unfold CannotBound Closable; simp only [s.boundaries]

theorem sheets (b line : Uuid) : boundarySheets t' b line = boundarySheets t b line := by
  unfold boundarySheets boundarySurfaces
  simp only [s.isBoundary, s.isInternal, s.boundaries]

theorem cmvsOf_eq (v : Index) (kind : ComponentType) : cmvsOf t' v kind = (cmvsOf t v kind).map (vertexOf σ) := by
  unfold cmvsOf
  rw [s.cmvs, filter_component σ _ fun c => decide (c.type = kind)]

theorem cmvsOf_count (v : Index) (kind : ComponentType) (q : ComponentID → Bool) :
    ((cmvsOf t' v kind).filter fun c => q c.component_id).length =
      ((cmvsOf t v kind).filter fun c => q c.component_id).length := by
  rw [cmvsOf_eq s, filter_component, List.length_map]

theorem linesAt_eq (v : Index) : linesAt t' v = linesAt t v := by
  unfold linesAt
  rw [cmvsOf_eq s, map_component σ _ fun c => c.id, s.embeddings]

theorem lineInside (b line : Uuid) : LineInside t' b line ↔ LineInside t b line := by
  unfold LineInside; simp only [s.embeddings, s.incidences, s.isInternal]

theorem countIsRight (v : Index) (b : Uuid) : CountIsRight t' v b ↔ CountIsRight t v b := by
  have h1 : nbBlockCmvs t' v b = nbBlockCmvs t v b := cmvsOf_count s v .block fun c => decide (c.id = b)
  have h2 : nbBoundarySurfaceCmvs t' v b = nbBoundarySurfaceCmvs t v b := by
    unfold nbBoundarySurfaceCmvs
    rw [s.isBoundary]
    exact cmvsOf_count s v .surface fun c => t.isBoundary c.id b
  have h3 : nbInternalSurfaceCmvs t' v b = nbInternalSurfaceCmvs t v b := by
    unfold nbInternalSurfaceCmvs
    rw [s.isBoundary, s.isInternal]
    exact cmvsOf_count s v .surface fun c => !t.isBoundary c.id b && t.isInternal c.id b
  have h4 : (cmvsOf t' v .corner).length = (cmvsOf t v .corner).length := by rw [cmvsOf_eq s, List.length_map]
  unfold CountIsRight expectedCount
  rw [h1, h2, h3, h4]
  unfold nbLinesInside nbLinePassages nbAdditionalPassages nbSeveralPassages
  simp only [linesAt_eq s, sheets s, lineInside s]

theorem openBoundary (b : Uuid) : HasOpenBoundary t' b ↔ HasOpenBoundary t b := by
  unfold HasOpenBoundary; simp only [s.boundaries, s.incidences, active s, s.isBoundary]

theorem allLinked (Q : List Uuid) : AllLinked t' Q ↔ AllLinked t Q := by
  have : (fun x y => SharesLine t' x y ∧ y ∈ Q) = fun x y => SharesLine t x y ∧ y ∈ Q := by
    funext x y
    unfold SharesLine
    simp only [s.boundaries]
  unfold AllLinked LinkedIn
  rw [this]

theorem blocksVertex (v : Index) (inside : Uuid → Uuid → Except Failure Bool) :
    (TwoBlocksWithoutSurface t' v ∨ BlockCountWrong t' v ∨ SingleInvalidSurface t' v ∨
      SurfaceWrongForBlocks t' v inside ∨ MultipleInvalidSurfaces t' v) ↔
    (TwoBlocksWithoutSurface t v ∨ BlockCountWrong t v ∨ SingleInvalidSurface t v ∨ SurfaceWrongForBlocks t v inside ∨
      MultipleInvalidSurfaces t v) := by
  unfold TwoBlocksWithoutSurface BlockCountWrong SingleInvalidSurface SurfaceWrongForBlocks MultipleInvalidSurfaces
    RelatedSurface OutsideBlocks
  simp only [ne_eq, at_ s, activeAt s, allMeshed s, s.embeddings, s.incidences, s.isBoundary, s.isInternal,
    countIsRight s, cannotBound s, s.components]

theorem linked_eq (x : Uuid) (processed : List Uuid) :
    findLinkedProcessedSurface t' x processed = findLinkedProcessedSurface t x processed := by
  unfold findLinkedProcessedSurface TopologyModel.related
  rw [s.incidences, s.boundaries]

theorem loop_eq (fuel : Nat) : ∀ (processed Q : List Uuid) (skip : Nat),
    closedLinkedLoop t' fuel processed Q skip = closedLinkedLoop t fuel processed Q skip := by
  induction fuel with
  | zero => exact fun _ _ _ => rfl
  | succ fuel ih =>
    intro processed Q skip
    cases Q with
    | nil => rfl
    | cons x Q =>
      unfold closedLinkedLoop
      simp only [ih, linked_eq s]

/-- The queues of linked surfaces do not read the vertices. -/
theorem parts_eq (fuel n : Nat) : ∀ Q : List Uuid, linkedBoundaryParts t' fuel n Q = linkedBoundaryParts t fuel n Q := by
  induction n with
  | zero => exact fun _ => rfl
  | succ n ih =>
    intro Q
    cases Q with
    | nil => rfl
    | cons x Q =>
      unfold linkedBoundaryParts closedLinkedSurfaces
      simp only [ih, loop_eq s]

theorem queue_eq (block : Uuid) : queueWithBlockBoundaries t' block = queueWithBlockBoundaries t block := by
  obtain ⟨_, h1, _, _, _, h4, h5, h6, h7, h8, _, h12, _⟩ := s
  obtain ⟨⟩ := t
  obtain ⟨⟩ := t'
  simp only at h1 h4 h5 h6 h7 h8 h12
  subst h1 h4 h5 h6 h7 h8 h12
  rfl

theorem component_eq (kind : ComponentType) (id : Uuid) : t'.component kind id = t.component kind id := by
  unfold TopologyModel.component
  rw [s.components]

end

/-! ### the fused surface -/

/-- A fused mesh with the new numbers. -/
def moveFused (σ : ComponentID → Equiv.Perm Nat) (f : FusedSurface) : FusedSurface :=
  { f with points := f.points.map fun p => (p.1, σ ⟨.surface, p.1⟩ p.2) }

theorem fused_back (σ : ComponentID → Equiv.Perm Nat) (f : FusedSurface) : fusedVertices σ (moveFused σ f) = f := by
  obtain ⟨p, q, r⟩ := f
  simp [fusedVertices, moveFused, Function.comp_def]

section
variable {σ : ComponentID → Equiv.Perm Nat} {t t' : TopologyModel} (s : Places σ t t')
include s

theorem fuseVertex_moved (surface : Uuid) (f : FusedSurface) (l : List Nat) (v : Index) :
    fuseVertex t' surface (moveFused σ f, l) (σ ⟨.surface, surface⟩ v) =
      (moveFused σ (fuseVertex t surface (f, l) v).1, (fuseVertex t surface (f, l) v).2) := by
  unfold fuseVertex
  simp only [uniqueVertex s, moveFused]
  cases h : f.mapping.find? fun e => e.1 == t.uniqueVertex ⟨⟨.surface, surface⟩, v⟩ with
  | none => simp
  | some e => simp

theorem fuseVertices_moved (surface : Uuid) (vs : List Index) : ∀ (f : FusedSurface) (l : List Nat),
    (vs.map (σ ⟨.surface, surface⟩)).foldl (fuseVertex t' surface) (moveFused σ f, l) =
      (moveFused σ (vs.foldl (fuseVertex t surface) (f, l)).1, (vs.foldl (fuseVertex t surface) (f, l)).2) := by
  induction vs with
  | nil => exact fun f l => rfl
  | cons v vs ih =>
    intro f l
    rw [List.map_cons, List.foldl_cons, List.foldl_cons, fuseVertex_moved s, ih]

theorem fusePolygon_moved (surface : Uuid) (f : FusedSurface) (p : Index) :
    fusePolygon t' surface (moveFused σ f) p = moveFused σ (fusePolygon t surface f p) := by
  unfold fusePolygon
  rw [s.polygonVertices, fuseVertices_moved s]
  rfl

theorem fusePolygons_moved (surface : Uuid) (ps : List Index) : ∀ f : FusedSurface,
    ps.foldl (fusePolygon t' surface) (moveFused σ f) = moveFused σ (ps.foldl (fusePolygon t surface) f) := by
  induction ps with
  | nil => exact fun f => rfl
  | cons p ps ih =>
    intro f
    rw [List.foldl_cons, List.foldl_cons, fusePolygon_moved s, ih]

theorem fuse_moved (l : List Uuid) : fuseBRepSurfacesFromList t' l = (fuseBRepSurfacesFromList t l).map (moveFused σ) := by
  unfold fuseBRepSurfacesFromList
  have : ∀ f : FusedSurface,
      l.foldlM (fun fused surface_id => do
        let surface ← t'.component .surface surface_id
        return (List.range surface.nbElements).foldl (fusePolygon t' surface_id) fused) (moveFused σ f) =
      (l.foldlM (fun fused surface_id => do
        let surface ← t.component .surface surface_id
        return (List.range surface.nbElements).foldl (fusePolygon t surface_id) fused) f : Except Failure _).map
        (moveFused σ) := by
    induction l with
    | nil => exact fun f => rfl
    | cons x l ih =>
      intro f
      rw [List.foldlM_cons, List.foldlM_cons, component_eq s]
      cases h : t.component .surface x with
      | error e => rfl
      | ok c =>
        show l.foldlM _ ((List.range c.nbElements).foldl (fusePolygon t' x) (moveFused σ f)) = _
        rw [fusePolygons_moved s, ih]
        rfl
  exact this {}

theorem partInside (o : BlocksOracle) (mesh : FusedSurface) (part : List Uuid) :
    PartInside t' (oracleVertices σ o).geometry (moveFused σ mesh) part ↔ PartInside t o.geometry mesh part := by
  unfold PartInside
  rw [s.components]
  refine forall₂_congr fun x _ => forall₂_congr fun c hc => forall_congr' fun hid => ?_
  subst hid
  have hr := s.range _ c hc
  have he : ∀ v, (oracleVertices σ o).geometry.isVertexInside (moveFused σ mesh) c.id (σ ⟨.surface, c.id⟩ v) =
      o.geometry.isVertexInside mesh c.id v := by
    intro v
    show o.geometry.isVertexInside (fusedVertices σ (moveFused σ mesh)) c.id _ = _
    rw [fused_back, Equiv.symm_apply_apply]
  constructor
  · intro h v hv
    rw [← he]
    exact h _ ((hr v).2 hv)
  · intro h v hv
    obtain ⟨u, rfl⟩ := (σ ⟨.surface, c.id⟩).surjective v
    rw [he]
    exact h _ ((hr u).1 hv)

theorem meshEncloses (o : BlocksOracle) (parts : List (List Uuid)) (i : Nat) :
    MeshEncloses t' (oracleVertices σ o).geometry parts i ↔ MeshEncloses t o.geometry parts i := by
  unfold MeshEncloses
  refine exists_congr fun p => ?_
  rw [fuse_moved s]
  cases h : fuseBRepSurfacesFromList t p with
  | error e => simp [Except.map]
  | ok mesh =>
    simp only [Except.map, Except.ok.injEq, ↓existsAndEq, and_true, partInside s]

theorem encloses (o : BlocksOracle) (block : Uuid) :
    BoundaryEncloses t' (oracleVertices σ o).geometry block ↔ BoundaryEncloses t o.geometry block := by
  unfold BoundaryEncloses
  simp only [parts_eq s, queue_eq s, meshEncloses s]
  exact Iff.rfl

theorem blocksDefect (o : BlocksOracle) : BlocksDefect t' (oracleVertices σ o) ↔ BlocksDefect t o := by
  unfold BlocksDefect
  have h1 : (∃ c ∈ t'.components .block, c.active = true ∧ BlockMeshed c ∧ ∃ v, NotAssociated t' .block c v) ↔
      ∃ c ∈ t.components .block, c.active = true ∧ BlockMeshed c ∧ ∃ v, NotAssociated t .block c v := by
    rw [s.components]
    exact exists_congr fun c => and_congr_right fun hc => and_congr_right fun _ => and_congr_right fun _ => ex_vertex s hc
  rw [h1]
  simp only [allLinked s, s.components, openBoundary s, encloses s o, s.nbUniqueVertices, blocksVertex s]
  exact Iff.rfl

/-- An edge of an active Line, with unique vertices, is wrong. -/
def LineEdgeDefect (t : TopologyModel) : Prop :=
  ∃ c ∈ t.components .line, c.active = true ∧ (∀ v, ¬ NotAssociated t .line c v) ∧
    ∃ e, e < c.nbElements ∧ EdgeIsWrong t c.id e

omit s in
theorem lineEdges (s : Turned σ t t') : LineEdgeDefect t' ↔ LineEdgeDefect t := by
  unfold LineEdgeDefect
  have p := s.toPlaces
  rw [s.components]
  refine exists_congr fun c => and_congr_right fun hc => and_congr_right fun _ => ?_
  rw [all_associated p hc]
  simp only [edgeWrong s]

theorem surfaceFacets : (∃ c ∈ t'.components .surface, c.active = true ∧ (∀ v, ¬ NotAssociated t' .surface c v) ∧
      AllMeshed t' .block ∧ ∃ f, f < c.nbElements ∧ FacetIsWrong t' c.id f) ↔
    ∃ c ∈ t.components .surface, c.active = true ∧ (∀ v, ¬ NotAssociated t .surface c v) ∧
      AllMeshed t .block ∧ ∃ f, f < c.nbElements ∧ FacetIsWrong t c.id f := by
  rw [s.components]
  refine exists_congr fun c => and_congr_right fun hc => and_congr_right fun _ => ?_
  rw [all_associated s hc]
  simp only [facetWrong s, allMeshed s]

theorem brepTopology_of (o : BlocksOracle) (he : LineEdgeDefect t' ↔ LineEdgeDefect t)
    (hl : ¬ HasUnlinkedVertex t sectionKinds → ¬ LineEdgeDefect t → ∀ v, BRepLineWrong t' v ↔ BRepLineWrong t v) :
    BRepTopologyDefect t' (oracleVertices σ o) ↔ BRepTopologyDefect t o := by
  have h1 : ∀ (t : TopologyModel) (o : BlocksOracle), BRepTopologyDefect t o ↔ ¬ BijectivelyLinked t brepKinds ∨
      HasUnmeshedComponent t sectionKinds ∨ HasUnlinkedVertex t sectionKinds ∨
      (∃ v, v < t.nbUniqueVertices ∧ BRepVertexDefect t v) ∨ LineEdgeDefect t ∨
      (∃ c ∈ t.components .surface, c.active = true ∧ (∀ v, ¬ NotAssociated t .surface c v) ∧ AllMeshed t .block ∧
        ∃ f, f < c.nbElements ∧ FacetIsWrong t c.id f) ∨ BlocksDefect t o := fun _ _ => Iff.rfl
  rw [h1, h1, blocksDefect s o, he, surfaceFacets s]
  simp only [bijectivelyLinked s, unmeshed s, unlinked s, s.nbUniqueVertices]
  by_cases hu : HasUnlinkedVertex t sectionKinds
  · simp only [hu, true_or, or_true]
  by_cases hd : LineEdgeDefect t
  · simp only [hd, true_or, or_true]
  simp only [fun v => brepVertex s v (hl hu hd v)]

omit s in
theorem brepTopology (s : Turned σ t t') (o : BlocksOracle) :
    BRepTopologyDefect t' (oracleVertices σ o) ↔ BRepTopologyDefect t o :=
  brepTopology_of s.toPlaces o (lineEdges s) fun _ _ => brepLineWrong s

theorem otherTopology (o : BlocksOracle) : OtherTopologyDefect t' (oracleVertices σ o) ↔ OtherTopologyDefect t o := by
  unfold OtherTopologyDefect
  rw [blocksDefect s o, surfaceFacets s]
  simp only [bijectivelyLinked s, unmeshed s, unlinked s, s.nbUniqueVertices, cornerNotOnLine s, invalidMultiple s,
    invalidEmbeddedSurface s, relatedLine s, twiceActive s]
  unfold CornerMultiplyEmbedded CornerAlone
  simp only [active s, activeAt s, s.embeddings, s.incidences]

theorem unreadableEmbedding (v : Index) : UnreadableEmbedding t' v ↔ UnreadableEmbedding t v := by
  unfold UnreadableEmbedding EmbeddingWrong Has
  simp only [s.cmvs, s.embeddings, s.isBoundary, allMeshed s, at_ s, s.components]
  constructor
  · rintro ⟨pre, c, post, h1, h2, h3, h4⟩
    obtain ⟨pre', rest, h6, rfl, h7⟩ := List.map_eq_append_iff.1 h1
    obtain ⟨c', post', rfl, rfl, rfl⟩ := List.map_eq_cons_iff.1 h7
    exact ⟨pre', c', post', h6, (activeCmv s _ _).1 h2, fun x hx ha =>
      h3 (vertexOf σ x) (List.mem_map_of_mem hx) ((activeCmv s _ _).2 ha), h4⟩
  · rintro ⟨pre, c, post, h1, h2, h3, h4⟩
    refine ⟨pre.map (vertexOf σ), vertexOf σ c, post.map (vertexOf σ), by rw [h1]; simp, (activeCmv s _ _).2 h2, ?_, h4⟩
    intro x hx ha
    obtain ⟨x, hx', rfl⟩ := List.mem_map.1 hx
    exact h3 x hx' ((activeCmv s _ _).1 ha)

theorem unreadable : LinesUnreadable t' ↔ LinesUnreadable t := by
  unfold LinesUnreadable
  simp only [s.nbUniqueVertices, unreadableEmbedding s]

end

/-! ### points -/

section
variable {P : Type}

theorem filterMap_get {α β : Type} (f : α → Option β) (l : List α) (h : ∀ x ∈ l, (f x).isSome = true) :
    (l.filterMap f).length = l.length ∧ ∀ i : Nat, (l.filterMap f)[i]? = l[i]?.bind f := by
  induction l with
  | nil => simp
  | cons a l ih =>
    obtain ⟨b, hb⟩ := Option.isSome_iff_exists.1 (h a (by simp))
    obtain ⟨h1, h2⟩ := ih fun x hx => h x (by simp [hx])
    refine ⟨by simp [List.filterMap_cons, hb, h1], fun i => ?_⟩
    cases i with
    | zero => simp [List.filterMap_cons, hb]
    | succ i => simp [List.filterMap_cons, hb, h2]

/-- The points are in the order of the new numbers. -/
theorem reordered_points {v : Equiv.Perm Nat} {points : List P} (h : Renumbers v points.length) :
    MovedPoints points (reordered v points) v := by
  have hall : ∀ x ∈ List.range points.length, (points[v.symm x]?).isSome = true := by
    intro x hx
    have hx := List.mem_range.1 hx
    have : v.symm x < points.length := (h _).1 (by rw [Equiv.apply_symm_apply]; exact hx)
    simp [this]
  obtain ⟨h1, h2⟩ := filterMap_get _ _ hall
  refine ⟨by rw [reordered, h1, List.length_range], fun i => ?_⟩
  rw [reordered, h2]
  by_cases hi : i < points.length
  · rw [List.getElem?_range ((h i).2 hi)]
    simp
  · have hv : ¬ v i < points.length := fun x => hi ((h i).1 x)
    rw [List.getElem?_eq_none (by simpa using hv), List.getElem?_eq_none (by simpa using hi)]
    rfl

end

/-! ### models -/

section
variable {P : Type} {lib : ModelLibrary P} {σ : ComponentID → Equiv.Perm Nat} {m : ModelData P}

theorem uniqueVertex_eq (kind : ComponentType) (id : Uuid) (v : Index) :
    (withVertices σ m).uniqueVertex ⟨⟨kind, id⟩, σ ⟨kind, id⟩ v⟩ = m.uniqueVertex ⟨⟨kind, id⟩, v⟩ := by
  show m.uniqueVertex ⟨⟨kind, id⟩, (σ ⟨kind, id⟩).symm (σ ⟨kind, id⟩ v)⟩ = _
  rw [Equiv.symm_apply_apply]

theorem numberOf (kind : ComponentType) (id : Uuid) (v n : Index) :
    NumberOf (withVertices σ m) kind id (σ ⟨kind, id⟩ v) n ↔ NumberOf m kind id v n := by
  unfold NumberOf
  rw [uniqueVertex_eq]
  exact Iff.rfl

theorem isActiveId (id : Uuid) : IsActiveId (withVertices σ m) id ↔ IsActiveId m id := by
  unfold IsActiveId
  simp [withVertices, cornerVertices, lineVertices, faceVertices, volumeVertices]

theorem pointsOf (c : ComponentID) (points : List P) : PointsOf (withVertices σ m) c points ↔
    ∃ p, PointsOf m c p ∧ points = reordered (σ c) p := by
  obtain ⟨kind, id⟩ := c
  unfold PointsOf
  cases kind <;> simp only [withVertices, List.mem_map, exists_exists_and_eq_and, cornerVertices, lineVertices, faceVertices,
    volumeVertices, false_and, exists_false, exists_const]
  all_goals
    constructor
    · rintro ⟨x, h1, h2, h3⟩
      subst h2
      exact ⟨_, ⟨x, h1, rfl, rfl⟩, h3.symm⟩
    · rintro ⟨p, ⟨x, h1, h2, h3⟩, h4⟩
      subst h2 h3
      exact ⟨x, h1, rfl, h4.symm⟩

section
variable (h : VertexNumbersOf σ m)
include h

theorem pointsOf_moved {c : ComponentID} {points : List P} (hp : PointsOf m c points) :
    MovedPoints points (reordered (σ c) points) (σ c) := by
  refine reordered_points ?_
  obtain ⟨kind, id⟩ := c
  cases kind
  case other => exact hp.elim
  all_goals
    obtain ⟨x, h1, h2, h3⟩ := hp
    dsimp only at h2
    subst h2 h3
  exacts [h.corners x h1, h.lines x h1, h.surfaces x h1, h.blocks x h1]

theorem point_at (cmv : ComponentMeshVertex) (p : P) :
    (∃ points, PointsOf (withVertices σ m) cmv.component_id points ∧ points[(vertexOf σ cmv).vertex]? = some p) ↔
    ∃ points, PointsOf m cmv.component_id points ∧ points[cmv.vertex]? = some p := by
  simp only [pointsOf]
  constructor
  · rintro ⟨_, ⟨p, h1, rfl⟩, h2⟩
    refine ⟨p, h1, ?_⟩
    rw [← (pointsOf_moved h h1).point]
    exact h2
  · rintro ⟨p, h1, h2⟩
    refine ⟨_, ⟨p, h1, rfl⟩, ?_⟩
    rw [← (pointsOf_moved h h1).point] at h2
    exact h2

theorem isAt (cmv : ComponentMeshVertex) (p : P) :
    IsAt lib (withVertices σ m) (vertexOf σ cmv) p ↔ IsAt lib m cmv p := by
  unfold IsAt
  have := point_at h cmv
  simp only [component_id, this p]
  have h2 : (∃ points q, PointsOf (withVertices σ m) cmv.component_id points ∧ points[(vertexOf σ cmv).vertex]? = some q) ↔
      ∃ points q, PointsOf m cmv.component_id points ∧ points[cmv.vertex]? = some q := by
    rw [exists_comm, exists_comm (α := List P)]
    exact exists_congr this
  rw [h2]

end

theorem vertexOf_injective (σ : ComponentID → Equiv.Perm Nat) : Function.Injective (vertexOf σ) := by
  rintro ⟨c, a⟩ ⟨c', b⟩ he
  unfold vertexOf at he
  injection he with h1 h2
  subst h1
  dsimp only at h2 ⊢
  rw [(σ c).injective h2]

theorem vertexOf_surjective (σ : ComponentID → Equiv.Perm Nat) (c : ComponentMeshVertex) : ∃ c0, vertexOf σ c0 = c :=
  ⟨oldVertexOf σ c, by unfold vertexOf oldVertexOf; simp⟩

theorem firstActive (uv : Index) (first : ComponentMeshVertex) :
    FirstActive (withVertices σ m) uv (vertexOf σ first) ↔ FirstActive m uv first := by
  unfold FirstActive
  constructor
  · rintro ⟨before, after, h1, h2, h3⟩
    have h1 : (m.componentMeshVertices uv).map (vertexOf σ) = before ++ vertexOf σ first :: after := h1
    rw [List.map_eq_append_iff] at h1
    obtain ⟨b, r, e1, rfl, e2⟩ := h1
    rw [List.map_eq_cons_iff] at e2
    obtain ⟨f, a, rfl, e3, rfl⟩ := e2
    obtain rfl := vertexOf_injective σ e3
    refine ⟨b, a, e1, (isActiveId _).1 h2, fun c hc ha => h3 (vertexOf σ c) (List.mem_map_of_mem hc) ((isActiveId _).2 ha)⟩
  · rintro ⟨before, after, h1, h2, h3⟩
    refine ⟨before.map (vertexOf σ), after.map (vertexOf σ), ?_, (isActiveId _).2 h2, ?_⟩
    · show (m.componentMeshVertices uv).map (vertexOf σ) = _
      rw [h1]; simp
    · intro c hc
      obtain ⟨c, hc', rfl⟩ := List.mem_map.1 hc
      exact fun ha => h3 c hc' ((isActiveId _).1 ha)

section
variable (h : VertexNumbersOf σ m)
include h

theorem differentPoints (uv : Index) : PlainDifferentPoints lib (withVertices σ m) uv ↔ PlainDifferentPoints lib m uv := by
  unfold PlainDifferentPoints
  constructor
  · rintro ⟨first, p, cmv, q, h1, h2, h3, h4, h5, h6⟩
    obtain ⟨first, rfl⟩ := vertexOf_surjective σ first
    obtain ⟨cmv, h3', rfl⟩ := List.mem_map.1 h3
    exact ⟨first, p, cmv, q, (firstActive _ _).1 h1, (isAt h _ _).1 h2, h3', (isActiveId _).1 h4, (isAt h _ _).1 h5, h6⟩
  · rintro ⟨first, p, cmv, q, h1, h2, h3, h4, h5, h6⟩
    exact ⟨vertexOf σ first, p, vertexOf σ cmv, q, (firstActive _ _).2 h1, (isAt h _ _).2 h2, List.mem_map_of_mem h3,
      (isActiveId _).2 h4, (isAt h _ _).2 h5, h6⟩

theorem activePoints (uvs : List Index) (points : List P) :
    ActivePoints lib (withVertices σ m) uvs points ↔ ActivePoints lib m uvs points := by
  unfold ActivePoints
  have h1 : ∀ uv, (∃ cmv ∈ (withVertices σ m).componentMeshVertices uv, IsActiveId (withVertices σ m) cmv.component_id.id) ↔
      ∃ cmv ∈ m.componentMeshVertices uv, IsActiveId m cmv.component_id.id := by
    intro uv
    show (∃ cmv ∈ (m.componentMeshVertices uv).map (vertexOf σ), _) ↔ _
    constructor
    · rintro ⟨c, hc, ha⟩
      obtain ⟨c, hc', rfl⟩ := List.mem_map.1 hc
      exact ⟨c, hc', (isActiveId _).1 ha⟩
    · rintro ⟨c, hc, ha⟩
      exact ⟨vertexOf σ c, List.mem_map_of_mem hc, (isActiveId _).2 ha⟩
  have h2 : ∀ uv p, (∃ first, FirstActive (withVertices σ m) uv first ∧ IsAt lib (withVertices σ m) first p) ↔
      ∃ first, FirstActive m uv first ∧ IsAt lib m first p := by
    intro uv p
    constructor
    · rintro ⟨c, h1, h2⟩
      obtain ⟨c, rfl⟩ := vertexOf_surjective σ c
      exact ⟨c, (firstActive _ _).1 h1, (isAt h _ _).1 h2⟩
    · rintro ⟨c, h1, h2⟩
      exact ⟨vertexOf σ c, (firstActive _ _).2 h1, (isAt h _ _).2 h2⟩
  simp only [h1, h2]
  exact Iff.rfl

theorem colocatedUvs : PlainColocatedUniqueVertices lib (withVertices σ m) ↔ PlainColocatedUniqueVertices lib m := by
  unfold PlainColocatedUniqueVertices
  simp only [activePoints h]

theorem turned (rt rt' : ModelRuntime) : Turned σ (m.topology rt) ((withVertices σ m).topology rt') where
  range := by
    intro kind c hc
    cases kind
    case other => exact absurd hc List.not_mem_nil
    all_goals obtain ⟨x, hx, rfl⟩ := List.mem_map.1 hc
    exacts [h.corners x hx, h.lines x hx, h.surfaces x hx, h.blocks x hx]
  components := by
    funext kind
    cases kind
    case other => rfl
    all_goals
      simp only [ModelData.topology, withVertices, List.map_map]
      refine List.map_congr_left fun x hx => ?_
      simp only [Function.comp_apply, cornerVertices, lineVertices, faceVertices, volumeVertices]
    · rw [(reordered_points (h.corners x hx)).length]
    · rw [(reordered_points (h.lines x hx)).length]
    · rw [(reordered_points (h.surfaces x hx)).length]
    · rw [(reordered_points (h.blocks x hx)).length]
  nbUniqueVertices := rfl
  cmvs v := rfl
  uniqueVertex c := by
    obtain ⟨⟨kind, id⟩, v⟩ := c
    exact uniqueVertex_eq kind id v
  isBoundary := rfl
  isInternal := rfl
  embeddings := rfl
  incidences := rfl
  boundaries := rfl
  isVertexOnBorder id v := by
    show m.isVertexOnBorder id ((σ ⟨.surface, id⟩).symm (σ ⟨.surface, id⟩ v)) = _
    rw [Equiv.symm_apply_apply]
    rfl
  surfaceEdges := rfl
  blockEdges := rfl
  blockPolygons := rfl
  polygonVertices id p := by
    simp only [ModelData.topology, withVertices, List.find?_map]
    have : ((fun s : FaceData P => s.id == id) ∘ fun s => faceVertices (σ ⟨.surface, s.id⟩) s) = fun s => s.id == id := rfl
    rw [this]
    cases hs : m.surfaces.find? fun s => s.id == id with
    | none => rfl
    | some s =>
      have hid : s.id = id := by simpa using List.find?_some hs
      subst hid
      simp [faceVertices, SurfaceData.polygonVertices]

end

/-! ### meshes of the components -/

theorem splitVertices {near : P → P → Prop} (kind : ComponentType) (id : Uuid) {points : List P}
    (hv : Renumbers (σ ⟨kind, id⟩) points.length)
    (hn : ∀ (i j : Nat) (a b : P), points[i]? = some a → points[j]? = some b →
      (Colocated (lib.search points) i j ↔ near a b))
    (hn' : ∀ (i j : Nat) (a b : P), (reordered (σ ⟨kind, id⟩) points)[i]? = some a →
      (reordered (σ ⟨kind, id⟩) points)[j]? = some b →
      (Colocated (lib.search (reordered (σ ⟨kind, id⟩) points)) i j ↔ near a b)) :
    PlainSplitVertices lib (withVertices σ m) kind id (reordered (σ ⟨kind, id⟩) points) ↔
      PlainSplitVertices lib m kind id points := by
  have hp := reordered_points hv
  unfold PlainSplitVertices
  rw [hp.length]
  have key : ∀ i j, i < points.length → j < points.length →
      ((Colocated (lib.search (reordered (σ ⟨kind, id⟩) points)) (σ ⟨kind, id⟩ i) (σ ⟨kind, id⟩ j) ∧
        ∃ ni nj, NumberOf (withVertices σ m) kind id (σ ⟨kind, id⟩ i) ni ∧
          NumberOf (withVertices σ m) kind id (σ ⟨kind, id⟩ j) nj ∧ ni ≠ nj) ↔
      (Colocated (lib.search points) i j ∧ ∃ ni nj, NumberOf m kind id i ni ∧ NumberOf m kind id j nj ∧ ni ≠ nj)) := by
    intro i j hi hj
    have ei := List.getElem?_eq_getElem hi
    have ej := List.getElem?_eq_getElem hj
    rw [hn i j _ _ ei ej, hn' (σ ⟨kind, id⟩ i) (σ ⟨kind, id⟩ j) _ _ (by rw [hp.point]; exact ei) (by rw [hp.point]; exact ej)]
    simp only [numberOf]
  constructor
  · rintro ⟨i, j, hi, hj, hc⟩
    obtain ⟨i, rfl⟩ := (σ ⟨kind, id⟩).surjective i
    obtain ⟨j, rfl⟩ := (σ ⟨kind, id⟩).surjective j
    exact ⟨i, j, (hv i).1 hi, (hv j).1 hj, (key i j ((hv i).1 hi) ((hv j).1 hj)).1 hc⟩
  · rintro ⟨i, j, hi, hj, hc⟩
    exact ⟨_, _, (hv i).2 hi, (hv j).2 hj, (key i j hi hj).2 hc⟩

theorem edgeAtMost {v : Equiv.Perm Nat} {points points' : List P} (hp : MovedPoints points points' v) (e : Index × Index) :
    EdgeAtMostEps lib.toLibrary points' (movedEdge v e) ↔ EdgeAtMostEps lib.toLibrary points e := by
  unfold EdgeAtMostEps movedEdge
  rw [hp.point, hp.point]

theorem edgeBelow {v : Equiv.Perm Nat} {points points' : List P} (hp : MovedPoints points points' v) (e : Index × Index) :
    EdgeBelowEps lib.toLibrary points' (movedEdge v e) ↔ EdgeBelowEps lib.toLibrary points e := by
  unfold EdgeBelowEps movedEdge
  rw [hp.point, hp.point]

theorem wrongEdge (v : Equiv.Perm Nat) (s : FaceData P) (x : PolygonEdge) :
    WrongEdge (faceVertices v s).toSurfaceMesh x ↔ WrongEdge s.toSurfaceMesh x := by
  unfold WrongEdge IsPolygonEdge EdgeFromTo
  simp only [faceVertices]
  refine and_congr_right fun _ => exists_congr fun q => and_congr_right fun _ => not_congr (exists_congr fun e' => ?_)
  constructor
  · rintro ⟨a, b, h1, ⟨h2, h3⟩, ⟨h4, h5⟩, h6⟩
    subst h2 h3
    exact ⟨_, _, h1, ⟨rfl, rfl⟩, ⟨v.injective h4, v.injective h5⟩, h6⟩
  · rintro ⟨a, b, h1, ⟨h2, h3⟩, ⟨h4, h5⟩, h6⟩
    exact ⟨v a, v b, h1, ⟨congrArg v h2, congrArg v h3⟩, ⟨congrArg v h4, congrArg v h5⟩, h6⟩

theorem uses (v : Equiv.Perm Nat) (s : FaceData P) (e : Index × Index) :
    usesOfEdge (faceVertices v s).toSurfaceMesh (movedEdge v e) = usesOfEdge s.toSurfaceMesh e := by
  unfold usesOfEdge
  refine List.filter_congr fun x _ => decide_eq_decide.2 ?_
  exact Renumber.movedEdge_same (v := v) (a := polygonEdgeEnds s.toSurfaceMesh x) (b := e)

theorem nonManifold_unsorted (mesh : SurfaceMesh) : (∃ e, NonManifoldEdge mesh e) ↔ ∃ e, usesOfEdge mesh e ≠ [] ∧
    ((DeclaredBorder mesh e ∧ (usesOfEdge mesh e).length ≠ 1) ∨
      (¬ DeclaredBorder mesh e ∧ (usesOfEdge mesh e).length ≠ 2)) := by
  constructor
  · rintro ⟨e, _, h⟩
    exact ⟨e, h⟩
  · rintro ⟨e, h⟩
    refine ⟨sortedEdge e, Renumber.sortedEdge_le e, ?_⟩
    unfold DeclaredBorder at h ⊢
    rw [Renumber.uses_congr mesh (Renumber.sortedEdge_same e)]
    exact h

theorem nonManifoldEdge (v : Equiv.Perm Nat) (s : FaceData P) :
    (∃ e, NonManifoldEdge (faceVertices v s).toSurfaceMesh e) ↔ ∃ e, NonManifoldEdge s.toSurfaceMesh e := by
  rw [nonManifold_unsorted, nonManifold_unsorted]
  constructor
  · rintro ⟨e, h⟩
    obtain ⟨x, rfl⟩ := Renumber.movedEdge_from v e
    unfold DeclaredBorder at h
    rw [uses] at h
    exact ⟨x, h⟩
  · rintro ⟨e, h⟩
    refine ⟨movedEdge v e, ?_⟩
    unfold DeclaredBorder
    rw [uses]
    exact h

theorem brokenFan {v : Equiv.Perm Nat} {s : FaceData P} (hv : Renumbers v s.points.length) (i : Index) :
    PlainBrokenFan (faceVertices v s) (v i) ↔ PlainBrokenFan s i := by
  unfold PlainBrokenFan
  simp only [faceVertices, (reordered_points hv).length, Equiv.symm_apply_apply, v.injective.eq_iff, hv i]
  exact Iff.rfl

theorem ex_perm (v : Equiv.Perm Nat) {q q' : Nat → Prop} (hq : ∀ i, q' (v i) ↔ q i) : (∃ i, q' i) ↔ ∃ i, q i :=
  ⟨fun ⟨i, hi⟩ => by obtain ⟨i, rfl⟩ := v.surjective i; exact ⟨i, (hq i).1 hi⟩, fun ⟨i, hi⟩ => ⟨v i, (hq i).2 hi⟩⟩

theorem borderNotOnLine (s : FaceData P) (x : PolygonEdge) :
    BorderNotOnLine (withVertices σ m) (faceVertices (σ ⟨.surface, s.id⟩) s) x ↔ BorderNotOnLine m s x := by
  unfold BorderNotOnLine
  refine and_congr Iff.rfl (and_congr Iff.rfl (not_congr ?_))
  constructor
  · rintro ⟨a, b, u, w, ⟨h1, h2⟩, h3, h4, h5⟩
    subst h1 h2
    exact ⟨_, _, u, w, ⟨rfl, rfl⟩, (uniqueVertex_eq _ _ _).symm.trans h3, (uniqueVertex_eq _ _ _).symm.trans h4, h5⟩
  · rintro ⟨a, b, u, w, ⟨h1, h2⟩, h3, h4, h5⟩
    subst h1 h2
    exact ⟨_, _, u, w, ⟨rfl, rfl⟩, (uniqueVertex_eq _ _ _).trans h3, (uniqueVertex_eq _ _ _).trans h4, h5⟩

theorem edgesOf_volume (v : Equiv.Perm Nat) (b : VolumeData P) :
    edgesOfPolyhedra (volumeVertices v b) = (edgesOfPolyhedra b).map fun x => (x.1, movedEdge v x.2) := by
  unfold edgesOfPolyhedra
  simp only [volumeVertices, List.map_flatMap, List.map_map]
  rfl

theorem movedEdge_back (v : Equiv.Perm Nat) (e : Index × Index) : movedEdge v.symm (movedEdge v e) = e := by
  unfold movedEdge; simp

theorem badTurn (v : Equiv.Perm Nat) (b : VolumeData P) (e : Index × Index) :
    PlainBadTurn (volumeVertices v b) (movedEdge v e) ↔ PlainBadTurn b e := by
  have hf : ((edgesOfPolyhedra (volumeVertices v b)).filter fun x => decide (SameEdge x.2 (movedEdge v e))).map Prod.fst =
      ((edgesOfPolyhedra b).filter fun x => decide (SameEdge x.2 e)).map Prod.fst := by
    rw [edgesOf_volume, List.filter_map, List.map_map]
    have : ((fun x : Index × (Index × Index) => decide (SameEdge x.2 (movedEdge v e))) ∘
        fun x : Index × (Index × Index) => (x.1, movedEdge v x.2)) = fun x => decide (SameEdge x.2 e) := by
      funext x
      exact decide_eq_decide.2 Renumber.movedEdge_same
    rw [this]
    rfl
  have ha : ∀ p, (volumeVertices v b).polyhedraAroundEdge (movedEdge v e) p = b.polyhedraAroundEdge e p := by
    intro p
    show b.polyhedraAroundEdge (movedEdge v.symm (movedEdge v e)) p = _
    rw [movedEdge_back]
  unfold PlainBadTurn
  simp only [ha, hf]
  constructor
  · rintro ⟨p, before, after, h1, h2, h3⟩
    rw [edgesOf_volume] at h1
    obtain ⟨b', r, e1, rfl, e2⟩ := List.map_eq_append_iff.1 h1
    obtain ⟨⟨p', e'⟩, a', rfl, e3, rfl⟩ := List.map_eq_cons_iff.1 e2
    injection e3 with e3 e4
    dsimp only at e3 e4
    have e5 := congrArg (movedEdge v.symm) e4
    rw [movedEdge_back, movedEdge_back] at e5
    subst e3 e5
    refine ⟨p', b', a', e1, fun x hx hs => h2 _ (List.mem_map_of_mem hx) (Renumber.movedEdge_same.2 hs), h3⟩
  · rintro ⟨p, before, after, h1, h2, h3⟩
    refine ⟨p, before.map fun x => (x.1, movedEdge v x.2), after.map fun x => (x.1, movedEdge v x.2), ?_, ?_, h3⟩
    · rw [edgesOf_volume, h1]; simp
    · intro x hx hs
      obtain ⟨x, hx', rfl⟩ := List.mem_map.1 hx
      exact h2 x hx' (Renumber.movedEdge_same.1 hs)

theorem ex_badTurn (v : Equiv.Perm Nat) (b : VolumeData P) :
    (∃ e, PlainBadTurn (volumeVertices v b) e) ↔ ∃ e, PlainBadTurn b e := by
  constructor
  · rintro ⟨e, h⟩
    obtain ⟨x, rfl⟩ := Renumber.movedEdge_from v e
    exact ⟨x, (badTurn v b x).1 h⟩
  · rintro ⟨e, h⟩
    exact ⟨_, (badTurn v b e).2 h⟩

theorem brokenSolidFan {v : Equiv.Perm Nat} {b : VolumeData P} (hv : Renumbers v b.points.length) (i : Index) :
    PlainBrokenSolidFan (volumeVertices v b) (v i) ↔ PlainBrokenSolidFan b i := by
  unfold PlainBrokenSolidFan
  simp only [volumeVertices, (reordered_points hv).length, Equiv.symm_apply_apply, v.injective.eq_iff, hv i]

theorem negative (v : Equiv.Perm Nat) (b : VolumeData P) (p : Index) :
    PlainNegative (volumeVertices v b) p ↔ PlainNegative b p := by
  unfold PlainNegative
  simp only [volumeVertices, Equiv.symm_apply_apply]

theorem borderNotOnSurface (b : VolumeData P) (x : PolyhedronFacet) :
    BorderNotOnSurface (withVertices σ m) (volumeVertices (σ ⟨.block, b.id⟩) b) x ↔ BorderNotOnSurface m b x := by
  unfold BorderNotOnSurface
  refine and_congr Iff.rfl (and_congr Iff.rfl (exists_congr fun uvs => and_congr ?_ Iff.rfl))
  show List.Forall₂ _ ((b.polyhedronFacetVertices x).map _) _ ↔ _
  rw [List.forall₂_map_left_iff]
  have : ∀ w uv, ((withVertices σ m).uniqueVertex ⟨⟨.block, b.id⟩, σ ⟨.block, b.id⟩ w⟩ = some uv) ↔
      m.uniqueVertex ⟨⟨.block, b.id⟩, w⟩ = some uv := fun w uv => by rw [uniqueVertex_eq]
  show List.Forall₂ (fun w uv => (withVertices σ m).uniqueVertex ⟨⟨.block, b.id⟩, σ ⟨.block, b.id⟩ w⟩ = some uv) _ _ ↔ _
  simp only [this]

/-- The assumptions on the colocation search. -/
theorem lineDefect {near : P → P → Prop} (h : VertexNumbersOf σ m) (hn : SearchDecides lib near m)
    (hn' : SearchDecides lib near (withVertices σ m)) {l : LineData P} (hl : l ∈ m.lines) :
    PlainLineDefect lib (withVertices σ m) (lineVertices (σ ⟨.line, l.id⟩) l) ↔ PlainLineDefect lib m l := by
  unfold PlainLineDefect
  exact or_congr (splitVertices .line l.id (h.lines l hl) (hn.lines l hl) (hn'.lines _ (List.mem_map_of_mem hl)))
    (exists_congr fun e => and_congr_right fun _ => edgeAtMost (reordered_points (h.lines l hl)) _)

theorem surfaceDefect {near : P → P → Prop} (h : VertexNumbersOf σ m) (hn : SearchDecides lib near m)
    (hn' : SearchDecides lib near (withVertices σ m)) {s : FaceData P} (hs : s ∈ m.surfaces) :
    PlainSurfaceDefect lib (withVertices σ m) (faceVertices (σ ⟨.surface, s.id⟩) s) ↔ PlainSurfaceDefect lib m s := by
  unfold PlainSurfaceDefect
  refine or_congr (splitVertices .surface s.id (h.surfaces s hs) (hn.surfaces s hs) (hn'.surfaces _ (List.mem_map_of_mem hs))) ?_
  refine or_congr (exists_congr fun x => wrongEdge _ s x) (or_congr (exists_congr fun x => borderNotOnLine s x) ?_)
  refine or_congr (exists_congr fun e => and_congr_right fun _ => edgeBelow (reordered_points (h.surfaces s hs)) _) ?_
  exact or_congr Iff.rfl (or_congr (ex_perm _ (brokenFan (h.surfaces s hs))) (nonManifoldEdge _ s))

theorem blockDefect {near : P → P → Prop} (h : VertexNumbersOf σ m) (hn : SearchDecides lib near m)
    (hn' : SearchDecides lib near (withVertices σ m)) (hf : FacetsCompared lib σ m)
    {b : VolumeData P} (hb : b ∈ m.blocks) :
    PlainBlockDefect lib (withVertices σ m) (volumeVertices (σ ⟨.block, b.id⟩) b) ↔ PlainBlockDefect lib m b := by
  unfold PlainBlockDefect
  refine or_congr (splitVertices .block b.id (h.blocks b hb) (hn.blocks b hb) (hn'.blocks _ (List.mem_map_of_mem hb))) ?_
  refine or_congr (exists_congr fun x => ?_) (or_congr (exists_congr fun x => borderNotOnSurface b x) ?_)
  · unfold WrongFacet
    refine and_congr_right fun hx => exists_congr fun q => and_congr_right fun hq => not_congr (exists_congr fun f' =>
      and_congr_right fun hf' => and_congr ?_ Iff.rfl)
    show lib.isOpposite ((b.polyhedronFacetVertices x).map _) ((b.polyhedronFacetVertices (q, f')).map _) = true ↔ _
    rw [hf.opposite b hb]
  refine or_congr (exists_congr fun e => and_congr_right fun _ => edgeBelow (reordered_points (h.blocks b hb)) _) ?_
  refine or_congr Iff.rfl (or_congr (ex_perm _ (brokenSolidFan (h.blocks b hb))) (or_congr (ex_badTurn _ b) (or_congr ?_ ?_)))
  · unfold ThreeTimesSameFacet
    refine exists_congr fun x => exists_congr fun y => exists_congr fun z => and_congr_right fun _ => and_congr_right fun _ =>
      and_congr_right fun _ => and_congr_right fun ha => ?_
    have ha : ∀ f ∈ [x, y, z], IsPolyhedronFacet b.toSolidMesh f := ha
    exact and_congr (hf.cycle b hb x y (ha x (by simp)) (ha y (by simp))) (hf.cycle b hb x z (ha x (by simp)) (ha z (by simp)))
  · exact exists_congr fun p => negative _ b p

/-! ### relations between the meshes -/

theorem ex_line (q : LineData P → Prop) :
    (∃ l ∈ (withVertices σ m).lines, q l) ↔ ∃ l ∈ m.lines, q (lineVertices (σ ⟨.line, l.id⟩) l) := by
  show (∃ l ∈ m.lines.map _, q l) ↔ _
  simp

theorem ex_face (q : FaceData P → Prop) :
    (∃ s ∈ (withVertices σ m).surfaces, q s) ↔ ∃ s ∈ m.surfaces, q (faceVertices (σ ⟨.surface, s.id⟩) s) := by
  show (∃ l ∈ m.surfaces.map _, q l) ↔ _
  simp

theorem ex_volume (q : VolumeData P → Prop) :
    (∃ b ∈ (withVertices σ m).blocks, q b) ↔ ∃ b ∈ m.blocks, q (volumeVertices (σ ⟨.block, b.id⟩) b) := by
  show (∃ l ∈ m.blocks.map _, q l) ↔ _
  simp

theorem interiorEdge (s : FaceData P) (x : PolygonEdge) (u w : Index) (h : s ∈ m.surfaces) :
    InteriorEdge (withVertices σ m) (faceVertices (σ ⟨.surface, s.id⟩) s) x u w ↔ InteriorEdge m s x u w := by
  unfold InteriorEdge
  have h' : faceVertices (σ ⟨.surface, s.id⟩) s ∈ (withVertices σ m).surfaces := List.mem_map_of_mem h
  simp only [h, h', true_and]
  refine and_congr Iff.rfl (and_congr Iff.rfl (and_congr Iff.rfl ?_))
  constructor
  · rintro ⟨a, b, ⟨h1, h2⟩, h3, h4⟩
    subst h1 h2
    exact ⟨_, _, ⟨rfl, rfl⟩, (numberOf _ _ _ _).1 h3, (numberOf _ _ _ _).1 h4⟩
  · rintro ⟨a, b, ⟨h1, h2⟩, h3, h4⟩
    subst h1 h2
    exact ⟨_, _, ⟨rfl, rfl⟩, (numberOf _ _ _ _).2 h3, (numberOf _ _ _ _).2 h4⟩

theorem twiceInterior : TwiceInterior (withVertices σ m) ↔ TwiceInterior m := by
  unfold TwiceInterior
  constructor
  · rintro ⟨s, x, u, v, s', x', u', v', h1, h2, h3, h4⟩
    obtain ⟨s, hs, rfl⟩ := List.mem_map.1 h1.1
    obtain ⟨s', hs', rfl⟩ := List.mem_map.1 h2.1
    exact ⟨s, x, u, v, s', x', u', v', (interiorEdge _ _ _ _ hs).1 h1, (interiorEdge _ _ _ _ hs').1 h2, h3, h4⟩
  · rintro ⟨s, x, u, v, s', x', u', v', h1, h2, h3, h4⟩
    exact ⟨_, x, u, v, _, x', u', v', (interiorEdge _ _ _ _ h1.1).2 h1, (interiorEdge _ _ _ _ h2.1).2 h2, h3, h4⟩

theorem alone (kind : ComponentType) (id : Uuid) (v : Index) :
    AloneAtUniqueVertex (withVertices σ m) kind id (σ ⟨kind, id⟩ v) ↔ AloneAtUniqueVertex m kind id v := by
  unfold AloneAtUniqueVertex
  simp only [numberOf]
  have : ∀ n, ((withVertices σ m).componentMeshVertices n).length = (m.componentMeshVertices n).length := fun n =>
    List.length_map ..
  simp only [this]

theorem floatingEdge (l : LineData P) :
    FloatingEdge (withVertices σ m) (lineVertices (σ ⟨.line, l.id⟩) l) ↔ FloatingEdge m l := by
  unfold FloatingEdge
  simp only [lineVertices, movedEdge, alone]
  exact Iff.rfl

theorem floatingFacet (s : FaceData P) :
    FloatingFacet (withVertices σ m) (faceVertices (σ ⟨.surface, s.id⟩) s) ↔ FloatingFacet m s := by
  unfold FloatingFacet
  simp only [faceVertices, alone]
  exact Iff.rfl

/-- A Surface as given to the tests of triangles, its vertices having other numbers. -/
def turnSurface (v : Equiv.Perm Nat) (r : ModelSurface P) : ModelSurface P :=
  { r with
    polygonVertices := fun p => (r.polygonVertices p).map v
    point := fun i => r.point (v.symm i)
    uniqueVertex := fun i => r.uniqueVertex (v.symm i) }

theorem turn_surjective (v : Equiv.Perm Nat) (r : ModelSurface P) : ∃ r0, turnSurface v r0 = r :=
  ⟨turnSurface v.symm r, by unfold turnSurface; simp⟩

theorem isPoint {v : Equiv.Perm Nat} {points points' : List P} (hp : MovedPoints points points' v) (i : Index) (p : P) :
    IsPoint lib points' (v i) p ↔ IsPoint lib points i p := by
  unfold IsPoint
  rw [hp.point]

theorem givenSurface (h : VertexNumbersOf σ m) {s : FaceData P} (hs : s ∈ m.surfaces) (r : ModelSurface P) :
    GivenSurface lib (withVertices σ m) (faceVertices (σ ⟨.surface, s.id⟩) s) (turnSurface (σ ⟨.surface, s.id⟩) r) ↔
      GivenSurface lib m s r := by
  have hp := reordered_points (h.surfaces s hs)
  constructor
  · intro g
    refine ⟨g.id, g.active, g.nbPolygons, fun p => ?_, g.nbVertices.trans hp.length, fun v => ?_, fun v => ?_⟩
    · obtain ⟨h1, h2⟩ := g.polygonVertices p
      refine ⟨by simpa [turnSurface, faceVertices] using h1, fun k hk => ?_⟩
      have := h2 k hk
      simpa [turnSurface, faceVertices] using this
    · have := g.point (σ ⟨.surface, s.id⟩ v)
      have := (isPoint hp v _).1 this
      simpa [turnSurface] using this
    · have := g.uniqueVertex (σ ⟨.surface, s.id⟩ v)
      have := (numberOf _ _ _ _).1 this
      simpa [turnSurface, faceVertices] using this
  · intro g
    refine ⟨g.id, g.active, g.nbPolygons, fun p => ?_, g.nbVertices.trans hp.length.symm, fun v => ?_, fun v => ?_⟩
    · obtain ⟨h1, h2⟩ := g.polygonVertices p
      refine ⟨by simpa [turnSurface, faceVertices] using h1, fun k hk => ?_⟩
      have := h2 k hk
      simpa [turnSurface, faceVertices] using this
    · obtain ⟨v, rfl⟩ := (σ ⟨.surface, s.id⟩).surjective v
      refine (isPoint hp v _).2 ?_
      simpa [turnSurface] using g.point v
    · obtain ⟨v, rfl⟩ := (σ ⟨.surface, s.id⟩).surjective v
      refine (numberOf _ _ _ _).2 ?_
      simpa [turnSurface, faceVertices] using g.uniqueVertex v

theorem fan_map (v : Equiv.Perm Nat) (l : List Index) : fan (l.map v) = (fan l).map (List.map v) := by
  unfold fan
  rw [List.length_map, List.map_map]
  refine List.map_congr_left fun k hk => ?_
  have hk := List.mem_range.1 hk
  have key : ∀ i, i < l.length → (l.map v).getD i 0 = v (l.getD i 0) := by
    intro i hi
    simp [List.getD_eq_getElem?_getD, hi]
  simp only [Function.comp_apply, List.map_cons, List.map_nil]
  rw [key 0 (by omega), key (k + 1) (by omega), key (k + 2) (by omega)]

theorem edgesOf_map (v : Equiv.Perm Nat) (t : List Index) : edgesOf (t.map v) = (edgesOf t).map (movedEdge v) := by
  match t with
  | [] => rfl
  | [_] => rfl
  | [_, _] => rfl
  | [_, _, _] => rfl
  | _ :: _ :: _ :: _ :: _ => rfl

theorem firstOf {v : Equiv.Perm Nat} {p p' : Index → Prop} (hp : ∀ x, p' (v x) ↔ p x) (t : List Index) (y : Index) :
    FirstOf p' (t.map v) (v y) ↔ FirstOf p t y := by
  unfold FirstOf
  constructor
  · rintro ⟨before, after, h1, h2, h3⟩
    obtain ⟨b, r, e1, rfl, e2⟩ := List.map_eq_append_iff.1 h1
    obtain ⟨f, a, rfl, e3, rfl⟩ := List.map_eq_cons_iff.1 e2
    obtain rfl := v.injective e3
    exact ⟨b, a, e1, (hp _).1 h2, fun u hu hpu => h3 _ (List.mem_map_of_mem hu) ((hp u).2 hpu)⟩
  · rintro ⟨before, after, rfl, h2, h3⟩
    refine ⟨before.map v, after.map v, by simp, (hp _).2 h2, fun u hu hpu => ?_⟩
    obtain ⟨u, hu', rfl⟩ := List.mem_map.1 hu
    exact h3 u hu' ((hp u).1 hpu)

theorem triangleOf (v : Equiv.Perm Nat) (s : ModelSurface P) (t : List Index) (x : P × P × P) :
    TriangleOf (turnSurface v s) (t.map v) x ↔ TriangleOf s t x := by
  unfold TriangleOf
  constructor
  · rintro ⟨a, b, c, h1, h2⟩
    match t, h1 with
    | [a', b', c'], h1 =>
      simp only [List.map_cons, List.map_nil, List.cons.injEq, and_true] at h1
      obtain ⟨rfl, rfl, rfl⟩ := h1
      exact ⟨a', b', c', rfl, by simpa [turnSurface] using h2⟩
  · rintro ⟨a, b, c, rfl, rfl⟩
    exact ⟨v a, v b, v c, rfl, by simp [turnSurface]⟩

theorem segment (v : Equiv.Perm Nat) (s : ModelSurface P) (e : Index × Index) :
    segmentOf (turnSurface v s) (movedEdge v e) = segmentOf s e := by
  simp [segmentOf, turnSurface, movedEdge]

theorem getElem_map_some (v : Equiv.Perm Nat) (l : List Index) (i : Nat) (c : Index) :
    (l.map v)[i]? = some (v c) ↔ l[i]? = some c := by
  rw [List.getElem?_map]
  exact Numbers.map_eq_some _ _ _

theorem foundAt (g : Geometry P) (v w : Equiv.Perm Nat) (e f : List Index) (found : Position × Position) (c : Index × Index) :
    FoundAt g (e.map v) (f.map w) found (v c.1, w c.2) ↔ FoundAt g e f found c := by
  unfold FoundAt
  simp only [getElem_map_some]

theorem shared (v w : Equiv.Perm Nat) (r1 r2 : ModelSurface P) (a b : Index) :
    Shared (turnSurface v r1) (turnSurface w r2) (v a) (w b) ↔ Shared r1 r2 a b := by
  unfold Shared
  simp [turnSurface]

theorem common (v w : Equiv.Perm Nat) (r1 r2 : ModelSurface P) (t1 t2 : List Index) (c : List (Index × Index)) :
    CommonVertices (turnSurface v r1) (turnSurface w r2) (t1.map v) (t2.map w) (c.map fun x => (v x.1, w x.2)) ↔
      CommonVertices r1 r2 t1 t2 c := by
  have hs : ∀ a, IsShared (turnSurface v r1) (turnSurface w r2) (t2.map w) (v a) ↔ IsShared r1 r2 t2 a := by
    intro a
    unfold IsShared
    simp only [List.mem_map, exists_exists_and_eq_and, shared]
  have hf : (t1.map v).filter (fun a => decide (IsShared (turnSurface v r1) (turnSurface w r2) (t2.map w) a)) =
      (t1.filter fun a => decide (IsShared r1 r2 t2 a)).map v := by
    rw [List.filter_map]
    congr 1
    exact List.filter_congr fun a _ => decide_eq_decide.2 (hs a)
  have ho : ∀ x : Index × Index, FirstOf (fun y => Shared (turnSurface v r1) (turnSurface w r2) (v x.1) y) (t2.map w) (w x.2) ↔
      FirstOf (fun y => Shared r1 r2 x.1 y) t2 x.2 := fun x => firstOf (fun y => shared v w r1 r2 x.1 y) t2 x.2
  have hm : (c.map fun x => (v x.1, w x.2)).map Prod.fst = (c.map Prod.fst).map v := by simp
  constructor
  · rintro ⟨h1, h2⟩
    rw [hf, hm] at h1
    refine ⟨List.map_injective_iff.2 v.injective h1, fun x hx => ?_⟩
    exact (ho x).1 (h2 _ (List.mem_map_of_mem hx))
  · rintro ⟨h1, h2⟩
    refine ⟨by rw [hf, hm, h1], fun x hx => ?_⟩
    obtain ⟨x, hx', rfl⟩ := List.mem_map.1 hx
    exact (ho x).2 (h2 x hx')

theorem ex_common (v w : Equiv.Perm Nat) (q : List (Index × Index) → Prop) :
    (∃ c, q c) ↔ ∃ c : List (Index × Index), q (c.map fun x => (v x.1, w x.2)) := by
  constructor
  · rintro ⟨c, hc⟩
    refine ⟨c.map fun x => (v.symm x.1, w.symm x.2), ?_⟩
    have : (c.map fun x => (v.symm x.1, w.symm x.2)).map (fun x => (v x.1, w x.2)) = c := by
      rw [List.map_map]
      conv_rhs => rw [← List.map_id c]
      exact List.map_congr_left fun x _ => by simp
    rw [this]
    exact hc
  · rintro ⟨c, hc⟩
    exact ⟨_, hc⟩

theorem ex_edge (v : Equiv.Perm Nat) (t : List Index) (q : Index × Index → Prop) :
    (∃ e ∈ edgesOf (t.map v), q e) ↔ ∃ e ∈ edgesOf t, q (movedEdge v e) := by
  rw [edgesOf_map]
  simp only [List.mem_map, exists_exists_and_eq_and]

theorem edgeMeets (g : Geometry P) (v w : Equiv.Perm Nat) (r1 r2 : ModelSurface P) (e : Index × Index) (t : List Index) :
    EdgeMeets g (turnSurface v r1) (turnSurface w r2) (movedEdge v e) (t.map w) ↔ EdgeMeets g r1 r2 e t := by
  unfold EdgeMeets
  simp only [triangleOf, segment]

theorem edgeMeetsElsewhere (g : Geometry P) (v w : Equiv.Perm Nat) (r1 r2 : ModelSurface P) (e : Index × Index)
    (t : List Index) (c : Index × Index) :
    EdgeMeetsElsewhere g (turnSurface v r1) (turnSurface w r2) (movedEdge v e) (t.map w) (v c.1, w c.2) ↔
      EdgeMeetsElsewhere g r1 r2 e t c := by
  unfold EdgeMeetsElsewhere
  simp only [triangleOf, segment]
  refine exists_congr fun x => and_congr_right fun _ => and_congr_right fun _ => not_congr ?_
  exact foundAt g v w [e.1, e.2] t _ c

theorem other_vertex (v : Equiv.Perm Nat) (a b : Index) (x : Index) : (v x ≠ v a ∧ v x ≠ v b) ↔ (x ≠ a ∧ x ≠ b) := by
  simp only [ne_eq, v.injective.eq_iff]

theorem brepMeet (g : Geometry P) (v w : Equiv.Perm Nat) (r1 r2 : ModelSurface P) (t1 t2 : List Index) :
    BRepTrianglesMeet g (turnSurface v r1) (turnSurface w r2) (t1.map v) (t2.map w) ↔ BRepTrianglesMeet g r1 r2 t1 t2 := by
  unfold BRepTrianglesMeet
  rw [ex_common v w]
  refine exists_congr fun c => and_congr (common v w r1 r2 t1 t2 c) ?_
  match c with
  | [] =>
    simp only [List.map_nil, ex_edge, edgeMeets]
  | [c] =>
    simp only [List.map_cons, List.map_nil, ex_edge, edgeMeetsElsewhere]
    refine or_congr Iff.rfl (exists_congr fun e => and_congr_right fun _ => ?_)
    exact edgeMeetsElsewhere g w v r2 r1 e t1 (c.2, c.1)
  | [c0, c1] =>
    simp only [List.map_cons, List.map_nil, triangleOf]
    refine ex_perm v fun x => exists_congr fun y => and_congr (firstOf (other_vertex v c0.1 c1.1) t1 x)
      (and_congr_right fun _ => ?_)
    have h0 := segment v r1 (c0.1, x)
    have h1 := segment v r1 (c1.1, x)
    unfold movedEdge at h0 h1
    rw [h0, h1]
  | _ :: _ :: _ :: _ => exact Iff.rfl

theorem edgesCross (g : Geometry P) (v w : Equiv.Perm Nat) (r1 r2 : ModelSurface P) (e f : Index × Index) :
    EdgesCross g (turnSurface v r1) (turnSurface w r2) (movedEdge v e) (movedEdge w f) ↔ EdgesCross g r1 r2 e f := by
  unfold EdgesCross
  simp only [segment]

/-- Two triangles of a Section: the point of the second common vertex must be found at the same place. -/
theorem sectionMeet (g : Geometry P) (v : Equiv.Perm Nat) (r1 r2 : ModelSurface P) (hr : Renumbers v r1.nbVertices)
    (t1 t2 : List Index) :
    SectionTrianglesMeet g (turnSurface v r1) (turnSurface v r2) (t1.map v) (t2.map v) ↔ SectionTrianglesMeet g r1 r2 t1 t2 := by
  unfold SectionTrianglesMeet
  rw [ex_common v v]
  refine exists_congr fun c => and_congr (common v v r1 r2 t1 t2 c) ?_
  match c with
  | [] =>
    simp only [List.map_nil, ex_edge, edgesCross]
  | [c] =>
    simp only [List.map_cons, List.map_nil, ex_edge, edgesCross, segment]
    refine exists_congr fun e => and_congr_right fun _ => exists_congr fun f => and_congr_right fun _ =>
      and_congr_right fun _ => not_congr ?_
    exact foundAt g v v [e.1, e.2] [f.1, f.2] _ c
  | [c0, c1] =>
    simp only [List.map_cons, List.map_nil]
    refine and_congr (hr c1.2) ?_
    unfold SectionAdjacentMeet
    refine ex_perm v fun x => ex_perm v fun y => ?_
    simp only [triangleOf]
    refine exists_congr fun z1 => exists_congr fun z2 => and_congr (firstOf (other_vertex v c0.1 c1.1) t1 x)
      (and_congr (firstOf (other_vertex v c0.2 c1.2) t2 y) ?_)
    simp only [turnSurface, Equiv.symm_apply_apply]
  | _ :: _ :: _ :: _ => exact Iff.rfl

theorem polygonsMeet (h : VertexNumbersOf σ m) {Meet : ModelSurface P → ModelSurface P → List Index → List Index → Prop}
    (hm : ∀ s1 ∈ m.surfaces, ∀ s2 ∈ m.surfaces, ∀ r1 r2 t1 t2, r1.nbVertices = s1.points.length →
      (Meet (turnSurface (σ ⟨.surface, s1.id⟩) r1) (turnSurface (σ ⟨.surface, s2.id⟩) r2) (t1.map (σ ⟨.surface, s1.id⟩))
        (t2.map (σ ⟨.surface, s2.id⟩)) ↔ Meet r1 r2 t1 t2)) :
    PlainPolygonsMeet lib (withVertices σ m) Meet ↔ PlainPolygonsMeet lib m Meet := by
  have hfan : ∀ v (r : ModelSurface P) p, fan ((turnSurface v r).polygonVertices p) =
      (fan (r.polygonVertices p)).map (List.map v) := fun v r p => fan_map v _
  unfold PlainPolygonsMeet
  constructor
  · rintro ⟨s1, s2, r1, r2, p, q, h1, h2, h3, h4, g1, g2, h5, h6, h7, t1, ht1, t2, ht2, hmeet⟩
    obtain ⟨s1, h1', rfl⟩ := List.mem_map.1 h1
    obtain ⟨s2, h3', rfl⟩ := List.mem_map.1 h3
    obtain ⟨r1, rfl⟩ := turn_surjective (σ ⟨.surface, s1.id⟩) r1
    obtain ⟨r2, rfl⟩ := turn_surjective (σ ⟨.surface, s2.id⟩) r2
    rw [hfan] at ht1 ht2
    obtain ⟨t1, ht1', rfl⟩ := List.mem_map.1 ht1
    obtain ⟨t2, ht2', rfl⟩ := List.mem_map.1 ht2
    have g1' := (givenSurface h h1' _).1 g1
    exact ⟨s1, s2, r1, r2, p, q, h1', h2, h3', h4, g1', (givenSurface h h3' _).1 g2, h5, h6,
      h7, t1, ht1', t2, ht2', (hm s1 h1' s2 h3' _ _ _ _ g1'.nbVertices).1 hmeet⟩
  · rintro ⟨s1, s2, r1, r2, p, q, h1, h2, h3, h4, g1, g2, h5, h6, h7, t1, ht1, t2, ht2, hmeet⟩
    refine ⟨_, _, _, _, p, q, List.mem_map_of_mem h1, h2,
      List.mem_map_of_mem h3, h4, (givenSurface h h1 r1).2 g1, (givenSurface h h3 r2).2 g2, h5, h6,
      h7, t1.map (σ ⟨.surface, s1.id⟩), ?_, t2.map (σ ⟨.surface, s2.id⟩), ?_,
      (hm s1 h1 s2 h3 _ _ _ _ g1.nbVertices).2 hmeet⟩
    · rw [hfan]; exact List.mem_map_of_mem ht1
    · rw [hfan]; exact List.mem_map_of_mem ht2

theorem getD_map (v : Equiv.Perm Nat) {t : List Index} (ht : ∃ a b c, t = [a, b, c]) (r : ModelSurface P) (k : Nat)
    (hk : k < 3) : (turnSurface v r).point ((t.map v).getD k 0) = r.point (t.getD k 0) := by
  obtain ⟨a, b, c, rfl⟩ := ht
  have : k = 0 ∨ k = 1 ∨ k = 2 := by omega
  rcases this with rfl | rfl | rfl <;> simp [turnSurface]

theorem lineMeets (h : VertexNumbersOf σ m) : PlainLineMeetsSurface lib (withVertices σ m) ↔ PlainLineMeetsSurface lib m := by
  have hfan : ∀ v (r : ModelSurface P) p, fan ((turnSurface v r).polygonVertices p) =
      (fan (r.polygonVertices p)).map (List.map v) := fun v r p => fan_map v _
  have h3 : ∀ (r : ModelSurface P) p t, t ∈ fan (r.polygonVertices p) → ∃ a b c, t = [a, b, c] := by
    intro r p t ht
    obtain ⟨k, _, rfl⟩ := List.mem_map.1 ht
    exact ⟨_, _, _, rfl⟩
  unfold PlainLineMeetsSurface
  constructor
  · rintro ⟨s, l, r, p, e, a, b, h1, h2, h3', h4, h5, g, h6, h7, h8, h9, t, ht, x, hx, hm⟩
    obtain ⟨s, h1', rfl⟩ := List.mem_map.1 h1
    obtain ⟨l, h3'', rfl⟩ := List.mem_map.1 h3'
    obtain ⟨r, rfl⟩ := turn_surjective (σ ⟨.surface, s.id⟩) r
    rw [hfan] at ht
    obtain ⟨t, ht', rfl⟩ := List.mem_map.1 ht
    have hp := reordered_points (h.lines l h3'')
    refine ⟨s, l, r, p, e, a, b, h1', h2, h3'', h4, h5, (givenSurface h h1' _).1 g, h6, h7, (isPoint hp _ _).1 h8,
      (isPoint hp _ _).1 h9, t, ht', x, hx, ?_⟩
    rw [getD_map _ (h3 r p t ht') r 0 (by omega), getD_map _ (h3 r p t ht') r 1 (by omega),
      getD_map _ (h3 r p t ht') r 2 (by omega)] at hm
    exact hm
  · rintro ⟨s, l, r, p, e, a, b, h1, h2, h3', h4, h5, g, h6, h7, h8, h9, t, ht, x, hx, hm⟩
    have hp := reordered_points (h.lines l h3')
    refine ⟨_, _, _, p, e, a, b, List.mem_map_of_mem h1, h2, List.mem_map_of_mem h3', h4, h5,
      (givenSurface h h1 r).2 g, h6, h7, (isPoint hp _ _).2 h8, (isPoint hp _ _).2 h9, t.map (σ ⟨.surface, s.id⟩), ?_, x, hx, ?_⟩
    · rw [hfan]; exact List.mem_map_of_mem ht
    · rw [getD_map _ (h3 r p t ht) r 0 (by omega), getD_map _ (h3 r p t ht) r 1 (by omega),
        getD_map _ (h3 r p t ht) r 2 (by omega)]
      exact hm

theorem meshDefect {near : P → P → Prop} (h : VertexNumbersOf σ m) (hn : SearchDecides lib near m)
    (hn' : SearchDecides lib near (withVertices σ m)) (hf : FacetsCompared lib σ m) :
    PlainBRepMeshDefect lib (withVertices σ m) ↔ PlainBRepMeshDefect lib m := by
  unfold PlainBRepMeshDefect
  simp only [ex_line, ex_face, ex_volume, colocatedUvs h, differentPoints h, twiceInterior, floatingEdge, floatingFacet,
    polygonsMeet h fun s1 _ s2 _ r1 r2 t1 t2 _ => brepMeet lib.geometry _ _ r1 r2 t1 t2]
  refine or_congr Iff.rfl (or_congr Iff.rfl (or_congr ?_ (or_congr ?_ (or_congr ?_ Iff.rfl))))
  · exact exists_congr fun l => and_congr_right fun hl => and_congr Iff.rfl (lineDefect h hn hn' hl)
  · exact exists_congr fun l => and_congr_right fun hl => and_congr Iff.rfl (surfaceDefect h hn hn' hl)
  · exact exists_congr fun l => and_congr_right fun hl => and_congr Iff.rfl (blockDefect h hn hn' hf hl)

theorem nonEmptyLines : (∀ l ∈ (withVertices σ m).lines, l.active = true → l.nbEdges ≠ 0) ↔
    ∀ l ∈ m.lines, l.active = true → l.nbEdges ≠ 0 := by
  show (∀ l ∈ m.lines.map _, _) ↔ _
  simp [lineVertices]

end

end Inspector.Vertices
