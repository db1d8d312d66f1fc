import Verif.Model.TopologyLines
import Verif.Spec.Common
/-
Specification of the topology criteria, in terms of the components, of the relationships and of the
component mesh vertices of a model, without the loops of the code.
-/
namespace Inspector.Spec

/-- The model has a component of this kind and uuid. -/
def Has (m : TopologyModel) (kind : ComponentType) (id : Uuid) : Prop :=
  ∃ c ∈ m.components kind, c.id = id

/-- The component of this kind and uuid exists and is active. -/
def Active (m : TopologyModel) (kind : ComponentType) (id : Uuid) : Prop :=
  ∃ c ∈ m.components kind, c.id = id ∧ c.active = true

/-- The unique vertex `v` is a vertex of the component. -/
def At (m : TopologyModel) (v : Index) (kind : ComponentType) (id : Uuid) : Prop :=
  ∃ cmv ∈ m.componentMeshVertices v, cmv.component_id = ⟨kind, id⟩

/-- The unique vertex `v` is a vertex of the active component. -/
def ActiveAt (m : TopologyModel) (v : Index) (kind : ComponentType) (id : Uuid) : Prop :=
  At m v kind id ∧ Active m kind id

/-- The unique vertex `v` is linked twice (at two positions of its list) to active components of a kind. -/
def TwiceActive (m : TopologyModel) (v : Index) (kind : ComponentType) : Prop :=
  ∃ a b, [a, b].Sublist (m.componentMeshVertices v) ∧
    a.component_id.type = kind ∧ Active m kind a.component_id.id ∧
    b.component_id.type = kind ∧ Active m kind b.component_id.id

/-- What the model guarantees (OpenGeode): uuids are unique, and the component mesh vertices and the
relationships refer to existing components. -/
structure WellFormed (m : TopologyModel) : Prop where
  ids : ∀ kind, ((m.components kind).map TopologyComponent.id).Nodup
  vertices : ∀ v < m.nbUniqueVertices, ∀ cmv ∈ m.componentMeshVertices v,
    Has m cmv.component_id.type cmv.component_id.id
  embeddings : ∀ id, ∀ c ∈ m.embeddings id, Has m c.type c.id
  incidences : ∀ id, ∀ c ∈ m.incidences id, Has m c.type c.id
  boundaries : ∀ id, ∀ c ∈ m.boundaries id, Has m c.type c.id

/-- Every component of a kind has mesh elements. -/
def AllMeshed (m : TopologyModel) (kind : ComponentType) : Prop :=
  ∀ c ∈ m.components kind, c.nbElements ≠ 0

/-! ### Corners -/

/-- A corner at `v` has several embeddings. -/
def CornerWithSeveralEmbeddings (m : TopologyModel) (v : Index) : Prop :=
  ∃ corner, ActiveAt m v .corner corner ∧ 1 < (m.embeddings corner).length

/-- A corner at `v` is neither internal to nor boundary of anything. -/
def CornerAlone (m : TopologyModel) (v : Index) : Prop :=
  ∃ corner, ActiveAt m v .corner corner ∧ m.embeddings corner = [] ∧ m.incidences corner = []

/-- A corner and a line meet at `v`, and the corner is not a boundary of the line (Section). -/
def CornerNotBoundaryOfLine (m : TopologyModel) (v : Index) : Prop :=
  ∃ corner line, ActiveAt m v .corner corner ∧ At m v .line line ∧ m.isBoundary corner line = false

/-- A corner at `v` is embedded in several components, one being an active block (BRep). -/
def CornerMultiplyEmbedded (m : TopologyModel) (v : Index) : Prop :=
  ∃ corner, ActiveAt m v .corner corner ∧ 1 < (m.embeddings corner).length ∧
    ∃ block, ⟨.block, block⟩ ∈ m.embeddings corner ∧ Active m .block block

/-- A corner and an active line meet at `v`, the corner is not a boundary of the line, and it is not the
case that it is internal to the line and linked exactly twice to `v` (BRep). -/
def CornerNotOnLine (m : TopologyModel) (v : Index) : Prop :=
  ∃ corner line, ActiveAt m v .corner corner ∧ ActiveAt m v .line line ∧ m.isBoundary corner line = false ∧
    ¬ (m.isInternal corner line = true ∧
      ((m.componentMeshVertices v).filter fun cmv => cmv.component_id.id == corner).length = 2)

/-! ### Lines of a Section -/

/-- A line at `v` is neither internal to nor boundary of anything. -/
def LineAlone (m : TopologyModel) (v : Index) : Prop :=
  ∃ line, ActiveAt m v .line line ∧ m.embeddings line = [] ∧ m.incidences line = []

/-- The embeddings of an embedded line are not valid at `v` (Section): several embeddings, an embedding and
an incidence, or an active meshed embedding surface without vertex at `v`. -/
def EmbeddedLineIsWrong (m : TopologyModel) (v : Index) (line : Uuid) : Prop :=
  1 < (m.embeddings line).length ∨ m.incidences line ≠ [] ∨
    (AllMeshed m .surface ∧ ∃ e ∈ m.embeddings line, Active m .surface e.id ∧
      ∀ cmv ∈ m.componentMeshVertices v, cmv.component_id.id ≠ e.id)

/-- An embedded line at `v` is not valid (Section). -/
def InvalidEmbeddedLine (m : TopologyModel) (v : Index) : Prop :=
  ∃ line, ActiveAt m v .line line ∧ m.embeddings line ≠ [] ∧ EmbeddedLineIsWrong m v line

/-- `v` is on one line only, which is active, and this line and the surfaces at `v` are not consistent
(Section). -/
def InvalidSingleLine (m : TopologyModel) (v : Index) : Prop :=
  ∃ line, ActiveAt m v .line line ∧ (∀ l, At m v .line l → l = line) ∧
    ((∃ a b c, a ≠ b ∧ a ≠ c ∧ b ≠ c ∧ At m v .surface a ∧ At m v .surface b ∧ At m v .surface c) ∨
     (m.embeddings line ≠ [] ∧ AllMeshed m .surface ∧
        ¬ ∃ s, At m v .surface s ∧ (∀ s', At m v .surface s' → s' = s) ∧ m.isInternal line s = true) ∨
     (m.embeddings line = [] ∧ ∃ s, At m v .surface s ∧ m.isBoundary line s = false))

/-- `v` is linked several times to active lines, and to no corner. -/
def LinesWithoutCorner (m : TopologyModel) (v : Index) : Prop :=
  TwiceActive m v .line ∧ ¬ ∃ corner, At m v .corner corner

/-! ### Lines of a BRep -/

/-- An embedding of a line at `v` is also incident to the line, or has no vertex at `v` (a block counts only
if all blocks are meshed) (BRep). -/
def BRepInvalidEmbeddedLine (m : TopologyModel) (v : Index) : Prop :=
  ∃ line, ActiveAt m v .line line ∧ ∃ e ∈ m.embeddings line,
    m.isBoundary line e.id = true ∨ ((e.type = .block → AllMeshed m .block) ∧ ¬ At m v e.type e.id)

/-- `v` is on one line only, which is active and related to a surface, and this line and the surfaces and
blocks at `v` are not consistent (BRep). -/
def BRepInvalidSingleLine (m : TopologyModel) (v : Index) : Prop :=
  ∃ line, ActiveAt m v .line line ∧ (∀ l, At m v .line l → l = line) ∧
    ((∃ s, ⟨.surface, s⟩ ∈ m.embeddings line) ∨ m.incidences line ≠ []) ∧
    ((∃ s, At m v .surface s ∧ (∀ s', At m v .surface s' → s' = s) ∧ m.isInternal line s = false ∧
        m.embeddings s = [] ∧ m.isBoundary line s = false) ∨
     ((∀ s, ¬ At m v .surface s) ∧ AllMeshed m .block ∧
        ¬ ∃ b, At m v .block b ∧ (∀ b', At m v .block b' → b' = b) ∧ m.isInternal line b = true) ∨
     (∃ s s', s ≠ s' ∧ At m v .surface s ∧ At m v .surface s' ∧
        m.isBoundary line s = false ∧ m.isInternal line s = false))

/-- The first edge of a line and its surfaces are not consistent (BRep): an active surface bounded by the
line without exactly one edge on it, an active surface embedding the line without at least two edges on it,
or, for a line without surface, an active surface with edges on it. -/
def FirstEdgeIsWrong (m : TopologyModel) (line : Uuid) : Prop :=
  (∃ s, ⟨.surface, s⟩ ∈ m.incidences line ∧ Active m .surface s ∧ (m.surfaceEdges line 0).find? s ≠ some 1) ∨
  (∃ s, ⟨.surface, s⟩ ∈ m.embeddings line ∧ Active m .surface s ∧
    ¬ ∃ n, (m.surfaceEdges line 0).find? s = some n ∧ 2 ≤ n) ∨
  (m.incidences line = [] ∧ (∀ s, ⟨.surface, s⟩ ∉ m.embeddings line) ∧
    ∃ s n, (s, n) ∈ m.surfaceEdges line 0 ∧ Active m .surface s)

/-- A line with edges at `v` is not consistent with its surfaces (BRep). -/
def BRepLineWrong (m : TopologyModel) (v : Index) : Prop :=
  ∃ line, ActiveAt m v .line line ∧ (∃ c ∈ m.components .line, c.id = line ∧ c.nbElements ≠ 0) ∧
    FirstEdgeIsWrong m line

/-- An edge of a line and the surface and block edges around it are not consistent (BRep). -/
def EdgeIsWrong (m : TopologyModel) (line : Uuid) (edge : Index) : Prop :=
  (∃ s n, (s, n) ∈ m.surfaceEdges line edge ∧ Active m .surface s ∧
    ¬ (m.isBoundary line s = true ∧ n = 1) ∧
    ¬ (m.isBoundary line s = false ∧ m.isInternal line s = true ∧ n = 2)) ∨
  (∃ s, (⟨.surface, s⟩ ∈ m.embeddings line ∨ ⟨.surface, s⟩ ∈ m.incidences line) ∧ Active m .surface s ∧
    ∀ n, (s, n) ∉ m.surfaceEdges line edge) ∨
  (∃ b n, (b, n) ∈ m.blockEdges line edge ∧ Active m .block b ∧ m.isInternal line b = true ∧ n ≠ 1) ∨
  (∃ c ∈ m.components .block, ⟨.block, c.id⟩ ∈ m.embeddings line ∧ c.active = true ∧ c.nbElements ≠ 0 ∧
    ∀ n, (c.id, n) ∉ m.blockEdges line edge)

/-- What OpenGeode guarantees on the edges and facets found around an edge or a polygon: the maps have one
entry per existing component, the iteration visits the entries, and edges and polygons are made of vertices
of the mesh. -/
structure AroundWellFormed (m : TopologyModel) : Prop where
  iterate : ∀ map, (m.iterate map).Perm map
  surfaces : ∀ line e s n, (s, n) ∈ m.surfaceEdges line e → Has m .surface s
  surfaceKeys : ∀ line e, ((m.surfaceEdges line e).map Prod.fst).Nodup
  blocks : ∀ line e b n, (b, n) ∈ m.blockEdges line e → Has m .block b
  blockKeys : ∀ line e, ((m.blockEdges line e).map Prod.fst).Nodup
  polygons : ∀ surface f b n, (b, n) ∈ m.blockPolygons surface f → Has m .block b
  edgeVertices : ∀ c ∈ m.components .line, ∀ e < c.nbElements, ∀ v ∈ m.lineEdgeVertices c.id e,
    v < c.nbVertices
  facetVertices : ∀ c ∈ m.components .surface, ∀ f < c.nbElements, ∀ v ∈ m.polygonVertices c.id f,
    v < c.nbVertices

/-! ### Vertices of components -/

/-- Vertex `v` of the mesh of a component has no unique vertex. -/
def NotAssociated (m : TopologyModel) (kind : ComponentType) (c : TopologyComponent) (v : Index) : Prop :=
  v < c.nbVertices ∧ m.uniqueVertex ⟨⟨kind, c.id⟩, v⟩ = none

/-- A cmv which is a vertex of an active component of the kind. -/
def ActiveCmv (m : TopologyModel) (kind : ComponentType) (cmv : ComponentMeshVertex) : Prop :=
  cmv.component_id.type = kind ∧ Active m kind cmv.component_id.id

/-- Answer of the embedded lines check of a Section on a list: an invalid embedded line before any active
line without embedding. -/
def EmbeddedBefore (m : TopologyModel) (v : Index) (l : List ComponentMeshVertex) : Prop :=
  ∃ pre cmv post, l = pre ++ cmv :: post ∧ ActiveCmv m .line cmv ∧ m.embeddings cmv.component_id.id ≠ [] ∧
    EmbeddedLineIsWrong m v cmv.component_id.id ∧
    ∀ c ∈ pre, ActiveCmv m .line c → m.embeddings c.component_id.id ≠ []

/-- An embedding of a line is also incident to the line, or has no vertex at `v` (a block counts only if all blocks
are meshed): the condition of `BRepInvalidEmbeddedLine`. -/
def EmbeddingWrong (m : TopologyModel) (v : Index) (line : Uuid) (e : ComponentID) : Prop :=
  m.isBoundary line e.id = true ∨ ((e.type = .block → AllMeshed m .block) ∧ ¬ At m v e.type e.id)

/-- The first wrong embedding at `v`, in the order of the component mesh vertices of `v` and of the embeddings of each
active line, is not in a surface of the model (it is in a block): its message cannot be made (BRep). -/
def UnreadableEmbedding (m : TopologyModel) (v : Index) : Prop :=
  ∃ pre cmv post, m.componentMeshVertices v = pre ++ cmv :: post ∧ ActiveCmv m .line cmv ∧
    (∀ c ∈ pre, ActiveCmv m .line c → ∀ e ∈ m.embeddings c.component_id.id, ¬ EmbeddingWrong m v c.component_id.id e) ∧
    ∃ pre' e post', m.embeddings cmv.component_id.id = pre' ++ e :: post' ∧ ¬ Has m .surface e.id ∧
      EmbeddingWrong m v cmv.component_id.id e ∧ ∀ e' ∈ pre', ¬ EmbeddingWrong m v cmv.component_id.id e'

/-- There is a unique vertex with such an embedding. -/
def LinesUnreadable (m : TopologyModel) : Prop := ∃ v, v < m.nbUniqueVertices ∧ UnreadableEmbedding m v

/-- The lists on lines (not on unique vertices) of the inspection of the lines of a BRep. -/
def BRepLinesComponents (m : TopologyModel) (r : BRepLinesTopologyInspectionResult) : Prop :=
  r.lines_not_meshed.issues =
    ((m.activeComponents .line).filter fun c => c.nbVertices == 0 || c.nbElements == 0).map
      TopologyComponent.id ∧
  MapReports r.lines_not_linked_to_a_unique_vertex (m.activeComponents .line) TopologyComponent.id
    (fun c l => Exactly (· < ·) (NotAssociated m .line c) l) ∧
  MapReports r.line_edges_with_wrong_component_edges_around (m.activeComponents .line) TopologyComponent.id
    (fun c l => Exactly (· < ·) (fun e => e < c.nbElements ∧ (∀ v, ¬ NotAssociated m .line c v) ∧
      EdgeIsWrong m c.id e) l)

end Inspector.Spec
