import Verif.Spec.TopologyInspector
import Verif.Spec.TopologyBlocks
/-
Specification of the messages of the topology inspection: the exact text of each message, with what is true of the
model when it is emitted.
-/
namespace Inspector.Spec

/-- One message per issue, in the same order; the issue and its message are related by `claim`. -/
def Explained {α : Type} (s : Issues α) (claim : α → String → Prop) : Prop := List.Forall₂ claim s.issues s.messages

/-- Every list of the map has the expected description, and its messages are explained. -/
def ExplainedMap {α : Type} (map : IssuesMap α) (description : Uuid → String) (claim : Uuid → α → String → Prop) : Prop :=
  ∀ e ∈ map.entries, e.2.description = description e.1 ∧ Explained e.2 (claim e.1)

variable (m : TopologyModel)

/-- How a component is named: its name (its uuid if it has no name), and its uuid between parentheses. -/
def named (kind : ComponentType) (id : Uuid) : String :=
  (m.nameOf kind id).getD (m.uuidString id) ++ " (" ++ m.uuidString id ++ ")"

/-- The active component has no vertices, and the text names it. -/
inductive CornerNotMeshedSays (ending : String) (id : Uuid) : String → Prop
  | noVertex (c : TopologyComponent) : c ∈ m.components .corner → c.active = true → c.id = id → c.nbVertices = 0 →
      CornerNotMeshedSays ending id ("Corner " ++ named m .corner id ++ ending)

/-- The active component has no vertices or no elements, and the text names it. -/
inductive NotMeshedSays (kind : ComponentType) (kindName ending : String) (id : Uuid) : String → Prop
  | noMesh (c : TopologyComponent) : c ∈ m.components kind → c.active = true → c.id = id →
      (c.nbVertices = 0 ∨ c.nbElements = 0) → NotMeshedSays kind kindName ending id (kindName ++ named m kind id ++ ending)

/-- The vertex of the active component has no unique vertex, and the text gives its index. -/
inductive NotLinkedSays (kind : ComponentType) (id : Uuid) (vertex : Index) : String → Prop
  | notLinked (c : TopologyComponent) : c ∈ m.components kind → c.active = true → c.id = id → NotAssociated m kind c vertex →
      NotLinkedSays kind id vertex ("vertex '" ++ toString vertex ++ " is not linked to a unique vertex.")

/-! ### Corners -/

/-- Message on several corners. -/
inductive SeveralCornersSays (v : Index) : String → Prop
  | twice : TwiceActive m v .corner →
      SeveralCornersSays v ("unique vertex " ++ toString v ++ " is part of several Corners.")

/-- Message on a corner with several embeddings (Section). -/
inductive SeveralEmbeddingsSays (v : Index) : String → Prop
  | several (corner : Uuid) : ActiveAt m v .corner corner → 1 < (m.embeddings corner).length →
      SeveralEmbeddingsSays v ("unique vertex " ++ toString v ++ " is associated to Corner" ++ named m .corner corner ++
        ", which has several embeddings.")

/-- Message on a corner without relationship. -/
inductive CornerAloneSays (v : Index) : String → Prop
  | alone (corner : Uuid) : ActiveAt m v .corner corner → m.embeddings corner = [] → m.incidences corner = [] →
      CornerAloneSays v ("unique vertex " ++ toString v ++ " is associated to Corner " ++ named m .corner corner ++
        ", which is neither internal nor boundary.")

/-- Message on a corner and a line (Section). -/
inductive SectionCornerLineSays (v : Index) : String → Prop
  | notBoundary (corner line : Uuid) : ActiveAt m v .corner corner → At m v .line line →
      m.isBoundary corner line = false →
      SectionCornerLineSays v ("unique vertex " ++ toString v ++ " is associated with Corner " ++ named m .corner corner ++
        ", part of Line " ++ named m .line line ++ ", but is not a boundary of the Line.")

/-- The messages of the inspection of the corners of a Section. -/
structure SectionCornersExplained (r : SectionCornersTopologyInspectionResult) : Prop where
  notMeshed : Explained r.corners_not_meshed (CornerNotMeshedSays m " is not meshed")
  notLinked : ExplainedMap r.corners_not_linked_to_a_unique_vertex (fun id => "Corner " ++ named m .corner id)
    (NotLinkedSays m .corner)
  several : Explained r.unique_vertices_linked_to_multiple_corners (SeveralCornersSays m)
  embeddings : Explained r.unique_vertices_linked_to_multiple_internals_corner (SeveralEmbeddingsSays m)
  alone : Explained r.unique_vertices_linked_to_not_internal_nor_boundary_corner (CornerAloneSays m)
  line : Explained r.unique_vertices_linked_to_not_boundary_line_corner (SectionCornerLineSays m)

/-- Message on a corner with several embeddings (BRep). -/
inductive MultiplyEmbeddedSays (v : Index) : String → Prop
  | several (corner block : Uuid) : ActiveAt m v .corner corner → 1 < (m.embeddings corner).length →
      ⟨.block, block⟩ ∈ m.embeddings corner → Active m .block block →
      MultiplyEmbeddedSays v ("unique vertex " ++ toString v ++ " is associated to Corner " ++ named m .corner corner ++
        ", which is embedded in several components including a Block.")

/-- Number of vertices of a component at `v`. -/
def nbVerticesAt (v : Index) (id : Uuid) : Nat :=
  ((m.componentMeshVertices v).filter fun cmv => decide (cmv.component_id.id = id)).length

/-- Messages on a corner and a line (BRep).  The number of the first one is the number of vertices of the corner. -/
inductive BRepCornerLineSays (v : Index) : String → Prop
  | notClosed (corner line : Uuid) : ActiveAt m v .corner corner → ActiveAt m v .line line →
      m.isBoundary corner line = false → m.isInternal corner line = true → nbVerticesAt m v corner ≠ 2 →
      BRepCornerLineSays v ("unique vertex with index " ++ toString v ++ " is associated with Corner " ++
        named m .corner corner ++ ", which is internal to Line " ++ named m .line line ++
        ", so Line should be closed and have two different vertices on unique vertex, but has " ++
        toString (nbVerticesAt m v corner) ++ " vertices on it instead.")
  | neither (corner line : Uuid) : ActiveAt m v .corner corner → ActiveAt m v .line line →
      m.isBoundary corner line = false → m.isInternal corner line = false →
      BRepCornerLineSays v ("unique vertex " ++ toString v ++ " is associated with Corner " ++ named m .corner corner ++
        ", part of line " ++ named m .line line ++ ", but is neither boundary nor internal of it.")

/-- The messages of the inspection of the corners of a BRep. -/
structure BRepCornersExplained (r : BRepCornersTopologyInspectionResult) : Prop where
  notMeshed : Explained r.corners_not_meshed (CornerNotMeshedSays m " is not meshed.")
  notLinked : ExplainedMap r.corners_not_linked_to_a_unique_vertex (fun id => "Corner " ++ named m .corner id)
    (NotLinkedSays m .corner)
  several : Explained r.unique_vertices_linked_to_multiple_corners (SeveralCornersSays m)
  embedded : Explained r.unique_vertices_linked_to_multiply_embedded_corner (MultiplyEmbeddedSays m)
  alone : Explained r.unique_vertices_linked_to_not_internal_nor_boundary_corner (CornerAloneSays m)
  line : Explained r.unique_vertices_linked_to_not_boundary_line_corner (BRepCornerLineSays m)

/-! ### Lines of a Section -/

/-- The component is the only one of its kind at `v`, and is active. -/
def OnlyActive (v : Index) (kind : ComponentType) (id : Uuid) : Prop :=
  ActiveAt m v kind id ∧ ∀ other, At m v kind other → other = id

/-- Message on a line without relationship (Section). -/
inductive LineAloneSays (v : Index) : String → Prop
  | alone (line : Uuid) : ActiveAt m v .line line → m.embeddings line = [] → m.incidences line = [] →
      LineAloneSays v ("unique vertex " ++ toString v ++ " is part of Line " ++ named m .line line ++
        ", which is neither embedded nor incident.")

/-- Messages on an embedded line (Section). -/
inductive SectionEmbeddedLineSays (v : Index) : String → Prop
  | several (line : Uuid) : ActiveAt m v .line line → 1 < (m.embeddings line).length →
      SectionEmbeddedLineSays v ("unique vertex " ++ toString v ++ " is part of line " ++ named m .line line ++
        ", which has multiple embeddings.")
  | both (line : Uuid) : ActiveAt m v .line line → m.embeddings line ≠ [] → m.incidences line ≠ [] →
      SectionEmbeddedLineSays v ("unique vertex " ++ toString v ++ " is part of Line " ++ named m .line line ++
        ", which has both an embedding and incidence(s).")
  | notLinked (line : Uuid) (embedding : ComponentID) : ActiveAt m v .line line → embedding ∈ m.embeddings line →
      Active m .surface embedding.id → AllMeshed m .surface →
      (∀ cmv ∈ m.componentMeshVertices v, cmv.component_id.id ≠ embedding.id) →
      SectionEmbeddedLineSays v ("unique vertex " ++ toString v ++ " is part of Line " ++
        ((m.nameOf .line line).getD (m.uuidString line) ++ " (" ++ m.componentString ⟨.line, line⟩ ++ ")") ++
        ", which is embedded in surface " ++ named m .surface embedding.id ++
        ", but the unique vertex is not linked to the Surface mesh vertices.")

/-- Messages on the only line at `v` (Section). -/
inductive SectionSingleLineSays (v : Index) : String → Prop
  | threeSurfaces (line : Uuid) : OnlyActive m v .line line →
      (∃ a b c, a ≠ b ∧ a ≠ c ∧ b ≠ c ∧ At m v .surface a ∧ At m v .surface b ∧ At m v .surface c) →
      SectionSingleLineSays v ("unique vertex " ++ toString v ++ " is part of only one Line " ++ named m .line line ++
        ", but part of more than two Surfaces")
  | notInternal (line : Uuid) : OnlyActive m v .line line → m.embeddings line ≠ [] → AllMeshed m .surface →
      (¬ ∃ s, At m v .surface s ∧ (∀ s', At m v .surface s' → s' = s) ∧ m.isInternal line s = true) →
      SectionSingleLineSays v ("unique vertex " ++ toString v ++ " is part of only one Line " ++ named m .line line ++
        ", which has embeddings, but there are more than one meshed Surface associated to the vertex, or " ++
        "the Line is not internal to the meshed Surface associated to the vertex.")
  | notBoundary (line surface : Uuid) : OnlyActive m v .line line → m.embeddings line = [] → At m v .surface surface →
      m.isBoundary line surface = false →
      SectionSingleLineSays v ("unique vertex " ++ toString v ++ " is part of only one Line " ++ named m .line line ++
        ", and mutiple Surfaces, but the Line is not boundary of associated Surface " ++ named m .surface surface)

/-- Message on several lines without corner. -/
inductive SeveralLinesSays (v : Index) : String → Prop
  | twice : TwiceActive m v .line → (∀ corner, ¬ At m v .corner corner) →
      SeveralLinesSays v ("unique vertex " ++ toString v ++ " is part of multiple Lines but is not a Corner.")

/-- The messages of the inspection of the lines of a Section. -/
structure SectionLinesExplained (r : SectionLinesTopologyInspectionResult) : Prop where
  notMeshed : Explained r.lines_not_meshed (NotMeshedSays m .line "Line " " is not meshed")
  notLinked : ExplainedMap r.lines_not_linked_to_a_unique_vertex (fun id => "Line " ++ named m .line id)
    (NotLinkedSays m .line)
  alone : Explained r.unique_vertices_linked_to_line_with_wrong_relationship_to_surface (LineAloneSays m)
  embedded : Explained r.unique_vertices_linked_to_a_line_with_invalid_embeddings (SectionEmbeddedLineSays m)
  single : Explained r.unique_vertices_linked_to_a_single_and_invalid_line (SectionSingleLineSays m)
  several : Explained r.unique_vertices_linked_to_several_lines_but_not_linked_to_a_corner (SeveralLinesSays m)

/-! ### Surfaces of a Section -/

/-- Message on two surfaces without line (Section). -/
inductive TwoSurfacesSays (v : Index) : String → Prop
  | noLine : TwoSurfacesWithoutLine m v →
      TwoSurfacesSays v ("unique vertex " ++ toString v ++
        " is part of two Surfaces, but is associated to no Line boundary of the two Surfaces.")

/-- Message on a line inside a surface (Section). -/
inductive SectionBorderSays (v : Index) : String → Prop
  | inside (line : Uuid) (cmv : ComponentMeshVertex) : ActiveAt m v .line line → cmv ∈ m.componentMeshVertices v →
      ActiveCmv m .surface cmv → m.isVertexOnBorder cmv.component_id.id cmv.vertex = false →
      SectionBorderSays v ("Unique vertex " ++ toString v ++ " is part of a Line and of Surface " ++
        named m .surface cmv.component_id.id ++
        " but the associated vertex in the Surface mesh is not on the mesh border.")

/-- The messages of the inspection of the surfaces of a Section. -/
structure SectionSurfacesExplained (r : SectionSurfacesTopologyInspectionResult) : Prop where
  notMeshed : Explained r.surfaces_not_meshed (NotMeshedSays m .surface "Surface " " is not meshed")
  notLinked : ExplainedMap r.surfaces_not_linked_to_a_unique_vertex (fun id => "Surface " ++ named m .surface id)
    (NotLinkedSays m .surface)
  two : Explained r.unique_vertices_linked_to_a_surface_with_invalid_embbedings (TwoSurfacesSays m)
  border : Explained r.unique_vertices_linked_to_a_line_but_is_not_on_a_surface_border (SectionBorderSays m)

/-! ### Links -/

/-- Message on a unique vertex without link. -/
inductive NoLinkSays (uv : Index) : String → Prop
  | noLink : m.componentMeshVertices uv = [] →
      NoLinkSays uv ("unique vertex " ++ toString uv ++ " is not linked to any mesh vertex.")

/-- Message on a link to nothing. -/
inductive InexistentSays (kinds : List ComponentType) (uv : Index) : String → Prop
  | inexistent (cmv : ComponentMeshVertex) : cmv ∈ m.componentMeshVertices uv → ¬ CmvExists m kinds cmv →
      InexistentSays kinds uv ("unique vertex " ++ toString uv ++ " is linked to inexistant mesh vertex [" ++
        m.cmvString cmv ++ "].")

/-- Message on a link to a vertex linked elsewhere: it says that this vertex does not exist, though it exists. -/
inductive LinkedElsewhereSays (kinds : List ComponentType) (uv : Index) : String → Prop
  | elsewhere (cmv : ComponentMeshVertex) : cmv ∈ m.componentMeshVertices uv → CmvExists m kinds cmv →
      m.uniqueVertex cmv ≠ some uv →
      LinkedElsewhereSays kinds uv ("unique vertex " ++ toString uv ++ " is linked to inexistant mesh vertex [" ++
        m.cmvString cmv ++ "].")

/-- All the messages of the topology inspection of a Section. -/
structure SectionExplained (r : SectionTopologyInspectionResult) : Prop where
  corners : SectionCornersExplained m r.corners
  lines : SectionLinesExplained m r.lines
  surfaces : SectionSurfacesExplained m r.surfaces
  noLink : Explained r.unique_vertices_not_linked_to_any_component (NoLinkSays m)
  inexistent : Explained r.unique_vertices_linked_to_inexistant_cmv (InexistentSays m sectionKinds)
  elsewhere : Explained r.unique_vertices_nonbijectively_linked_to_cmv (LinkedElsewhereSays m sectionKinds)

/-! ### Lines of a BRep -/

/-- Messages on an embedded line (BRep). -/
inductive BRepEmbeddedLineSays (v : Index) : String → Prop
  | both (line : Uuid) (embedding : ComponentID) : ActiveAt m v .line line → embedding ∈ m.embeddings line →
      Has m .surface embedding.id → m.isBoundary line embedding.id = true →
      BRepEmbeddedLineSays v ("unique vertex " ++ toString v ++ " is part of line " ++ named m .line line ++
        ", which is both boundary and embedded in Surface " ++ named m .surface embedding.id ++ ".")
  | notLinked (line : Uuid) (embedding : ComponentID) : ActiveAt m v .line line → embedding ∈ m.embeddings line →
      Has m .surface embedding.id → ¬ At m v embedding.type embedding.id →
      BRepEmbeddedLineSays v ("unique vertex " ++ toString v ++ " is part of Line " ++ named m .line line ++
        ", which is embedded in Surface " ++ named m .surface embedding.id ++
        ", but the unique vertex is not linked to the Surface mesh vertices.")

/-- Messages on a line and the surfaces around its first edge (BRep). -/
inductive BRepLineSurfacesSays (v : Index) : String → Prop
  | boundaryWithoutEdge (line surface : Uuid) : ActiveAt m v .line line → ⟨.surface, surface⟩ ∈ m.incidences line →
      Active m .surface surface → (∀ n, (surface, n) ∉ m.surfaceEdges line 0) →
      BRepLineSurfacesSays v ("unique vertex " ++ toString v ++ " is part of Line " ++ named m .line line ++
        ", which is boundary of Surface " ++ named m .surface surface ++
        ", but Line edge 0 is not part of this surface")
  | boundaryWithEdges (line surface : Uuid) (n : Nat) : ActiveAt m v .line line →
      ⟨.surface, surface⟩ ∈ m.incidences line → Active m .surface surface → (surface, n) ∈ m.surfaceEdges line 0 → n ≠ 1 →
      BRepLineSurfacesSays v ("unique vertex " ++ toString v ++ " is part of Line " ++
        named m .line line ++ ", which is boundary of Surface " ++ named m .surface surface ++
        " but has several surface edges of this surface around Line edge 0")
  | embeddedWithoutEdge (line surface : Uuid) : ActiveAt m v .line line → ⟨.surface, surface⟩ ∈ m.embeddings line →
      Active m .surface surface → (∀ n, (surface, n) ∉ m.surfaceEdges line 0) →
      BRepLineSurfacesSays v ("unique vertex " ++ toString v ++ " is part of Line " ++ named m .line line ++
        ", which is embedded in Surface " ++ named m .surface surface ++
        ", but has no surface edge around Line edge 0")
  | embeddedUncut (line surface : Uuid) (n : Nat) : ActiveAt m v .line line →
      ⟨.surface, surface⟩ ∈ m.embeddings line → Active m .surface surface → (surface, n) ∈ m.surfaceEdges line 0 → n ≤ 1 →
      BRepLineSurfacesSays v ("unique vertex " ++ toString v ++ " is part of Line " ++
        named m .line line ++ ", which is embedded in Surface " ++ named m .surface surface ++
        " but doesn't cut it (should have more than 1 Surface edge around Line edge 0)")
  | unrelated (line surface : Uuid) (n : Nat) : ActiveAt m v .line line → m.incidences line = [] →
      (∀ s, ⟨.surface, s⟩ ∉ m.embeddings line) → Active m .surface surface → (surface, n) ∈ m.surfaceEdges line 0 →
      BRepLineSurfacesSays v ("unique vertex " ++ toString v ++ " is part of Line " ++
        named m .line line ++ ", which should be internal or boundary to Surface " ++
        named m .surface surface)

/-- The components of a kind at `v`. -/
def componentsAt (v : Index) (kind : ComponentType) : Finset Uuid :=
  (((m.componentMeshVertices v).filter fun cmv => decide (cmv.component_id.type = kind)).map
    fun cmv => cmv.component_id.id).toFinset

/-- Messages on the only line at `v` (BRep). -/
inductive BRepSingleLineSays (v : Index) : String → Prop
  | oneSurface (line surface : Uuid) : OnlyActive m v .line line → componentsAt m v .surface = {surface} →
      m.isInternal line surface = false → m.isBoundary line surface = false → m.embeddings surface = [] →
      BRepSingleLineSays v ("unique vertex " ++ toString v ++ " is part of only one Line " ++
        named m .line line ++ ", and only one Surface " ++ named m .surface surface ++
        ", but the Line is neither embedded in the Surface, nor boundary of the Surface while the " ++
        "Surface is embedded in a Block.")
  | blocks (line : Uuid) : OnlyActive m v .line line → componentsAt m v .surface = ∅ → AllMeshed m .block →
      (componentsAt m v .block).card ≠ 1 →
      BRepSingleLineSays v ("unique vertex " ++ toString v ++ " is part of only one Line " ++ named m .line line ++
        ", no Surfaces, but is part of " ++ toString (componentsAt m v .block).card ++ " Blocks, instead of one.")
  | notInternal (line block : Uuid) : OnlyActive m v .line line → componentsAt m v .surface = ∅ → AllMeshed m .block →
      componentsAt m v .block = {block} → m.isInternal line block = false →
      BRepSingleLineSays v ("unique vertex " ++ toString v ++ " is part of only one Line " ++ named m .line line ++
        ", no Surfaces, one Block, but the Line is not internal to the Block.")
  | severalSurfaces (line surface : Uuid) : OnlyActive m v .line line → 1 < (componentsAt m v .surface).card →
      At m v .surface surface → m.isBoundary line surface = false → m.isInternal line surface = false →
      BRepSingleLineSays v ("unique vertex " ++ toString v ++ " is part of only one Line " ++
        named m .line line ++
        ", and multiple Surfaces, but the Line is neither internal nor boundary of Surface " ++
        named m .surface surface ++ ", in which the vertex is.")

/-- Messages on an edge of a line (BRep). -/
inductive EdgeSays (line : Uuid) (edge : Index) : String → Prop
  | boundary (surface : Uuid) (n : Nat) : Active m .surface surface → (surface, n) ∈ m.surfaceEdges line edge →
      m.isBoundary line surface = true → n ≠ 1 →
      EdgeSays line edge ("Line " ++ named m .line line ++ " is boundary of Surface " ++
        named m .surface surface ++ ", but has " ++ toString n ++ " edges of this Surface around it, it should be 1.")
  | internal (surface : Uuid) (n : Nat) : Active m .surface surface → (surface, n) ∈ m.surfaceEdges line edge →
      m.isInternal line surface = true → n ≠ 2 →
      EdgeSays line edge ("Line with uuid '" ++ m.uuidString line ++ "' is internal to Surface " ++
        named m .surface surface ++ ", but has " ++ toString n ++ " edges of this surface around it, it should be 2.")
  | unrelated (surface : Uuid) (n : Nat) : Active m .surface surface → (surface, n) ∈ m.surfaceEdges line edge →
      m.isBoundary line surface = false → m.isInternal line surface = false →
      EdgeSays line edge ("Line with uuid '" ++ m.uuidString line ++ "' has edge with id " ++ toString edge ++
        " in common with Surface " ++ named m .surface surface ++ ", but is neither boundary of nor internal to it.")
  | embeddedWithoutEdge (surface : Uuid) : Active m .surface surface → ⟨.surface, surface⟩ ∈ m.embeddings line →
      (∀ n, (surface, n) ∉ m.surfaceEdges line edge) →
      EdgeSays line edge ("Line " ++ named m .line line ++ " is embedded in Surface " ++ named m .surface surface ++
        " but edge " ++ toString edge ++ " has no common edge with the surface")
  | incidentWithoutEdge (surface : Uuid) : Active m .surface surface → ⟨.surface, surface⟩ ∈ m.incidences line →
      (∀ n, (surface, n) ∉ m.surfaceEdges line edge) →
      EdgeSays line edge ("Line " ++ named m .line line ++ " is incident to Surface " ++ named m .surface surface ++
        " but edge " ++ toString edge ++ " has no common edge with the surface")
  | block (block : Uuid) (n : Nat) : Active m .block block → (block, n) ∈ m.blockEdges line edge →
      m.isInternal line block = true → n ≠ 1 →
      EdgeSays line edge ("Line " ++ named m .line line ++ " is internal to Block " ++
        named m .block block ++ ", but has " ++ toString n ++ " edges of this Block around it, it should be 1.")
  | blockWithoutEdge (block : Uuid) : Active m .block block → ⟨.block, block⟩ ∈ m.embeddings line →
      (∀ n, (block, n) ∉ m.blockEdges line edge) →
      EdgeSays line edge ("Line " ++ named m .line line ++ " is embedded in Block " ++ named m .block block ++
        " but edge " ++ toString edge ++ " has no common edge with the block")

/-- The messages of the inspection of the lines of a BRep. -/
structure BRepLinesExplained (r : BRepLinesTopologyInspectionResult) : Prop where
  notMeshed : Explained r.lines_not_meshed (NotMeshedSays m .line "Line " " is not meshed")
  notLinked : ExplainedMap r.lines_not_linked_to_a_unique_vertex (fun id => "Line " ++ named m .line id)
    (NotLinkedSays m .line)
  edges : ExplainedMap r.line_edges_with_wrong_component_edges_around (fun id => "Line " ++ named m .line id)
    (EdgeSays m)
  embedded : Explained r.unique_vertices_linked_to_a_line_with_invalid_embeddings (BRepEmbeddedLineSays m)
  surfaces : Explained r.unique_vertices_linked_to_line_with_wrong_relationship_to_surface (BRepLineSurfacesSays m)
  single : Explained r.unique_vertices_linked_to_a_single_and_invalid_line (BRepSingleLineSays m)
  several : Explained r.unique_vertices_linked_to_several_lines_but_not_linked_to_a_corner (SeveralLinesSays m)

/-! ### Surfaces of a BRep -/

/-- Messages on an embedded surface (BRep).  In the second one, the uuids are printed twice. -/
inductive BRepEmbeddedSurfaceSays (v : Index) : String → Prop
  | both (surface : Uuid) (embedding : ComponentID) : ActiveAt m v .surface surface →
      embedding ∈ m.embeddings surface → Active m .block embedding.id → m.isBoundary surface embedding.id = true →
      BRepEmbeddedSurfaceSays v ("unique vertex " ++ toString v ++ " is part of Surface " ++ named m .surface surface ++
        ", which is both internal and boundary of " ++ "Block " ++ named m .block embedding.id)
  | notLinked (surface : Uuid) (embedding : ComponentID) : ActiveAt m v .surface surface →
      embedding ∈ m.embeddings surface → Active m .block embedding.id → AllMeshed m .block →
      (∀ cmv ∈ m.componentMeshVertices v, cmv.component_id.id ≠ embedding.id) →
      BRepEmbeddedSurfaceSays v ("unique vertex " ++ toString v ++ " is part of Surface " ++
        ((m.nameOf .surface surface).getD (m.uuidString surface) ++ " (" ++ m.uuidString surface ++
          " (" ++ m.uuidString surface ++ ")") ++ ", which is embedded in Block " ++
        ((m.nameOf .block embedding.id).getD (m.uuidString embedding.id) ++ " (" ++
          m.uuidString embedding.id ++ " (" ++ m.uuidString embedding.id ++ ")") ++
        ", but the unique vertex is not linked to any of the Block vertices.")

/-- Several active surfaces at `v`. -/
def SeveralActiveSurfaces (v : Index) : Prop :=
  ∃ s s', s ≠ s' ∧ ActiveAt m v .surface s ∧ ActiveAt m v .surface s'

/-- Number of surfaces at `v` related to the line. -/
def nbRelatedSurfaces (v : Index) (line : Uuid) : Nat :=
  ((componentsAt m v .surface).filter fun s => m.isBoundary line s = true ∨ m.isInternal line s = true).card

/-- There is one line at `v`, with one vertex. -/
def OneLineVertex (v : Index) (line : Uuid) : Prop :=
  ((m.componentMeshVertices v).filter fun cmv => decide (cmv.component_id.type = .line)).map
    ComponentMeshVertex.component_id = [⟨.line, line⟩]

/-- Messages on several surfaces (BRep). -/
inductive BRepSeveralSurfacesSays (v : Index) : String → Prop
  | cornerNotInternal (cmv : ComponentMeshVertex) (surface : Uuid) : SeveralActiveSurfaces m v →
      (∀ line, ¬ At m v .line line) → cmv ∈ m.componentMeshVertices v → cmv.component_id.type = .corner →
      ActiveAt m v .surface surface → m.isInternal cmv.component_id.id surface = false →
      BRepSeveralSurfacesSays v ("unique vertex " ++ toString v ++ " at position [" ++ m.pointString cmv ++
        "] is part of multiple active Surfaces, and not part of any Line, but is part of Corner " ++
        named m .corner cmv.component_id.id ++ ", which is not internal to active Surface " ++
        named m .surface surface ++ ".")
  | noCorner : SeveralActiveSurfaces m v → (∀ line, ¬ At m v .line line) → (∀ corner, ¬ At m v .corner corner) →
      BRepSeveralSurfacesSays v ("unique vertex " ++ toString v ++
        " is part of multiple active Surfaces, and not part of any Line, but not part of any Corner internal to " ++
        "all Surfaces.")
  | fewEmbeddings (line corner : Uuid) : SeveralActiveSurfaces m v → OneLineVertex m v line → At m v .corner corner →
      (m.embeddings corner).length + nbRelatedSurfaces m v line < (componentsAt m v .surface).card →
      BRepSeveralSurfacesSays v ("unique vertex " ++ toString v ++
        " is part of multiple active Surfaces and only one Line, is a Corner, but is not internal to all the " ++
        "Surfaces without relationships to the Line.")
  | manyEmbeddings (line corner : Uuid) : SeveralActiveSurfaces m v → OneLineVertex m v line → At m v .corner corner →
      (componentsAt m v .surface).card < (m.embeddings corner).length + nbRelatedSurfaces m v line →
      BRepSeveralSurfacesSays v ("unique vertex " ++ toString v ++
        " is part of multiple active Surfaces and only one Line, is a Corner, but is internal to Surfaces with " ++
        "relationships to the Line.")

/-- Message on a line inside a surface (BRep). -/
inductive BRepBorderSays (v : Index) : String → Prop
  | inside (line : Uuid) (cmv : ComponentMeshVertex) : ActiveAt m v .line line → cmv ∈ m.componentMeshVertices v →
      cmv.component_id.type = .surface → m.isVertexOnBorder cmv.component_id.id cmv.vertex = false →
      (m.isBoundary line cmv.component_id.id = true ∨ m.isInternal line cmv.component_id.id = true) →
      BRepBorderSays v ("unique vertex " ++ toString v ++ " is part of a Line and of Surface " ++
        named m .surface cmv.component_id.id ++
        " but the associated vertex in the Surface mesh is not on the mesh border.")

/-- Messages on a facet of a surface (BRep). -/
inductive FacetSays (surface : Uuid) (facet : Index) : String → Prop
  | boundary (block : Uuid) (n : Nat) : Active m .block block → (block, n) ∈ m.blockPolygons surface facet →
      m.isBoundary surface block = true → n ≠ 1 →
      FacetSays surface facet ("Surface " ++ named m .surface surface ++ " is boundary of block " ++
        named m .block block ++ ", but has " ++ toString n ++ " facets of this Block around it, it should be 1.")
  | internal (block : Uuid) (n : Nat) : Active m .block block → (block, n) ∈ m.blockPolygons surface facet →
      m.isInternal surface block = true → n ≠ 2 →
      FacetSays surface facet ("Surface " ++ named m .surface surface ++ " is internal to block " ++
        named m .block block ++ ", but has " ++ toString n ++ " facets of this Block around it, it should be 2.")
  | unrelated (block : Uuid) (n : Nat) : Active m .block block → (block, n) ∈ m.blockPolygons surface facet →
      m.isBoundary surface block = false → m.isInternal surface block = false →
      FacetSays surface facet ("Surface " ++ named m .surface surface ++ " has facet with id " ++ toString facet ++
        " in common with Block" ++ named m .block block ++ ", but is neither boundary of nor internal to it.")

/-- The messages of the inspection of the surfaces of a BRep. -/
structure BRepSurfacesExplained (r : BRepSurfacesTopologyInspectionResult) : Prop where
  notMeshed : Explained r.surfaces_not_meshed (NotMeshedSays m .surface "Surface " " is not meshed")
  notLinked : ExplainedMap r.surfaces_not_linked_to_a_unique_vertex (fun id => "Surface " ++ named m .surface id)
    (NotLinkedSays m .surface)
  facets : ExplainedMap r.surface_polygons_with_wrong_component_facets_around
    (fun id => "Surface " ++ named m .surface id) (FacetSays m)
  embedded : Explained r.unique_vertices_linked_to_a_surface_with_invalid_embbedings (BRepEmbeddedSurfaceSays m)
  several : Explained r.unique_vertices_linked_to_several_and_invalid_surfaces (BRepSeveralSurfacesSays m)
  border : Explained r.unique_vertices_linked_to_a_line_but_is_not_on_a_surface_border (BRepBorderSays m)

/-! ### Blocks -/

/-- Message on two blocks without surface. -/
inductive TwoBlocksSays (v : Index) : String → Prop
  | noSurface : TwoBlocksWithoutSurface m v →
      TwoBlocksSays v ("unique vertex " ++ toString v ++ " is part of two Blocks, but not of a Surface boundary to the " ++
        "two Blocks, nor of a Line boundary to one of the Blocks incident Surfaces.")

/-- Number of lines at `v` embedded in a surface internal to `b`, not on the boundary of `b`. -/
def nbLinesInInternalSurface (v : Index) (b : Uuid) : Nat :=
  ((linesAt m v).filter fun line => decide (boundarySheets m b line / 2 = 0 ∧
    ∃ e ∈ m.embeddings line, e.type = .surface ∧ m.isInternal e.id b = true)).length

/-- The line is embedded in no surface, and all the surfaces it bounds are internal to `b`. -/
def FreeIn (b line : Uuid) : Prop :=
  (∀ e ∈ m.embeddings line, e.type ≠ .surface) ∧ ∀ e ∈ m.incidences line, e.type = .surface → m.isInternal e.id b = true

instance (b line : Uuid) : Decidable (FreeIn m b line) := by unfold FreeIn; infer_instance

/-- Number of such lines at `v`, not on the boundary of `b`, which bound one surface. -/
def nbFreeLines (v : Index) (b : Uuid) : Nat :=
  ((linesAt m v).filter fun line => decide (boundarySheets m b line / 2 = 0 ∧ FreeIn m b line ∧
    (m.incidences line).length = 1)).length

/-- Number of such lines at `v`, not on the boundary of `b`, which do not bound one surface. -/
def nbOtherLines (v : Index) (b : Uuid) : Nat :=
  ((linesAt m v).filter fun line => decide (boundarySheets m b line / 2 = 0 ∧ FreeIn m b line ∧
    (m.incidences line).length ≠ 1)).length

/-- Message on the number of vertices of a block.  The expected number is printed modulo 2^32; the lines "boundary to
several internal surfaces" may be the boundary of no surface. -/
inductive BlockCountSays (v : Index) : String → Prop
  | wrongCount (block : Uuid) (cmv : ComponentMeshVertex) : ActiveAt m v .block block → ¬ CountIsRight m v block →
      (cmvsOf m v .block).head? = some cmv →
      BlockCountSays v ("unique vertex " ++ toString v ++ " at position [" ++ m.pointString cmv ++ "] is part of Block " ++
        named m .block block ++ ", and has " ++ toString (cmvsOf m v .corner).length ++ " cmvs of corners, " ++
        toString (nbInternalSurfaceCmvs m v block) ++ " cmvs of surfaces internal to that block, " ++
        toString (nbLinesInInternalSurface m v block) ++
        " cmvs of lines internal to one surface internal to that block, " ++ toString (nbFreeLines m v block) ++
        " cmvs of free lines, " ++ toString (nbOtherLines m v block) ++
        " cmvs of lines boundary to several internal surfaces, " ++ toString (nbBoundarySurfaceCmvs m v block) ++
        " cmvs of surfaces boundary to the block, and " ++ toString (nbLinePassages m v block) ++
        " cmvs counted for lines on the boundary, with " ++ toString (nbBlockCmvs m v block) ++ " Block CMVs (expected " ++
        toString (UInt32.ofInt (expectedCount m v block)) ++ " with valid topology).")

/-- Messages on the only surface at `v`. -/
inductive SingleSurfaceSays (v : Index) : String → Prop
  | threeBlocks (surface : Uuid) : OnlyActive m v .surface surface → 2 < (componentsAt m v .block).card →
      SingleSurfaceSays v ("unique vertex " ++ toString v ++
        " is part of only one Surface, but is part of more than two Blocks.")
  | notOneBlock (surface : Uuid) : OnlyActive m v .surface surface → m.embeddings surface ≠ [] → AllMeshed m .block →
      (componentsAt m v .block).card ≠ 1 →
      SingleSurfaceSays v ("unique vertex " ++ toString v ++ " is part of only one Surface, which is embedded, " ++
        "but not part of only one Block.")
  | notInternal (surface block : Uuid) : OnlyActive m v .surface surface → m.embeddings surface ≠ [] →
      AllMeshed m .block → componentsAt m v .block = {block} → m.isInternal surface block = false →
      SingleSurfaceSays v ("unique vertex " ++ toString v ++ " is part of only one Surface, which is embedded, " ++
        "and one Block, but the Surface is not internal to the Block.")
  | notBoundary (surface block : Uuid) : OnlyActive m v .surface surface → m.embeddings surface = [] →
      At m v .block block → m.isBoundary surface block = false →
      SingleSurfaceSays v ("unique vertex " ++ toString v ++ " is part of only one Surface" ++ named m .surface surface ++
        " which is not embedded, but not boundary either of Block " ++ named m .block block ++
        ", in which the vertex is.")

/-- Messages on a surface and the blocks. -/
inductive SurfaceForBlocksSays (isInsideBlock : Uuid → Uuid → Except Failure Bool) (v : Index) : String → Prop
  | cannotBound (surface : Uuid) : ActiveAt m v .surface surface → m.incidences surface ≠ [] → CannotBound m surface →
      SurfaceForBlocksSays isInsideBlock v ("unique vertex with index " ++ toString v ++ " is part of Surface " ++
        named m .surface surface ++ ", which should not be boundary of any Block.")
  | notInternal (surface : Uuid) : ActiveAt m v .surface surface → m.incidences surface = [] → m.embeddings surface = [] →
      ¬ (CannotBound m surface ∧ OutsideBlocks m isInsideBlock surface) →
      SurfaceForBlocksSays isInsideBlock v ("unique vertex " ++ toString v ++ " is part of Surface " ++
        named m .surface surface ++ ", which is not internal to a Block while it should be.")

/-- Message on several lines and several surfaces. -/
inductive MultipleSurfacesSays (v : Index) : String → Prop
  | line (line : Uuid) : At m v .line line → MultipleInvalidSurfaces m v → m.embeddings line = [] →
      (¬ ∃ s, RelatedSurface m v s ∧ m.isBoundary line s = true ∧ m.embeddings s ≠ []) →
      (¬ ∃ a b, a ≠ b ∧ RelatedSurface m v a ∧ RelatedSurface m v b ∧ m.isBoundary line a = true ∧
        m.isBoundary line b = true) →
      MultipleSurfacesSays v ("unique vertex " ++ toString v ++
        " is part of multiple Surfaces and multiple Lines, but Line " ++ named m .line line ++
        " is neither internal, nor a boundary of at least two Surfaces or one embedding Surface.")

/-- Message on a block which is not meshed: another one is meshed. -/
inductive SomeBlocksSays (id : Uuid) : String → Prop
  | notMeshed (c other : TopologyComponent) : c ∈ m.components .block → c.active = true → c.id = id → ¬ BlockMeshed c →
      other ∈ m.components .block → other.active = true → BlockMeshed other →
      SomeBlocksSays id ("Block " ++ named m .block id ++ " is not meshed.")

/-- Message on the boundary of a block. -/
inductive NotClosedSays (g : BlockGeometry) (id : Uuid) : String → Prop
  | notClosed : Active m .block id → ¬ BoundaryEncloses m g id →
      NotClosedSays g id ("Block " ++ named m .block id ++ " boundaries are not closed or form several closed volumes.")

/-- Message on a boundary surface of a block. -/
inductive WrongBoundarySays (id : Uuid) : String → Prop
  | openLine (surface line : Uuid) : Active m .block id → ⟨.surface, surface⟩ ∈ m.boundaries id →
      Active m .surface surface → ⟨.line, line⟩ ∈ m.boundaries surface →
      (¬ ∃ other, ⟨.surface, other⟩ ∈ m.incidences line ∧ other ≠ surface ∧ m.isBoundary other id = true) →
      WrongBoundarySays id ("Block " ++ named m .block id ++ " boundary Surface " ++ named m .surface surface ++
        " has a boundary Line not incident to any other Block boundary Surface. Either the surface " ++
        "shouldn't be boundary, or there is a hole in the block boundaries")

/-- Message on the model boundaries: they are not linked together. -/
inductive ModelBoundariesSays (modelBoundaries : List (List Uuid)) (issue : Index) : String → Prop
  | notLinked : issue = 0 → ¬ AllLinked m modelBoundaries.flatten →
      ModelBoundariesSays modelBoundaries issue "ModelBoundaries don't form a valid closed surface."

/-- The messages of the inspection of the blocks of a BRep. -/
structure BRepBlocksExplained (o : BlocksOracle) (r : BRepBlocksTopologyInspectionResult) : Prop where
  notMeshed : Explained r.some_blocks_not_meshed (SomeBlocksSays m)
  notLinked : ExplainedMap r.blocks_not_linked_to_a_unique_vertex (fun id => "Block " ++ named m .block id)
    (NotLinkedSays m .block)
  modelBoundaries : Explained r.model_boundaries_dont_form_a_closed_surface (ModelBoundariesSays m o.modelBoundaries)
  notClosed : Explained r.blocks_with_not_closed_boundary_surfaces (NotClosedSays m o.geometry)
  wrongBoundary : Explained r.wrong_block_boundary_surface (WrongBoundarySays m)
  two : Explained r.unique_vertices_part_of_two_blocks_and_no_boundary_surface (TwoBlocksSays m)
  count : Explained r.unique_vertices_with_incorrect_block_cmvs_count (BlockCountSays m)
  single : Explained r.unique_vertices_linked_to_a_single_and_invalid_surface (SingleSurfaceSays m)
  wrong : Explained r.unique_vertices_linked_to_surface_with_wrong_relationship_to_blocks
    (SurfaceForBlocksSays m o.isInsideBlock)
  multiple : Explained r.unique_vertex_linked_to_multiple_invalid_surfaces (MultipleSurfacesSays m)

/-- All the messages of the topology inspection of a BRep. -/
structure BRepExplained (o : BlocksOracle) (r : BRepTopologyInspectionResult) : Prop where
  corners : BRepCornersExplained m r.corners
  lines : BRepLinesExplained m r.lines
  surfaces : BRepSurfacesExplained m r.surfaces
  blocks : BRepBlocksExplained m o r.blocks
  noLink : Explained r.unique_vertices_not_linked_to_any_component (NoLinkSays m)
  inexistent : Explained r.unique_vertices_linked_to_inexistant_cmv (InexistentSays m brepKinds)
  elsewhere : Explained r.unique_vertices_nonbijectively_linked_to_cmv (LinkedElsewhereSays m brepKinds)

/-! ### What the messages designate -/

/-- The text begins by designating unique vertex `v`: its number is between an introduction and a space. -/
def DesignatesVertex (v : Index) (text : String) : Prop :=
  ∃ intro ∈ ["unique vertex ", "Unique vertex ", "unique vertex with index "], ∃ rest,
    text = intro ++ toString v ++ " " ++ rest

/-- The text begins by naming the component. -/
def NamesComponent (kind : ComponentType) (kindName : String) (id : Uuid) (text : String) : Prop :=
  ∃ rest, text = kindName ++ named m kind id ++ rest

/-- The text gives the index of the mesh vertex. -/
def GivesMeshVertex (_id : Uuid) (vertex : Index) (text : String) : Prop :=
  text = "vertex '" ++ toString vertex ++ " is not linked to a unique vertex."

/-- Every list is named after its component. -/
def DescribedMap {α : Type} (map : IssuesMap α) (description : Uuid → String) : Prop :=
  ∀ e ∈ map.entries, e.2.description = description e.1

/-- Each message of the topology of a Section designates its issue. -/
structure SectionDesignates (r : SectionTopologyInspectionResult) : Prop where
  corners : Explained r.corners.corners_not_meshed (NamesComponent m .corner "Corner ") ∧
    ExplainedMap r.corners.corners_not_linked_to_a_unique_vertex (fun id => "Corner " ++ named m .corner id) GivesMeshVertex ∧
    Explained r.corners.unique_vertices_linked_to_multiple_corners DesignatesVertex ∧
    Explained r.corners.unique_vertices_linked_to_multiple_internals_corner DesignatesVertex ∧
    Explained r.corners.unique_vertices_linked_to_not_internal_nor_boundary_corner DesignatesVertex ∧
    Explained r.corners.unique_vertices_linked_to_not_boundary_line_corner DesignatesVertex
  lines : Explained r.lines.lines_not_meshed (NamesComponent m .line "Line ") ∧
    ExplainedMap r.lines.lines_not_linked_to_a_unique_vertex (fun id => "Line " ++ named m .line id) GivesMeshVertex ∧
    Explained r.lines.unique_vertices_linked_to_line_with_wrong_relationship_to_surface DesignatesVertex ∧
    Explained r.lines.unique_vertices_linked_to_a_line_with_invalid_embeddings DesignatesVertex ∧
    Explained r.lines.unique_vertices_linked_to_a_single_and_invalid_line DesignatesVertex ∧
    Explained r.lines.unique_vertices_linked_to_several_lines_but_not_linked_to_a_corner DesignatesVertex
  surfaces : Explained r.surfaces.surfaces_not_meshed (NamesComponent m .surface "Surface ") ∧
    ExplainedMap r.surfaces.surfaces_not_linked_to_a_unique_vertex (fun id => "Surface " ++ named m .surface id)
      GivesMeshVertex ∧
    Explained r.surfaces.unique_vertices_linked_to_a_surface_with_invalid_embbedings DesignatesVertex ∧
    Explained r.surfaces.unique_vertices_linked_to_a_line_but_is_not_on_a_surface_border DesignatesVertex
  links : Explained r.unique_vertices_not_linked_to_any_component DesignatesVertex ∧
    Explained r.unique_vertices_linked_to_inexistant_cmv DesignatesVertex ∧
    Explained r.unique_vertices_nonbijectively_linked_to_cmv DesignatesVertex

/-- Each message on a component or on a unique vertex of the topology of a BRep designates it; each list of a map is
named after its component. -/
structure BRepDesignates (r : BRepTopologyInspectionResult) : Prop where
  corners : Explained r.corners.corners_not_meshed (NamesComponent m .corner "Corner ") ∧
    ExplainedMap r.corners.corners_not_linked_to_a_unique_vertex (fun id => "Corner " ++ named m .corner id) GivesMeshVertex ∧
    Explained r.corners.unique_vertices_linked_to_multiple_corners DesignatesVertex ∧
    Explained r.corners.unique_vertices_linked_to_multiply_embedded_corner DesignatesVertex ∧
    Explained r.corners.unique_vertices_linked_to_not_internal_nor_boundary_corner DesignatesVertex ∧
    Explained r.corners.unique_vertices_linked_to_not_boundary_line_corner DesignatesVertex
  lines : Explained r.lines.lines_not_meshed (NamesComponent m .line "Line ") ∧
    ExplainedMap r.lines.lines_not_linked_to_a_unique_vertex (fun id => "Line " ++ named m .line id) GivesMeshVertex ∧
    DescribedMap r.lines.line_edges_with_wrong_component_edges_around (fun id => "Line " ++ named m .line id) ∧
    Explained r.lines.unique_vertices_linked_to_a_line_with_invalid_embeddings DesignatesVertex ∧
    Explained r.lines.unique_vertices_linked_to_line_with_wrong_relationship_to_surface DesignatesVertex ∧
    Explained r.lines.unique_vertices_linked_to_a_single_and_invalid_line DesignatesVertex ∧
    Explained r.lines.unique_vertices_linked_to_several_lines_but_not_linked_to_a_corner DesignatesVertex
  surfaces : Explained r.surfaces.surfaces_not_meshed (NamesComponent m .surface "Surface ") ∧
    ExplainedMap r.surfaces.surfaces_not_linked_to_a_unique_vertex (fun id => "Surface " ++ named m .surface id)
      GivesMeshVertex ∧
    DescribedMap r.surfaces.surface_polygons_with_wrong_component_facets_around (fun id => "Surface " ++ named m .surface id) ∧
    Explained r.surfaces.unique_vertices_linked_to_a_surface_with_invalid_embbedings DesignatesVertex ∧
    Explained r.surfaces.unique_vertices_linked_to_several_and_invalid_surfaces DesignatesVertex ∧
    Explained r.surfaces.unique_vertices_linked_to_a_line_but_is_not_on_a_surface_border DesignatesVertex
  blocks : Explained r.blocks.some_blocks_not_meshed (NamesComponent m .block "Block ") ∧
    ExplainedMap r.blocks.blocks_not_linked_to_a_unique_vertex (fun id => "Block " ++ named m .block id) GivesMeshVertex ∧
    Explained r.blocks.blocks_with_not_closed_boundary_surfaces (NamesComponent m .block "Block ") ∧
    Explained r.blocks.wrong_block_boundary_surface (NamesComponent m .block "Block ") ∧
    Explained r.blocks.unique_vertices_part_of_two_blocks_and_no_boundary_surface DesignatesVertex ∧
    Explained r.blocks.unique_vertices_with_incorrect_block_cmvs_count DesignatesVertex ∧
    Explained r.blocks.unique_vertices_linked_to_a_single_and_invalid_surface DesignatesVertex ∧
    Explained r.blocks.unique_vertices_linked_to_surface_with_wrong_relationship_to_blocks DesignatesVertex ∧
    Explained r.blocks.unique_vertex_linked_to_multiple_invalid_surfaces DesignatesVertex
  links : Explained r.unique_vertices_not_linked_to_any_component DesignatesVertex ∧
    Explained r.unique_vertices_linked_to_inexistant_cmv DesignatesVertex ∧
    Explained r.unique_vertices_nonbijectively_linked_to_cmv DesignatesVertex

end Inspector.Spec
