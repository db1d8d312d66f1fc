import Verif.Model.TopologyInspector
import Verif.Spec.TopologyBlocks
import Verif.Spec.TopologySurfaces
/-
Specification of the links between unique vertices and component mesh vertices, and of the topological validity.
-/
namespace Inspector.Spec
variable (m : TopologyModel)

/-- Kinds of the components of a Section with a mesh. -/
def sectionKinds : List ComponentType := [.corner, .line, .surface]

/-- Kinds of the components of a BRep with a mesh. -/
def brepKinds : List ComponentType := [.corner, .line, .surface, .block]

/-- What OpenGeode guarantees on uuids: two components with the same uuid are the same one. -/
def UniqueIds : Prop :=
  ∀ kind ∈ brepKinds, ∀ kind' ∈ brepKinds, ∀ c ∈ m.components kind, ∀ c' ∈ m.components kind',
    c.id = c'.id → kind = kind' ∧ c = c'

/-- The component mesh vertex is a vertex of the mesh of a component of the model. -/
def CmvExists (kinds : List ComponentType) (cmv : ComponentMeshVertex) : Prop :=
  cmv.component_id.type ∈ kinds ∧
    ∃ c ∈ m.components cmv.component_id.type, c.id = cmv.component_id.id ∧ cmv.vertex < c.nbVertices

/-- The component mesh vertex exists, in an active component, and its unique vertex is not `uv`. -/
def CmvLinkedElsewhere (kinds : List ComponentType) (uv : Index) (cmv : ComponentMeshVertex) : Prop :=
  CmvExists m kinds cmv ∧ Active m cmv.component_id.type cmv.component_id.id ∧ m.uniqueVertex cmv ≠ some uv

/-- Every unique vertex is linked, and only to existing vertices, linked back to it if their component is active. -/
def BijectivelyLinked (kinds : List ComponentType) : Prop :=
  ∀ uv < m.nbUniqueVertices, m.componentMeshVertices uv ≠ [] ∧
    ∀ cmv ∈ m.componentMeshVertices uv, CmvExists m kinds cmv ∧
      (Active m cmv.component_id.type cmv.component_id.id → m.uniqueVertex cmv = some uv)

open Classical in
/-- The lists on the links of the unique vertices: those without link, once each; those with a link to an inexistent
vertex, once for each such link; those with a link to a vertex of an active component which is linked elsewhere, once
for each such link. -/
def LinkLists (kinds : List ComponentType) (notLinked inexistent nonBijective : List Index) : Prop :=
  Exactly (· < ·) (fun uv => uv < m.nbUniqueVertices ∧ m.componentMeshVertices uv = []) notLinked ∧
  inexistent = (List.range m.nbUniqueVertices).flatMap (fun uv =>
    ((m.componentMeshVertices uv).filter fun cmv => decide (¬ CmvExists m kinds cmv)).map fun _ => uv) ∧
  nonBijective = (List.range m.nbUniqueVertices).flatMap (fun uv =>
    ((m.componentMeshVertices uv).filter fun cmv => decide (CmvLinkedElsewhere m kinds uv cmv)).map fun _ => uv)

/-- A component with vertices and, but for a corner, with elements. -/
def Meshed (kind : ComponentType) (c : TopologyComponent) : Prop :=
  c.nbVertices ≠ 0 ∧ (kind ≠ .corner → c.nbElements ≠ 0)

/-- Every vertex of an active meshed component has a unique vertex. -/
def MeshedComponentsAreLinked (kinds : List ComponentType) : Prop :=
  ∀ kind ∈ kinds, ∀ c ∈ m.components kind, c.active = true → Meshed kind c →
    ∀ v < c.nbVertices, m.uniqueVertex ⟨⟨kind, c.id⟩, v⟩ ≠ none

/-- What OpenGeode guarantees, whatever the unique vertices: uuids are unique and relationships refer to existing
components. -/
structure RelationsWellFormed : Prop where
  ids : ∀ kind, ((m.components kind).map TopologyComponent.id).Nodup
  unique : UniqueIds m
  embeddings : ∀ id, ∀ c ∈ m.embeddings id, Has m c.type c.id
  incidences : ∀ id, ∀ c ∈ m.incidences id, Has m c.type c.id
  boundaries : ∀ id, ∀ c ∈ m.boundaries id, Has m c.type c.id

/-- The corners, lines and surfaces at a unique vertex of a Section are right. -/
structure SectionVertexValid (v : Index) : Prop where
  corner : ¬ TwiceActive m v .corner ∧ ¬ CornerWithSeveralEmbeddings m v ∧ ¬ CornerAlone m v ∧
    ¬ CornerNotBoundaryOfLine m v ∧
    ¬ ∃ corner, ActiveAt m v .corner corner ∧ (m.embeddings corner).length = 1 ∧ 1 < (m.incidences corner).length
  lines : ¬ LineAlone m v ∧ ¬ EmbeddedBefore m v (m.componentMeshVertices v) ∧ ¬ InvalidSingleLine m v ∧
    ¬ LinesWithoutCorner m v
  surfaces : (∃ id, ActiveAt m v .surface id) → ¬ TwoSurfacesWithoutLine m v ∧ ¬ LineNotOnBorder m v

/-- The topology of a Section is valid. -/
def SectionValid : Prop :=
  0 < m.nbUniqueVertices ∧ MeshedComponentsAreLinked m sectionKinds ∧ BijectivelyLinked m sectionKinds ∧
    ∀ v < m.nbUniqueVertices, SectionVertexValid m v

/-- The corners at a unique vertex of a BRep are right. -/
abbrev BRepCornerValid (v : Index) : Prop :=
  ¬ TwiceActive m v .corner ∧ ¬ CornerMultiplyEmbedded m v ∧ ¬ CornerAlone m v ∧ ¬ CornerNotOnLine m v ∧
    ¬ ∃ corner, ActiveAt m v .corner corner ∧ m.embeddings corner ≠ [] ∧ 1 < (m.incidences corner).length

/-- The corners, lines, surfaces and blocks at a unique vertex of a BRep are right. -/
structure BRepVertexValid (v : Index) : Prop where
  corner : BRepCornerValid m v
  lines : ¬ BRepInvalidEmbeddedLine m v ∧ ¬ BRepInvalidSingleLine m v ∧ ¬ BRepLineWrong m v ∧
    ¬ LinesWithoutCorner m v
  surfaces : (∃ id, ActiveAt m v .surface id) → ¬ InvalidEmbeddedSurface m v ∧ ¬ InvalidMultipleSurfaces m v ∧
    ¬ RelatedLineNotOnBorder m v
  blocks : ¬ TwoBlocksWithoutSurface m v ∧ ¬ BlockCountWrong m v

/-- The topology of a BRep is valid. -/
def BRepValid : Prop :=
  0 < m.nbUniqueVertices ∧ MeshedComponentsAreLinked m brepKinds ∧ BijectivelyLinked m brepKinds ∧
    ∀ v < m.nbUniqueVertices, BRepVertexValid m v

end Inspector.Spec

namespace Inspector.Spec

/-- `x` is the result of `e`, and is `empty` if `e` failed. -/
def ResultOrEmpty {α : Type} (e : Except Failure α) (empty x : α) : Prop :=
  (∀ y, e = .ok y → x = y) ∧ ∀ f, e = .error f → x = empty

/-- All the lists and maps of the topology inspection of a Section are empty. -/
structure NoSectionTopologyIssue (r : SectionTopologyInspectionResult) : Prop where
  links : r.unique_vertices_not_linked_to_any_component.issues = [] ∧
    r.unique_vertices_linked_to_inexistant_cmv.issues = [] ∧
    r.unique_vertices_nonbijectively_linked_to_cmv.issues = []
  corners : r.corners.corners_not_meshed.issues = [] ∧
    r.corners.corners_not_linked_to_a_unique_vertex.entries = [] ∧
    r.corners.unique_vertices_linked_to_multiple_corners.issues = [] ∧
    r.corners.unique_vertices_linked_to_multiple_internals_corner.issues = [] ∧
    r.corners.unique_vertices_linked_to_not_internal_nor_boundary_corner.issues = [] ∧
    r.corners.unique_vertices_linked_to_not_boundary_line_corner.issues = []
  lines : r.lines.lines_not_meshed.issues = [] ∧
    r.lines.lines_not_linked_to_a_unique_vertex.entries = [] ∧
    r.lines.unique_vertices_linked_to_line_with_wrong_relationship_to_surface.issues = [] ∧
    r.lines.unique_vertices_linked_to_a_line_with_invalid_embeddings.issues = [] ∧
    r.lines.unique_vertices_linked_to_a_single_and_invalid_line.issues = [] ∧
    r.lines.unique_vertices_linked_to_several_lines_but_not_linked_to_a_corner.issues = []
  surfaces : r.surfaces.surfaces_not_meshed.issues = [] ∧
    r.surfaces.surfaces_not_linked_to_a_unique_vertex.entries = [] ∧
    r.surfaces.unique_vertices_linked_to_a_surface_with_invalid_embbedings.issues = [] ∧
    r.surfaces.unique_vertices_linked_to_a_line_but_is_not_on_a_surface_border.issues = []

/-- All the lists and maps of the topology inspection of a BRep are empty. -/
structure NoBRepTopologyIssue (r : BRepTopologyInspectionResult) : Prop where
  links : r.unique_vertices_not_linked_to_any_component.issues = [] ∧
    r.unique_vertices_linked_to_inexistant_cmv.issues = [] ∧
    r.unique_vertices_nonbijectively_linked_to_cmv.issues = []
  corners : r.corners.corners_not_meshed.issues = [] ∧
    r.corners.corners_not_linked_to_a_unique_vertex.entries = [] ∧
    r.corners.unique_vertices_linked_to_multiple_corners.issues = [] ∧
    r.corners.unique_vertices_linked_to_multiply_embedded_corner.issues = [] ∧
    r.corners.unique_vertices_linked_to_not_internal_nor_boundary_corner.issues = [] ∧
    r.corners.unique_vertices_linked_to_not_boundary_line_corner.issues = []
  lines : r.lines.lines_not_meshed.issues = [] ∧
    r.lines.lines_not_linked_to_a_unique_vertex.entries = [] ∧
    r.lines.line_edges_with_wrong_component_edges_around.entries = [] ∧
    r.lines.unique_vertices_linked_to_a_line_with_invalid_embeddings.issues = [] ∧
    r.lines.unique_vertices_linked_to_line_with_wrong_relationship_to_surface.issues = [] ∧
    r.lines.unique_vertices_linked_to_a_single_and_invalid_line.issues = [] ∧
    r.lines.unique_vertices_linked_to_several_lines_but_not_linked_to_a_corner.issues = []
  surfaces : r.surfaces.surfaces_not_meshed.issues = [] ∧
    r.surfaces.surfaces_not_linked_to_a_unique_vertex.entries = [] ∧
    r.surfaces.surface_polygons_with_wrong_component_facets_around.entries = [] ∧
    r.surfaces.unique_vertices_linked_to_a_surface_with_invalid_embbedings.issues = [] ∧
    r.surfaces.unique_vertices_linked_to_several_and_invalid_surfaces.issues = [] ∧
    r.surfaces.unique_vertices_linked_to_a_line_but_is_not_on_a_surface_border.issues = []
  blocks : r.blocks.some_blocks_not_meshed.issues = [] ∧
    r.blocks.wrong_block_boundary_surface.issues = [] ∧
    r.blocks.blocks_not_linked_to_a_unique_vertex.entries = [] ∧
    r.blocks.blocks_with_not_closed_boundary_surfaces.issues = [] ∧
    r.blocks.model_boundaries_dont_form_a_closed_surface.issues = [] ∧
    r.blocks.unique_vertices_part_of_two_blocks_and_no_boundary_surface.issues = [] ∧
    r.blocks.unique_vertices_with_incorrect_block_cmvs_count.issues = [] ∧
    r.blocks.unique_vertices_linked_to_surface_with_wrong_relationship_to_blocks.issues = [] ∧
    r.blocks.unique_vertices_linked_to_a_single_and_invalid_surface.issues = [] ∧
    r.blocks.unique_vertex_linked_to_multiple_invalid_surfaces.issues = []

end Inspector.Spec
