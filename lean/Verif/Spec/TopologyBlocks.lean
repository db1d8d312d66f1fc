import Verif.Model.TopologyBlocks
import Verif.Spec.ExpectedCmvs
import Verif.Spec.NotBoundarySurfaces
/-
Specification of the criteria on the blocks of a BRep.
-/
namespace Inspector.Spec
variable (m : TopologyModel) (v : Index)

/-- Exactly two blocks, both active, meet at `v`, where there is no surface bounding both, nor a surface bounding one
of them with a boundary line at `v`. -/
def TwoBlocksWithoutSurface : Prop :=
  ∃ b0 b1, b0 ≠ b1 ∧ ActiveAt m v .block b0 ∧ ActiveAt m v .block b1 ∧
    (∀ b, At m v .block b → b = b0 ∨ b = b1) ∧
    (¬ ∃ s, At m v .surface s ∧ m.isBoundary s b0 = true ∧ m.isBoundary s b1 = true) ∧
    (¬ ∃ s line, At m v .surface s ∧ At m v .line line ∧ m.isBoundary line s = true ∧
      (m.isBoundary s b0 = true ∨ m.isBoundary s b1 = true))

/-- An active block at `v` has not there the expected number of vertices. -/
def BlockCountWrong : Prop := ∃ b, ActiveAt m v .block b ∧ ¬ CountIsRight m v b

/-- An active surface at `v` is a boundary though it cannot bound, or is neither boundary nor internal though it may
bound or is not outside all blocks. -/
def SurfaceWrongForBlocks (isInsideBlock : Uuid → Uuid → Except Failure Bool) : Prop :=
  ∃ s, ActiveAt m v .surface s ∧
    ((m.incidences s ≠ [] ∧ CannotBound m s) ∨
     (m.incidences s = [] ∧ m.embeddings s = [] ∧ ¬ (CannotBound m s ∧ OutsideBlocks m isInsideBlock s)))

/-- The only surface at `v` is active and may bound; there are more than two blocks at `v`, or it is internal (and
the blocks are meshed) and there is not exactly one block, containing it, or it is not internal and there is a
block it does not bound. -/
def SingleInvalidSurface : Prop :=
  ∃ s, ActiveAt m v .surface s ∧ (∀ s', At m v .surface s' → s' = s) ∧ ¬ CannotBound m s ∧
    ((∃ a b c, a ≠ b ∧ a ≠ c ∧ b ≠ c ∧ At m v .block a ∧ At m v .block b ∧ At m v .block c) ∨
     (m.embeddings s ≠ [] ∧ AllMeshed m .block ∧
       ¬ ∃ b, At m v .block b ∧ (∀ b', At m v .block b' → b' = b) ∧ m.isInternal s b = true) ∨
     (m.embeddings s = [] ∧ ∃ b, At m v .block b ∧ m.isBoundary s b = false))

/-- A surface at `v` which bounds or is internal to something. -/
def RelatedSurface (s : Uuid) : Prop := At m v .surface s ∧ (m.incidences s ≠ [] ∨ m.embeddings s ≠ [])

/-- There are several lines and several related surfaces at `v`, and a line, not internal to anything, in relation
with all these surfaces, which bounds at most one of them, this one being not internal. -/
def MultipleInvalidSurfaces : Prop :=
  (∃ a b, a ≠ b ∧ At m v .line a ∧ At m v .line b) ∧
  (∃ a b, a ≠ b ∧ RelatedSurface m v a ∧ RelatedSurface m v b) ∧
  ∃ line, At m v .line line ∧ m.embeddings line = [] ∧
    (∀ s, RelatedSurface m v s → m.isInternal line s = true ∨ m.isBoundary line s = true) ∧
    (¬ ∃ s, RelatedSurface m v s ∧ m.isBoundary line s = true ∧ m.embeddings s ≠ []) ∧
    (¬ ∃ a b, a ≠ b ∧ RelatedSurface m v a ∧ RelatedSurface m v b ∧ m.isBoundary line a = true ∧
      m.isBoundary line b = true)

/-- An active boundary surface of the block has a boundary line which is on no other boundary surface of the
block. -/
def HasOpenBoundary (block : Uuid) : Prop :=
  ∃ s, ⟨.surface, s⟩ ∈ m.boundaries block ∧ Active m .surface s ∧ ∃ line, ⟨.line, line⟩ ∈ m.boundaries s ∧
    ¬ ∃ s', ⟨.surface, s'⟩ ∈ m.incidences line ∧ s' ≠ s ∧ m.isBoundary s' block = true

/-- The decision on the boundary of a block: fewer than two parts, or the first part with a box enclosing the
others contains them. -/
def BoundaryEncloses (g : BlockGeometry) (block : Uuid) : Prop :=
  ∃ parts N, (∀ fuel ≥ N, linkedBoundaryParts m fuel fuel (queueWithBlockBoundaries m block) = .ok parts) ∧
    (parts.length < 2 ∨
      ∃ i, BoxEncloses g parts i ∧ (∀ j < i, ¬ BoxEncloses g parts j) ∧ MeshEncloses m g parts i)

/-- A block with vertices and polyhedra. -/
def BlockMeshed (c : TopologyComponent) : Prop := c.nbVertices ≠ 0 ∧ c.nbElements ≠ 0

instance (c : TopologyComponent) : Decidable (BlockMeshed c) := by unfold BlockMeshed; infer_instance

end Inspector.Spec

namespace Inspector.Spec

open Classical in
/-- The lists of the inspection of the blocks, when there is an active block. -/
structure BlocksReport (m : TopologyModel) (o : BlocksOracle) (r : BRepBlocksTopologyInspectionResult) : Prop where
  notMeshed : r.some_blocks_not_meshed.issues =
    if (∃ c ∈ m.components .block, c.active = true ∧ BlockMeshed c) then
      ((((m.components .block).filter fun c => c.active).filter fun c => decide (¬ BlockMeshed c)).map
        TopologyComponent.id) else []
  notLinked : MapReports r.blocks_not_linked_to_a_unique_vertex
    (((m.components .block).filter fun c => c.active).filter fun c => decide (BlockMeshed c))
    TopologyComponent.id (fun c l => Exactly (· < ·) (NotAssociated m .block c) l)
  modelBoundaries : r.model_boundaries_dont_form_a_closed_surface.issues =
    if o.modelBoundaries = [] ∨ AllLinked m o.modelBoundaries.flatten then [] else [0]
  notClosed : r.blocks_with_not_closed_boundary_surfaces.issues =
    ((((m.components .block).filter fun c => c.active).filter
      fun c => decide (¬ BoundaryEncloses m o.geometry c.id)).map TopologyComponent.id)
  wrongBoundary : r.wrong_block_boundary_surface.issues =
    ((((m.components .block).filter fun c => c.active).filter
      fun c => decide (HasOpenBoundary m c.id)).map TopologyComponent.id)
  twoBlocks : Exactly (· < ·) (fun v => v < m.nbUniqueVertices ∧ TwoBlocksWithoutSurface m v)
    r.unique_vertices_part_of_two_blocks_and_no_boundary_surface.issues
  count : Exactly (· < ·) (fun v => v < m.nbUniqueVertices ∧ BlockCountWrong m v)
    r.unique_vertices_with_incorrect_block_cmvs_count.issues
  single : Exactly (· < ·) (fun v => v < m.nbUniqueVertices ∧ SingleInvalidSurface m v)
    r.unique_vertices_linked_to_a_single_and_invalid_surface.issues
  wrong : Exactly (· < ·) (fun v => v < m.nbUniqueVertices ∧ SurfaceWrongForBlocks m v o.isInsideBlock)
    r.unique_vertices_linked_to_surface_with_wrong_relationship_to_blocks.issues
  multiple : Exactly (· < ·) (fun v => v < m.nbUniqueVertices ∧ MultipleInvalidSurfaces m v)
    r.unique_vertex_linked_to_multiple_invalid_surfaces.issues

end Inspector.Spec
