import Mathlib.Data.Finset.Card
import Mathlib.Data.Finset.Dedup
import Verif.Spec.TopologyBlocks
/-
Specification side of C130: what bounds the rounds of the loops of the inspection of the Blocks.
-/
namespace Inspector.Spec

/-- The Surfaces which have a Line of the model as boundary. -/
def surfacesOnLines (m : TopologyModel) : Finset Uuid :=
  ((m.components .line).flatMap fun line =>
    ((m.incidences line.id).filter fun c => decide (c.type = .surface)).map ComponentID.id).toFinset

/-- `n` is larger than the number of Surfaces on Lines, than the number of Surfaces bounding any active Block, and than the
number of items of the model boundaries. -/
structure LargerThanSurfaces (m : TopologyModel) (o : BlocksOracle) (n : Nat) : Prop where
  onLines : (surfacesOnLines m).card < n
  blocks : ∀ b ∈ m.components .block, b.active = true → (boundarySurfaces m b.id).length < n
  modelBoundaries : o.modelBoundaries.flatten.length < n

end Inspector.Spec
