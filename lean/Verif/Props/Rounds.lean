import Verif.Proofs.Rounds
import Verif.Props.Plain
/-
C130: the loops of the inspection of the Blocks end, whatever the BRep, after a number of rounds bounded by its number of
Surfaces.
-/
namespace Inspector
open Spec

/-- **C130** (Surfaces which cannot be boundaries): the search ends, whatever the relationships of the BRep and the answers of
the graph, after at most one round more than there are Surfaces on Lines. -/
theorem C130_not_boundary_surfaces (m : TopologyModel) (find : List GraphEdge → Uuid → Uuid → Option Nat) :
    ∀ fuel > (surfacesOnLines m).card, ∃ result, findNotBoundarySurfaces m find fuel = .ok result :=
  Rounds.findNotBoundarySurfaces_ends find

/-- **C130** (linked Surfaces): gathering the Surfaces linked to the first of `n` Surfaces ends after at most `n²` rounds,
whatever the relationships. -/
theorem C130_linked_surfaces (m : TopologyModel) (queue : List Uuid) (hq : queue ≠ []) :
    ∀ fuel ≥ queue.length ^ 2, ∃ linked others, closedLinkedSurfaces m fuel queue = .ok (linked, others) ∧
      others.length < queue.length := by
  intro fuel hf
  cases queue with
  | nil => exact absurd rfl hq
  | cons first rest =>
    obtain ⟨P, Q', h1, h2⟩ := Rounds.closedLinkedSurfaces_ends (m := m) fuel first rest hf
    exact ⟨P, Q', h1, by rw [List.length_cons]; omega⟩

/-- **C130** (inspection of the Blocks): whatever the BRep and the answers of its geometry, the inspection of the Blocks is over
after `n²` rounds of each of its loops when there are less than `n` Surfaces: more rounds change nothing. -/
theorem C130_blocks (m : TopologyModel) (o : BlocksOracle) (n : Nat) (h : LargerThanSurfaces m o n) :
    ∀ fuel ≥ n ^ 2, brepInspectBlocks m o fuel = brepInspectBlocks m o (n ^ 2) :=
  fun _ hf => Rounds.blocks_same o h hf

/-- **C130** (BRep): whatever the BRep, its inspection and its verdict are known after `n²` rounds of each loop when it has
less than `n` Surfaces. -/
theorem C130_brep {P : Type} (lib : ModelLibrary P) (rt : ModelRuntime) (m : ModelData P) (n : Nat)
    (h : LargerThanSurfaces (m.topology rt) m.blocksOracle n) : ∀ fuel ≥ n ^ 2,
    inspectBRepOf lib rt fuel m = inspectBRepOf lib rt (n ^ 2) m ∧
      isBRepOfValid lib rt fuel m = isBRepOfValid lib rt (n ^ 2) m := by
  intro fuel hf
  have h1 : inspectBRepOf lib rt fuel m = inspectBRepOf lib rt (n ^ 2) m := by
    unfold inspectBRepOf inspectBRepTopology
    rw [C130_blocks _ _ n h fuel hf]
  exact ⟨h1, by unfold isBRepOfValid; rw [h1]⟩

/-- **C130** (verdict): on a BRep with the guarantees of OpenGeode the verdict is there after `n²` rounds. -/
theorem C130_verdict {P : Type} (lib : ModelLibrary P) (rt : ModelRuntime) (hrt : ModelRuntimeOk rt) (m : ModelData P)
    (c : Candidates P) (ok : BRepOk lib rt m c) (n : Nat) (h : LargerThanSurfaces (m.topology rt) m.blocksOracle n) :
    ∃ v, ∀ fuel ≥ n ^ 2, isBRepOfValid lib rt fuel m = .ok v := by
  obtain ⟨v, N, h1, _⟩ := C99_brep_partial lib rt hrt m c ok
  refine ⟨v, fun fuel hf => ?_⟩
  rw [(C130_brep lib rt m n h fuel hf).2, ← (C130_brep lib rt m n h (max N (n ^ 2)) (le_max_right _ _)).2]
  exact h1 _ (le_max_left _ _)

/-- The tetrahedron has four Surfaces: 25 rounds are enough. -/
example : LargerThanSurfaces ((exampleModel tetrahedronBRep (10 * ·) .positive).topology modelRuntime)
    (exampleModel tetrahedronBRep (10 * ·) .positive).blocksOracle 5 ∧
    ∃ v, ∀ fuel ≥ 25, isBRepOfValid modelLibrary modelRuntime fuel (exampleModel tetrahedronBRep (10 * ·) .positive) = .ok v := by
  have h : LargerThanSurfaces ((exampleModel tetrahedronBRep (10 * ·) .positive).topology modelRuntime)
    (exampleModel tetrahedronBRep (10 * ·) .positive).blocksOracle 5 := ⟨by decide +kernel, by decide +kernel, by decide +kernel⟩
  exact ⟨h, C130_verdict modelLibrary modelRuntime modelRuntime_ok _ _ (tetrahedronBRep_ok .positive) 5 h⟩

end Inspector
