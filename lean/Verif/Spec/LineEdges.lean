import Verif.Spec.Numbers
/-
Specification side of C133: the same model, the edges of its Lines having other numbers and other directions.
-/
namespace Inspector.Spec
variable {P : Type}

/-- An edge, turned over or not. -/
def turnedEdge (turn : Bool) (e : Index × Index) : Index × Index := if turn then (e.2, e.1) else e

/-- A Line whose edges have other numbers: the edge number `v i` is the one which had the number `i`, turned over if
`turn i`. -/
def lineEdgesOf (v : Equiv.Perm Nat) (turn : Index → Bool) (l : LineData P) : LineData P :=
  { l with
    edgeVertices := fun e => turnedEdge (turn (v.symm e)) (l.edgeVertices (v.symm e))
    isEdgeDegenerated := fun e => l.isEdgeDegenerated (v.symm e)
    edgeText := fun e => l.edgeText (v.symm e) }

/-- The pairs (polygon, edge) met by a traversal, when the edges have other numbers. -/
def traversalEdges (v : Equiv.Perm Nat) (t : Traversal) : Traversal := fun stop =>
  (t fun x => stop (x.1, v x.2)).map fun x => (x.1, v x.2)

/-- The same model, the number `i` of each edge of a Line `l` being replaced by `τ l i`, and the edge being turned over if
`turn l i`: what is asked of the model by the number of an edge of a Line, and the answers that are such numbers, are
changed accordingly; nothing else is. -/
def withLineEdges (τ : Uuid → Equiv.Perm Nat) (turn : Uuid → Index → Bool) (m : ModelData P) : ModelData P :=
  { m with
    lines := m.lines.map fun l => lineEdgesOf (τ l.id) (turn l.id) l
    surfaceEdges := fun l e => m.surfaceEdges l ((τ l).symm e)
    blockEdges := fun l e => m.blockEdges l ((τ l).symm e)
    lineComponentMeshEdges := fun u v => (m.lineComponentMeshEdges u v).map fun x =>
      { x with element_id := τ x.component_id.id x.element_id }
    lineTree := fun s l => traversalEdges (τ l) (m.lineTree s l) }

/-- `τ` gives other numbers to the edges of each Line of the model. -/
def LineEdgeNumbersOf (τ : Uuid → Equiv.Perm Nat) (m : ModelData P) : Prop :=
  ∀ l ∈ m.lines, Renumbers (τ l.id) l.nbEdges

/-- Assumed of OpenGeode: a Line is a boundary (an internal Line) of the Surfaces it is incident to (embedded in). -/
structure RelationsAgree (m : ModelData P) : Prop where
  boundary : ∀ l ∈ m.lines, ∀ s, m.isBoundary l.id s = true ↔ ⟨.surface, s⟩ ∈ m.incidences l.id
  internal : ∀ l ∈ m.lines, ∀ s, m.isInternal l.id s = true ↔ ⟨.surface, s⟩ ∈ m.embeddings l.id

/-- Assumed of OpenGeode: the length of a segment, and whether it goes through a triangle or one of its edges, do not
depend on its direction. -/
structure SegmentsUndirected (lib : ModelLibrary P) : Prop where
  distance : ∀ p q, lib.distance p q = lib.distance q p
  triangle : ∀ a b t, ∀ x ∈ [Position.inside, .edge0, .edge1, .edge2],
    ((lib.geometry.segmentTriangle (a, b) t).1 = x ∨ (lib.geometry.segmentTriangle (a, b) t).2 = x) ↔
      ((lib.geometry.segmentTriangle (b, a) t).1 = x ∨ (lib.geometry.segmentTriangle (b, a) t).2 = x)

end Inspector.Spec
