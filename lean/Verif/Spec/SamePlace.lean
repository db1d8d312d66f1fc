import Verif.Spec.WholeModel
/-
Specification side of C119: what it means that unique vertices and points of a model correspond.
-/
namespace Inspector.Spec
variable {P : Type}

/-- `x` is a vertex of the mesh of an active component of the model, at the point `p`. -/
inductive VertexAt (m : ModelData P) : ComponentMeshVertex → P → Prop
  | corner (c : CornerData P) (v : Index) (p : P) : c ∈ m.corners → c.active = true → c.points[v]? = some p →
      VertexAt m ⟨⟨.corner, c.id⟩, v⟩ p
  | line (l : LineData P) (v : Index) (p : P) : l ∈ m.lines → l.active = true → l.points[v]? = some p →
      VertexAt m ⟨⟨.line, l.id⟩, v⟩ p
  | surface (s : FaceData P) (v : Index) (p : P) : s ∈ m.surfaces → s.active = true → s.points[v]? = some p →
      VertexAt m ⟨⟨.surface, s.id⟩, v⟩ p
  | block (b : VolumeData P) (v : Index) (p : P) : b ∈ m.blocks → b.active = true → b.points[v]? = some p →
      VertexAt m ⟨⟨.block, b.id⟩, v⟩ p

/-- What OpenGeode does when it decides which points are at the same place, on the points of a model: it follows an
equivalence `near` (the equality of points, for instance, if the different points of the model are farther than the
tolerance). -/
structure PlacesOk (lib : ModelLibrary P) (m : ModelData P) (near : P → P → Prop) : Prop where
  equivalence : Equivalence near
  equal : ∀ x p y q, VertexAt m x p → VertexAt m y q → (lib.inexactEqual p q = true ↔ near p q)
  /-- on the points given to the search: the one of the first vertex of each unique vertex of active components -/
  search : ∀ i j p q, (activePositions (m.uniqueVertices lib))[i]? = some p →
    (activePositions (m.uniqueVertices lib))[j]? = some q →
    (Colocated (lib.search (activePositions (m.uniqueVertices lib))) i j ↔ near p q)

/-- What OpenGeode guarantees on the unique vertices: a vertex which has a unique vertex is one of its component mesh
vertices. -/
def LinksKept (m : ModelData P) : Prop :=
  ∀ x uv, m.uniqueVertex x = some uv → uv < m.nbUniqueVertices ∧ x ∈ m.componentMeshVertices uv

end Inspector.Spec
