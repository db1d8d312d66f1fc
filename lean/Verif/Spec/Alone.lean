import Verif.Spec.Plain
/-
Specification side of C123: what the inspection of one component of a model, alone, may still report.
-/
namespace Inspector.Spec
variable {P : Type}

/-- The vertices of each group have the same unique vertex (or none of them has one). -/
def SameUniqueVertex (m : ModelData P) (kind : ComponentType) (id : Uuid) (groups : List (List Index)) : Prop :=
  ∀ g ∈ groups, ∀ i ∈ g, ∀ j ∈ g, m.uniqueVertex ⟨⟨kind, id⟩, i⟩ = m.uniqueVertex ⟨⟨kind, id⟩, j⟩

/-- The inspection of the mesh of a Line reports nothing but colocated vertices with the same unique vertex. -/
def LineMeshAlone (m : ModelData P) (l : LineData P) (r : EdgedCurveInspectionResult) : Prop :=
  r.degenerated_edges.issues = [] ∧ SameUniqueVertex m .line l.id r.colocated_points_groups.issues

/-- The inspection of the mesh of a Surface reports nothing but colocated vertices with the same unique vertex, and
intersections. -/
def SurfaceMeshAlone (m : ModelData P) (s : FaceData P) (r : SurfaceInspectionResult) : Prop :=
  r.polygon_edges_with_wrong_adjacency.issues = [] ∧ r.degenerated_edges.issues = [] ∧
  r.degenerated_polygons.issues = [] ∧ r.non_manifold_edges.issues = [] ∧ r.non_manifold_vertices.issues = [] ∧
  r.negative_polygons.issues = [] ∧ SameUniqueVertex m .surface s.id r.colocated_points_groups.issues

/-- The inspection of the mesh of a Block reports nothing but colocated vertices with the same unique vertex. -/
def BlockMeshAlone (m : ModelData P) (b : VolumeData P) (r : SolidInspectionResult) : Prop :=
  r.polyhedron_facets_with_wrong_adjacency.issues = [] ∧ r.degenerated_edges.issues = [] ∧
  r.degenerated_polyhedra.issues = [] ∧ r.non_manifold_vertices.issues = [] ∧ r.non_manifold_edges.issues = [] ∧
  r.non_manifold_facets.issues = [] ∧ r.negative_polyhedra.issues = [] ∧
  SameUniqueVertex m .block b.id r.colocated_points_groups.issues

/-- No vertex has the number `NO_ID` as unique vertex. -/
def NoIdIsFree (m : ModelData P) : Prop := ∀ cmv, m.uniqueVertex cmv ≠ some m.noId

end Inspector.Spec
