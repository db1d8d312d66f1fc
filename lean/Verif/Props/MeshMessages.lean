import Verif.Proofs.MeshMessages
import Verif.Props.Whole
/-
Property C96: descriptions and messages of the inspection of meshes.
-/
namespace Inspector
open Spec

/-- **C96** (point sets). -/
theorem C96_point_set {P : Type} (lib : Library P) (points : List P) (r : PointSetInspectionResult)
    (h : inspectPointSetMesh lib points = .ok r) :
    Told r.colocated_points_groups "groups of colocated points" (ColocatedSays lib points) := by
  unfold inspectPointSetMesh at h
  split at h
  · cases h
  · rename_i s hs
    obtain rfl := Except.ok.inj h
    exact meshColocated_told lib points hs

/-- **C96** (curves). -/
theorem C96_edged_curve {P : Type} (lib : Library P) (rt : Runtime) (hrt : RuntimeOk rt) (mesh : CurveData P)
    (r : EdgedCurveInspectionResult) (h : inspectCurveMesh lib rt mesh = .ok r) : CurveMessages lib mesh r := by
  unfold inspectCurveMesh at h
  obtain ⟨h1, h2⟩ := ((C53_edged_curve_partial rt.choose hrt.choose rt.schedule _).1 r).1 h
  exact ⟨meshColocated_told lib _ h1, (Except.ok.inj h2) ▸ curveSmallEdges_told lib mesh _⟩

/-- **C96** (surfaces). -/
theorem C96_surface {P : Type} (dimension : Nat) (lib : Library P) (rt : Runtime) (hrt : RuntimeOk rt)
    (mesh : SurfaceData P) (r : SurfaceInspectionResult) (h : inspectSurfaceMesh dimension lib rt mesh = .ok r) :
    SurfaceMessages lib mesh r := by
  unfold inspectSurfaceMesh at h
  obtain ⟨h1, h2, h3, h4, h5, h6, h7, h8⟩ := ((C53_surface_partial rt.choose hrt.choose rt.schedule _).1 r).1 h
  exact
    { adjacency := (Except.ok.inj h1) ▸ surfaceAdjacency_told _ _
      colocation := meshColocated_told lib _ h2
      edges := (Except.ok.inj h3) ▸ smallEdges_told lib mesh.points (mesh.measures lib) _ rfl
      polygons := (Except.ok.inj h4) ▸ smallHeightPolygons_told _ _
      manifoldEdges := (Except.ok.inj h5) ▸ surfaceEdges_told _ hrt.edgeOrder _
      manifoldVertices := surfaceVertices_told lib mesh.points (mesh.topo lib) rfl h6
      intersecting := surfaceIntersecting_told _ _ h7
      negative := (Except.ok.inj h8) ▸ negativePolygons_told _ _ }

/-- **C96** (surface and curve): each intersection is told with its triangle, then its edge. -/
theorem C96_surface_curve (traverse : Traversal) (intersects : ElementPair → Bool) (issues : Issues ElementPair)
    (h : curveIntersectingElements traverse intersects = .ok issues) :
    Told issues "intersections between triangles and edges" fun x t =>
      t = "Triangle " ++ toString x.1 ++ " and edge" ++ toString x.2 ++ " intersect" := by
  unfold curveIntersectingElements at h
  split at h
  · cases h
  · obtain rfl := Except.ok.inj h
    exact told_foldl (fun x => x) _ _ _ (told_new _ _) fun _ _ => rfl

/-- triangle 3 meets edge 5 -/
example : ∃ issues, curveIntersectingElements (fun _ => [(3, 5)]) (fun _ => true) = .ok issues ∧
    issues.messages = ["Triangle 3 and edge5 intersect"] := ⟨_, rfl, by decide +kernel⟩

/-- **C96** (solids). -/
theorem C96_solid {P : Type} (lib : Library P) (rt : Runtime) (hrt : RuntimeOk rt) (mesh : SolidData P)
    (r : SolidInspectionResult) (h : inspectSolidMesh lib rt mesh = .ok r) : SolidMessages lib mesh r := by
  unfold inspectSolidMesh at h
  obtain ⟨h1, h2, h3, h4, h5, h6, h7, h8⟩ := ((C53_solid_partial rt.choose hrt.choose rt.schedule _).1 r).1 h
  exact
    { adjacency := (Except.ok.inj h1) ▸ solidAdjacency_told _ _ _
      colocation := meshColocated_told lib _ h2
      edges := (Except.ok.inj h3) ▸ smallEdges_told lib mesh.points (mesh.measures lib) _ rfl
      polyhedra := (Except.ok.inj h4) ▸ smallHeightPolyhedra_told _ _
      manifoldVertices := solidVertices_told lib mesh.points (mesh.topo lib) rfl h5
      manifoldEdges := solidEdges_told _ h6
      manifoldFacets := (Except.ok.inj h7) ▸ solidFacets_told _ _ _
      negative := (Except.ok.inj h8) ▸ negativePolyhedra_told _ }

/-- vertices 0 and 2 are colocated -/
def twoColocated : ColocatedInfo Nat := ⟨[0, 1, 0, 2], [0, 10, 30]⟩

example : ∃ r, inspectPointSetMesh (exampleLibrary twoColocated) [0, 10, 0, 30] = .ok r ∧
    r.colocated_points_groups.messages = ["vertices  0 2 are colocated at the position [0]"] := ⟨_, rfl, by decide +kernel⟩

/-- edge 1 of this curve is short -/
example : ∃ r, inspectCurveMesh (exampleLibrary fourPoints) exampleRuntime (exampleCurveData [0, 10, 10, 30]) = .ok r ∧
    r.degenerated_edges.messages = ["degenerated edge 1, at position []"] := ⟨_, rfl, by decide +kernel⟩

example : ∃ r, inspectSurfaceMesh 3 (exampleLibrary fourPoints) exampleRuntime
      (exampleSurfaceData [0, 10, 10, 30] true) = .ok r ∧
    r.intersecting_elements.messages = ["Polygons 0 and 1 intersect"] ∧
    r.degenerated_edges.messages = ["degenerated edge between vertices 1 and 2, at position [10]"] :=
  ⟨_, rfl, by decide +kernel⟩

example : ∃ r, inspectSolidMesh (exampleLibrary fourPoints) exampleRuntime (exampleSolidData .negative) = .ok r ∧
    r.negative_polyhedra.messages = ["negative polyhedron 0"] := ⟨_, rfl, by decide +kernel⟩

end Inspector
