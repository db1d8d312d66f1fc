import Mathlib.Data.Finset.Card
import Mathlib.Data.Finset.Filter
import Verif.Model.TopologySurfaces
import Verif.Spec.Topology
/-
Specification of the criteria on surfaces.
-/
namespace Inspector.Spec

/-! ### Section -/

/-- `v` is on exactly two surfaces, and on no line bounding both. -/
def TwoSurfacesWithoutLine (m : TopologyModel) (v : Index) : Prop :=
  ∃ s1 s2, s1 ≠ s2 ∧ At m v .surface s1 ∧ At m v .surface s2 ∧
    (∀ s, At m v .surface s → s = s1 ∨ s = s2) ∧
    ¬ ∃ line, At m v .line line ∧ m.isBoundary line s1 = true ∧ m.isBoundary line s2 = true

/-- All surfaces are meshed, `v` is on an active line, and is a vertex of an active surface which is not on
the border of its mesh. -/
def LineNotOnBorder (m : TopologyModel) (v : Index) : Prop :=
  AllMeshed m .surface ∧ (∃ line, ActiveAt m v .line line) ∧
    ∃ cmv ∈ m.componentMeshVertices v, ActiveCmv m .surface cmv ∧
      m.isVertexOnBorder cmv.component_id.id cmv.vertex = false

/-! ### BRep -/

/-- An active surface at `v` is embedded in an active block which it bounds, or (if all blocks are meshed)
which has no vertex at `v`. -/
def InvalidEmbeddedSurface (m : TopologyModel) (v : Index) : Prop :=
  ∃ s, ActiveAt m v .surface s ∧ ∃ e ∈ m.embeddings s, Active m .block e.id ∧
    (m.isBoundary s e.id = true ∨
      (AllMeshed m .block ∧ ∀ cmv ∈ m.componentMeshVertices v, cmv.component_id.id ≠ e.id))

/-- The surfaces at `v`. -/
def surfacesAt (m : TopologyModel) (v : Index) : Finset Uuid :=
  (((m.componentMeshVertices v).filter fun cmv => decide (cmv.component_id.type = .surface)).map
    fun cmv => cmv.component_id.id).toFinset

/-- `v` is on several active surfaces, and the corners at `v` do not explain it: without line, there must be
corners, internal to all the active surfaces; with one line having one vertex at `v`, the number of embeddings of a
corner must be the number of surfaces not related to the line. -/
def InvalidMultipleSurfaces (m : TopologyModel) (v : Index) : Prop :=
  (∃ s s', s ≠ s' ∧ ActiveAt m v .surface s ∧ ActiveAt m v .surface s') ∧
  (((∀ line, ¬ At m v .line line) ∧
      ((∀ corner, ¬ At m v .corner corner) ∨
        ∃ corner s, At m v .corner corner ∧ ActiveAt m v .surface s ∧ m.isInternal corner s = false)) ∨
   (∃ line corner, ((m.componentMeshVertices v).filter fun cmv => decide (cmv.component_id.type = .line)).map
        ComponentMeshVertex.component_id = [⟨.line, line⟩] ∧
      At m v .corner corner ∧
      (m.embeddings corner).length + ((surfacesAt m v).filter fun s =>
        m.isBoundary line s = true ∨ m.isInternal line s = true).card ≠ (surfacesAt m v).card))

/-- A vertex at `v` of a surface is not on the border of its mesh, although an active line at `v` bounds this
surface or is internal to it. -/
def RelatedLineNotOnBorder (m : TopologyModel) (v : Index) : Prop :=
  ∃ cmv ∈ m.componentMeshVertices v, cmv.component_id.type = .surface ∧
    m.isVertexOnBorder cmv.component_id.id cmv.vertex = false ∧
    ∃ line, ActiveAt m v .line line ∧
      (m.isBoundary line cmv.component_id.id = true ∨ m.isInternal line cmv.component_id.id = true)

/-- A polygon of a surface and the facets of blocks around it are not consistent. -/
def FacetIsWrong (m : TopologyModel) (surface : Uuid) (facet : Index) : Prop :=
  ∃ b n, (b, n) ∈ m.blockPolygons surface facet ∧ Active m .block b ∧
    ¬ (m.isBoundary surface b = true ∧ n = 1) ∧
    ¬ (m.isBoundary surface b = false ∧ m.isInternal surface b = true ∧ n = 2)

/-- The lists on surfaces (not on unique vertices) of the inspection of the surfaces of a BRep. -/
def BRepSurfacesComponents (m : TopologyModel) (r : BRepSurfacesTopologyInspectionResult) : Prop :=
  r.surfaces_not_meshed.issues =
    (((m.components .surface).filter fun c => c.active).filter
      fun c => c.nbVertices == 0 || c.nbElements == 0).map TopologyComponent.id ∧
  MapReports r.surfaces_not_linked_to_a_unique_vertex ((m.components .surface).filter fun c => c.active)
    TopologyComponent.id (fun c l => Exactly (· < ·) (NotAssociated m .surface c) l) ∧
  MapReports r.surface_polygons_with_wrong_component_facets_around
    ((m.components .surface).filter fun c => c.active) TopologyComponent.id
    (fun c l => Exactly (· < ·) (fun f => f < c.nbElements ∧ (∀ v, ¬ NotAssociated m .surface c v) ∧
      AllMeshed m .block ∧ FacetIsWrong m c.id f) l)

end Inspector.Spec
