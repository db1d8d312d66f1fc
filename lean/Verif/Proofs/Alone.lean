import Verif.Spec.Alone
import Verif.Props.WholeModel
import Verif.Props.Whole
/-
Proofs for C123: the defects of the mesh of a component, alone and in its model.
-/
namespace Inspector.Alone
open Inspector Spec
variable {P : Type} {lib : ModelLibrary P} {m : ModelData P}

theorem nil_of {α : Type} {lt : α → α → Prop} {p : α → Prop} {l : List α} (h : Exactly lt p l) (hn : ∀ x, ¬ p x) :
    l = [] := by
  by_contra hne
  obtain ⟨x, hx⟩ := (exactly_nil_iff h).1 hne
  exact hn x hx

theorem sameVertex (hid : NoIdIsFree m) {kind : ComponentType} {id : Uuid} {points : List P}
    (h : ¬ HasSplitVertices lib m kind id points) {groups : List (List Index)}
    (hg : AreClasses groups points.length (Colocated (lib.search points))) : SameUniqueVertex m kind id groups := by
  intro g hgm i hi j hj
  by_cases hij : i = j
  · rw [hij]
  · have hb := (hg.1 g hgm).2.2
    have hc := (hg.2.2 i j (hb i hi) (hb j hj) hij).1 ⟨g, hgm, hi, hj⟩
    have : m.uniqueVertexId kind id i = m.uniqueVertexId kind id j := by
      by_contra hne
      exact h ⟨i, j, hb i hi, hb j hj, hc, hne⟩
    unfold ModelData.uniqueVertexId at this
    have h1 := hid ⟨⟨kind, id⟩, i⟩
    have h2 := hid ⟨⟨kind, id⟩, j⟩
    cases ea : m.uniqueVertex ⟨⟨kind, id⟩, i⟩ <;> cases eb : m.uniqueVertex ⟨⟨kind, id⟩, j⟩ <;>
      rw [ea, eb] at this <;> rw [ea] at h1 <;> rw [eb] at h2
    · simp only [Option.getD_none, Option.getD_some] at this
      exact absurd (congrArg some this).symm h2
    · simp only [Option.getD_none, Option.getD_some] at this
      exact absurd (congrArg some this) h1
    · simp only [Option.getD_some] at this
      rw [this]

theorem line (hid : NoIdIsFree m) {l : LineData P} (h : ¬ LineMeshDefect lib m l) {r : EdgedCurveInspectionResult}
    (hr : CurveReport lib.toLibrary l.toCurveData r) : LineMeshAlone m l r := by
  unfold LineMeshDefect at h
  rw [not_or] at h
  exact ⟨nil_of hr.edges fun e he => h.2 ⟨e, he⟩, sameVertex hid h.1 hr.colocation⟩

theorem surface (hid : NoIdIsFree m) {s : FaceData P} (h : ¬ SurfaceMeshDefect lib m s) {dimension : Nat}
    (hn : dimension = 2 → ∀ p, p < s.nbPolygons → s.polygonAreaSign p ≠ .negative) {r : SurfaceInspectionResult}
    (hr : SurfaceReport dimension lib.toLibrary s.toSurfaceData r) : SurfaceMeshAlone m s r := by
  unfold SurfaceMeshDefect at h
  simp only [not_or] at h
  obtain ⟨d1, d2, _, d4, d5, d6, d7⟩ := h
  exact ⟨nil_of hr.adjacency fun x hx => d2 ⟨x, hx⟩, nil_of hr.edges fun x hx => d4 ⟨x, hx⟩,
    nil_of hr.polygons fun x hx => d5 ⟨x, hx⟩, nil_of hr.manifoldEdges fun x hx => d7 ⟨x, hx⟩,
    nil_of hr.manifoldVertices fun x hx => d6 ⟨x, hx⟩, nil_of hr.negative fun x hx => hn hx.1 x hx.2.1 hx.2.2,
    sameVertex hid d1 hr.colocation⟩

theorem block (hid : NoIdIsFree m) {b : VolumeData P} (h : ¬ BlockMeshDefect lib m b) {r : SolidInspectionResult}
    (hr : SolidReport lib.toLibrary b.toSolidData r) : BlockMeshAlone m b r := by
  unfold BlockMeshDefect at h
  simp only [not_or] at h
  obtain ⟨d1, d2, _, d4, d5, d6, d7, d8, d9⟩ := h
  exact ⟨nil_of hr.adjacency fun x hx => d2 ⟨x, hx⟩, nil_of hr.edges fun x hx => d4 ⟨x, hx⟩,
    nil_of hr.polyhedra fun x hx => d5 ⟨x, hx⟩, nil_of hr.manifoldVertices fun x hx => d6 ⟨x, hx⟩,
    nil_of hr.manifoldEdges fun x hx => by obtain ⟨p, hp⟩ := hx; exact d7 ⟨p, x, hp⟩,
    nil_of hr.manifoldFacets fun x hx => d8 ⟨x, hx⟩, nil_of hr.negative fun x hx => d9 ⟨x, hx⟩,
    sameVertex hid d1 hr.colocation⟩

end Inspector.Alone
