import Verif.Proofs.SamePlace
import Verif.Props.WholeModel
/-
C119: in a model declared valid, the vertices of the active components have the same unique vertex exactly when they are at
the same place.
-/
namespace Inspector
open Spec SamePlace

/-- **C119** (Sections). -/
theorem C119_section {P : Type} (lib : ModelLibrary P) (rt : ModelRuntime) (hrt : ModelRuntimeOk rt) (m : ModelData P)
    (c : Candidates P) (h : SectionOk lib rt m c) (near : P → P → Prop) (hl : PlacesOk lib m near) (hk : LinksKept m) :
    ∃ v, isSectionOfValid lib rt m = .ok v ∧
      (v.isValid = true → ∀ x p y q, VertexAt m x p → VertexAt m y q →
        ∃ u u', m.uniqueVertex x = some u ∧ m.uniqueVertex y = some u' ∧ (u = u' ↔ near p q)) := by
  obtain ⟨v, h1, h2⟩ := C82_section lib rt hrt m c h
  refine ⟨v, h1, fun hv x p y q hx hy => ?_⟩
  have hd := h2.1 hv
  unfold SectionDefect SectionTopologyDefect at hd
  rw [not_or, not_or, not_or, not_or, not_or, not_or, not_or, not_or, not_not] at hd
  obtain ⟨d1, d2, _, _, _, d3, _, d4, _⟩ := hd
  have kinds : ∀ x p, VertexAt m x p → x.component_id.type ∈ sectionKinds := by
    intro x p hx
    cases hx with
    | block b v _ hb => rw [h.noBlock] at hb; cases hb
    | corner => exact List.mem_cons_self
    | line => exact List.mem_cons_of_mem _ List.mem_cons_self
    | surface => exact List.mem_cons_of_mem _ (List.mem_cons_of_mem _ List.mem_cons_self)
  obtain ⟨u, hu⟩ := linked_of_no_defect m rt _ d4 x p hx (kinds x p hx)
  obtain ⟨u', hu'⟩ := linked_of_no_defect m rt _ d4 y q hy (kinds y q hy)
  exact ⟨u, u', hu, hu', correspond lib near m rt hl h.meshes.ids hk _ d3 d1 d2 x y p q hx hy u u' hu hu'⟩

/-- **C119** (BReps): the vertices of Corners and Surfaces have unique vertices, and the vertices which have unique vertices
have the same exactly when they are at the same place. -/
theorem C119_brep {P : Type} (lib : ModelLibrary P) (rt : ModelRuntime) (hrt : ModelRuntimeOk rt) (m : ModelData P)
    (c : Candidates P) (h : BRepOk lib rt m c) (near : P → P → Prop) (hl : PlacesOk lib m near) (hk : LinksKept m) :
    ∃ v N, (∀ fuel ≥ N, isBRepOfValid lib rt fuel m = .ok v) ∧
      (v.isValid = true →
        (∀ x p, VertexAt m x p → x.component_id.type ∈ [.corner, .surface] → ∃ u, m.uniqueVertex x = some u) ∧
        ∀ x p y q u u', VertexAt m x p → VertexAt m y q → m.uniqueVertex x = some u → m.uniqueVertex y = some u' →
          (u = u' ↔ near p q)) := by
  obtain ⟨v, N, h1, h2, h3, _⟩ := C82_brep_partial lib rt hrt m c h
  refine ⟨v, N, h1, fun hv => ?_⟩
  have hd : (¬ ∃ uv, uv < m.nbUniqueVertices ∧ DifferentPoints lib.inexactEqual (m.uniqueVertices lib) uv) ∧
      ¬ HasColocatedUniqueVertices lib m ∧ BijectivelyLinked (m.topology rt) brepKinds ∧
      ¬ HasUnlinkedVertex (m.topology rt) [.corner, .surface] := by
    by_cases hu : LinesUnreadable (m.topology rt)
    · have hd := (h3 hu).2.1 hv
      unfold BRepDefectBesideLines OtherTopologyDefect at hd
      simp only [not_or, not_not] at hd
      exact ⟨hd.1, hd.2.1, hd.2.2.2.2.2.2.2.2.2.2.1, hd.2.2.2.2.2.2.2.2.2.2.2.2.1⟩
    · have hd := (h2 hu).1 hv
      unfold BRepDefect BRepTopologyDefect at hd
      simp only [not_or, not_not] at hd
      refine ⟨hd.1, hd.2.1, hd.2.2.2.2.2.2.2.2.2.2.1, ?_⟩
      rintro ⟨kind, hkind, hk⟩
      refine hd.2.2.2.2.2.2.2.2.2.2.2.2.1 ⟨kind, ?_, hk⟩
      simp only [List.mem_cons, List.not_mem_nil, or_false] at hkind
      rcases hkind with rfl | rfl <;> decide
  obtain ⟨d1, d2, d3, d4⟩ := hd
  exact ⟨fun x p hx hkind => linked_of_no_defect m rt _ d4 x p hx hkind,
    fun x p y q u u' hx hy hu hu' => correspond lib near m rt hl h.meshes.ids hk _ d3 d1 d2 x y p q hx hy u u' hu hu'⟩

/-! ### examples -/

theorem exampleModel_links (d : TopologyData) (scale : Nat → Nat) (sign : Sign) :
    LinksKept (exampleModel d scale sign) := by
  intro x uv hu
  have hu : d.vertices.findIdx? (fun l => decide (x ∈ l)) = some uv := hu
  obtain ⟨hlt, hp, _⟩ := List.findIdx?_eq_some_iff_getElem.1 hu
  refine ⟨hlt, ?_⟩
  show x ∈ d.vertices.getD uv []
  rw [List.getD_eq_getElem?_getD, List.getElem?_eq_getElem hlt, Option.getD_some]
  exact of_decide_eq_true hp

/-- in the models of the examples, the search distinguishes all the points it is given -/
theorem exampleModel_places (d : TopologyData) (scale : Nat → Nat) (sign : Sign)
    (h : (activePositions ((exampleModel d scale sign).uniqueVertices modelLibrary)).Nodup) :
    PlacesOk modelLibrary (exampleModel d scale sign) (· = ·) where
  equivalence := ⟨fun _ => rfl, fun h => h.symm, fun h h' => h.trans h'⟩
  equal := fun _ _ _ _ _ _ => beq_iff_eq
  search := by
    intro i j p q hi hj
    obtain ⟨li, rfl⟩ := List.getElem?_eq_some_iff.1 hi
    obtain ⟨lj, rfl⟩ := List.getElem?_eq_some_iff.1 hj
    have hm : ∀ k, k < (activePositions ((exampleModel d scale sign).uniqueVertices modelLibrary)).length →
        (modelLibrary.search (activePositions ((exampleModel d scale sign).uniqueVertices
          modelLibrary))).colocated_mapping[k]? = some k := by
      intro k hk
      exact List.getElem?_range hk
    constructor
    · rintro ⟨u, h1, h2⟩
      rw [hm i li] at h1
      rw [hm j lj] at h2
      obtain rfl := Option.some.inj h1
      obtain rfl := Option.some.inj h2
      rfl
    · intro he
      obtain rfl := (h.getElem_inj_iff).1 he
      exact ⟨i, hm i li, hm i lj⟩

/-- the end 1 of the line 13 and the vertex 0 of the surface 21 have the same unique vertex, so are at the same point; the
vertex 1 of the surface is at another point -/
example : (∀ x p y q, VertexAt (exampleModel triangleSection (10 * ·) .positive) x p →
      VertexAt (exampleModel triangleSection (10 * ·) .positive) y q →
      ∃ u u', (exampleModel triangleSection (10 * ·) .positive).uniqueVertex x = some u ∧
        (exampleModel triangleSection (10 * ·) .positive).uniqueVertex y = some u' ∧ (u = u' ↔ p = q)) ∧
    VertexAt (exampleModel triangleSection (10 * ·) .positive) ⟨⟨.line, 13⟩, 1⟩ 0 ∧
    VertexAt (exampleModel triangleSection (10 * ·) .positive) ⟨⟨.surface, 21⟩, 1⟩ 10 := by
  refine ⟨?_, ?_, ?_⟩
  · obtain ⟨v, h1, h2⟩ := C119_section modelLibrary modelRuntime modelRuntime_ok _ _ (triangleSection_ok .positive) _
      (exampleModel_places triangleSection (10 * ·) .positive (by decide +kernel)) (exampleModel_links _ _ _)
    have he : isSectionOfValid modelLibrary modelRuntime (exampleModel triangleSection (10 * ·) .positive) = .ok {} :=
      by rfl
    rw [he] at h1
    injection h1 with h1
    exact h2 (by rw [← h1]; rfl)
  · exact VertexAt.line ((exampleModel triangleSection (10 * ·) .positive).lines[2]'(by decide)) 1 0
      (List.getElem_mem _) rfl rfl
  · exact VertexAt.surface ((exampleModel triangleSection (10 * ·) .positive).surfaces[0]'(by decide)) 1 10
      (List.getElem_mem _) rfl rfl

set_option maxRecDepth 20000 in
/-- the same for the tetrahedron -/
example : ∀ x p y q u u', VertexAt (exampleModel tetrahedronBRep (10 * ·) .positive) x p →
    VertexAt (exampleModel tetrahedronBRep (10 * ·) .positive) y q →
    (exampleModel tetrahedronBRep (10 * ·) .positive).uniqueVertex x = some u →
    (exampleModel tetrahedronBRep (10 * ·) .positive).uniqueVertex y = some u' → (u = u' ↔ p = q) := by
  obtain ⟨v, N, h1, h2⟩ := C119_brep modelLibrary modelRuntime modelRuntime_ok _ _ (tetrahedronBRep_ok .positive) _
    (exampleModel_places tetrahedronBRep (10 * ·) .positive (by decide +kernel)) (exampleModel_links _ _ _)
  have he : ∀ N, isBRepOfValid modelLibrary modelRuntime (N + 20)
      (exampleModel tetrahedronBRep (10 * ·) .positive) = .ok {} := fun N => by rfl
  have h1 := h1 (N + 20) (by omega)
  rw [he] at h1
  injection h1 with h1
  exact (h2 (by rw [← h1]; rfl)).2

end Inspector
