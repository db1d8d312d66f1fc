import Verif.Props.Meshed
/-
C147: the Corners of a valid model bound the Lines which reach them.
-/
namespace Inspector
open Spec SamePlace

namespace CornersOnLines
variable {P : Type} {lib : ModelLibrary P} {rt : ModelRuntime} {m : ModelData P}

/-- What is linked to a unique vertex and has the uuid of a Corner is this Corner. -/
theorem kind_of {kinds : List ComponentType} (hb : BijectivelyLinked (m.topology rt) kinds)
    (hids : (m.corners.map CornerData.id ++ m.lines.map LineData.id ++ m.surfaces.map FaceData.id ++
      m.blocks.map VolumeData.id).Nodup) {u : Index} (hlt : u < m.nbUniqueVertices) {cmv : ComponentMeshVertex}
    (hm : cmv ∈ m.componentMeshVertices u) {c : CornerData P} (mc : c ∈ m.corners) (hid : cmv.component_id.id = c.id) :
    cmv.component_id.type = .corner := by
  obtain ⟨⟨kind, id⟩, w⟩ := cmv
  have hid : id = c.id := hid
  subst hid
  obtain ⟨t, ht, htid, _⟩ := SurfacesMeet.component_of hb hlt ⟨_, hm, rfl⟩
  have hin : c.id ∈ m.corners.map CornerData.id := List.mem_map_of_mem mc
  rw [List.append_assoc, List.append_assoc, List.nodup_append] at hids
  have hother : ∀ x, x ∈ m.lines.map LineData.id ++ (m.surfaces.map FaceData.id ++ m.blocks.map VolumeData.id) → x ≠ c.id :=
    fun x hx he => hids.2.2 _ hin x hx he.symm
  cases kind with
  | corner => rfl
  | line =>
    obtain ⟨y, hy, rfl⟩ := List.mem_map.1 (show t ∈ m.lines.map fun l => (⟨l.id, l.active, l.points.length, l.nbEdges⟩ :
      TopologyComponent) from ht)
    exact absurd htid (hother y.id (List.mem_append_left _ (List.mem_map_of_mem hy)))
  | surface =>
    obtain ⟨y, hy, rfl⟩ := List.mem_map.1 (show t ∈ m.surfaces.map fun s =>
      (⟨s.id, s.active, s.points.length, s.nbPolygons⟩ : TopologyComponent) from ht)
    exact absurd htid (hother y.id (List.mem_append_right _ (List.mem_append_left _ (List.mem_map_of_mem hy))))
  | block =>
    obtain ⟨y, hy, rfl⟩ := List.mem_map.1 (show t ∈ m.blocks.map fun b =>
      (⟨b.id, b.active, b.points.length, b.nbPolyhedra⟩ : TopologyComponent) from ht)
    exact absurd htid (hother y.id (List.mem_append_right _ (List.mem_append_right _ (List.mem_map_of_mem hy))))
  | other => exact absurd ht List.not_mem_nil

/-- A Corner linked twice to a unique vertex is told twice. -/
theorem not_two {kinds : List ComponentType} (hb : BijectivelyLinked (m.topology rt) kinds)
    (hids : (m.corners.map CornerData.id ++ m.lines.map LineData.id ++ m.surfaces.map FaceData.id ++
      m.blocks.map VolumeData.id).Nodup) {u : Index} (hlt : u < m.nbUniqueVertices) {c : CornerData P} (mc : c ∈ m.corners)
    (ha : c.active = true) (ht : ¬ TwiceActive (m.topology rt) u .corner) :
    ((m.componentMeshVertices u).filter fun cmv => cmv.component_id.id == c.id).length ≠ 2 := by
  intro h
  obtain ⟨a, b, hab⟩ := List.length_eq_two.1 h
  have hsub : [a, b].Sublist (m.componentMeshVertices u) := hab ▸ List.filter_sublist
  have hin : ∀ x ∈ [a, b], x.component_id.id = c.id := by
    intro x hx
    rw [← hab] at hx
    exact beq_iff_eq.1 (List.mem_filter.1 hx).2
  have key : ∀ x ∈ [a, b], x.component_id.type = .corner ∧ Active (m.topology rt) .corner x.component_id.id := by
    intro x hx
    refine ⟨kind_of hb hids hlt (hsub.subset hx) mc (hin x hx), ?_⟩
    rw [hin x hx]
    exact ⟨_, List.mem_map_of_mem mc, rfl, ha⟩
  have k1 := key a List.mem_cons_self
  have k2 := key b (List.mem_cons_of_mem _ List.mem_cons_self)
  exact ht ⟨a, b, hsub, k1.1, k1.2, k2.1, k2.2⟩

/-- What is known of the Corners of a BRep declared valid. -/
theorem of_brep (hrt : ModelRuntimeOk rt) (c : Candidates P) (h : BRepOk lib rt m c) :
    ∃ v N, (∀ fuel ≥ N, isBRepOfValid lib rt fuel m = .ok v) ∧ (v.isValid = true →
      (¬ ∃ uv, uv < m.nbUniqueVertices ∧ DifferentPoints lib.inexactEqual (m.uniqueVertices lib) uv) ∧
      ¬ HasColocatedUniqueVertices lib m ∧ BijectivelyLinked (m.topology rt) brepKinds ∧
      ¬ HasUnlinkedVertex (m.topology rt) [.corner, .surface] ∧
      (¬ LinesUnreadable (m.topology rt) → ¬ HasUnlinkedVertex (m.topology rt) sectionKinds) ∧
      ∀ u < m.nbUniqueVertices, ¬ TwiceActive (m.topology rt) u .corner ∧ ¬ CornerNotOnLine (m.topology rt) u) := by
  obtain ⟨v, N, h1, h2, h3, _⟩ := C82_brep_partial lib rt hrt m c h
  refine ⟨v, N, h1, fun hv => ?_⟩
  by_cases hu : LinesUnreadable (m.topology rt)
  · have hd := (h3 hu).2.1 hv
    unfold BRepDefectBesideLines OtherTopologyDefect at hd
    simp only [not_or, not_not] at hd
    refine ⟨hd.1, hd.2.1, hd.2.2.2.2.2.2.2.2.2.2.1, hd.2.2.2.2.2.2.2.2.2.2.2.2.1, fun hn => absurd hu hn, fun u hlt => ?_⟩
    have hw := fun hw => hd.2.2.2.2.2.2.2.2.2.2.2.2.2.1 ⟨u, hlt, hw⟩
    exact ⟨fun h => hw (.inl h), fun h => hw (.inr (.inr (.inr (.inl h))))⟩
  · have hd := (h2 hu).1 hv
    unfold BRepDefect BRepTopologyDefect at hd
    simp only [not_or, not_not] at hd
    refine ⟨hd.1, hd.2.1, hd.2.2.2.2.2.2.2.2.2.2.1, CutAlongLines.fewer hd.2.2.2.2.2.2.2.2.2.2.2.2.1,
      fun _ => hd.2.2.2.2.2.2.2.2.2.2.2.2.1, fun u hlt => ?_⟩
    have hw := fun hw => hd.2.2.2.2.2.2.2.2.2.2.2.2.2.1 ⟨u, hlt, hw⟩
    unfold BRepVertexDefect at hw
    exact ⟨fun h => hw (.inl h), fun h => hw (.inr (.inr (.inr (.inl h))))⟩

end CornersOnLines
open CornersOnLines

/-- The vertex `i` of an active Corner is at the place of the vertex `j` of an active Line. -/
def Spec.CornerOnLineAt {P : Type} (near : P → P → Prop) (m : ModelData P) (c : CornerData P) (i : Nat) (l : LineData P) (j : Nat) :
    Prop :=
  c ∈ m.corners ∧ c.active = true ∧ l ∈ m.lines ∧ l.active = true ∧
    ∃ p q, c.points[i]? = some p ∧ l.points[j]? = some q ∧ near p q

/-- **C147** (Sections): if a Section is declared valid, an active Corner at the place of a vertex of an active Line bounds it. -/
theorem C147_section {P : Type} (lib : ModelLibrary P) (rt : ModelRuntime) (hrt : ModelRuntimeOk rt) (m : ModelData P)
    (c : Candidates P) (h : SectionOk lib rt m c) (near : P → P → Prop) (hl : PlacesOk lib m near) (hk : LinksKept m) :
    ∃ v, isSectionOfValid lib rt m = .ok v ∧ (v.isValid = true →
      ∀ c i l j, CornerOnLineAt near m c i l j → m.isBoundary c.id l.id = true) := by
  obtain ⟨v, h1, h2⟩ := C136_section_corners lib rt hrt m c h near hl hk
  refine ⟨v, h1, fun hv c i l j ⟨mc, hca, ml, hla, p, q, hp, hq, hn⟩ => ?_⟩
  exact h2 hv c mc l ml hca hla p (List.mem_of_getElem? hp) q (List.mem_of_getElem? hq) hn

/-- **C147** (BReps): if a BRep is declared valid, an active Corner at the place of a vertex of an active Line bounds it (even if the Line
is closed and the Corner internal to it), unless this vertex has no unique vertex, which is possible only if the inspection of the
Lines is lost (see C54). -/
theorem C147_brep {P : Type} (lib : ModelLibrary P) (rt : ModelRuntime) (hrt : ModelRuntimeOk rt) (m : ModelData P)
    (c : Candidates P) (h : BRepOk lib rt m c) (near : P → P → Prop) (hl : PlacesOk lib m near) (hk : LinksKept m) :
    ∃ v N, (∀ fuel ≥ N, isBRepOfValid lib rt fuel m = .ok v) ∧ (v.isValid = true →
      ∀ c i l j, CornerOnLineAt near m c i l j →
        (m.uniqueVertex ⟨⟨.line, l.id⟩, j⟩ ≠ none → m.isBoundary c.id l.id = true) ∧
        (m.uniqueVertex ⟨⟨.line, l.id⟩, j⟩ = none → LinesUnreadable (m.topology rt))) := by
  obtain ⟨v, N, h1, h2⟩ := CornersOnLines.of_brep hrt c h
  refine ⟨v, N, h1, fun hv c i l j ⟨mc, hca, ml, hla, p, q, hp, hq, hn⟩ => ?_⟩
  obtain ⟨d1, d2, d3, d4, d5, d6⟩ := h2 hv
  have hx := VertexAt.corner c i p mc hca hp
  have hy := VertexAt.line l j q ml hla hq
  refine ⟨fun hj => ?_, fun hj => ?_⟩
  · obtain ⟨u, hu⟩ := linked_of_no_defect m rt _ d4 _ _ hx List.mem_cons_self
    obtain ⟨u', hu'⟩ := Option.ne_none_iff_exists'.1 hj
    obtain rfl := (correspond lib near m rt hl h.meshesKnown.ids hk _ d3 d1 d2 _ _ _ _ hx hy u u' hu hu').2 hn
    have hlt := (hk _ _ hu).1
    obtain ⟨e1, e2⟩ := d6 u hlt
    by_contra hb
    exact e2 ⟨c.id, l.id, LineEnds.activeAt rt hk hx hu, LineEnds.activeAt rt hk hy hu', Bool.eq_false_iff.2 hb,
      fun hi => not_two d3 h.meshesKnown.ids hlt mc hca e1 hi.2⟩
  · by_contra hu
    obtain ⟨u, hu⟩ := linked_of_no_defect m rt _ (d5 hu) _ _ hy (List.mem_cons_of_mem _ List.mem_cons_self)
    rw [hj] at hu
    cases hu

set_option maxRecDepth 20000 in
/-- So the first Corner of a triangle bounds its first Line, -/
example : (exampleModel triangleSection (10 * ·) .positive).isBoundary 1 11 = true := by
  obtain ⟨v, h1, h2⟩ := C147_section modelLibrary modelRuntime modelRuntime_ok _ _ (triangleSection_ok .positive)
    (· = ·) (exampleModel_places _ _ _ (by decide +kernel)) (exampleModel_links _ _ _)
  have he : isSectionOfValid modelLibrary modelRuntime (exampleModel triangleSection (10 * ·) .positive) = .ok {} := by rfl
  rw [he] at h1
  injection h1 with h1
  exact h2 (by rw [← h1]; rfl) ((exampleModel triangleSection (10 * ·) .positive).corners[0]'(by decide)) 0
    ((exampleModel triangleSection (10 * ·) .positive).lines[0]'(by decide)) 0
    ⟨List.getElem_mem _, rfl, List.getElem_mem _, rfl, 0, 0, by decide +kernel, by decide +kernel, rfl⟩

/-- and that of a tetrahedron. -/
example : (exampleModel tetrahedronBRep (10 * ·) .positive).isBoundary 1 11 = true := by
  obtain ⟨v, N, h1, h2⟩ := C147_brep modelLibrary modelRuntime modelRuntime_ok _ _ (tetrahedronBRep_ok .positive)
    (· = ·) (exampleModel_places _ _ _ (by decide +kernel)) (exampleModel_links _ _ _)
  exact (h2 (LineEnds.tetrahedron_isValid h1) ((exampleModel tetrahedronBRep (10 * ·) .positive).corners[0]'(by decide)) 0
    ((exampleModel tetrahedronBRep (10 * ·) .positive).lines[0]'(by decide)) 0
    ⟨List.getElem_mem _, rfl, List.getElem_mem _, rfl, 0, 0, by decide +kernel, by decide +kernel, rfl⟩).1 (by decide +kernel)

end Inspector
