import Verif.Props.Watertight
import Verif.Props.SamePlace
import Verif.Props.Polygons
import Verif.Spec.LineEdges
/-
C137: the edges of the Lines of a valid model are edges of the Surfaces the Lines are related to, and of no other.
-/
namespace Inspector
open Spec

namespace LinesOnSurfaces
variable {P : Type} {lib : ModelLibrary P} {rt : ModelRuntime} {m : ModelData P}

/-- No defect of the BRep makes the edges of its Lines be on as many edges of the Surfaces as told by the relationships. -/
theorem counted (hf : EdgesFound m) (agree : RelationsAgree m) (haw : AroundWellFormed (m.topology rt)) (hids : (m.lines.map LineData.id).Nodup)
    (hd : ¬ BRepDefect lib rt m) {l : LineData P} (hl : l ∈ m.lines) (hla : l.active = true) {e : Index}
    (hlt : e < l.nbEdges) :
    ∃ u w, LineEdge m l e u w ∧ ∀ s ∈ m.surfaces, s.active = true → ∃ xs : List PolygonEdge, xs.Nodup ∧
      (∀ x, x ∈ xs ↔ FaceEdgeOn m s x u w) ∧
      xs.length = if m.isBoundary l.id s.id then 1 else if m.isInternal l.id s.id then 2 else 0 := by
  unfold BRepDefect at hd
  simp only [not_or] at hd
  obtain ⟨_, _, _, _, _, _, _, _, _, _, hdt⟩ := hd
  unfold BRepTopologyDefect at hdt
  simp only [not_or] at hdt
  obtain ⟨_, _, hul, _, hde, _, _⟩ := hdt
  have hlin : (⟨l.id, l.active, l.points.length, l.nbEdges⟩ : TopologyComponent) ∈ (m.topology rt).components .line :=
    List.mem_map.2 ⟨l, hl, rfl⟩
  have hna : ∀ v, ¬ NotAssociated (m.topology rt) .line ⟨l.id, l.active, l.points.length, l.nbEdges⟩ v := fun v hv =>
    hul ⟨.line, by decide, _, hlin, hla, v, hv⟩
  have hnw : ¬ EdgeIsWrong (m.topology rt) l.id e := fun hw => hde ⟨_, hlin, hla, hna, e, hlt, hw⟩
  unfold EdgeIsWrong at hnw
  simp only [not_or] at hnw
  have hev := haw.edgeVertices _ hlin e hlt
  have hlinked : ∀ k < l.points.length, ∃ u, m.uniqueVertex ⟨⟨.line, l.id⟩, k⟩ = some u := by
    intro k hk
    by_contra hn
    exact hna k ⟨hk, Option.eq_none_iff_forall_ne_some.2 fun u hu => hn ⟨u, hu⟩⟩
  have hv : (m.topology rt).lineEdgeVertices l.id e = [(l.edgeVertices e).1, (l.edgeVertices e).2] := by
    show ((m.lines.find? fun l' => l'.id == l.id).map fun l => [(l.edgeVertices e).1, (l.edgeVertices e).2]).getD [] = _
    rw [SamePlace.find_id LineData.id m.lines hids l hl]
    rfl
  obtain ⟨u, hu⟩ := hlinked (l.edgeVertices e).1 (hev _ (by rw [hv]; exact List.mem_cons_self))
  obtain ⟨w, hw⟩ := hlinked (l.edgeVertices e).2 (hev _ (by rw [hv]; exact List.mem_cons_of_mem _ List.mem_cons_self))
  have he : LineEdge m l e u w := ⟨hlt, hu, hw⟩
  refine ⟨u, w, he, fun s hs hsa => ?_⟩
  obtain ⟨xs, hnd, hxs⟩ := Watertight.listed (m := m) s u w
  refine ⟨xs, hnd, hxs, ?_⟩
  have hA : Active (m.topology rt) .surface s.id := ⟨_, List.mem_map.2 ⟨s, hs, rfl⟩, rfl, hsa⟩
  have hmem : ∀ n, (s.id, n) ∈ m.surfaceEdges l.id e ↔ n ≠ 0 ∧ n = xs.length := by
    intro n
    refine (hf.surfaces l hl e u w he s hs n).trans (and_congr_right fun _ => ⟨?_, fun hn => ⟨xs, hnd, hn.symm, hxs⟩⟩)
    rintro ⟨ys, h1, h2, h3⟩
    rw [← h2]
    exact ((List.perm_ext_iff_of_nodup h1 hnd).2 fun x => (h3 x).trans (hxs x).symm).length_eq
  have hcase : xs.length ≠ 0 → (m.isBoundary l.id s.id = true ∧ xs.length = 1) ∨
      (m.isBoundary l.id s.id = false ∧ m.isInternal l.id s.id = true ∧ xs.length = 2) := by
    intro h0
    by_contra hc
    rw [not_or] at hc
    exact hnw.1 ⟨s.id, xs.length, (hmem _).2 ⟨h0, rfl⟩, hA, hc.1, hc.2⟩
  have hrel : (⟨.surface, s.id⟩ ∈ m.embeddings l.id ∨ ⟨.surface, s.id⟩ ∈ m.incidences l.id) → xs.length ≠ 0 := by
    intro hr h0
    exact hnw.2.1 ⟨s.id, hr, hA, fun n hn => by
      obtain ⟨h1, h2⟩ := (hmem n).1 hn
      exact h1 (h2.trans h0)⟩
  by_cases hb : m.isBoundary l.id s.id = true
  · rw [if_pos hb]
    rcases hcase (hrel (.inr ((agree.boundary l hl s.id).1 hb))) with h | h
    · exact h.2
    · rw [hb] at h; exact absurd h.1 (by decide)
  · rw [if_neg hb]
    by_cases hi : m.isInternal l.id s.id = true
    · rw [if_pos hi]
      rcases hcase (hrel (.inl ((agree.internal l hl s.id).1 hi))) with h | h
      · exact absurd h.1 hb
      · exact h.2.2
    · rw [if_neg hi]
      by_contra h0
      rcases hcase h0 with h | h
      · exact hb h.1
      · exact hi h.2.1

end LinesOnSurfaces

/-- **C137** (BReps), if the wrong embeddings of the Lines can be described (see C54): when the BRep is declared valid, each edge of
an active Line is on one edge of the polygons of the active Surfaces it bounds, on two of those it is inside, and on none of
the others.  Missing: the other BReps (see `C137_brep_false`). -/
theorem C137_brep_partial {P : Type} (lib : ModelLibrary P) (rt : ModelRuntime) (hrt : ModelRuntimeOk rt)
    (m : ModelData P) (c : Candidates P) (h : BRepOk lib rt m c) (hu : ¬ LinesUnreadable (m.topology rt))
    (found : EdgesFound m) (agree : RelationsAgree m) :
    ∃ v N, (∀ fuel ≥ N, isBRepOfValid lib rt fuel m = .ok v) ∧ (v.isValid = true →
      ∀ l ∈ m.lines, l.active = true → ∀ e < l.nbEdges, ∃ u w, LineEdge m l e u w ∧
        ∀ s ∈ m.surfaces, s.active = true → ∃ xs : List PolygonEdge, xs.Nodup ∧ (∀ x, x ∈ xs ↔ FaceEdgeOn m s x u w) ∧
          xs.length = if m.isBoundary l.id s.id then 1 else if m.isInternal l.id s.id then 2 else 0) := by
  obtain ⟨v, N, h1, h2, _⟩ := C82_brep_partial lib rt hrt m c h
  have hids := h.meshesKnown.ids
  rw [List.nodup_append, List.nodup_append, List.nodup_append] at hids
  exact ⟨v, N, h1, fun hv l hl hla e he =>
    LinesOnSurfaces.counted found agree h.around hids.1.1.2.1 ((h2 hu).1 hv) hl hla he⟩

/-- **C137** (Sections): when the Section is declared valid, where there is an active Line and no other, it bounds all the Surfaces
at this place if it is inside nothing; otherwise, if all Surfaces have polygons, there is one Surface, which it is inside.
Missing: the edges of the Line, and the places where several Lines are (false, see `C137_section_false`). -/
theorem C137_section_partial {P : Type} (lib : ModelLibrary P) (rt : ModelRuntime) (hrt : ModelRuntimeOk rt)
    (m : ModelData P) (c : Candidates P) (h : SectionOk lib rt m c) (hk : LinksKept m) :
    ∃ v, isSectionOfValid lib rt m = .ok v ∧ (v.isValid = true →
      ∀ l ∈ m.lines, l.active = true → ∀ i < l.points.length, ∃ u, m.uniqueVertex ⟨⟨.line, l.id⟩, i⟩ = some u ∧
        ((∀ x ∈ m.componentMeshVertices u, x.component_id.type = .line → x.component_id.id = l.id) →
          (m.embeddings l.id = [] → ∀ x ∈ m.componentMeshVertices u, x.component_id.type = .surface →
            m.isBoundary l.id x.component_id.id = true) ∧
          (m.embeddings l.id ≠ [] → (∀ s ∈ m.surfaces, s.nbPolygons ≠ 0) →
            ∃ x ∈ m.componentMeshVertices u, x.component_id.type = .surface ∧
              m.isInternal l.id x.component_id.id = true ∧
              ∀ y ∈ m.componentMeshVertices u, y.component_id.type = .surface →
                y.component_id.id = x.component_id.id))) := by
  obtain ⟨v, h1, h2⟩ := C82_section lib rt hrt m c h
  refine ⟨v, h1, fun hv l hl hla i hi => ?_⟩
  have hd := h2.1 hv
  unfold SectionDefect SectionTopologyDefect at hd
  simp only [not_or, not_not] at hd
  have hx := VertexAt.line l i _ hl hla (List.getElem?_eq_getElem hi)
  obtain ⟨u, hu⟩ := SamePlace.linked_of_no_defect m rt _ hd.2.2.2.2.2.2.2.1 _ _ hx (List.mem_cons_of_mem _ List.mem_cons_self)
  refine ⟨u, hu, fun hone => ?_⟩
  obtain ⟨hlt, hmem⟩ := hk _ _ hu
  have hw : ¬ InvalidSingleLine (m.topology rt) u := fun hw => hd.2.2.2.2.2.2.2.2
    ⟨u, hlt, .inr (.inr (.inr (.inr (.inr (.inr (.inl hw))))))⟩
  have hat : ActiveAt (m.topology rt) u .line l.id := ⟨⟨_, hmem, rfl⟩,
    ⟨l.id, l.active, l.points.length, l.nbEdges⟩, List.mem_map_of_mem hl, rfl, hla⟩
  have hone' : ∀ l', At (m.topology rt) u .line l' → l' = l.id := by
    rintro l' ⟨x, hx, hid⟩
    have := hone x hx (by rw [hid])
    rw [hid] at this
    exact this
  constructor
  · intro he x hx ht
    by_contra hb
    refine hw ⟨l.id, hat, hone', .inr (.inr ⟨he, x.component_id.id, ⟨x, hx, ?_⟩, Bool.eq_false_iff.2 hb⟩)⟩
    rw [← ht]
  · intro he hall
    by_contra hn
    refine hw ⟨l.id, hat, hone', .inr (.inl ⟨he, ?_, ?_⟩)⟩
    · intro t ht
      obtain ⟨s, hs, rfl⟩ := List.mem_map.1 (show t ∈ m.surfaces.map fun s => (⟨s.id, s.active, s.points.length,
        s.nbPolygons⟩ : TopologyComponent) from ht)
      exact hall s hs
    · rintro ⟨s, ⟨x, hx, hid⟩, hs, hi⟩
      refine hn ⟨x, hx, by rw [hid], by rw [hid]; exact hi, fun y hy ht => ?_⟩
      rw [hid]
      exact hs _ ⟨y, hy, by rw [← ht]⟩

/-- **C137** is not true of the edges of the Lines of a Section: a Section is declared valid although an edge of one of its Lines,
which bounds a Surface, is on no edge of it.  (section_lines_topology.cpp:251-312 considers the vertices of the Lines, at
which no other Line is, one by one.) -/
theorem C137_section_false : ∃ (m : ModelData Nat) (c : Candidates Nat), SectionOk modelLibrary modelRuntime m c ∧
    LinksKept m ∧ EdgesFound m ∧
    (∃ l ∈ m.lines, l.active = true ∧ ∃ e u w, LineEdge m l e u w ∧ ∃ s ∈ m.surfaces, s.active = true ∧
      m.isBoundary l.id s.id = true ∧ ∀ x, ¬ FaceEdgeOn m s x u w) ∧
    ∃ v, isSectionOfValid modelLibrary modelRuntime m = .ok v ∧ v.isValid = true := by
  refine ⟨exampleModel exchangedLines (10 * ·) .positive, noCandidate, ?_, exampleModel_links _ _ _,
    exampleModel_edgesFound _ _ _ (by decide +kernel), ?_, _, by rfl, rfl⟩
  · exact {
      meshes := exampleModel_meshes _ _ _ (by decide)
      noBlock := rfl
      types := exampleModel_types _ _ _ _ (by decide)
      trees := exampleModel_trees _ _ _ _ (by decide +kernel)
      tests := fun _ => noCandidate_tests _ _ _ _
      topology := exampleModel_wf _ _ _ _ (by decide) (by decide) (by decide)
      embeddings := by
        intro id _ e he
        exact absurd (TopologyData.mem_select.1 he) (by simp [exchangedLines]) }
  · refine ⟨_, List.mem_map.2 ⟨⟨13, true, 2, 1⟩, by decide, rfl⟩, rfl, 0, 2, 0, ⟨by decide, by decide, by decide⟩, _,
      List.mem_map.2 ⟨⟨22, true, 3, 1⟩, by decide, rfl⟩, rfl, by decide, ?_⟩
    rintro ⟨p, i⟩ hx
    have key : ∀ i < 3, exchangedLines.toModel.uniqueVertex ⟨⟨.surface, 22⟩, i⟩ ≠ some 2 ∧
        exchangedLines.toModel.uniqueVertex ⟨⟨.surface, 22⟩, i⟩ ≠ some 0 := by decide
    rcases hx with hx | hx <;>
      obtain ⟨⟨_, hi⟩, h1, _⟩ := (example_faceEdge exchangedLines (10 * ·) .positive ⟨22, true, 3, 1⟩ p i _ _).1 hx
    · exact (key i hi).1 h1
    · exact (key i hi).2 h1

/-- The tetrahedron, a Line apart which is told to be inside its Block, and an edge of the tetrahedron which is told to be inside a
face which does not have it. -/
def lineInFace : TopologyData := { lineInTetrahedron with
  internal := lineInTetrahedron.internal ++ [(⟨.line, 11⟩, ⟨.surface, 23⟩)] }

theorem lineInFace_ok : BRepOk modelLibrary modelRuntime (exampleModel lineInFace (10 * ·) .positive) noCandidate where
  meshesKnown := MeshesOk.toMeshesKnown (exampleModel_meshes _ _ _ (by decide))
  blockWalks := MeshesOk.blockWalks (exampleModel_meshes _ _ _ (by decide))
  types := exampleModel_types _ _ _ _ (by decide)
  trees := exampleModel_trees _ _ _ _ (by decide +kernel)
  nbModelEdges := by decide +kernel
  topology := exampleModel_wf _ _ _ _ (by decide) (by decide) (by decide)
  around := by
    have aw := lineInFace.aw_of_check (by decide)
    rw [exampleModel_topology lineInFace _ .positive modelRuntime (by decide) (by decide)]
    exact ⟨fun m => List.reverse_perm m, aw.surfaces, aw.surfaceKeys, aw.blocks, aw.blockKeys, aw.polygons,
      by decide +kernel, by decide +kernel⟩
  coherent := lineInFace.coherent_of_check (by decide)
  surfaceEmbeddings := by
    rintro id ⟨c, hc, rfl, _⟩ e he
    have hc' : c ∈ (exampleModel lineInFace (10 * ·) .positive).surfaces.map fun c =>
      (⟨c.id, c.active, c.points.length, c.nbPolygons⟩ : TopologyComponent) := hc
    have hn : ∀ x ∈ lineInFace.surfaces, lineInFace.toModel.embeddings x.id = [] := by decide
    obtain ⟨f, hf, rfl⟩ := List.mem_map.1 hc'
    obtain ⟨x, hx, rfl⟩ := List.mem_map.1 hf
    have he' : e ∈ lineInFace.toModel.embeddings x.id := he
    rw [hn x hx] at he'
    exact absurd he' List.not_mem_nil
  firstEdges := by decide +kernel
  counts := by
    rw [exampleModel_topology lineInFace _ .positive modelRuntime (by decide) (by decide)]
    exact counts_of_check lineInFace (by decide)
  graph := firstEdge_finder
  geometry := noGeometry_raises
  rays := example_rays _
  modelBoundaries := Or.inl rfl

set_option maxRecDepth 20000 in
/-- **C137** is not true of all BReps: a BRep is declared valid although an edge of a Line inside a Surface is on no edge of it.  (The
message on the embedding of the Line in a Block raises an exception, which hides the issues on the Lines: see C54.) -/
theorem C137_brep_false : ∃ (m : ModelData Nat) (c : Candidates Nat), BRepOk modelLibrary modelRuntime m c ∧
    LinksKept m ∧ EdgesFound m ∧
    (∃ l ∈ m.lines, l.active = true ∧ ∃ e u w, LineEdge m l e u w ∧ ∃ s ∈ m.surfaces, s.active = true ∧
      m.isInternal l.id s.id = true ∧ ∀ x, ¬ FaceEdgeOn m s x u w) ∧
    ∀ fuel ≥ 20, ∃ v, isBRepOfValid modelLibrary modelRuntime fuel m = .ok v ∧ v.isValid = true := by
  refine ⟨exampleModel lineInFace (10 * ·) .positive, noCandidate, lineInFace_ok, exampleModel_links _ _ _,
    exampleModel_edgesFound _ _ _ (by decide +kernel), ?_, fun fuel hf => ?_⟩
  · refine ⟨_, List.mem_map.2 ⟨⟨11, true, 2, 1⟩, by decide, rfl⟩, rfl, 0, 0, 1, ⟨by decide, by decide, by decide⟩, _,
      List.mem_map.2 ⟨⟨23, true, 3, 1⟩, by decide, rfl⟩, rfl, by decide, ?_⟩
    rintro ⟨p, i⟩ hx
    have key : ∀ i, lineInFace.toModel.uniqueVertex ⟨⟨.surface, 23⟩, i⟩ ≠ some 1 := by
      intro i hi
      have := (exampleModel_links lineInFace (10 * ·) .positive _ _ hi).2
      have hn : ∀ x ∈ (exampleModel lineInFace (10 * ·) .positive).componentMeshVertices 1, x.component_id.id ≠ 23 := by
        decide +kernel
      exact hn _ this rfl
    rcases hx with hx | hx <;>
      obtain ⟨_, h1, h2⟩ := (example_faceEdge lineInFace (10 * ·) .positive ⟨23, true, 3, 1⟩ p i _ _).1 hx
    · exact key _ h2
    · exact key _ h1
  · obtain ⟨k, rfl⟩ := Nat.exists_eq_add_of_le' hf
    have he : isBRepOfValid modelLibrary modelRuntime (k + 20) (exampleModel lineInFace (10 * ·) .positive) = .ok {} := by
      rfl
    exact ⟨_, he, rfl⟩

/-! ### examples -/

theorem LinesOnSurfaces.agree_of_check (d : TopologyData) (h1 : ∀ l ∈ d.lines, ∀ e ∈ d.boundary, e.1.id = l.id → e.2.type = .surface)
    (h2 : ∀ l ∈ d.lines, ∀ e ∈ d.internal, e.1.id = l.id → e.2.type = .surface) :
    RelationsAgree (exampleModel d (10 * ·) .positive) := by
  have key : ∀ (rel : List (ComponentID × ComponentID)) (a s : Uuid), (∀ e ∈ rel, e.1.id = a → e.2.type = .surface) →
      ((rel.any fun e => e.1.id == a && e.2.id == s) = true ↔
        ⟨.surface, s⟩ ∈ TopologyData.select (rel.map fun e => (e.1.id, e.2)) a) := by
    intro rel a s h
    rw [TopologyData.mem_select, List.mem_map, List.any_eq_true]
    constructor
    · rintro ⟨⟨e1, ⟨t, i⟩⟩, he, hh⟩
      rw [Bool.and_eq_true, beq_iff_eq, beq_iff_eq] at hh
      have ht : t = .surface := h _ he hh.1
      have hi : i = s := hh.2
      subst ht hi
      exact ⟨_, he, by rw [← hh.1]⟩
    · rintro ⟨e, he, hh⟩
      simp only [Prod.mk.injEq] at hh
      exact ⟨e, he, by rw [hh.1, hh.2]; simp⟩
  constructor
  · intro l hl s
    obtain ⟨c, hc, rfl⟩ := List.mem_map.1 hl
    exact key d.boundary c.id s (h1 c hc)
  · intro l hl s
    obtain ⟨c, hc, rfl⟩ := List.mem_map.1 hl
    exact key d.internal c.id s (h2 c hc)

set_option maxRecDepth 20000 in
/-- The edge of the Line 11 of the tetrahedron is on one edge of the face 21, which it bounds, and on none of the face 23. -/
example : ∃ u w, LineEdge (exampleModel tetrahedronBRep (10 * ·) .positive)
      ((exampleModel tetrahedronBRep (10 * ·) .positive).lines[0]'(by decide)) 0 u w ∧
    (∃ xs : List PolygonEdge, (∀ x, x ∈ xs ↔ FaceEdgeOn (exampleModel tetrahedronBRep (10 * ·) .positive)
      ((exampleModel tetrahedronBRep (10 * ·) .positive).surfaces[0]'(by decide)) x u w) ∧ xs.length = 1) ∧
    ∀ x, ¬ FaceEdgeOn (exampleModel tetrahedronBRep (10 * ·) .positive)
      ((exampleModel tetrahedronBRep (10 * ·) .positive).surfaces[2]'(by decide)) x u w := by
  obtain ⟨v, N, h1, h2⟩ := C137_brep_partial modelLibrary modelRuntime modelRuntime_ok _ _ (tetrahedronBRep_ok .positive)
    (tetrahedronBRep_readable .positive) (exampleModel_edgesFound _ _ _ (by decide +kernel))
    (LinesOnSurfaces.agree_of_check _ (by decide) (by decide))
  have he : isBRepOfValid modelLibrary modelRuntime (N + 20) (exampleModel tetrahedronBRep (10 * ·) .positive) = .ok {} := by
    rfl
  have h := h1 (N + 20) (by omega)
  rw [he] at h
  injection h with h
  subst h
  obtain ⟨u, w, a, b⟩ := h2 rfl ((exampleModel tetrahedronBRep (10 * ·) .positive).lines[0]'(by decide)) (List.getElem_mem _) rfl
    0 (by decide)
  refine ⟨u, w, a, ?_, ?_⟩
  · obtain ⟨xs, _, b1, b2⟩ := b ((exampleModel tetrahedronBRep (10 * ·) .positive).surfaces[0]'(by decide))
      (List.getElem_mem _) rfl
    exact ⟨xs, b1, b2⟩
  · obtain ⟨xs, _, b1, b2⟩ := b ((exampleModel tetrahedronBRep (10 * ·) .positive).surfaces[2]'(by decide))
      (List.getElem_mem _) rfl
    have b2 : xs.length = 0 := b2
    rw [List.length_eq_zero_iff] at b2
    subst b2
    exact fun x hx => List.not_mem_nil ((b1 x).2 hx)

/-- In the square, the vertex 1 of the Line 11 is on no other Line, so the Surface there is bounded by it. -/
example : ∃ u, quadModel.uniqueVertex ⟨⟨.line, 11⟩, 1⟩ = some u ∧ ∀ x ∈ quadModel.componentMeshVertices u,
    x.component_id.type = .surface → quadModel.isBoundary 11 x.component_id.id = true := by
  obtain ⟨v, h1, h2⟩ := C137_section_partial modelLibrary modelRuntime modelRuntime_ok _ _ quadSection_ok
    (exampleModel_links quadBorder (10 * ·) .positive)
  have hv : isSectionOfValid modelLibrary modelRuntime quadModel = .ok {} := by rfl
  rw [hv] at h1
  injection h1 with h1
  obtain ⟨u, hu, h⟩ := h2 (by rw [← h1]; rfl) (quadModel.lines[0]'(by decide)) (List.getElem_mem _) rfl 1 (by decide)
  have hu1 : u = 1 := by
    have : quadModel.uniqueVertex ⟨⟨.line, 11⟩, 1⟩ = some 1 := by decide
    exact Option.some.inj (hu.symm.trans this)
  subst hu1
  exact ⟨1, hu, (h (by decide +kernel)).1 (by decide)⟩

end Inspector
