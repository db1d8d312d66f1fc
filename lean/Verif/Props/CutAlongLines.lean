import Verif.Props.BlocksMeet
/-
C145: the Surfaces of a valid model are cut along the Lines.
-/
namespace Inspector
open Spec SamePlace

/-- The vertex `i` of the mesh of an active Surface is at the place of the vertex `j` of an active Line. -/
def Spec.OnLineAt {P : Type} (near : P → P → Prop) (m : ModelData P) (s : FaceData P) (i : Nat) (l : LineData P) (j : Nat) : Prop :=
  s ∈ m.surfaces ∧ s.active = true ∧ l ∈ m.lines ∧ l.active = true ∧
    ∃ p q, s.points[i]? = some p ∧ l.points[j]? = some q ∧ near p q

namespace CutAlongLines
variable {P : Type} {lib : ModelLibrary P} {rt : ModelRuntime} {m : ModelData P}

/-- Their common unique vertex. -/
theorem vertex_of (near : P → P → Prop) (hl : PlacesOk lib m near) (hk : LinksKept m)
    (hids : (m.corners.map CornerData.id ++ m.lines.map LineData.id ++ m.surfaces.map FaceData.id ++
      m.blocks.map VolumeData.id).Nodup) {kinds : List ComponentType}
    (h1 : ¬ ∃ uv, uv < m.nbUniqueVertices ∧ DifferentPoints lib.inexactEqual (m.uniqueVertices lib) uv)
    (h2 : ¬ HasColocatedUniqueVertices lib m) (hb : BijectivelyLinked (m.topology rt) kinds)
    (h5 : ¬ HasUnlinkedVertex (m.topology rt) [.corner, .surface]) {s : FaceData P} {i j : Nat} {l : LineData P}
    (h : OnLineAt near m s i l j) (hj : m.uniqueVertex ⟨⟨.line, l.id⟩, j⟩ ≠ none) :
    ∃ u, u < m.nbUniqueVertices ∧ ⟨⟨.surface, s.id⟩, i⟩ ∈ m.componentMeshVertices u ∧ Active (m.topology rt) .surface s.id ∧
      ActiveAt (m.topology rt) u .line l.id := by
  obtain ⟨ms, ha, ml, ha', p, q, hp, hq, hn⟩ := h
  have hx := VertexAt.surface s i _ ms ha hp
  have hy := VertexAt.line l j _ ml ha' hq
  obtain ⟨u, hu⟩ := linked_of_no_defect m rt _ h5 _ _ hx
    (List.mem_cons_of_mem _ List.mem_cons_self)
  obtain ⟨u', hu'⟩ := Option.ne_none_iff_exists'.1 hj
  obtain rfl := (correspond lib near m rt hl hids hk _ hb h1 h2 _ _ _ _ hx hy u u' hu hu').2 hn
  exact ⟨u, (hk _ _ hu).1, (hk _ _ hu).2, LineEnds.active_of_vertex rt hx, LineEnds.activeAt rt hk hy hu'⟩

theorem fewer (h : ¬ HasUnlinkedVertex (m.topology rt) sectionKinds) : ¬ HasUnlinkedVertex (m.topology rt) [.corner, .surface] := by
  rintro ⟨kind, hkd, hx⟩
  refine h ⟨kind, ?_, hx⟩
  revert hkd
  cases kind <;> decide

theorem linked (h : ¬ HasUnlinkedVertex (m.topology rt) sectionKinds) {near : P → P → Prop} {s : FaceData P} {i j : Nat} {l : LineData P}
    (hs : OnLineAt near m s i l j) : m.uniqueVertex ⟨⟨.line, l.id⟩, j⟩ ≠ none := by
  obtain ⟨_, _, ml, ha, _, _, _, hq, _⟩ := hs
  obtain ⟨u, hu⟩ := linked_of_no_defect m rt _ h _ _ (VertexAt.line l j _ ml ha hq) (List.mem_cons_of_mem _ List.mem_cons_self)
  rw [hu]
  exact Option.some_ne_none _

end CutAlongLines

/-- **C145** (Sections): if a Section all the Surfaces of which have polygons is declared valid, each vertex of an active Surface which
is at the place of a vertex of an active Line is on the border of the mesh of the Surface. -/
theorem C145_section {P : Type} (lib : ModelLibrary P) (rt : ModelRuntime) (hrt : ModelRuntimeOk rt) (m : ModelData P)
    (c : Candidates P) (h : SectionOk lib rt m c) (near : P → P → Prop) (hl : PlacesOk lib m near) (hk : LinksKept m)
    (hm : ∀ s ∈ m.surfaces, s.nbPolygons ≠ 0) :
    ∃ v, isSectionOfValid lib rt m = .ok v ∧ (v.isValid = true →
      ∀ s i l j, OnLineAt near m s i l j → m.isVertexOnBorder s.id i = true) := by
  obtain ⟨v, h1, h2⟩ := C82_section lib rt hrt m c h
  refine ⟨v, h1, fun hv s i l j hs => ?_⟩
  have hd := h2.1 hv
  unfold SectionDefect SectionTopologyDefect at hd
  simp only [not_or, not_not] at hd
  obtain ⟨u, hlt, hmem, ha, hline⟩ := CutAlongLines.vertex_of near hl hk h.meshes.ids hd.1 hd.2.1 hd.2.2.2.2.2.1
    (CutAlongLines.fewer hd.2.2.2.2.2.2.2.1) hs (CutAlongLines.linked hd.2.2.2.2.2.2.2.1 hs)
  have hw := fun hw => hd.2.2.2.2.2.2.2.2 ⟨u, hlt, hw⟩
  unfold SectionVertexDefect at hw
  by_contra hn
  refine hw (.inr (.inr (.inr (.inr (.inr (.inr (.inr (.inr (.inr ?_)))))))))
  refine ⟨fun t ht => ?_, ⟨l.id, hline⟩, _, hmem, ⟨rfl, ha⟩, Bool.eq_false_iff.2 hn⟩
  obtain ⟨f, hf, rfl⟩ := List.mem_map.1 (show t ∈ m.surfaces.map fun s =>
    (⟨s.id, s.active, s.points.length, s.nbPolygons⟩ : TopologyComponent) from ht)
  exact hm f hf

/-- **C145** (BReps): if a BRep is declared valid, each vertex of an active Surface which is at the place of a vertex of an active Line
which bounds, or is internal to, the Surface is on the border of the mesh of the Surface.  (If the embeddings of the Lines cannot be
described, see C54, the vertex of the Line must have a unique vertex; otherwise it has one.) -/
theorem C145_brep {P : Type} (lib : ModelLibrary P) (rt : ModelRuntime) (hrt : ModelRuntimeOk rt) (m : ModelData P)
    (c : Candidates P) (h : BRepOk lib rt m c) (near : P → P → Prop) (hl : PlacesOk lib m near) (hk : LinksKept m) :
    ∃ v N, (∀ fuel ≥ N, isBRepOfValid lib rt fuel m = .ok v) ∧ (v.isValid = true →
      ∀ s i l j, OnLineAt near m s i l j → m.isBoundary l.id s.id = true ∨ m.isInternal l.id s.id = true →
        (LinesUnreadable (m.topology rt) → m.uniqueVertex ⟨⟨.line, l.id⟩, j⟩ ≠ none) → m.isVertexOnBorder s.id i = true) := by
  obtain ⟨v, N, h1, h2, h3, _⟩ := C82_brep_partial lib rt hrt m c h
  refine ⟨v, N, h1, fun hv s i l j hs hr hj => ?_⟩
  by_cases hu : LinesUnreadable (m.topology rt)
  · have hd := (h3 hu).2.1 hv
    unfold BRepDefectBesideLines OtherTopologyDefect at hd
    simp only [not_or, not_not] at hd
    obtain ⟨u, hlt, hmem, ha, hline⟩ := CutAlongLines.vertex_of near hl hk h.meshesKnown.ids hd.1 hd.2.1
      hd.2.2.2.2.2.2.2.2.2.2.1 hd.2.2.2.2.2.2.2.2.2.2.2.2.1 hs (hj hu)
    by_contra hn
    refine hd.2.2.2.2.2.2.2.2.2.2.2.2.2.1 ⟨u, hlt, .inr (.inr (.inr (.inr (.inr (.inr ?_)))))⟩
    exact ⟨_, hmem, rfl, Bool.eq_false_iff.2 hn, l.id, hline, hr⟩
  · have hd := (h2 hu).1 hv
    unfold BRepDefect BRepTopologyDefect at hd
    simp only [not_or, not_not] at hd
    have h5 := hd.2.2.2.2.2.2.2.2.2.2.2.2.1
    obtain ⟨u, hlt, hmem, ha, hline⟩ := CutAlongLines.vertex_of near hl hk h.meshesKnown.ids hd.1 hd.2.1
      hd.2.2.2.2.2.2.2.2.2.2.1 (CutAlongLines.fewer h5) hs (CutAlongLines.linked h5 hs)
    by_contra hn
    refine hd.2.2.2.2.2.2.2.2.2.2.2.2.2.1 ⟨u, hlt, ?_⟩
    unfold BRepVertexDefect
    refine .inr (.inr (.inr (.inr (.inr (.inr (.inr (.inr (.inr (.inr ?_)))))))))
    exact ⟨_, hmem, rfl, Bool.eq_false_iff.2 hn, l.id, hline, hr⟩

set_option maxRecDepth 20000 in
/-- The first vertex of a triangle of a Section is at the end of a Line, -/
example : (exampleModel triangleSection (10 * ·) .positive).isVertexOnBorder 21 0 = true := by
  obtain ⟨v, h1, h2⟩ := C145_section modelLibrary modelRuntime modelRuntime_ok _ _ (triangleSection_ok .positive)
    (· = ·) (exampleModel_places _ _ _ (by decide +kernel)) (exampleModel_links _ _ _) (by decide +kernel)
  have he : isSectionOfValid modelLibrary modelRuntime (exampleModel triangleSection (10 * ·) .positive) = .ok {} := by rfl
  rw [he] at h1
  injection h1 with h1
  exact h2 (by rw [← h1]; rfl) ((exampleModel triangleSection (10 * ·) .positive).surfaces[0]'(by decide)) 0
    ((exampleModel triangleSection (10 * ·) .positive).lines[0]'(by decide)) 0
    ⟨List.getElem_mem _, rfl, List.getElem_mem _, rfl, 0, 0, by decide +kernel, by decide +kernel, rfl⟩

/-- and that of a face of a tetrahedron. -/
example : (exampleModel tetrahedronBRep (10 * ·) .positive).isVertexOnBorder 21 0 = true := by
  obtain ⟨v, N, h1, h2⟩ := C145_brep modelLibrary modelRuntime modelRuntime_ok _ _ (tetrahedronBRep_ok .positive)
    (· = ·) (exampleModel_places _ _ _ (by decide +kernel)) (exampleModel_links _ _ _)
  exact h2 (LineEnds.tetrahedron_isValid h1) ((exampleModel tetrahedronBRep (10 * ·) .positive).surfaces[0]'(by decide)) 0
    ((exampleModel tetrahedronBRep (10 * ·) .positive).lines[0]'(by decide)) 0
    ⟨List.getElem_mem _, rfl, List.getElem_mem _, rfl, 0, 0, by decide +kernel, by decide +kernel, rfl⟩ (.inl (by decide +kernel))
    fun hu => absurd hu (tetrahedronBRep_readable .positive)

end Inspector
