import Verif.Props.BlocksCut
import Verif.Props.CutAlongLines
import Verif.Props.LinesInside
/-
C151: the borders of the Surfaces of a valid model are exactly where the Lines are.
-/
namespace Inspector
open Spec SamePlace

/-- The vertex `i` of the mesh of the Surface is an end of an edge of a polygon which has no adjacent polygon. -/
def Spec.BorderVertex {P : Type} (s : FaceData P) (i : Nat) : Prop :=
  ∃ x a b, IsPolygonEdge s.toSurfaceMesh x ∧ s.polygonAdjacent x = none ∧ EdgeFromTo s.toSurfaceMesh x.1 x.2 a b ∧ (i = a ∨ i = b)

/-- OpenGeode tells a vertex of a Surface on the border only if it is an end of a border edge. -/
def Spec.BordersRight {P : Type} (m : ModelData P) : Prop :=
  ∀ s ∈ m.surfaces, ∀ i < s.points.length, m.isVertexOnBorder s.id i = true → BorderVertex s i

namespace Borders
variable {P : Type} {lib : ModelLibrary P} {rt : ModelRuntime} {m : ModelData P}

/-- The Line of an edge is where the ends of this edge are. -/
theorem at_line (near : P → P → Prop) (hl : PlacesOk lib m near) (hk : LinksKept m)
    (hids : (m.corners.map CornerData.id ++ m.lines.map LineData.id ++ m.surfaces.map FaceData.id ++
      m.blocks.map VolumeData.id).Nodup) {kinds : List ComponentType}
    (h1 : ¬ ∃ uv, uv < m.nbUniqueVertices ∧ DifferentPoints lib.inexactEqual (m.uniqueVertices lib) uv)
    (h2 : ¬ HasColocatedUniqueVertices lib m) (hb : BijectivelyLinked (m.topology rt) kinds) {s : FaceData P} (ms : s ∈ m.surfaces)
    (ha : s.active = true) (active : ∀ l ∈ m.lines, l.active = true) {x : PolygonEdge} {a b u v : Nat} {i : Nat}
    (hab : EdgeFromTo s.toSurfaceMesh x.1 x.2 a b) (hi : i = a ∨ i = b) (hf : FaceEdge m s x u v) {l : LineData P}
    (he : ∃ e, LineEdge m l e u v ∨ LineEdge m l e v u) {p : P} (hp : s.points[i]? = some p) :
    ∃ l' ∈ m.lines, l'.id = l.id ∧ ∃ q ∈ l'.points, near p q := by
  obtain ⟨_, a', b', hab', hu, hv⟩ := hf
  obtain ⟨ha1, hb1⟩ := hab
  obtain ⟨ha2, hb2⟩ := hab'
  obtain rfl := ha1.symm.trans ha2
  obtain rfl := hb1.symm.trans hb2
  have hx := VertexAt.surface s i _ ms ha hp
  have key : ∃ w, m.uniqueVertex ⟨⟨.surface, s.id⟩, i⟩ = some w ∧ At (m.topology rt) w .line l.id := by
    obtain ⟨e, ⟨_, e1, e2⟩ | ⟨_, e1, e2⟩⟩ := he <;> rcases hi with rfl | rfl
    · exact ⟨u, hu, ⟨_, (hk _ _ e1).2, rfl⟩⟩
    · exact ⟨v, hv, ⟨_, (hk _ _ e2).2, rfl⟩⟩
    · exact ⟨u, hu, ⟨_, (hk _ _ e2).2, rfl⟩⟩
    · exact ⟨v, hv, ⟨_, (hk _ _ e1).2, rfl⟩⟩
  obtain ⟨w, hw, hat⟩ := key
  obtain ⟨l', ml, hid, hq⟩ := SurfacesMeet.line_of near hl hk hids h1 h2 hb hx hw hat
  obtain ⟨q, hq, hn⟩ := hq (active l' ml)
  exact ⟨l', ml, hid, q, hq, hl.equivalence.symm hn⟩

end Borders

/-- **C151** (Sections): if a Section all the Lines of which are active, and all the Surfaces of which have polygons, is declared valid,
a vertex of an active Surface is on the border of its mesh if and only if it is at the place of a vertex of a Line. -/
theorem C151_section {P : Type} (lib : ModelLibrary P) (rt : ModelRuntime) (hrt : ModelRuntimeOk rt) (m : ModelData P)
    (c : Candidates P) (h : SectionOk lib rt m c) (near : P → P → Prop) (hl : PlacesOk lib m near) (hk : LinksKept m)
    (hm : ∀ s ∈ m.surfaces, s.nbPolygons ≠ 0) (active : ∀ l ∈ m.lines, l.active = true) (found : LineEdgesFound m)
    (right : BordersRight m) :
    ∃ v, isSectionOfValid lib rt m = .ok v ∧ (v.isValid = true →
      ∀ s ∈ m.surfaces, s.active = true → ∀ (i : Nat) p, s.points[i]? = some p →
        (BorderVertex s i ↔ ∃ l ∈ m.lines, ∃ q ∈ l.points, near p q)) := by
  obtain ⟨v, e1, h1⟩ := C145_section lib rt hrt m c h near hl hk hm
  obtain ⟨v2, e2, h2⟩ := C127_section_partial lib rt hrt m c h found
  obtain ⟨v3, e3, h3⟩ := C82_section lib rt hrt m c h
  obtain rfl : v = v2 := by rw [e1] at e2; injection e2
  obtain rfl : v = v3 := by rw [e1] at e3; injection e3
  refine ⟨v, e1, fun hv s ms ha i p hp => ⟨?_, ?_⟩⟩
  · rintro ⟨x, a, b, hx, hn, hab, hi⟩
    obtain ⟨u, w, hf, l, _, he⟩ := h2 hv s ms ha x hx hn
    have hd := h3.1 hv
    unfold SectionDefect SectionTopologyDefect at hd
    simp only [not_or, not_not] at hd
    obtain ⟨l', ml, _, hq⟩ := Borders.at_line near hl hk h.meshes.ids hd.1 hd.2.1 hd.2.2.2.2.2.1 ms ha active hab hi hf he hp
    exact ⟨l', ml, hq⟩
  · rintro ⟨l, ml, q, hq, hn⟩
    obtain ⟨j, hj⟩ := List.getElem?_of_mem hq
    exact right s ms i (List.getElem?_eq_some_iff.1 hp).1 (h1 hv s i l j ⟨ms, ha, ml, active l ml, p, q, hp, hj, hn⟩)

/-- **C151** (BReps): if a BRep all the Lines of which are active, and the wrong embeddings of the Lines of which can be described (see
C54), is declared valid, a vertex of an active Surface is on the border of its mesh if and only if it is at the place of a vertex of a
Line which bounds, or is internal to, the Surface.  Missing: the other BReps. -/
theorem C151_brep_partial {P : Type} (lib : ModelLibrary P) (rt : ModelRuntime) (hrt : ModelRuntimeOk rt) (m : ModelData P)
    (c : Candidates P) (h : BRepOk lib rt m c) (near : P → P → Prop) (hl : PlacesOk lib m near) (hk : LinksKept m)
    (hu : ¬ LinesUnreadable (m.topology rt)) (active : ∀ l ∈ m.lines, l.active = true) (found : EdgesFound m)
    (right : BordersRight m) :
    ∃ v N, (∀ fuel ≥ N, isBRepOfValid lib rt fuel m = .ok v) ∧ (v.isValid = true →
      ∀ s ∈ m.surfaces, s.active = true → ∀ (i : Nat) p, s.points[i]? = some p →
        (BorderVertex s i ↔ ∃ l ∈ m.lines, (m.isBoundary l.id s.id = true ∨ m.isInternal l.id s.id = true) ∧
          ∃ q ∈ l.points, near p q)) := by
  obtain ⟨v, N, e1, h1⟩ := C145_brep lib rt hrt m c h near hl hk
  obtain ⟨v2, N2, e2, h2⟩ := C127_brep_partial lib rt hrt m c h hu found active
  obtain ⟨v3, N3, e3, h3, _⟩ := C82_brep_partial lib rt hrt m c h
  obtain rfl : v = v2 := by
    have a := e1 (N + N2) (by omega)
    have b := e2 (N + N2) (by omega)
    rw [a] at b
    injection b
  obtain rfl : v = v3 := by
    have a := e1 (N + N3) (by omega)
    have b := e3 (N + N3) (by omega)
    rw [a] at b
    injection b
  refine ⟨v, N, e1, fun hv s ms ha i p hp => ⟨?_, ?_⟩⟩
  · rintro ⟨x, a, b, hx, hn, hab, hi⟩
    obtain ⟨u, w, hf, l, _, he, hrel⟩ := h2 hv s ms ha x hx hn
    have hd := (h3 hu).1 hv
    unfold BRepDefect BRepTopologyDefect at hd
    simp only [not_or, not_not] at hd
    obtain ⟨l', ml, hid, hq⟩ := Borders.at_line near hl hk h.meshesKnown.ids hd.1 hd.2.1 hd.2.2.2.2.2.2.2.2.2.2.1 ms ha active hab hi
      hf he hp
    refine ⟨l', ml, ?_, hq⟩
    rw [hid]
    rcases hrel with ⟨hr, _⟩ | ⟨_, hr, _⟩
    · exact .inl hr
    · exact .inr hr
  · rintro ⟨l, ml, hrel, q, hq, hn⟩
    obtain ⟨j, hj⟩ := List.getElem?_of_mem hq
    exact right s ms i (List.getElem?_eq_some_iff.1 hp).1 (h1 hv s i l j ⟨ms, ha, ml, active l ml, p, q, hp, hj, hn⟩ hrel
      fun hu' => absurd hu' hu)

/-- The triangles of the examples are their own borders. -/
theorem exampleModel_borders (d : TopologyData) (scale : Nat → Nat) (sign : Sign)
    (hd : ∀ c ∈ d.surfaces, c.nbVertices ≤ 3 ∧ c.nbElements ≠ 0) : BordersRight (exampleModel d scale sign) := by
  intro s hs i hi _
  obtain ⟨c, hc, rfl⟩ := List.mem_map.1 hs
  have hi : i < c.nbVertices := by simpa [exampleModel.points, exampleModel.vertices] using hi
  exact ⟨(0, i), i, (i + 1) % 3, ⟨Nat.pos_of_ne_zero (hd c hc).2, Nat.lt_of_lt_of_le hi (hd c hc).1⟩, rfl, ⟨rfl, rfl⟩, .inl rfl⟩

set_option maxRecDepth 20000 in
/-- Each vertex of the triangle is at the place of a vertex of a Line, -/
example : ∀ (i : Nat) (p : Nat), (exampleModel.points triangleSection (10 * ·) .surface ⟨21, true, 3, 1⟩)[i]? = some p →
    ∃ l ∈ (exampleModel triangleSection (10 * ·) .positive).lines, ∃ q ∈ l.points, p = q := by
  intro i p hp
  obtain ⟨v, h1, h2⟩ := C151_section modelLibrary modelRuntime modelRuntime_ok _ _ (triangleSection_ok .positive)
    (· = ·) (exampleModel_places _ _ _ (by decide +kernel)) (exampleModel_links _ _ _) (by decide +kernel) (by decide +kernel)
    (exampleModel_lineEdges _ _ _) (exampleModel_borders _ _ _ (by decide))
  have he : isSectionOfValid modelLibrary modelRuntime (exampleModel triangleSection (10 * ·) .positive) = .ok {} := by rfl
  rw [he] at h1
  injection h1 with h1
  have hi : i < 3 := (List.getElem?_eq_some_iff.1 hp).1
  exact (h2 (by rw [← h1]; rfl) ((exampleModel triangleSection (10 * ·) .positive).surfaces[0]'(by decide)) (List.getElem_mem _) rfl i p
    hp).1 ⟨(0, i), i, _, ⟨Nat.one_pos, hi⟩, rfl, ⟨rfl, rfl⟩, .inl rfl⟩

/-- and each vertex of a face of the tetrahedron is at the place of a vertex of a Line which bounds it (none is internal to it). -/
example : ∀ (i : Nat) (p : Nat), (exampleModel.points tetrahedronBRep (10 * ·) .surface ⟨21, true, 3, 1⟩)[i]? = some p →
    ∃ l ∈ (exampleModel tetrahedronBRep (10 * ·) .positive).lines,
      ((exampleModel tetrahedronBRep (10 * ·) .positive).isBoundary l.id 21 = true ∨
        (exampleModel tetrahedronBRep (10 * ·) .positive).isInternal l.id 21 = true) ∧
      ∃ q ∈ l.points, p = q := by
  intro i p hp
  obtain ⟨v, N, h1, h2⟩ := C151_brep_partial modelLibrary modelRuntime modelRuntime_ok _ _ (tetrahedronBRep_ok .positive)
    (· = ·) (exampleModel_places _ _ _ (by decide +kernel)) (exampleModel_links _ _ _) (tetrahedronBRep_readable .positive)
    (by decide +kernel) (exampleModel_edgesFound _ _ _ (by decide +kernel)) (exampleModel_borders _ _ _ (by decide))
  have hi : i < 3 := (List.getElem?_eq_some_iff.1 hp).1
  exact (h2 (LineEnds.tetrahedron_isValid h1) ((exampleModel tetrahedronBRep (10 * ·) .positive).surfaces[0]'(by decide))
    (List.getElem_mem _) rfl i p hp).1 ⟨(0, i), i, _, ⟨Nat.one_pos, hi⟩, rfl, ⟨rfl, rfl⟩, .inl rfl⟩

end Inspector
