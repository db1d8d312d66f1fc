import Verif.Props.Separated
/-
C152 and C153: what becomes of the meshes on both sides of a Line.
-/
namespace Inspector
open Spec

/-- The square, with a Line, 12, on its diagonal, internal to it or bounding it. -/
def quadDiagonal (i : Bool) : TopologyData where
  corners := [⟨1, true, 1, 0⟩, ⟨3, true, 1, 0⟩]
  lines := [⟨11, true, 3, 2⟩, ⟨12, true, 2, 1⟩, ⟨13, true, 3, 2⟩]
  surfaces := [⟨21, true, 4, 2⟩]
  vertices := [
    [⟨⟨.corner, 1⟩, 0⟩, ⟨⟨.line, 11⟩, 0⟩, ⟨⟨.line, 12⟩, 0⟩, ⟨⟨.line, 13⟩, 2⟩, ⟨⟨.surface, 21⟩, 0⟩],
    [⟨⟨.line, 11⟩, 1⟩, ⟨⟨.surface, 21⟩, 1⟩],
    [⟨⟨.corner, 3⟩, 0⟩, ⟨⟨.line, 13⟩, 0⟩, ⟨⟨.line, 12⟩, 1⟩, ⟨⟨.line, 11⟩, 2⟩, ⟨⟨.surface, 21⟩, 2⟩],
    [⟨⟨.line, 13⟩, 1⟩, ⟨⟨.surface, 21⟩, 3⟩]]
  boundary := [(⟨.corner, 1⟩, ⟨.line, 11⟩), (⟨.corner, 3⟩, ⟨.line, 11⟩), (⟨.corner, 3⟩, ⟨.line, 13⟩),
    (⟨.corner, 1⟩, ⟨.line, 13⟩), (⟨.corner, 1⟩, ⟨.line, 12⟩), (⟨.corner, 3⟩, ⟨.line, 12⟩), (⟨.line, 11⟩, ⟨.surface, 21⟩),
    (⟨.line, 13⟩, ⟨.surface, 21⟩)] ++ if i then [] else [(⟨.line, 12⟩, ⟨.surface, 21⟩)]
  internal := if i then [(⟨.line, 12⟩, ⟨.surface, 21⟩)] else []
  border := [(21, 0), (21, 1), (21, 2), (21, 3)]
  surfaceEdges := [((11, 0), (21, 1)), ((11, 1), (21, 1)), ((12, 0), (21, 2)), ((13, 0), (21, 1)), ((13, 1), (21, 1))]

abbrev diagonalModel (i : Bool) : ModelData Nat := { exampleModel (quadDiagonal i) (10 * ·) .positive with surfaces := [quadFace] }

theorem diagonal_meshes (i : Bool) : MeshesOk modelLibrary (diagonalModel i) where
  ids := by cases i <;> decide +kernel
  nbComponents := by cases i <;> decide +kernel
  corners := by cases i <;> decide +kernel
  lines := by
    intro l hl
    have hl : l ∈ (exampleModel (quadDiagonal i) (10 * ·) .positive).lines := hl
    obtain ⟨c, hc, rfl⟩ := List.mem_map.1 hl
    have hc : c ∈ ([⟨11, true, 3, 2⟩, ⟨12, true, 2, 1⟩, ⟨13, true, 3, 2⟩] : List TopologyComponent) := hc
    have hc : c = ⟨11, true, 3, 2⟩ ∨ c = ⟨12, true, 2, 1⟩ ∨ c = ⟨13, true, 3, 2⟩ := by
      rcases List.mem_cons.1 hc with h | h
      · exact .inl h
      · rcases List.mem_cons.1 h with h | h
        · exact .inr (.inl h)
        · exact .inr (.inr (List.mem_singleton.1 h))
    clear * - hc
    rcases hc with rfl | rfl | rfl <;> cases i <;> exact ⟨identity_search _ (by decide +kernel), by decide⟩
  surfaces := by
    intro s hs
    rw [List.mem_singleton.1 hs]
    exact ⟨identity_search _ (by decide), by decide, by decide, by decide +kernel⟩
  walks := by
    intro s hs
    rw [List.mem_singleton.1 hs]
    refine ⟨fun p k hp hk => ?_, fun v _ f hf => (by cases hf), by cases i <;> decide +kernel, by cases i <;> decide +kernel, fun e => ?_⟩
    · have hk : k < 3 := hk
      show (if p = 0 then [0, 1, 2].getD k 0 else [0, 2, 3].getD k 0) < 4
      rcases k with _ | _ | _ | k
      all_goals first | (split <;> decide) | omega
    · refine Nat.lt_of_le_of_lt (List.length_filter_le _ _) ?_
      cases i <;> decide +kernel
  blocks := fun b hb => absurd hb List.not_mem_nil
  uniqueVertices := by
    rw [← activePositions_length]
    exact identity_search _ (by cases i <;> decide +kernel)
  nbUniqueVertices := by cases i <;> decide +kernel
  nbLinks := by cases i <;> decide +kernel
  smallPolygons := by
    intro s hs p
    rw [List.mem_singleton.1 hs]
    show 3 ≤ 256
    decide
  positions := (exampleModel_meshes foldedBorder (10 * ·) .positive (by decide)).positions
  blockWalks := fun b hb => absurd hb List.not_mem_nil

theorem diagonal_components (i : Bool) :
    ((diagonalModel i).topology modelRuntime).components = (quadDiagonal i).toModel.components := by
  funext kind
  cases kind <;> rfl

theorem diagonal_wf (i : Bool) : WellFormed ((diagonalModel i).topology modelRuntime) := by
  have wf := (quadDiagonal i).wf_of_check (by cases i <;> decide)
  refine ⟨by rw [diagonal_components]; exact wf.ids, ?_, ?_, ?_, ?_⟩ <;> unfold Has <;> rw [diagonal_components]
  · exact wf.vertices
  · exact wf.embeddings
  · exact wf.incidences
  · exact wf.boundaries

theorem diagonal_section (i : Bool) : SectionOk modelLibrary modelRuntime (diagonalModel i) noCandidate where
  meshes := diagonal_meshes i
  noBlock := rfl
  types := exampleModel_types (quadDiagonal i) (10 * ·) .positive _ (by cases i <;> decide)
  trees := quad_trees _ _ (fun _ _ => rfl) (fun _ _ _ => rfl) (fun _ _ _ => rfl) rfl (by cases i <;> decide +kernel)
  tests := fun _ => quad_tests rfl
  topology := diagonal_wf i
  embeddings := by
    intro id _ e he
    have key : ∀ e ∈ (quadDiagonal i).internal, e.2.type = .surface := by cases i <;> decide
    obtain ⟨x, hx, hxe⟩ := List.mem_map.1 (TopologyData.mem_select.1 he)
    have := key x hx
    simp only [Prod.mk.injEq] at hxe
    rw [← hxe.2]
    exact this

theorem diagonal_brep : BRepOk modelLibrary modelRuntime (diagonalModel true) noCandidate where
  meshesKnown := (diagonal_meshes true).toMeshesKnown
  blockWalks := (diagonal_meshes true).blockWalks
  types := exampleModel_types (quadDiagonal true) (10 * ·) .positive _ (by decide)
  trees := quad_trees _ _ (fun _ _ => rfl) (fun _ _ _ => rfl) (fun _ _ _ => rfl) rfl (by decide +kernel)
  nbModelEdges := by decide +kernel
  topology := diagonal_wf true
  around := by
    have aw := (quadDiagonal true).aw_of_check (by decide)
    have hc := diagonal_components true
    refine ⟨fun m => List.reverse_perm m, ?_, aw.surfaceKeys, ?_, aw.blockKeys, ?_, by decide +kernel, by decide +kernel⟩ <;>
      unfold Has <;> rw [hc]
    · exact aw.surfaces
    · exact aw.blocks
    · exact aw.polygons
  coherent := (quadDiagonal true).coherent_of_check (by decide)
  surfaceEmbeddings := by
    rintro id ⟨c, hc, rfl, _⟩ e he
    have hc' : c ∈ (diagonalModel true).surfaces.map fun c => (⟨c.id, c.active, c.points.length, c.nbPolygons⟩ : TopologyComponent) := hc
    obtain ⟨f, hf, rfl⟩ := List.mem_map.1 hc'
    rw [List.mem_singleton.1 hf] at he
    have hn : (quadDiagonal true).toModel.embeddings 21 = [] := by decide
    have he' : e ∈ (quadDiagonal true).toModel.embeddings 21 := he
    rw [hn] at he'
    exact absurd he' List.not_mem_nil
  firstEdges := by decide +kernel
  counts := by
    have := counts_of_check (quadDiagonal true) (by decide)
    intro v hv b hb
    exact this v hv b hb
  graph := firstEdge_finder
  geometry := noGeometry_raises
  rays := example_rays _
  modelBoundaries := Or.inl rfl

set_option maxRecDepth 20000 in
theorem diagonal_valid (i : Bool) : isSectionOfValid modelLibrary modelRuntime (diagonalModel i) = .ok {} := by
  cases i <;> rfl

set_option maxRecDepth 20000 in
theorem diagonal_brep_valid (N : Nat) : isBRepOfValid modelLibrary modelRuntime (N + 20) (diagonalModel true) = .ok {} := by
  rfl

/-- **C152** is false of Sections: a Section is declared valid although a Line which bounds a Surface is between two polygons of it
which are adjacent. -/
theorem C152_section_false : ∃ (m : ModelData Nat) (c : Candidates Nat), SectionOk modelLibrary modelRuntime m c ∧ LinksKept m ∧
    (∃ l ∈ m.lines, l.active = true ∧ ∃ e u w, LineEdge m l e u w ∧ ∃ s ∈ m.surfaces, s.active = true ∧
      m.isBoundary l.id s.id = true ∧ ∃ x, FaceEdgeOn m s x u w ∧ s.polygonAdjacent x ≠ none) ∧
    ∃ v, isSectionOfValid modelLibrary modelRuntime m = .ok v ∧ v.isValid = true := by
  refine ⟨diagonalModel false, noCandidate, diagonal_section false, exampleModel_links (quadDiagonal false) (10 * ·) .positive, ?_, _,
    diagonal_valid false, rfl⟩
  exact ⟨(diagonalModel false).lines[1]'(by decide), List.getElem_mem _, rfl, 0, 0, 2, ⟨by decide, by decide, by decide⟩, quadFace,
    List.mem_singleton.2 rfl, rfl, by decide, (0, 2), .inr ⟨⟨by decide, by decide⟩, 2, 0, ⟨rfl, rfl⟩, by decide, by decide⟩, by decide⟩

/-- **C153** is false of BReps: a BRep is declared valid although a Line internal to a Surface is between two polygons of it which are
adjacent. -/
theorem C153_brep_false : ∃ (m : ModelData Nat) (c : Candidates Nat), BRepOk modelLibrary modelRuntime m c ∧
    (∃ l ∈ m.lines, l.active = true ∧ ∃ e u w, LineEdge m l e u w ∧ ∃ s ∈ m.surfaces, s.active = true ∧
      m.isInternal l.id s.id = true ∧ ∃ x, FaceEdgeOn m s x u w ∧ s.polygonAdjacent x ≠ none) ∧
    ∃ v N, (∀ fuel ≥ N, isBRepOfValid modelLibrary modelRuntime fuel m = .ok v) ∧ v.isValid = true := by
  refine ⟨diagonalModel true, noCandidate, diagonal_brep, ?_, {}, 20, fun fuel hf => ?_, rfl⟩
  · exact ⟨(diagonalModel true).lines[1]'(by decide), List.getElem_mem _, rfl, 0, 0, 2, ⟨by decide, by decide, by decide⟩, quadFace,
      List.mem_singleton.2 rfl, rfl, by decide, (0, 2), .inr ⟨⟨by decide, by decide⟩, 2, 0, ⟨rfl, rfl⟩, by decide, by decide⟩, by decide⟩
  · obtain ⟨k, rfl⟩ := Nat.exists_eq_add_of_le hf
    rw [Nat.add_comm]
    exact diagonal_brep_valid k

/-- **C153** is false of Sections. -/
theorem C153_section_false : ∃ (m : ModelData Nat) (c : Candidates Nat), SectionOk modelLibrary modelRuntime m c ∧ LinksKept m ∧
    (∃ l ∈ m.lines, l.active = true ∧ ∃ e u w, LineEdge m l e u w ∧ ∃ s ∈ m.surfaces, s.active = true ∧
      m.isInternal l.id s.id = true ∧ ∃ x, FaceEdgeOn m s x u w ∧ s.polygonAdjacent x ≠ none) ∧
    ∃ v, isSectionOfValid modelLibrary modelRuntime m = .ok v ∧ v.isValid = true := by
  refine ⟨diagonalModel true, noCandidate, diagonal_section true, exampleModel_links (quadDiagonal true) (10 * ·) .positive, ?_, _,
    diagonal_valid true, rfl⟩
  exact ⟨(diagonalModel true).lines[1]'(by decide), List.getElem_mem _, rfl, 0, 0, 2, ⟨by decide, by decide, by decide⟩, quadFace,
    List.mem_singleton.2 rfl, rfl, by decide, (0, 2), .inr ⟨⟨by decide, by decide⟩, 2, 0, ⟨rfl, rfl⟩, by decide, by decide⟩, by decide⟩

namespace BothSides
variable {P : Type} {m : ModelData P}

/-- The polygon adjacent to an edge has an edge at the same place, adjacent back. -/
theorem edge_back (sound : FacesSound m) {s : FaceData P} (ms : s ∈ m.surfaces) (hw : ¬ ∃ x, WrongEdge s.toSurfaceMesh x)
    {x : PolygonEdge} {u v : Index} (hx : FaceEdge m s x u v) {q : Nat} (hq : s.polygonAdjacent x = some q) :
    ∃ y, y ≠ x ∧ FaceEdge m s y v u ∧ y.1 = q ∧ s.polygonAdjacent y = some x.1 := by
  obtain ⟨hxe, a, b, hab, hu, hv⟩ := hx
  by_contra hn
  refine hw ⟨x, hxe, q, hq, ?_⟩
  rintro ⟨e', a', b', he', hab', hba, hback⟩
  obtain rfl : a = a' := hab.1.symm.trans hab'.1
  obtain rfl : b = b' := hab.2.symm.trans hab'.2
  refine hn ⟨(q, e'), fun h => ?_, ⟨⟨sound.adjacent s ms x q hxe hq, he'⟩, b, a, hba, hv, hu⟩, rfl, hback⟩
  have hq1 : q = x.1 := congrArg Prod.fst h
  have he1 : e' = x.2 := congrArg Prod.snd h
  rw [hq1, he1] at hba
  exact sound.noLoop s ms x a b hxe hab (hab.1.symm.trans hba.1)

end BothSides

/-- **C153**, what holds of BReps: if a BRep the wrong embeddings of the Lines of which can be described (see C54) is declared valid,
the edges of an active Line internal to an active Surface (and not bounding it) are each between two edges of its polygons, and no more,
which either have no adjacent polygon, both, or are adjacent to the polygons of one another.  Missing: that they have no adjacent
polygon (false, see `C153_brep_false`). -/
theorem C153_brep_partial {P : Type} (lib : ModelLibrary P) (rt : ModelRuntime) (hrt : ModelRuntimeOk rt)
    (m : ModelData P) (c : Candidates P) (h : BRepOk lib rt m c) (hu : ¬ LinesUnreadable (m.topology rt))
    (found : EdgesFound m) (agree : RelationsAgree m) (sound : FacesSound m) :
    ∃ v N, (∀ fuel ≥ N, isBRepOfValid lib rt fuel m = .ok v) ∧ (v.isValid = true →
      ∀ l ∈ m.lines, l.active = true → ∀ e u w, LineEdge m l e u w → ∀ s ∈ m.surfaces, s.active = true →
        m.isInternal l.id s.id = true → m.isBoundary l.id s.id = false →
        ∃ x y, x ≠ y ∧ (∀ z, FaceEdgeOn m s z u w ↔ z = x ∨ z = y) ∧
          (s.polygonAdjacent x = none ∧ s.polygonAdjacent y = none ∨
            s.polygonAdjacent x = some y.1 ∧ s.polygonAdjacent y = some x.1)) := by
  obtain ⟨v, N, e1, h1⟩ := C137_brep_partial lib rt hrt m c h hu found agree
  obtain ⟨v3, N3, e3, h3, _⟩ := C82_brep_partial lib rt hrt m c h
  obtain rfl : v = v3 := by
    have a := e1 (N + N3) (by omega)
    have b := e3 (N + N3) (by omega)
    rw [a] at b
    injection b
  refine ⟨v, N, e1, fun hv l ml hla e u w he s ms hsa hi hb => ?_⟩
  obtain ⟨u', w', he', hs⟩ := h1 hv l ml hla e he.1
  obtain rfl : u = u' := Option.some.inj (he.2.1.symm.trans he'.2.1)
  obtain rfl : w = w' := Option.some.inj (he.2.2.symm.trans he'.2.2)
  obtain ⟨xs, hnd, hxs, hlen⟩ := hs s ms hsa
  rw [hb, hi] at hlen
  obtain ⟨x, y, rfl⟩ := List.length_eq_two.1 hlen
  have hne : x ≠ y := fun h => by
    rw [h] at hnd
    exact (List.nodup_cons.1 hnd).1 (List.mem_singleton.2 rfl)
  have hz : ∀ z, FaceEdgeOn m s z u w ↔ z = x ∨ z = y := fun z => by
    rw [← hxs z, List.mem_cons, List.mem_singleton]
  have hw : ¬ ∃ x, WrongEdge s.toSurfaceMesh x := fun hw => by
    have hd := (h3 hu).1 hv
    unfold BRepDefect at hd
    simp only [not_or] at hd
    exact hd.2.2.2.1 ⟨s, ms, hsa, .inr (.inl hw)⟩
  have back : ∀ z, FaceEdgeOn m s z u w → ∀ q, s.polygonAdjacent z = some q →
      ∃ z', z' ≠ z ∧ FaceEdgeOn m s z' u w ∧ z'.1 = q ∧ s.polygonAdjacent z' = some z.1 := by
    rintro z (hz | hz) q hq
    · obtain ⟨z', k1, k2, k3⟩ := BothSides.edge_back sound ms hw hz hq
      exact ⟨z', k1, .inr k2, k3⟩
    · obtain ⟨z', k1, k2, k3⟩ := BothSides.edge_back sound ms hw hz hq
      exact ⟨z', k1, .inl k2, k3⟩
  refine ⟨x, y, hne, hz, ?_⟩
  cases hx : s.polygonAdjacent x with
  | some q =>
    obtain ⟨z', k1, k2, k3, k4⟩ := back x ((hz x).2 (.inl rfl)) q hx
    obtain rfl : z' = y := ((hz z').1 k2).resolve_left k1
    exact .inr ⟨by rw [k3], k4⟩
  | none =>
    cases hy : s.polygonAdjacent y with
    | none => exact .inl ⟨rfl, rfl⟩
    | some q =>
      obtain ⟨z', k1, k2, _, k4⟩ := back y ((hz y).2 (.inr rfl)) q hy
      obtain rfl : z' = x := ((hz z').1 k2).resolve_right k1
      rw [hx] at k4
      cases k4

namespace BothSides

/-- The unique vertices at the ends of the edges of the polygons of the square. -/
def ends (x : PolygonEdge) : Option Index × Option Index :=
  ((quadDiagonal true).toModel.uniqueVertex ⟨⟨.surface, 21⟩, quadFace.polygonVertex x⟩,
    (quadDiagonal true).toModel.uniqueVertex ⟨⟨.surface, 21⟩, quadFace.polygonVertex (x.1, (x.2 + 1) % 3)⟩)

theorem ends_iff (x : PolygonEdge) (u v : Index) : FaceEdge (diagonalModel true) quadFace x u v ↔
    IsPolygonEdge quadFace.toSurfaceMesh x ∧ ends x = (some u, some v) := by
  constructor
  · rintro ⟨h, a, b, ⟨rfl, rfl⟩, h1, h2⟩
    exact ⟨h, Prod.ext h1 h2⟩
  · rintro ⟨h, h1⟩
    exact ⟨h, _, _, ⟨rfl, rfl⟩, congrArg Prod.fst h1, congrArg Prod.snd h1⟩

/-- The edges of the polygons of the square which join two unique vertices. -/
def joining (u v : Index) : List PolygonEdge :=
  (pairs 2 fun _ => 3).filter fun x => ends x = (some u, some v) ∨ ends x = (some v, some u)

theorem joining_iff (u v : Index) (x : PolygonEdge) : x ∈ joining u v ↔ FaceEdgeOn (diagonalModel true) quadFace x u v := by
  obtain ⟨p, i⟩ := x
  rw [joining, List.mem_filter, mem_pairs, decide_eq_true_eq, and_or_left]
  exact or_congr (ends_iff (p, i) u v).symm (ends_iff (p, i) v u).symm

theorem found : EdgesFound (diagonalModel true) where
  lines := exampleModel_lineEdges (quadDiagonal true) (10 * ·) .positive
  surfaces l hl e u v he s hs n := by
    rw [List.mem_singleton.1 hs]
    have hl : l ∈ (exampleModel (quadDiagonal true) (10 * ·) .positive).lines := hl
    obtain ⟨lc, hlc, rfl⟩ := List.mem_map.1 hl
    obtain ⟨h0, h1, h2⟩ := he
    replace h0 : e < lc.nbElements := h0
    replace h1 : (quadDiagonal true).toModel.uniqueVertex ⟨⟨.line, lc.id⟩, e⟩ = some u := h1
    replace h2 : (quadDiagonal true).toModel.uniqueVertex ⟨⟨.line, lc.id⟩, e + 1⟩ = some v := h2
    have hk : ∀ lc ∈ (quadDiagonal true).lines, ∀ e < lc.nbElements,
        ((quadDiagonal true).toModel.surfaceEdges lc.id e).filter (fun x => x.1 == 21) =
          match (quadDiagonal true).toModel.uniqueVertex ⟨⟨.line, lc.id⟩, e⟩,
            (quadDiagonal true).toModel.uniqueVertex ⟨⟨.line, lc.id⟩, e + 1⟩ with
          | some u, some v => if (joining u v).length = 0 then [] else [(21, (joining u v).length)]
          | _, _ => [] := by decide +kernel
    have hk := hk lc hlc e h0
    rw [h1, h2] at hk
    simp only [] at hk
    have hmem : (21, n) ∈ (quadDiagonal true).toModel.surfaceEdges lc.id e ↔ n ≠ 0 ∧ n = (joining u v).length := by
      have : (21, n) ∈ (quadDiagonal true).toModel.surfaceEdges lc.id e ↔
          (21, n) ∈ (((quadDiagonal true).toModel.surfaceEdges lc.id e).filter fun x => x.1 == 21) := by
        simp [List.mem_filter]
      rw [this, hk]
      split
      · simp only [List.not_mem_nil, false_iff]; omega
      · simp only [List.mem_singleton, Prod.mk.injEq, true_and]; omega
    have hnd : (joining u v).Nodup := (pairs_nodup _ _).filter _
    refine hmem.trans (and_congr_right fun _ => ⟨fun hn => ⟨joining u v, hnd, hn.symm, joining_iff u v⟩, ?_⟩)
    rintro ⟨xs, x1, x2, x3⟩
    rw [← x2]
    exact ((List.perm_ext_iff_of_nodup x1 hnd).2 fun x => (x3 x).trans (joining_iff u v x).symm).length_eq

theorem readable : ¬ LinesUnreadable ((diagonalModel true).topology modelRuntime) := by
  rintro ⟨v, hv, pre, cmv, post, hl, _, _, pre', e, post', he, _, hw, _⟩
  have hv : v < (quadDiagonal true).vertices.length := hv
  have hl : (quadDiagonal true).vertices.getD v [] = pre ++ cmv :: post := hl
  have he : (quadDiagonal true).toModel.embeddings cmv.component_id.id = pre' ++ e :: post' := he
  have hmem : (quadDiagonal true).vertices[v] ∈ (quadDiagonal true).vertices := List.getElem_mem hv
  rw [List.getD_eq_getElem?_getD, List.getElem?_eq_getElem hv, Option.getD_some] at hl
  have key : ∀ l ∈ (quadDiagonal true).vertices, ∀ x ∈ l, ∀ e ∈ (quadDiagonal true).toModel.embeddings x.component_id.id,
      (quadDiagonal true).toModel.isBoundary x.component_id.id e.id = false ∧ ∃ y ∈ l, y.component_id = e := by decide
  obtain ⟨k1, y, hy, k2⟩ := key _ hmem cmv (by rw [hl]; exact List.mem_append_right _ List.mem_cons_self) e
    (by rw [he]; exact List.mem_append_right _ List.mem_cons_self)
  rcases hw with hw | hw
  · have hw : (quadDiagonal true).toModel.isBoundary cmv.component_id.id e.id = true := hw
    rw [k1] at hw
    cases hw
  · refine hw.2 ⟨y, ?_, k2⟩
    show y ∈ (quadDiagonal true).vertices.getD v []
    rw [List.getD_eq_getElem?_getD, List.getElem?_eq_getElem hv, Option.getD_some]
    exact hy

theorem agree : RelationsAgree (diagonalModel true) := by
  have h := LinesOnSurfaces.agree_of_check (quadDiagonal true) (by decide) (by decide)
  exact ⟨h.boundary, h.internal⟩

theorem sound : FacesSound (diagonalModel true) where
  noLoop s hs x a b hx hab := by
    rw [List.mem_singleton.1 hs] at hx hab
    obtain ⟨p, i⟩ := x
    obtain ⟨h1, h2⟩ := hx
    obtain ⟨rfl, rfl⟩ := hab
    have key : ∀ p < 2, ∀ i < 3, quadFace.polygonVertex (p, i) ≠ quadFace.polygonVertex (p, (i + 1) % 3) := by decide
    exact key p h1 i h2
  adjacent s hs x q hx hq := by
    rw [List.mem_singleton.1 hs] at hx hq ⊢
    obtain ⟨p, i⟩ := x
    obtain ⟨h1, h2⟩ := hx
    have key : ∀ p < 2, ∀ i < 3, ∀ q ∈ quadFace.polygonAdjacent (p, i), q < 2 := by decide
    exact key p h1 i h2 q hq

end BothSides

set_option maxRecDepth 20000 in
/-- The diagonal of the square is between two edges of its polygons. -/
example : ∃ x y, x ≠ y ∧ ∀ z, FaceEdgeOn (diagonalModel true) quadFace z 0 2 ↔ z = x ∨ z = y := by
  obtain ⟨v, N, h1, h2⟩ := C153_brep_partial modelLibrary modelRuntime modelRuntime_ok _ _ diagonal_brep BothSides.readable
    BothSides.found BothSides.agree BothSides.sound
  have h := h1 (N + 20) (by omega)
  rw [diagonal_brep_valid N] at h
  injection h with h
  subst h
  obtain ⟨x, y, k1, k2, _⟩ := h2 rfl ((diagonalModel true).lines[1]'(by decide)) (List.getElem_mem _) rfl 0 0 2
    ⟨by decide, by decide, by decide⟩ quadFace (List.mem_singleton.2 rfl) rfl (by decide) (by decide)
  exact ⟨x, y, k1, k2⟩

end Inspector
