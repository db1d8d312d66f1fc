import Verif.Props.LineEnds
/-
C140: two Lines of a valid model have no common edge, but between two Corners.
-/
namespace Inspector
open Spec

/-- The edges `e` and `e'` of the two Lines join the same places, near `a` and `b`, in one order or the other. -/
def Spec.CommonEdge {P : Type} (near : P → P → Prop) (l l' : LineData P) (e e' : Index) (a b : P) : Prop :=
  e < l.nbEdges ∧ e' < l'.nbEdges ∧ l.points[(l.edgeVertices e).1]? = some a ∧ l.points[(l.edgeVertices e).2]? = some b ∧
    ∃ a' b', l'.points[(l'.edgeVertices e').1]? = some a' ∧ l'.points[(l'.edgeVertices e').2]? = some b' ∧
      ((near a a' ∧ near b b') ∨ (near a b' ∧ near b a'))

/-- **C140** (Sections): if a Section is declared valid, where two active Lines have a common edge there are Corners at both ends of
it, which, if they are active, bound both Lines.  Missing: that there is no such edge (false, see `C140_false`). -/
theorem C140_section_partial {P : Type} (lib : ModelLibrary P) (rt : ModelRuntime) (hrt : ModelRuntimeOk rt) (m : ModelData P)
    (c : Candidates P) (h : SectionOk lib rt m c) (near : P → P → Prop) (hl : PlacesOk lib m near) (hk : LinksKept m) :
    ∃ v, isSectionOfValid lib rt m = .ok v ∧ (v.isValid = true →
      ∀ l ∈ m.lines, ∀ l' ∈ m.lines, l.active = true → l'.active = true → l.id ≠ l'.id → ∀ e e' a b,
        CommonEdge near l l' e e' a b → ∀ p ∈ [a, b], ∃ corner ∈ m.corners, corner.active = true →
          (∃ r ∈ corner.points, near r p) ∧ m.isBoundary corner.id l.id = true ∧ m.isBoundary corner.id l'.id = true) := by
  obtain ⟨v, h1, h2⟩ := C136_section_partial lib rt hrt m c h near hl hk
  refine ⟨v, h1, fun hv l ml l' ml' ha ha' hid e e' a b he p hp => ?_⟩
  obtain ⟨_, _, pa, pb, a', b', pa', pb', hn⟩ := he
  have hne : ∀ i i' : Nat, (l.id, i) ≠ (l'.id, i') := fun i i' heq => hid (Prod.mk.inj heq).1
  rw [List.mem_cons, List.mem_singleton] at hp
  rcases hp with rfl | rfl <;> rcases hn with ⟨n1, n2⟩ | ⟨n1, n2⟩
  · exact h2 hv l ml l' ml' ha ha' _ _ _ _ pa pa' (hne _ _) n1
  · exact h2 hv l ml l' ml' ha ha' _ _ _ _ pa pb' (hne _ _) n1
  · exact h2 hv l ml l' ml' ha ha' _ _ _ _ pb pb' (hne _ _) n2
  · exact h2 hv l ml l' ml' ha ha' _ _ _ _ pb pa' (hne _ _) n2

/-- **C140** (BReps whose active Lines are in no Block): if the BRep is declared valid, where two active Lines have a common edge
there are Corners at both ends of it, which, if they are active, bound, or are internal to, both Lines.  Missing: that there is no such edge
(false, see `C140_false`), the other BReps (see C54). -/
theorem C140_brep_partial {P : Type} (lib : ModelLibrary P) (rt : ModelRuntime) (hrt : ModelRuntimeOk rt) (m : ModelData P)
    (c : Candidates P) (h : BRepOk lib rt m c) (near : P → P → Prop) (hl : PlacesOk lib m near) (hk : LinksKept m)
    (hs : ∀ l ∈ m.lines, l.active = true → ∀ e ∈ m.embeddings l.id, e.type = .surface) :
    ∃ v N, (∀ fuel ≥ N, isBRepOfValid lib rt fuel m = .ok v) ∧ (v.isValid = true →
      ∀ l ∈ m.lines, ∀ l' ∈ m.lines, l.active = true → l'.active = true → l.id ≠ l'.id → ∀ e e' a b,
        CommonEdge near l l' e e' a b → ∀ p ∈ [a, b], ∃ corner ∈ m.corners, corner.active = true →
          (∃ r ∈ corner.points, near r p) ∧
          (m.isBoundary corner.id l.id = true ∨ m.isInternal corner.id l.id = true) ∧
          (m.isBoundary corner.id l'.id = true ∨ m.isInternal corner.id l'.id = true)) := by
  obtain ⟨v, N, h1, h2⟩ := C136_brep_partial lib rt hrt m c h near hl hk hs
  refine ⟨v, N, h1, fun hv l ml l' ml' ha ha' hid e e' a b he p hp => ?_⟩
  obtain ⟨_, _, pa, pb, a', b', pa', pb', hn⟩ := he
  have hne : ∀ i i' : Nat, (l.id, i) ≠ (l'.id, i') := fun i i' heq => hid (Prod.mk.inj heq).1
  rw [List.mem_cons, List.mem_singleton] at hp
  rcases hp with rfl | rfl <;> rcases hn with ⟨n1, n2⟩ | ⟨n1, n2⟩
  · exact h2 hv l ml l' ml' ha ha' _ _ _ _ pa pa' (hne _ _) n1
  · exact h2 hv l ml l' ml' ha ha' _ _ _ _ pa pb' (hne _ _) n1
  · exact h2 hv l ml l' ml' ha ha' _ _ _ _ pb pb' (hne _ _) n2
  · exact h2 hv l ml l' ml' ha ha' _ _ _ _ pb pa' (hne _ _) n2

/-- The triangle, one edge of which is two Lines, 11 and 14. -/
def lineTwice : TopologyData where
  corners := [⟨1, true, 1, 0⟩, ⟨2, true, 1, 0⟩, ⟨3, true, 1, 0⟩]
  lines := [⟨11, true, 2, 1⟩, ⟨12, true, 2, 1⟩, ⟨13, true, 2, 1⟩, ⟨14, true, 2, 1⟩]
  surfaces := [⟨21, true, 3, 1⟩]
  vertices := [
    [⟨⟨.corner, 1⟩, 0⟩, ⟨⟨.line, 11⟩, 0⟩, ⟨⟨.line, 14⟩, 0⟩, ⟨⟨.line, 13⟩, 1⟩, ⟨⟨.surface, 21⟩, 0⟩],
    [⟨⟨.corner, 2⟩, 0⟩, ⟨⟨.line, 12⟩, 0⟩, ⟨⟨.line, 11⟩, 1⟩, ⟨⟨.line, 14⟩, 1⟩, ⟨⟨.surface, 21⟩, 1⟩],
    [⟨⟨.corner, 3⟩, 0⟩, ⟨⟨.line, 13⟩, 0⟩, ⟨⟨.line, 12⟩, 1⟩, ⟨⟨.surface, 21⟩, 2⟩]]
  boundary := [(⟨.corner, 1⟩, ⟨.line, 11⟩), (⟨.corner, 2⟩, ⟨.line, 11⟩), (⟨.corner, 2⟩, ⟨.line, 12⟩),
    (⟨.corner, 3⟩, ⟨.line, 12⟩), (⟨.corner, 3⟩, ⟨.line, 13⟩), (⟨.corner, 1⟩, ⟨.line, 13⟩),
    (⟨.corner, 1⟩, ⟨.line, 14⟩), (⟨.corner, 2⟩, ⟨.line, 14⟩),
    (⟨.line, 11⟩, ⟨.surface, 21⟩), (⟨.line, 12⟩, ⟨.surface, 21⟩), (⟨.line, 13⟩, ⟨.surface, 21⟩),
    (⟨.line, 14⟩, ⟨.surface, 21⟩)]
  border := [(21, 0), (21, 1), (21, 2)]
  surfaceEdges := [((11, 0), (21, 1)), ((12, 0), (21, 1)), ((13, 0), (21, 1)), ((14, 0), (21, 1))]

theorem lineTwice_section : SectionOk modelLibrary modelRuntime (exampleModel lineTwice (10 * ·) .positive) noCandidate where
  meshes := exampleModel_meshes _ _ _ (by decide)
  noBlock := rfl
  types := exampleModel_types _ _ _ _ (by decide)
  trees := exampleModel_trees _ _ _ _ (by decide +kernel)
  tests := fun _ => noCandidate_tests _ _ _ _
  topology := exampleModel_wf _ _ _ _ (by decide) (by decide) (by decide)
  embeddings := by
    intro id _ e he
    exact absurd (TopologyData.mem_select.1 he) (by simp [lineTwice])

theorem lineTwice_brep : BRepOk modelLibrary modelRuntime (exampleModel lineTwice (10 * ·) .positive) noCandidate where
  meshesKnown := MeshesOk.toMeshesKnown (exampleModel_meshes _ _ _ (by decide))
  blockWalks := MeshesOk.blockWalks (exampleModel_meshes _ _ _ (by decide))
  types := exampleModel_types _ _ _ _ (by decide)
  trees := exampleModel_trees _ _ _ _ (by decide +kernel)
  nbModelEdges := by decide +kernel
  topology := exampleModel_wf _ _ _ _ (by decide) (by decide) (by decide)
  around := by
    have aw := lineTwice.aw_of_check (by decide)
    rw [exampleModel_topology lineTwice _ .positive modelRuntime (by decide) (by decide)]
    exact ⟨fun m => List.reverse_perm m, aw.surfaces, aw.surfaceKeys, aw.blocks, aw.blockKeys, aw.polygons,
      by decide +kernel, by decide +kernel⟩
  coherent := lineTwice.coherent_of_check (by decide)
  surfaceEmbeddings := by
    intro id _ e he
    exact absurd (TopologyData.mem_select.1 he) (by simp [lineTwice])
  firstEdges := by decide +kernel
  counts := by
    rw [exampleModel_topology lineTwice _ .positive modelRuntime (by decide) (by decide)]
    exact counts_of_check lineTwice (by decide)
  graph := firstEdge_finder
  geometry := noGeometry_raises
  rays := example_rays _
  modelBoundaries := Or.inl rfl

set_option maxRecDepth 20000 in
/-- **C140 is false**: a model is declared valid, as a Section and as a BRep, although it has twice the same Line.  (Neither the
Lines at a same Corner nor their edges are compared with each other.) -/
theorem C140_false : ∃ (m : ModelData Nat) (c : Candidates Nat), SectionOk modelLibrary modelRuntime m c ∧
    BRepOk modelLibrary modelRuntime m c ∧ PlacesOk modelLibrary m (· = ·) ∧ LinksKept m ∧
    (∃ l ∈ m.lines, ∃ l' ∈ m.lines, l.active = true ∧ l'.active = true ∧ l.id ≠ l'.id ∧
      ∃ e e' a b, CommonEdge (· = ·) l l' e e' a b) ∧
    (∃ v, isSectionOfValid modelLibrary modelRuntime m = .ok v ∧ v.isValid = true) ∧
    ∀ fuel ≥ 20, ∃ v, isBRepOfValid modelLibrary modelRuntime fuel m = .ok v ∧ v.isValid = true := by
  refine ⟨exampleModel lineTwice (10 * ·) .positive, noCandidate, lineTwice_section, lineTwice_brep,
    exampleModel_places _ _ _ (by decide +kernel), exampleModel_links _ _ _,
    ⟨_, List.mem_map.2 ⟨⟨11, true, 2, 1⟩, by decide, rfl⟩, _, List.mem_map.2 ⟨⟨14, true, 2, 1⟩, by decide, rfl⟩, rfl, rfl,
      by decide, 0, 0, 0, 10, by decide, by decide, by decide, by decide, 0, 10, by decide, by decide, .inl ⟨rfl, rfl⟩⟩,
    ⟨_, by rfl, rfl⟩, fun fuel hf => ?_⟩
  obtain ⟨k, rfl⟩ := Nat.exists_eq_add_of_le' hf
  have he : isBRepOfValid modelLibrary modelRuntime (k + 20) (exampleModel lineTwice (10 * ·) .positive) = .ok {} := by
    rfl
  exact ⟨_, he, rfl⟩

/-! ### examples -/

set_option maxRecDepth 20000 in
/-- The Lines 11 and 14 of this Section have a common edge, so there is a Corner at the place 10. -/
example : ∃ corner ∈ (exampleModel lineTwice (10 * ·) .positive).corners, 10 ∈ corner.points := by
  obtain ⟨v, h1, h2⟩ := C140_section_partial modelLibrary modelRuntime modelRuntime_ok _ _ lineTwice_section (· = ·)
    (exampleModel_places lineTwice (10 * ·) .positive (by decide +kernel)) (exampleModel_links _ _ _)
  have hv : isSectionOfValid modelLibrary modelRuntime (exampleModel lineTwice (10 * ·) .positive) = .ok {} := by rfl
  rw [hv] at h1
  injection h1 with h1
  obtain ⟨corner, mc, h⟩ := h2 (by rw [← h1]; rfl) _ (List.mem_map.2 ⟨⟨11, true, 2, 1⟩, by decide, rfl⟩) _
    (List.mem_map.2 ⟨⟨14, true, 2, 1⟩, by decide, rfl⟩) rfl rfl (by decide) 0 0 0 10
    ⟨by decide, by decide, by decide, by decide, 0, 10, by decide, by decide, .inl ⟨rfl, rfl⟩⟩ 10 (by simp)
  have hact : ∀ corner ∈ (exampleModel lineTwice (10 * ·) .positive).corners, corner.active = true := by decide +kernel
  obtain ⟨⟨r, hr, rfl⟩, _⟩ := h (hact corner mc)
  exact ⟨corner, mc, hr⟩

set_option maxRecDepth 20000 in
/-- The same of the BRep. -/
example : ∃ corner ∈ (exampleModel lineTwice (10 * ·) .positive).corners, 0 ∈ corner.points := by
  obtain ⟨v, N, h1, h2⟩ := C140_brep_partial modelLibrary modelRuntime modelRuntime_ok _ _ lineTwice_brep (· = ·)
    (exampleModel_places lineTwice (10 * ·) .positive (by decide +kernel)) (exampleModel_links _ _ _)
    (by
      intro l _ _ e he
      exact absurd (TopologyData.mem_select.1 he) (by simp [lineTwice]))
  have he : isBRepOfValid modelLibrary modelRuntime (N + 20) (exampleModel lineTwice (10 * ·) .positive) = .ok {} := by rfl
  have h := h1 (N + 20) (by omega)
  rw [he] at h
  injection h with h
  obtain ⟨corner, mc, h⟩ := h2 (by rw [← h]; rfl) _ (List.mem_map.2 ⟨⟨11, true, 2, 1⟩, by decide, rfl⟩) _
    (List.mem_map.2 ⟨⟨14, true, 2, 1⟩, by decide, rfl⟩) rfl rfl (by decide) 0 0 0 10
    ⟨by decide, by decide, by decide, by decide, 0, 10, by decide, by decide, .inl ⟨rfl, rfl⟩⟩ 0 (by simp)
  have hact : ∀ corner ∈ (exampleModel lineTwice (10 * ·) .positive).corners, corner.active = true := by decide +kernel
  obtain ⟨⟨r, hr, rfl⟩, _⟩ := h (hact corner mc)
  exact ⟨corner, mc, hr⟩

end Inspector
