import Verif.Props.CutAlongLines
/-
C146: the active components of a valid model have a mesh, the vertices of which have unique vertices, and the Lines are part of
something.
-/
namespace Inspector
open Spec SamePlace

/-- The active Corners and Surfaces have vertices, the Surfaces have polygons, and these vertices have unique vertices. -/
structure Spec.SurfacesMeshed {P : Type} (m : ModelData P) : Prop where
  corners : ∀ c ∈ m.corners, c.active = true → c.points ≠ [] ∧
    ∀ i < c.points.length, m.uniqueVertex ⟨⟨.corner, c.id⟩, i⟩ ≠ none
  surfaces : ∀ s ∈ m.surfaces, s.active = true → s.points ≠ [] ∧ s.nbPolygons ≠ 0 ∧
    ∀ i < s.points.length, m.uniqueVertex ⟨⟨.surface, s.id⟩, i⟩ ≠ none

/-- So do the active Lines, with edges. -/
def Spec.LinesMeshed {P : Type} (m : ModelData P) : Prop :=
  ∀ l ∈ m.lines, l.active = true → l.points ≠ [] ∧ l.nbEdges ≠ 0 ∧
    ∀ i < l.points.length, m.uniqueVertex ⟨⟨.line, l.id⟩, i⟩ ≠ none

/-- So do the active Blocks, with polyhedra, unless none has both vertices and polyhedra. -/
def Spec.BlocksMeshed {P : Type} (m : ModelData P) : Prop :=
  (∀ b ∈ m.blocks, b.active = true → b.points = [] ∨ b.nbPolyhedra = 0) ∨
  ∀ b ∈ m.blocks, b.active = true → b.points ≠ [] ∧ b.nbPolyhedra ≠ 0 ∧
    ∀ i < b.points.length, m.uniqueVertex ⟨⟨.block, b.id⟩, i⟩ ≠ none

namespace MeshedOnes
variable {P : Type} {rt : ModelRuntime} {m : ModelData P}

theorem surfaces {kinds : List ComponentType} (hc : .corner ∈ kinds) (hs : .surface ∈ kinds)
    (h4 : ¬ HasUnmeshedComponent (m.topology rt) kinds) (h5 : ¬ HasUnlinkedVertex (m.topology rt) kinds) : SurfacesMeshed m where
  corners c mc ha := ⟨fun he => h4 ⟨.corner, hc, _, List.mem_map_of_mem mc, ha, fun hM => hM.1 (by
      show c.points.length = 0
      rw [he]
      rfl)⟩, fun i hi hn => h5 ⟨.corner, hc, _, List.mem_map_of_mem mc, ha, i, hi, hn⟩⟩
  surfaces s ms ha := ⟨fun he => h4 ⟨.surface, hs, _, List.mem_map_of_mem ms, ha, fun hM => hM.1 (by
      show s.points.length = 0
      rw [he]
      rfl)⟩, fun he => h4 ⟨.surface, hs, _, List.mem_map_of_mem ms, ha, fun hM => hM.2 (by decide) he⟩,
    fun i hi hn => h5 ⟨.surface, hs, _, List.mem_map_of_mem ms, ha, i, hi, hn⟩⟩

theorem lines {kinds : List ComponentType} (hc : .line ∈ kinds)
    (h4 : ¬ HasUnmeshedComponent (m.topology rt) kinds) (h5 : ¬ HasUnlinkedVertex (m.topology rt) kinds) : LinesMeshed m :=
  fun l ml ha => ⟨fun he => h4 ⟨.line, hc, _, List.mem_map_of_mem ml, ha, fun hM => hM.1 (by
      show l.points.length = 0
      rw [he]
      rfl)⟩, fun he => h4 ⟨.line, hc, _, List.mem_map_of_mem ml, ha, fun hM => hM.2 (by decide) he⟩,
    fun i hi hn => h5 ⟨.line, hc, _, List.mem_map_of_mem ml, ha, i, hi, hn⟩⟩

theorem blocks {o : BlocksOracle} (h : ¬ BlocksDefect (m.topology rt) o) : BlocksMeshed m := by
  unfold BlocksDefect at h
  simp only [not_or] at h
  by_cases hn : ∀ b ∈ m.blocks, b.active = true → b.points = [] ∨ b.nbPolyhedra = 0
  · exact .inl hn
  · push Not at hn
    obtain ⟨b0, mb0, ha0, hp0, hq0⟩ := hn
    have memb : ∀ b ∈ m.blocks, (⟨b.id, b.active, b.points.length, b.nbPolyhedra⟩ : TopologyComponent) ∈
      (m.topology rt).components .block := fun b hb => List.mem_map_of_mem hb
    refine .inr fun b mb ha => ?_
    have hbm : BlockMeshed ⟨b.id, b.active, b.points.length, b.nbPolyhedra⟩ := by
      by_contra hc
      exact h.1 ⟨_, memb b mb, ha, hc, _, memb b0 mb0, ha0, fun h0 => hp0 (List.eq_nil_of_length_eq_zero h0), hq0⟩
    exact ⟨fun he => hbm.1 (by
        show b.points.length = 0
        rw [he]
        rfl), hbm.2, fun i hi hn => h.2.1 ⟨_, memb b mb, ha, hbm, i, hi, hn⟩⟩

end MeshedOnes

/-- **C146** (Sections): in a Section declared valid, every active component has a mesh, the vertices of which have unique vertices, and
every active Line bounds, or is internal to, some component. -/
theorem C146_section {P : Type} (lib : ModelLibrary P) (rt : ModelRuntime) (hrt : ModelRuntimeOk rt) (m : ModelData P)
    (c : Candidates P) (h : SectionOk lib rt m c) (hk : LinksKept m) :
    ∃ v, isSectionOfValid lib rt m = .ok v ∧ (v.isValid = true → SurfacesMeshed m ∧ LinesMeshed m ∧
      ∀ l ∈ m.lines, l.active = true → m.embeddings l.id ≠ [] ∨ m.incidences l.id ≠ []) := by
  obtain ⟨v, h1, h2⟩ := C82_section lib rt hrt m c h
  refine ⟨v, h1, fun hv => ?_⟩
  have hd := h2.1 hv
  unfold SectionDefect SectionTopologyDefect at hd
  simp only [not_or, not_not] at hd
  have h4 := hd.2.2.2.2.2.2.1
  have h5 := hd.2.2.2.2.2.2.2.1
  have hls := MeshedOnes.lines (List.mem_cons_of_mem _ List.mem_cons_self) h4 h5
  refine ⟨MeshedOnes.surfaces List.mem_cons_self (List.mem_cons_of_mem _ (List.mem_cons_of_mem _ List.mem_cons_self)) h4 h5, hls,
    fun l ml ha => ?_⟩
  by_contra hn
  simp only [not_or, ne_eq, not_not] at hn
  obtain ⟨p, hp⟩ := List.exists_mem_of_ne_nil _ (hls l ml ha).1
  obtain ⟨i, hi, rfl⟩ := List.getElem_of_mem hp
  have hx := VertexAt.line l i _ ml ha (List.getElem?_eq_getElem hi)
  obtain ⟨u, hu⟩ := linked_of_no_defect m rt _ h5 _ _ hx (List.mem_cons_of_mem _ List.mem_cons_self)
  refine hd.2.2.2.2.2.2.2.2 ⟨u, (hk _ _ hu).1, ?_⟩
  unfold SectionVertexDefect
  exact .inr (.inr (.inr (.inr (.inl ⟨l.id, LineEnds.activeAt rt hk hx hu, hn.1, hn.2⟩))))

/-- **C146** (BReps): in a BRep declared valid, every active Corner, Surface and, if the wrong embeddings of the Lines can be described
(see C54), Line has a mesh, the vertices of which have unique vertices, and so has every active Block unless none is meshed.  Missing:
that every active Line is part of something (false, see `C146_false`), the Lines of the other BReps. -/
theorem C146_brep_partial {P : Type} (lib : ModelLibrary P) (rt : ModelRuntime) (hrt : ModelRuntimeOk rt) (m : ModelData P)
    (c : Candidates P) (h : BRepOk lib rt m c) :
    ∃ v N, (∀ fuel ≥ N, isBRepOfValid lib rt fuel m = .ok v) ∧ (v.isValid = true → SurfacesMeshed m ∧ BlocksMeshed m ∧
      (¬ LinesUnreadable (m.topology rt) → LinesMeshed m)) := by
  obtain ⟨v, N, h1, h2, h3, _⟩ := C82_brep_partial lib rt hrt m c h
  refine ⟨v, N, h1, fun hv => ?_⟩
  by_cases hu : LinesUnreadable (m.topology rt)
  · have hd := (h3 hu).2.1 hv
    unfold BRepDefectBesideLines OtherTopologyDefect at hd
    simp only [not_or, not_not] at hd
    exact ⟨MeshedOnes.surfaces List.mem_cons_self (List.mem_cons_of_mem _ List.mem_cons_self) hd.2.2.2.2.2.2.2.2.2.2.2.1
      hd.2.2.2.2.2.2.2.2.2.2.2.2.1, MeshedOnes.blocks hd.2.2.2.2.2.2.2.2.2.2.2.2.2.2.2, fun hn => absurd hu hn⟩
  · have hd := (h2 hu).1 hv
    unfold BRepDefect BRepTopologyDefect at hd
    simp only [not_or, not_not] at hd
    have h4 := hd.2.2.2.2.2.2.2.2.2.2.2.1
    have h5 := hd.2.2.2.2.2.2.2.2.2.2.2.2.1
    exact ⟨MeshedOnes.surfaces List.mem_cons_self (List.mem_cons_of_mem _ (List.mem_cons_of_mem _ List.mem_cons_self)) h4 h5,
      MeshedOnes.blocks hd.2.2.2.2.2.2.2.2.2.2.2.2.2.2.2.2,
      fun _ => MeshedOnes.lines (List.mem_cons_of_mem _ List.mem_cons_self) h4 h5⟩

/-- The tetrahedron, and a Line, 17, with its Corners, elsewhere. -/
def freeLine : TopologyData := { tetrahedronBRep with
  corners := tetrahedronBRep.corners ++ [⟨5, true, 1, 0⟩, ⟨6, true, 1, 0⟩]
  lines := tetrahedronBRep.lines ++ [⟨17, true, 2, 1⟩]
  vertices := tetrahedronBRep.vertices ++ [[⟨⟨.corner, 5⟩, 0⟩, ⟨⟨.line, 17⟩, 0⟩], [⟨⟨.corner, 6⟩, 0⟩, ⟨⟨.line, 17⟩, 1⟩]]
  boundary := tetrahedronBRep.boundary ++ [(⟨.corner, 5⟩, ⟨.line, 17⟩), (⟨.corner, 6⟩, ⟨.line, 17⟩)] }

theorem freeLine_ok : BRepOk modelLibrary modelRuntime (exampleModel freeLine (10 * ·) .positive) noCandidate where
  meshesKnown := MeshesOk.toMeshesKnown (exampleModel_meshes _ _ _ (by decide))
  blockWalks := MeshesOk.blockWalks (exampleModel_meshes _ _ _ (by decide))
  types := exampleModel_types _ _ _ _ (by decide)
  trees := exampleModel_trees _ _ _ _ (by decide +kernel)
  nbModelEdges := by decide +kernel
  topology := exampleModel_wf _ _ _ _ (by decide) (by decide) (by decide)
  around := by
    have aw := freeLine.aw_of_check (by decide)
    rw [exampleModel_topology freeLine _ .positive modelRuntime (by decide) (by decide)]
    exact ⟨fun m => List.reverse_perm m, aw.surfaces, aw.surfaceKeys, aw.blocks, aw.blockKeys, aw.polygons,
      by decide +kernel, by decide +kernel⟩
  coherent := freeLine.coherent_of_check (by decide)
  surfaceEmbeddings := fun id _ e he => absurd he List.not_mem_nil
  firstEdges := by decide +kernel
  counts := by
    rw [exampleModel_topology freeLine _ .positive modelRuntime (by decide) (by decide)]
    exact counts_of_check freeLine (by decide)
  graph := firstEdge_finder
  geometry := noGeometry_raises
  rays := example_rays _
  modelBoundaries := Or.inl rfl

set_option maxRecDepth 20000 in
/-- **C146** is false of BReps: this one, one active Line of which neither bounds nor is internal to anything, is declared valid. -/
theorem C146_false : ∃ (m : ModelData Nat) (c : Candidates Nat), BRepOk modelLibrary modelRuntime m c ∧
    (∃ l ∈ m.lines, l.active = true ∧ m.embeddings l.id = [] ∧ m.incidences l.id = []) ∧
    ∃ v, v.isValid = true ∧ ∃ N, ∀ fuel ≥ N, isBRepOfValid modelLibrary modelRuntime fuel m = .ok v := by
  refine ⟨_, _, freeLine_ok, by decide +kernel, {}, rfl, 30, fun fuel hf => ?_⟩
  obtain ⟨k, rfl⟩ := Nat.exists_eq_add_of_le' hf
  rfl

set_option maxRecDepth 20000 in
/-- So the first vertex of the first Line of a triangle has a unique vertex, and the Line bounds something; -/
example : (exampleModel triangleSection (10 * ·) .positive).uniqueVertex ⟨⟨.line, 11⟩, 0⟩ ≠ none ∧
    ((exampleModel triangleSection (10 * ·) .positive).embeddings 11 ≠ [] ∨
      (exampleModel triangleSection (10 * ·) .positive).incidences 11 ≠ []) := by
  obtain ⟨v, h1, h2⟩ := C146_section modelLibrary modelRuntime modelRuntime_ok _ _ (triangleSection_ok .positive)
    (exampleModel_links _ _ _)
  have he : isSectionOfValid modelLibrary modelRuntime (exampleModel triangleSection (10 * ·) .positive) = .ok {} := by rfl
  rw [he] at h1
  injection h1 with h1
  obtain ⟨_, h3, h4⟩ := h2 (by rw [← h1]; rfl)
  have hm : (exampleModel triangleSection (10 * ·) .positive).lines[0]'(by decide) ∈
    (exampleModel triangleSection (10 * ·) .positive).lines := List.getElem_mem _
  exact ⟨(h3 _ hm rfl).2.2 0 (by decide +kernel), h4 _ hm rfl⟩

/-- and the last vertex of a tetrahedron has one. -/
example : (exampleModel tetrahedronBRep (10 * ·) .positive).uniqueVertex ⟨⟨.block, 31⟩, 3⟩ ≠ none := by
  obtain ⟨v, N, h1, h2⟩ := C146_brep_partial modelLibrary modelRuntime modelRuntime_ok _ _ (tetrahedronBRep_ok .positive)
  obtain ⟨_, h3, _⟩ := h2 (LineEnds.tetrahedron_isValid h1)
  rcases h3 with h3 | h3
  · exact absurd h3 (by decide +kernel)
  · exact (h3 ((exampleModel tetrahedronBRep (10 * ·) .positive).blocks[0]'(by decide)) (List.getElem_mem _) rfl).2.2 3 (by decide +kernel)

end Inspector
