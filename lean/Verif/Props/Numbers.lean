import Verif.Proofs.Numbers
import Verif.Props.Plain
/-
C122: the verdict on a model does not depend on the numbers of its unique vertices.
-/
namespace Inspector
open Spec

/-- **C122** (Sections): the same Section whose unique vertices have other numbers, inspected in any other execution and
with other search trees, gets the same verdict. -/
theorem C122_section {P : Type} (lib : ModelLibrary P) (rt rt' : ModelRuntime) (hrt : ModelRuntimeOk rt)
    (hrt' : ModelRuntimeOk rt') (m : ModelData P) (σ : Equiv.Perm Nat) (hσ : NumbersOf σ m) (c c' : Candidates P)
    (h : SectionOk lib rt m c) (h' : SectionOk lib rt' (withNumbers σ m) c') (near : P → P → Prop)
    (hn : UniqueVerticesNear lib near m) (hn' : UniqueVerticesNear lib near (withNumbers σ m)) :
    ∃ v v', isSectionOfValid lib rt m = .ok v ∧ isSectionOfValid lib rt' (withNumbers σ m) = .ok v' ∧
      v.isValid = v'.isValid := by
  obtain ⟨v, h1, h2⟩ := C99_section lib rt hrt m c h
  obtain ⟨v', h1', h2'⟩ := C99_section lib rt' hrt' _ c' h'
  refine ⟨v, v', h1, h1', ?_⟩
  rw [Bool.eq_iff_iff, h2, h2', not_iff_not]
  have ht := Plain.topology_iff h.meshes rt SectionTopologyDefect (fun _ _ _ _ _ _ _ hd => hd)
  have ht' := Plain.topology_iff h'.meshes rt' SectionTopologyDefect (fun _ _ _ _ _ _ _ hd => hd)
  unfold PlainSectionDefect
  rw [← ht, ← ht', Numbers.sectionTopology (Numbers.moved hσ rt rt'),
    Numbers.colocatedUvs hσ h.meshes h.types h'.meshes h'.types hn hn',
    Numbers.polygonsMeet hσ (Numbers.sectionMeet lib.geometry),
    show (∃ uv, uv < (withNumbers σ m).nbUniqueVertices ∧ PlainDifferentPoints lib (withNumbers σ m) uv) ↔
      ∃ uv, uv < m.nbUniqueVertices ∧ PlainDifferentPoints lib m uv from
      Numbers.exists_moved hσ.range fun uv => Numbers.differentPoints uv]
  simp only [Numbers.lineDefect hσ, Numbers.surfaceDefect hσ]
  exact Iff.rfl

theorem Numbers.otherTexts (o : BlocksOracle) (t : TopologyModel) (i u c n p v) (h : OtherTopologyDefect { t with
    iterate := i, uuidString := u, componentString := c, nameOf := n, pointString := p, cmvString := v } o) :
    OtherTopologyDefect t o := by
  rcases h with hd | hd | hd | hd | hd | hd
  exacts [.inl hd, .inr (.inl hd), .inr (.inr (.inl hd)), .inr (.inr (.inr (.inl hd))),
    .inr (.inr (.inr (.inr (.inl hd)))),
    .inr (.inr (.inr (.inr (.inr (Plain.blocks_congr t i u c n p v _ hd)))))]

theorem Numbers.brepTexts (o : BlocksOracle) (t : TopologyModel) (i u c n p v) (h : BRepTopologyDefect { t with
    iterate := i, uuidString := u, componentString := c, nameOf := n, pointString := p, cmvString := v } o) :
    BRepTopologyDefect t o := by
  rcases h with hd | hd | hd | hd | hd | hd | hd
  exacts [.inl hd, .inr (.inl hd), .inr (.inr (.inl hd)), .inr (.inr (.inr (.inl hd))),
    .inr (.inr (.inr (.inr (.inl hd)))), .inr (.inr (.inr (.inr (.inr (.inl hd))))),
    .inr (.inr (.inr (.inr (.inr (.inr (Plain.blocks_congr t i u c n p v _ hd))))))]

/-- Defects of the meshes of a BRep and numbers. -/
theorem Numbers.meshDefect {P : Type} {lib : ModelLibrary P} {m : ModelData P} {σ : Equiv.Perm Nat} (hσ : NumbersOf σ m)
    (hm : MeshesOk lib m) (ht : KnownTypes true (m.uniqueVertices lib)) (hm' : MeshesOk lib (withNumbers σ m))
    (ht' : KnownTypes true ((withNumbers σ m).uniqueVertices lib)) {near : P → P → Prop}
    (hn : UniqueVerticesNear lib near m) (hn' : UniqueVerticesNear lib near (withNumbers σ m)) :
    PlainBRepMeshDefect lib (withNumbers σ m) ↔ PlainBRepMeshDefect lib m := by
  unfold PlainBRepMeshDefect
  rw [Numbers.colocatedUvs hσ hm ht hm' ht' hn hn', Numbers.polygonsMeet hσ (Numbers.brepMeet lib.geometry),
    Numbers.twiceInterior hσ,
    show (∃ uv, uv < (withNumbers σ m).nbUniqueVertices ∧ PlainDifferentPoints lib (withNumbers σ m) uv) ↔
      ∃ uv, uv < m.nbUniqueVertices ∧ PlainDifferentPoints lib m uv from
      Numbers.exists_moved hσ.range fun uv => Numbers.differentPoints uv]
  simp only [Numbers.lineDefect hσ, Numbers.surfaceDefect hσ, Numbers.blockDefect hσ, Numbers.floatingEdge hσ,
    Numbers.floatingFacet hσ]
  exact Iff.rfl

/-- **C122** (BReps): the same for BReps, if `is_point_inside_closed_surface` reads the mesh it is given and not the
numbers of the unique vertices. -/
theorem C122_brep {P : Type} (lib : ModelLibrary P) (rt rt' : ModelRuntime) (hrt : ModelRuntimeOk rt)
    (hrt' : ModelRuntimeOk rt') (m : ModelData P) (σ : Equiv.Perm Nat) (hσ : NumbersOf σ m) (c c' : Candidates P)
    (h : BRepOk lib rt m c) (h' : BRepOk lib rt' (withNumbers σ m) c') (near : P → P → Prop)
    (hn : UniqueVerticesNear lib near m) (hn' : UniqueVerticesNear lib near (withNumbers σ m))
    (hg : ReadsMeshOnly m.blocksOracle.geometry) :
    ∃ v v' N, (∀ fuel ≥ N, isBRepOfValid lib rt fuel m = .ok v ∧
      isBRepOfValid lib rt' fuel (withNumbers σ m) = .ok v') ∧ v.isValid = v'.isValid := by
  obtain ⟨v, N, h1, h2, h3, _⟩ := C82_brep_partial lib rt hrt m c h
  obtain ⟨v', N', h1', h2', h3', _⟩ := C82_brep_partial lib rt' hrt' _ c' h'
  refine ⟨v, v', max N N', fun fuel hf => ⟨h1 fuel (by omega), h1' fuel (by omega)⟩, ?_⟩
  rw [Bool.eq_iff_iff]
  have mv := Numbers.moved hσ rt rt'
  have hmesh := Numbers.meshDefect hσ h.meshes h.types h'.meshes h'.types hn hn'
  have hu := Numbers.unreadable mv
  by_cases hr : LinesUnreadable (m.topology rt)
  · rw [(h3 hr).2, (h3' (hu.2 hr)).2, not_iff_not, Plain.brepDefectBesideLines_iff h.meshes h.types,
      Plain.brepDefectBesideLines_iff h'.meshes h'.types]
    unfold PlainBRepDefectBesideLines
    rw [hmesh, Numbers.lineMeets hσ]
    rw [← Plain.topology_iff h.meshes rt (fun t => OtherTopologyDefect t m.blocksOracle) (Numbers.otherTexts _),
      ← Plain.topology_iff h'.meshes rt' (fun t => OtherTopologyDefect t (withNumbers σ m).blocksOracle) (Numbers.otherTexts _),
      show (withNumbers σ m).blocksOracle = m.blocksOracle from rfl, Numbers.otherTopology mv _ hg]
    exact Iff.rfl
  · rw [h2 hr, h2' (fun x => hr (hu.1 x)), not_iff_not, Plain.brepDefect_iff h.meshes h.types,
      Plain.brepDefect_iff h'.meshes h'.types]
    unfold PlainBRepDefect
    rw [hmesh, Numbers.lineMeets hσ]
    rw [← Plain.topology_iff h.meshes rt (fun t => BRepTopologyDefect t m.blocksOracle) (Numbers.brepTexts _),
      ← Plain.topology_iff h'.meshes rt' (fun t => BRepTopologyDefect t (withNumbers σ m).blocksOracle) (Numbers.brepTexts _),
      show (withNumbers σ m).blocksOracle = m.blocksOracle from rfl, Numbers.brepTopology mv _ hg]

/-! ### Examples -/

/-- The numbers 0 and 2 are exchanged. -/
def exchange : Equiv.Perm Nat := Equiv.swap 0 2

theorem exchange_numbers (d : TopologyData) (scale : Nat → Nat) (sign : Sign) (h : 2 < d.vertices.length) :
    NumbersOf exchange (exampleModel d scale sign) := by
  constructor
  · intro uv
    show exchange uv < d.vertices.length ↔ uv < d.vertices.length
    unfold exchange
    rw [Equiv.swap_apply_def]
    split
    · omega
    · split
      · omega
      · rfl
  · show exchange 4294967295 = 4294967295
    exact Equiv.swap_apply_of_ne_of_ne (by decide) (by decide)

theorem example_near (m : ModelData Nat) : UniqueVerticesNear modelLibrary (fun _ _ => False) m := by
  intro uvs points _
  unfold FindsNear
  constructor
  · rintro ⟨i, j, h1, h2, u, hi, hj⟩
    have hi : (List.range points.length)[i]? = some u := hi
    have hj : (List.range points.length)[j]? = some u := hj
    rw [List.getElem?_range (Nat.lt_trans h1 h2)] at hi
    rw [List.getElem?_range h2] at hj
    have := (Option.some.inj hi).trans (Option.some.inj hj).symm
    exact absurd h1 (this ▸ Nat.lt_irrefl _)
  · rintro ⟨_, _, _, _, _, _, _, hf⟩
    exact absurd hf id

theorem exchanged_meshes (d : TopologyData) (sign : Sign) (h : MeshesOk modelLibrary (exampleModel d (10 * ·) sign))
    (hl : ((List.range d.vertices.length).map fun uv =>
      (d.vertices.getD (exchange.symm uv) []).length).sum < 2 ^ 32) :
    MeshesOk modelLibrary (withNumbers exchange (exampleModel d (10 * ·) sign)) where
  ids := h.ids
  nbComponents := h.nbComponents
  corners := h.corners
  lines := h.lines
  surfaces := h.surfaces
  walks := fun s hs => ⟨(h.walks s hs).vertices, (h.walks s hs).walks, (h.walks s hs).nbVertices, (h.walks s hs).nbEdges,
    (h.walks s hs).uses⟩
  blocks := h.blocks
  uniqueVertices := by
    have := h.nbUniqueVertices
    rw [← activePositions_length]
    refine identity_search _ ?_
    rw [activePositions_length]
    refine Nat.lt_of_le_of_lt (List.length_filter_le ..) ?_
    rw [List.length_range]
    exact this
  nbUniqueVertices := h.nbUniqueVertices
  nbLinks := hl
  smallPolygons := h.smallPolygons
  positions := h.positions
  blockWalks := h.blockWalks

theorem exchanged_trees (d : TopologyData) (sign : Sign) (brep : Bool)
    (h : ∀ s1 ∈ ((withNumbers exchange (exampleModel d (10 * ·) sign)).intersections modelLibrary brep).surfaces,
      ∀ s2 ∈ ((withNumbers exchange (exampleModel d (10 * ·) sign)).intersections modelLibrary brep).surfaces,
      s1.nbPolygons = 1 ∧ s2.nbPolygons = 1 ∧
        ¬ PolygonsMeet ((withNumbers exchange (exampleModel d (10 * ·) sign)).intersections modelLibrary brep) s1 s2 (0, 0)) :
    ModelTreesOk ((withNumbers exchange (exampleModel d (10 * ·) sign)).intersections modelLibrary brep) noCandidate where
  trees := ⟨fun _ _ => ⟨⟨[], List.Perm.refl _, List.Sublist.refl _⟩, fun _ => List.Perm.refl _⟩,
    fun _ _ _ => ⟨⟨[], List.Perm.refl _, List.Sublist.refl _⟩, fun _ => List.Perm.refl _⟩,
    fun _ _ _ => ⟨⟨[], List.Perm.refl _, List.Sublist.refl _⟩, fun _ => List.Perm.refl _⟩⟩
  surfaces x hx := by
    rw [comparisons, List.mem_append] at hx
    rcases hx with hx | hx
    · obtain ⟨s, hs, rfl⟩ := List.mem_map.1 hx
      rw [List.mem_filter] at hs
      exact ⟨hs.1, hs.2, hs.1, hs.2, fun p hp => absurd hp List.not_mem_nil⟩
    · exact absurd hx List.not_mem_nil
  complete s1 s2 p q hx := by
    obtain ⟨h1, _, h2, _, hp, hq, hm⟩ := hx
    obtain ⟨e1, e2, hn⟩ := h s1 h1 s2 h2
    rw [e1] at hp
    rw [e2] at hq
    obtain rfl : p = 0 := by unfold Index at *; clear hm hn; omega
    obtain rfl : q = 0 := by unfold Index at *; clear hm hn; omega
    exact absurd hm hn
  lines _ _ _ hp := absurd hp List.not_mem_nil
  linesComplete s l p e hx := by
    obtain ⟨_, _, _, _, _, _, _, t, _, x, hx, hm⟩ := hx
    have hm : Position.outside = x ∨ Position.outside = x := hm
    rcases hm with rfl | rfl <;> simp at hx
  length := by
    have h1 : meetingEdges ((withNumbers exchange (exampleModel d (10 * ·) sign)).intersections modelLibrary brep) noCandidate = [] := by
      unfold meetingEdges
      rw [List.flatMap_eq_nil_iff]
      intro s _
      rw [List.flatMap_eq_nil_iff]
      intro l _
      rfl
    have h2 : meetingPolygons ((withNumbers exchange (exampleModel d (10 * ·) sign)).intersections modelLibrary brep) noCandidate = [] := by
      unfold meetingPolygons
      rw [List.flatMap_eq_nil_iff]
      intro x hx
      rw [comparisons, List.mem_append] at hx
      rcases hx with hx | hx
      · obtain ⟨s, hs, rfl⟩ := List.mem_map.1 hx
        rfl
      · exact absurd hx List.not_mem_nil
    rw [h1, h2]
    decide

theorem exchanged_tests (d : TopologyData) (sign : Sign) (brep : Bool) :
    TestsOk ((withNumbers exchange (exampleModel d (10 * ·) sign)).intersections modelLibrary brep) noCandidate := by
  intro x hx p hp
  rw [comparisons, List.mem_append] at hx
  rcases hx with hx | hx
  · obtain ⟨s, hs, rfl⟩ := List.mem_map.1 hx
    exact absurd hp List.not_mem_nil
  · exact absurd hx List.not_mem_nil


theorem exchanged_moved (d : TopologyData) (sign : Sign) (h : 2 < d.vertices.length) :
    Numbers.Moved exchange ((exampleModel d (10 * ·) sign).topology modelRuntime)
      ((withNumbers exchange (exampleModel d (10 * ·) sign)).topology modelRuntime) :=
  Numbers.moved (exchange_numbers d _ sign h) _ _

theorem Numbers.wellFormed {σ : Equiv.Perm Nat} {t t' : TopologyModel} (s : Moved σ t t') (h : WellFormed t) :
    WellFormed t' := by
  refine ⟨?_, ?_, ?_, ?_, ?_⟩
  · rw [s.components]; exact h.ids
  · intro v hv cmv hc
    obtain ⟨u, rfl⟩ := σ.surjective v
    rw [s.nbUniqueVertices] at hv
    rw [s.cmvs] at hc
    unfold Has
    rw [s.components]
    exact h.vertices u ((s.range u).1 hv) cmv hc
  · unfold Has; rw [s.components, s.embeddings]; exact h.embeddings
  · unfold Has; rw [s.components, s.incidences]; exact h.incidences
  · unfold Has; rw [s.components, s.boundaries]; exact h.boundaries

theorem exchanged_types (d : TopologyData) (sign : Sign) (brep : Bool)
    (h : KnownTypes brep ((exampleModel d (10 * ·) sign).uniqueVertices modelLibrary)) :
    KnownTypes brep ((withNumbers exchange (exampleModel d (10 * ·) sign)).uniqueVertices modelLibrary) :=
  fun uv cmv hc => h (exchange.symm uv) cmv hc

theorem exchanged_section_ok (sign : Sign) : SectionOk modelLibrary modelRuntime
    (withNumbers exchange (exampleModel triangleSection (10 * ·) sign)) noCandidate where
  meshes := exchanged_meshes _ _ (triangleSection_ok sign).meshes (by decide)
  noBlock := rfl
  types := exchanged_types _ _ _ (triangleSection_ok sign).types
  trees := exchanged_trees _ _ _ (by cases sign <;> decide +kernel)
  tests := fun _ => exchanged_tests _ _ _
  topology := Numbers.wellFormed (exchanged_moved _ sign (by decide)) (triangleSection_ok sign).topology
  embeddings := (triangleSection_ok sign).embeddings

theorem exchanged_brep_ok (sign : Sign) : BRepOk modelLibrary modelRuntime
    (withNumbers exchange (exampleModel tetrahedronBRep (10 * ·) sign)) noCandidate where
  meshesKnown := MeshesOk.toMeshesKnown (exchanged_meshes _ _ (tetrahedronBRep_ok sign).meshes (by decide))
  blockWalks := MeshesOk.blockWalks (exchanged_meshes _ _ (tetrahedronBRep_ok sign).meshes (by decide))
  types := exchanged_types _ _ _ (tetrahedronBRep_ok sign).types
  trees := exchanged_trees _ _ _ (by cases sign <;> decide +kernel)
  nbModelEdges := (tetrahedronBRep_ok sign).nbModelEdges
  topology := Numbers.wellFormed (exchanged_moved _ sign (by decide)) (tetrahedronBRep_ok sign).topology
  around := by
    have a := (tetrahedronBRep_ok sign).around
    exact ⟨a.iterate, a.surfaces, a.surfaceKeys, a.blocks, a.blockKeys, a.polygons, a.edgeVertices, a.facetVertices⟩
  coherent := (tetrahedronBRep_ok sign).coherent
  surfaceEmbeddings := (tetrahedronBRep_ok sign).surfaceEmbeddings
  firstEdges := fun l hl ha hn x hx h =>
    (tetrahedronBRep_ok sign).firstEdges l hl ha hn x hx (Option.map_eq_none_iff.1 h)
  counts := by
    intro v hv b hb
    have mv := exchanged_moved tetrahedronBRep sign (by decide)
    obtain ⟨u, rfl⟩ := exchange.surjective v
    have hc := (tetrahedronBRep_ok sign).counts u (((exchange_numbers tetrahedronBRep (10 * ·) sign (by decide)).range u).1 hv)
      b ((Numbers.at_ mv u .block b).1 hb)
    unfold CountsFit nbLinePassages at hc ⊢
    rw [mv.cmvs, Numbers.linesAt_eq mv]
    simp only [Numbers.sheets mv]
    exact hc
  graph := (tetrahedronBRep_ok sign).graph
  geometry := (tetrahedronBRep_ok sign).geometry
  rays := (tetrahedronBRep_ok sign).rays
  modelBoundaries := (tetrahedronBRep_ok sign).modelBoundaries

/-- a triangle whose unique vertices have other numbers is as valid -/
example : ∃ v, isSectionOfValid modelLibrary modelRuntime
    (withNumbers exchange (exampleModel triangleSection (10 * ·) .positive)) = .ok v ∧ v.isValid = true := by
  obtain ⟨v, v', h1, h2, h3⟩ := C122_section modelLibrary modelRuntime modelRuntime modelRuntime_ok modelRuntime_ok
    (exampleModel triangleSection (10 * ·) .positive) exchange (exchange_numbers _ _ _ (by decide)) noCandidate noCandidate
    (triangleSection_ok _) (exchanged_section_ok _) _ (example_near _) (example_near _)
  have he : isSectionOfValid modelLibrary modelRuntime (exampleModel triangleSection (10 * ·) .positive) = .ok {} := by rfl
  rw [he] at h1
  injection h1 with h1
  subst h1
  exact ⟨v', h2, h3.symm⟩

set_option maxRecDepth 20000 in
/-- and a tetrahedron -/
example : ∃ v N, ∀ fuel ≥ N, isBRepOfValid modelLibrary modelRuntime fuel
    (withNumbers exchange (exampleModel tetrahedronBRep (10 * ·) .positive)) = .ok v ∧ v.isValid = true := by
  obtain ⟨v, v', N, h1, h3⟩ := C122_brep modelLibrary modelRuntime modelRuntime modelRuntime_ok modelRuntime_ok
    (exampleModel tetrahedronBRep (10 * ·) .positive) exchange (exchange_numbers _ _ _ (by decide)) noCandidate noCandidate
    (tetrahedronBRep_ok _) (exchanged_brep_ok _) _ (example_near _) (example_near _) (fun _ _ _ _ _ _ => rfl)
  refine ⟨v', N, fun fuel hf => ⟨(h1 fuel hf).2, ?_⟩⟩
  rw [← h3]
  have he : isBRepOfValid modelLibrary modelRuntime (N + 20) (exampleModel tetrahedronBRep (10 * ·) .positive) = .ok {} := by
    rfl
  have h1 := (h1 (N + 20) (by omega)).1
  rw [he] at h1
  injection h1 with h1
  subst h1
  rfl

end Inspector
