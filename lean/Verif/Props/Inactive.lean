import Verif.Proofs.Inactive
import Verif.Props.Numbers
/-
C124: inactive components and the verdict on a model.
-/
namespace Inspector
open Spec

/-- **C124** (Sections, as much as is true): when the inactive components of a Section are given other meshes, with the
same numbers of vertices, as empty as before, and with edges on the same unique vertices, the verdict is the same. Missing:
an inactive Surface without polygon changes the verdict (`C124_false`). -/
theorem C124_section_partial {P : Type} (lib : ModelLibrary P) (rt rt' : ModelRuntime) (hrt : ModelRuntimeOk rt)
    (hrt' : ModelRuntimeOk rt') (m m' : ModelData P) (hi : InactiveRemeshed m m') (ha : ReadAlike m m')
    (c c' : Candidates P) (h : SectionOk lib rt m c) (h' : SectionOk lib rt' m' c') :
    ∃ v v', isSectionOfValid lib rt m = .ok v ∧ isSectionOfValid lib rt' m' = .ok v' ∧ v.isValid = v'.isValid := by
  obtain ⟨v, h1, h2⟩ := C99_section lib rt hrt m c h
  obtain ⟨v', h1', h2'⟩ := C99_section lib rt' hrt' m' c' h'
  refine ⟨v, v', h1, h1', ?_⟩
  rw [Bool.eq_iff_iff, h2, h2', not_iff_not]
  have ht := Plain.topology_iff h.meshes rt SectionTopologyDefect (fun _ _ _ _ _ _ _ hd => hd)
  have ht' := Plain.topology_iff h'.meshes rt' SectionTopologyDefect (fun _ _ _ _ _ _ _ hd => hd)
  unfold PlainSectionDefect
  rw [← ht, ← ht', Inactive.sectionTopology (Inactive.alike hi ha h.meshes rt rt'), hi.nbUniqueVertices,
    Inactive.colocatedUvs hi h.meshes, Inactive.exists_line hi fun l _ _ => Inactive.lineDefect hi l,
    Inactive.exists_surface hi fun s _ _ => or_congr (Inactive.surfaceDefect hi ha s) Iff.rfl, Inactive.polygonsMeet hi]
  simp only [Inactive.differentPoints hi h.meshes]

/-- **C124** (BReps, as much as is true): the same for BReps, if moreover the inactive Surfaces have the same polygons and
borders: those which are boundaries of Blocks are read. -/
theorem C124_brep_partial {P : Type} (lib : ModelLibrary P) (rt rt' : ModelRuntime) (hrt : ModelRuntimeOk rt)
    (hrt' : ModelRuntimeOk rt') (m m' : ModelData P) (hi : InactiveRemeshed m m') (ha : ReadAlike m m')
    (hp : SamePolygons m m') (c c' : Candidates P) (h : BRepOk lib rt m c) (h' : BRepOk lib rt' m' c') :
    ∃ v v' N, (∀ fuel ≥ N, isBRepOfValid lib rt fuel m = .ok v ∧ isBRepOfValid lib rt' fuel m' = .ok v') ∧
      v.isValid = v'.isValid := by
  obtain ⟨v, N, h1, h2, h3, _⟩ := C82_brep_partial lib rt hrt m c h
  obtain ⟨v', N', h1', h2', h3', _⟩ := C82_brep_partial lib rt' hrt' m' c' h'
  refine ⟨v, v', max N N', fun fuel hf => ⟨h1 fuel (by omega), h1' fuel (by omega)⟩, ?_⟩
  rw [Bool.eq_iff_iff]
  have hb := Inactive.alikeBRep hi ha hp h.meshes rt rt' h.around h'.around
  have hmesh := Inactive.meshDefect hi ha h.meshes
  have hu := Inactive.unreadable hb
  by_cases hr : LinesUnreadable (m.topology rt)
  · rw [(h3 hr).2, (h3' (hu.2 hr)).2, not_iff_not, Plain.brepDefectBesideLines_iff h.meshes h.types,
      Plain.brepDefectBesideLines_iff h'.meshes h'.types]
    unfold PlainBRepDefectBesideLines
    rw [hmesh, Inactive.lineMeets hi]
    have he := Inactive.exists_line hi (p := fun l => l.nbEdges = 0) (p' := fun l => l.nbEdges = 0) fun _ _ _ => Iff.rfl
    rw [← Plain.topology_iff h.meshes rt (fun t => OtherTopologyDefect t m.blocksOracle) (Numbers.otherTexts _),
      ← Plain.topology_iff h'.meshes rt' (fun t => OtherTopologyDefect t m'.blocksOracle) (Numbers.otherTexts _),
      hi.blocksOracle, Inactive.otherTopology hb]
    have he' : (∀ l ∈ m'.lines, l.active = true → l.nbEdges ≠ 0) ↔ ∀ l ∈ m.lines, l.active = true → l.nbEdges ≠ 0 :=
      ⟨fun x l h1 h2 h3 => let ⟨l', a, b, c⟩ := he.2 ⟨l, h1, h2, h3⟩; x l' a b c,
        fun x l h1 h2 h3 => let ⟨l', a, b, c⟩ := he.1 ⟨l, h1, h2, h3⟩; x l' a b c⟩
    rw [he']
  · rw [h2 hr, h2' (fun x => hr (hu.1 x)), not_iff_not, Plain.brepDefect_iff h.meshes h.types,
      Plain.brepDefect_iff h'.meshes h'.types]
    unfold PlainBRepDefect
    rw [hmesh, Inactive.lineMeets hi]
    rw [← Plain.topology_iff h.meshes rt (fun t => BRepTopologyDefect t m.blocksOracle) (Numbers.brepTexts _),
      ← Plain.topology_iff h'.meshes rt' (fun t => BRepTopologyDefect t m'.blocksOracle) (Numbers.brepTexts _),
      hi.blocksOracle, Inactive.brepTopology hb]

/-! ### Examples -/

/-- A model with an inactive Line of `n` edges. -/
def withInactiveLine (d : TopologyData) (n : Nat) : TopologyData := { d with lines := d.lines ++ [⟨19, false, 3, n⟩] }

theorem inactiveLine_section (n : Nat) (hn : n = 1 ∨ n = 2) : SectionOk modelLibrary modelRuntime
    (exampleModel (withInactiveLine triangleSection n) (10 * ·) .positive) noCandidate where
  meshes := exampleModel_meshes _ _ _ (by rcases hn with rfl | rfl <;> decide)
  noBlock := rfl
  types := exampleModel_types _ _ _ _ (by rcases hn with rfl | rfl <;> decide)
  trees := exampleModel_trees _ _ _ _ (by rcases hn with rfl | rfl <;> decide +kernel)
  tests := fun _ => noCandidate_tests _ _ _ _
  topology := by
    rcases hn with rfl | rfl
    all_goals exact exampleModel_wf _ _ _ _ (by decide) (by decide) (by decide)
  embeddings := by
    intro id _ e he
    exact absurd (TopologyData.mem_select.1 he) (by simp [triangleSection, withInactiveLine])

theorem inactiveLine_brep (n : Nat) (hn : n = 1 ∨ n = 2) : BRepOk modelLibrary modelRuntime
    (exampleModel (withInactiveLine tetrahedronBRep n) (10 * ·) .positive) noCandidate where
  meshesKnown := MeshesOk.toMeshesKnown (exampleModel_meshes _ _ _ (by rcases hn with rfl | rfl <;> decide))
  blockWalks := MeshesOk.blockWalks (exampleModel_meshes _ _ _ (by rcases hn with rfl | rfl <;> decide))
  types := exampleModel_types _ _ _ _ (by rcases hn with rfl | rfl <;> decide)
  trees := exampleModel_trees _ _ _ _ (by rcases hn with rfl | rfl <;> decide +kernel)
  nbModelEdges := by rcases hn with rfl | rfl <;> decide +kernel
  topology := by
    rcases hn with rfl | rfl
    all_goals exact exampleModel_wf _ _ _ _ (by decide) (by decide) (by decide)
  around := by
    have aw := (withInactiveLine tetrahedronBRep n).aw_of_check (by rcases hn with rfl | rfl <;> decide)
    rw [exampleModel_topology (withInactiveLine tetrahedronBRep n) _ .positive modelRuntime
      (by rcases hn with rfl | rfl <;> decide) (by rcases hn with rfl | rfl <;> decide)]
    exact ⟨fun m => List.reverse_perm m, aw.surfaces, aw.surfaceKeys, aw.blocks, aw.blockKeys, aw.polygons,
      by rcases hn with rfl | rfl <;> decide +kernel, by rcases hn with rfl | rfl <;> decide +kernel⟩
  coherent := (withInactiveLine tetrahedronBRep n).coherent_of_check (by rcases hn with rfl | rfl <;> decide)
  surfaceEmbeddings := fun id _ e he => absurd he List.not_mem_nil
  firstEdges := by rcases hn with rfl | rfl <;> decide +kernel
  counts := by
    rw [exampleModel_topology (withInactiveLine tetrahedronBRep n) _ .positive modelRuntime
      (by rcases hn with rfl | rfl <;> decide) (by rcases hn with rfl | rfl <;> decide)]
    exact counts_of_check (withInactiveLine tetrahedronBRep n) (by rcases hn with rfl | rfl <;> decide)
  graph := firstEdge_finder
  geometry := noGeometry_raises
  rays := example_rays _
  modelBoundaries := Or.inl rfl

theorem inactiveLine_related {R : LineData Nat → LineData Nat → Prop} (d : TopologyData)
    (hr : ∀ a, R a a) (hs : ∀ (a : LineData Nat), a.active = false → a.nbEdges = 1 → ∀ b : LineData Nat,
      b = { a with nbEdges := 2 } → R a b) :
    List.Forall₂ R (exampleModel (withInactiveLine d 1) (10 * ·) .positive).lines
      (exampleModel (withInactiveLine d 2) (10 * ·) .positive).lines := by
  unfold exampleModel withInactiveLine
  simp only [List.map_append, List.map_cons, List.map_nil]
  induction d.lines with
  | nil => exact .cons (hs _ rfl rfl _ rfl) .nil
  | cons a l ih => exact .cons (hr _) ih

theorem Inactive.forall2_refl {α : Type} {R : α → α → Prop} (h : ∀ a, R a a) : ∀ l : List α, List.Forall₂ R l l
  | [] => .nil
  | _ :: l => .cons (h _) (Inactive.forall2_refl h l)

theorem inactiveLine_remeshed (d : TopologyData) :
    InactiveRemeshed (exampleModel (withInactiveLine d 1) (10 * ·) .positive)
      (exampleModel (withInactiveLine d 2) (10 * ·) .positive) where
  corners := Inactive.forall2_refl (fun _ => ⟨rfl, rfl, fun _ => rfl⟩) _
  lines := inactiveLine_related d (fun _ => ⟨rfl, rfl, fun _ => rfl⟩)
    fun a h _ b e => by subst e; exact ⟨rfl, rfl, fun h' => by rw [h] at h'; cases h'⟩
  surfaces := Inactive.forall2_refl (fun _ => ⟨rfl, rfl, fun _ => rfl⟩) _
  blocks := Inactive.forall2_refl (fun _ => ⟨rfl, rfl, fun _ => rfl⟩) _
  noId := rfl
  nbUniqueVertices := rfl
  componentMeshVertices := rfl
  uniqueVertex := rfl
  isBoundary := rfl
  isInternal := rfl
  embeddings := rfl
  incidences := rfl
  boundaries := rfl
  blocksOracle := rfl
  isVertexOnBorder _ _ _ := rfl
  surfaceEdges _ _ _ _ _ _ := Iff.rfl
  blockEdges _ _ _ _ _ _ := Iff.rfl
  blockPolygons _ _ _ _ _ _ := Iff.rfl

theorem inactiveLine_alike (d : TopologyData) (hd : ∀ v, d.toModel.uniqueVertex ⟨⟨.line, 19⟩, v⟩ = none) :
    ReadAlike (exampleModel (withInactiveLine d 1) (10 * ·) .positive)
      (exampleModel (withInactiveLine d 2) (10 * ·) .positive) where
  corners := Inactive.forall2_refl (R := fun a b : CornerData Nat => b.points.length = a.points.length) (fun _ => rfl) _
  lines := inactiveLine_related d (fun _ => ⟨rfl, Iff.rfl⟩)
    fun a _ h b e => by subst e; refine ⟨rfl, ?_⟩; show 2 = 0 ↔ a.nbEdges = 0; rw [h]; decide
  surfaces := Inactive.forall2_refl (fun _ => ⟨rfl, Iff.rfl⟩) _
  blocks := Inactive.forall2_refl (fun _ => ⟨rfl, Iff.rfl⟩) _
  lineEdges u v := by
    have hnone : ∀ n (f : Nat → Uuid → ComponentMeshElement), (List.range n).filterMap (fun e =>
        if (d.toModel.uniqueVertex ⟨⟨.line, 19⟩, e⟩ = some u ∧ d.toModel.uniqueVertex ⟨⟨.line, 19⟩, e + 1⟩ = some v) ∨
          (d.toModel.uniqueVertex ⟨⟨.line, 19⟩, e⟩ = some v ∧ d.toModel.uniqueVertex ⟨⟨.line, 19⟩, e + 1⟩ = some u)
        then some (f e 19) else none) = [] := by
      intro n f
      rw [List.filterMap_eq_nil_iff]
      intro e _
      simp [hd]
    show List.flatMap _ (d.lines ++ [_]) = [] ↔ List.flatMap _ (d.lines ++ [_]) = []
    simp only [List.flatMap_append, List.append_eq_nil_iff, List.flatMap_cons, List.flatMap_nil]
    refine and_congr Iff.rfl ⟨fun _ => ⟨?_, trivial⟩, fun _ => ⟨?_, trivial⟩⟩
    · exact hnone 1 fun e i => ⟨⟨.line, i⟩, e⟩
    · exact hnone 2 fun e i => ⟨⟨.line, i⟩, e⟩
  surfacePolygons _ := Iff.rfl

/-- the hypotheses are met by the triangle with an inactive Line, of one or two edges, and both Sections are valid -/
example : ∃ v v', isSectionOfValid modelLibrary modelRuntime
      (exampleModel (withInactiveLine triangleSection 1) (10 * ·) .positive) = .ok v ∧
    isSectionOfValid modelLibrary modelRuntime
      (exampleModel (withInactiveLine triangleSection 2) (10 * ·) .positive) = .ok v' ∧ v.isValid = v'.isValid :=
  C124_section_partial modelLibrary modelRuntime modelRuntime modelRuntime_ok modelRuntime_ok _ _
    (inactiveLine_remeshed _) (inactiveLine_alike _ (by intro v; simp [TopologyData.toModel, triangleSection])) _ _ (inactiveLine_section 1 (.inl rfl)) (inactiveLine_section 2 (.inr rfl))

/-- the same for the tetrahedron -/
example : ∃ v v' N, (∀ fuel ≥ N, isBRepOfValid modelLibrary modelRuntime fuel
      (exampleModel (withInactiveLine tetrahedronBRep 1) (10 * ·) .positive) = .ok v ∧
    isBRepOfValid modelLibrary modelRuntime fuel
      (exampleModel (withInactiveLine tetrahedronBRep 2) (10 * ·) .positive) = .ok v') ∧ v.isValid = v'.isValid :=
  C124_brep_partial modelLibrary modelRuntime modelRuntime modelRuntime_ok modelRuntime_ok _ _
    (inactiveLine_remeshed _) (inactiveLine_alike _ (by intro v; simp [TopologyData.toModel, tetrahedronBRep])) ⟨Inactive.forall2_refl (fun _ => ⟨rfl, rfl, rfl⟩) _, rfl⟩ _ _
    (inactiveLine_brep 1 (.inl rfl)) (inactiveLine_brep 2 (.inr rfl))

/-- The triangle, with a Line embedded in its Surface and sharing no unique vertex with it, and an inactive Surface of `n`
polygons. -/
def besideInactive (n : Nat) : TopologyData where
  corners := triangleSection.corners ++ [⟨4, true, 1, 0⟩, ⟨5, true, 1, 0⟩]
  lines := triangleSection.lines ++ [⟨17, true, 2, 1⟩]
  surfaces := triangleSection.surfaces ++ [⟨29, false, 3, n⟩]
  vertices := triangleSection.vertices ++ [[⟨⟨.corner, 4⟩, 0⟩, ⟨⟨.line, 17⟩, 0⟩], [⟨⟨.corner, 5⟩, 0⟩, ⟨⟨.line, 17⟩, 1⟩]]
  boundary := triangleSection.boundary ++ [(⟨.corner, 4⟩, ⟨.line, 17⟩), (⟨.corner, 5⟩, ⟨.line, 17⟩)]
  internal := [(⟨.line, 17⟩, ⟨.surface, 21⟩)]
  border := triangleSection.border

theorem besideInactive_ok (n : Nat) (hn : n = 0 ∨ n = 1) :
    SectionOk modelLibrary modelRuntime (exampleModel (besideInactive n) (10 * ·) .positive) noCandidate where
  meshes := exampleModel_meshes _ _ _ (by rcases hn with rfl | rfl <;> decide)
  noBlock := rfl
  types := exampleModel_types _ _ _ _ (by rcases hn with rfl | rfl <;> decide)
  trees := exampleModel_trees _ _ _ _ (by rcases hn with rfl | rfl <;> decide +kernel)
  tests := fun _ => noCandidate_tests _ _ _ _
  topology := by
    rcases hn with rfl | rfl
    all_goals exact exampleModel_wf _ _ _ _ (by decide) (by decide) (by decide)
  embeddings := by
    intro id _ e he
    have := TopologyData.mem_select.1 he
    simp [besideInactive] at this
    rw [this.2]

/-- **C124** is not true without conditions: two Sections which differ by the polygons of an inactive Surface only, the
first one valid, the other not. (topology_helpers.cpp:51-61 counts the inactive Surfaces: one of them without polygon
switches off the comparison of the embedded Lines with their Surfaces.) -/
theorem C124_false : ∃ (m m' : ModelData Nat) (c c' : Candidates Nat), InactiveRemeshed m m' ∧
    SectionOk modelLibrary modelRuntime m c ∧ SectionOk modelLibrary modelRuntime m' c' ∧
    ∃ v v', isSectionOfValid modelLibrary modelRuntime m = .ok v ∧
      isSectionOfValid modelLibrary modelRuntime m' = .ok v' ∧ v.isValid = true ∧ v'.isValid = false := by
  refine ⟨exampleModel (besideInactive 0) (10 * ·) .positive, exampleModel (besideInactive 1) (10 * ·) .positive,
    noCandidate, noCandidate, ?_, besideInactive_ok 0 (.inl rfl), besideInactive_ok 1 (.inr rfl), ?_⟩
  · constructor
    · exact .cons ⟨rfl, rfl, fun _ => rfl⟩ (.cons ⟨rfl, rfl, fun _ => rfl⟩ (.cons ⟨rfl, rfl, fun _ => rfl⟩
        (.cons ⟨rfl, rfl, fun _ => rfl⟩ (.cons ⟨rfl, rfl, fun _ => rfl⟩ .nil))))
    · exact .cons ⟨rfl, rfl, fun _ => rfl⟩ (.cons ⟨rfl, rfl, fun _ => rfl⟩ (.cons ⟨rfl, rfl, fun _ => rfl⟩
        (.cons ⟨rfl, rfl, fun _ => rfl⟩ .nil)))
    · exact .cons ⟨rfl, rfl, fun _ => rfl⟩ (.cons ⟨rfl, rfl, fun h => by cases h⟩ .nil)
    · exact .nil
    all_goals first
      | rfl
      | exact fun _ _ _ => rfl
      | exact fun _ _ _ _ _ _ => Iff.rfl
  · exact ⟨{}, _, rfl, rfl, rfl, rfl⟩

end Inspector
