import Verif.Proofs.TopologyMessagesBlocks
/-
Proofs on what the messages of the topology inspections designate.
-/
namespace Inspector
open Spec

variable {m : TopologyModel} {v : Index} {t : String}

theorem explained_mono {α : Type} {s : Issues α} {P Q : α → String → Prop} (h : Explained s P)
    (hpq : ∀ x t, P x t → Q x t) : Explained s Q := List.Forall₂.imp hpq h

theorem explainedMap_mono {α : Type} {map : IssuesMap α} {d : Uuid → String} {P Q : Uuid → α → String → Prop}
    (h : ExplainedMap map d P) (hpq : ∀ id x t, P id x t → Q id x t) : ExplainedMap map d Q :=
  fun e he => ⟨(h e he).1, explained_mono (h e he).2 (hpq e.1)⟩

theorem designates_append {a b : String} (h : DesignatesVertex v a) : DesignatesVertex v (a ++ b) := by
  obtain ⟨i, hi, rest, rfl⟩ := h
  exact ⟨i, hi, rest ++ b, by rw [String.append_assoc]⟩

theorem startsWithSpace {s : String} (h : s.toList.head? = some ' ') : ∃ rest, s = " " ++ rest := by
  refine ⟨String.ofList s.toList.tail, ?_⟩
  apply String.toList_inj.1
  rw [String.toList_append, String.toList_ofList]
  cases hs : s.toList with
  | nil => rw [hs] at h; cases h
  | cons c l =>
    rw [hs] at h
    cases h
    simp

theorem designates_base {i s : String} (hi : i ∈ ["unique vertex ", "Unique vertex ", "unique vertex with index "])
    (hs : s.toList.head? = some ' ') : DesignatesVertex v (i ++ toString v ++ s) := by
  obtain ⟨rest, rfl⟩ := startsWithSpace hs
  exact ⟨i, hi, rest, by rw [String.append_assoc, String.append_assoc, String.append_assoc]⟩

/-- The text is the number of the vertex after an introduction, followed by something. -/
macro "designates" : tactic =>
  `(tactic| repeat (first | (with_reducible apply designates_base <;> [skip; skip]) <;> decide | with_reducible apply designates_append))

theorem severalCorners_designates (h : SeveralCornersSays m v t) : DesignatesVertex v t := by
  cases h; designates
theorem severalEmbeddings_designates (h : SeveralEmbeddingsSays m v t) : DesignatesVertex v t := by
  cases h; designates
theorem cornerAlone_designates (h : CornerAloneSays m v t) : DesignatesVertex v t := by
  cases h; designates
theorem sectionCornerLine_designates (h : SectionCornerLineSays m v t) : DesignatesVertex v t := by
  cases h; designates
theorem multiplyEmbedded_designates (h : MultiplyEmbeddedSays m v t) : DesignatesVertex v t := by
  cases h; designates
theorem brepCornerLine_designates (h : BRepCornerLineSays m v t) : DesignatesVertex v t := by
  cases h <;> designates
theorem lineAlone_designates (h : LineAloneSays m v t) : DesignatesVertex v t := by
  cases h; designates
theorem sectionEmbeddedLine_designates (h : SectionEmbeddedLineSays m v t) : DesignatesVertex v t := by
  cases h <;> designates
theorem sectionSingleLine_designates (h : SectionSingleLineSays m v t) : DesignatesVertex v t := by
  cases h <;> designates
theorem severalLines_designates (h : SeveralLinesSays m v t) : DesignatesVertex v t := by
  cases h; designates
theorem twoSurfaces_designates (h : TwoSurfacesSays m v t) : DesignatesVertex v t := by
  cases h; designates
theorem sectionBorder_designates (h : SectionBorderSays m v t) : DesignatesVertex v t := by
  cases h; designates
theorem brepEmbeddedLine_designates (h : BRepEmbeddedLineSays m v t) : DesignatesVertex v t := by
  cases h <;> designates
theorem brepLineSurfaces_designates (h : BRepLineSurfacesSays m v t) : DesignatesVertex v t := by
  cases h <;> designates
theorem brepSingleLine_designates (h : BRepSingleLineSays m v t) : DesignatesVertex v t := by
  cases h <;> designates
theorem brepEmbeddedSurface_designates (h : BRepEmbeddedSurfaceSays m v t) : DesignatesVertex v t := by
  cases h <;> designates
theorem brepSeveralSurfaces_designates (h : BRepSeveralSurfacesSays m v t) : DesignatesVertex v t := by
  cases h <;> designates
theorem brepBorder_designates (h : BRepBorderSays m v t) : DesignatesVertex v t := by
  cases h; designates

theorem cornerNotMeshed_names {ending : String} {id : Uuid} (h : CornerNotMeshedSays m ending id t) :
    NamesComponent m .corner "Corner " id t := by cases h; exact ⟨_, rfl⟩
theorem notMeshed_names {kind : ComponentType} {kindName ending : String} {id : Uuid}
    (h : NotMeshedSays m kind kindName ending id t) : NamesComponent m kind kindName id t := by cases h; exact ⟨_, rfl⟩
theorem notLinked_gives {kind : ComponentType} {id : Uuid} (h : NotLinkedSays m kind id v t) : GivesMeshVertex id v t := by
  cases h; rfl

/-! ### Blocks, without any condition -/

theorem twoBlocks_designates (h : twoBlocksAndNoBoundarySurface m v = .ok (some t)) : DesignatesVertex v t := by
  unfold twoBlocksAndNoBoundarySurface at h
  split at h
  · simp only [bind, Except.bind, pure, Except.pure] at h
    split at h
    · cases h
    split at h
    · cases h
    split at h
    · cases h
    · cases h
      designates
  · cases h

theorem blockCount_designates (h : blockCmvsCountIsIncorrect m v = .ok (some t)) : DesignatesVertex v t := by
  obtain ⟨b, _, h⟩ := findSomeM_some h
  split at h
  · cases h
  split at h
  · cases h
  simp only [wrongNbExpectedBlockCmvs, expectedBlockCmvsAndError, bind, Except.bind, pure, Except.pure] at h
  have key : ∀ (cmvs : VertexCMVsByComponent) (s : Nat × Nat) (c : LineCmvsCounters) (n : Nat) (p : UInt32),
      DesignatesVertex v (blockCmvsMessage m v b cmvs s c n p) := by
    intro cmvs s c n p
    unfold blockCmvsMessage
    designates
  split at h
  · cases h
  rename_i x hx
  have hx2 : x.2 = some t := Except.ok.inj h
  repeat' split at hx
  all_goals
    first
    | (have hx := Except.ok.inj hx
       rw [← hx] at hx2
       simp only [Option.some.injEq, reduceCtorEq] at hx2
       try (rw [← hx2]; with_reducible exact key _ _ _ _ _))
    | simp only [reduceCtorEq] at hx

variable {NB D : List Uuid}

theorem singleSurface_designates (h : SingleSurfaceSays m v t) : DesignatesVertex v t := by
  cases h <;> designates

theorem surfaceForBlocks_designates (h : wrongRelationshipsToBlock m v NB D = .ok (some t)) : DesignatesVertex v t := by
  obtain ⟨cmv, _, h⟩ := findSomeM_some h
  obtain ⟨_, h⟩ := ifActive_some h
  split at h
  · cases h; designates
  split at h
  · cases h; designates
  split at h
  · cases h; designates
  · cases h

theorem multipleSurfaces_designates (h : invalidMultipleSurfaces m v = .ok (some t)) : DesignatesVertex v t := by
  unfold invalidMultipleSurfaces at h
  simp only [] at h
  split at h
  · cases h
  split at h
  · cases h
  split at h
  · cases h
  obtain ⟨line, _, h⟩ := findSomeM_some h
  split at h
  · split at h
    · cases h
    cases h; designates
  · cases h

/-- What the messages of the blocks designate. -/
structure BlocksDesignate (m : TopologyModel) (r : BRepBlocksTopologyInspectionResult) : Prop where
  notMeshed : Explained r.some_blocks_not_meshed (NamesComponent m .block "Block ")
  notLinked : ExplainedMap r.blocks_not_linked_to_a_unique_vertex (fun id => "Block " ++ named m .block id) GivesMeshVertex
  notClosed : Explained r.blocks_with_not_closed_boundary_surfaces (NamesComponent m .block "Block ")
  wrongBoundary : Explained r.wrong_block_boundary_surface (NamesComponent m .block "Block ")
  two : Explained r.unique_vertices_part_of_two_blocks_and_no_boundary_surface DesignatesVertex
  count : Explained r.unique_vertices_with_incorrect_block_cmvs_count DesignatesVertex
  single : Explained r.unique_vertices_linked_to_a_single_and_invalid_surface DesignatesVertex
  wrong : Explained r.unique_vertices_linked_to_surface_with_wrong_relationship_to_blocks DesignatesVertex
  multiple : Explained r.unique_vertex_linked_to_multiple_invalid_surfaces DesignatesVertex

theorem blocksDesignate_empty : BlocksDesignate m {} :=
  ⟨explained_new _ _, explainedMap_new _ _ _, explained_new _ _, explained_new _ _, explained_new _ _, explained_new _ _,
    explained_new _ _, explained_new _ _, explained_new _ _⟩

theorem wrongBoundary_names {id : Uuid} (h : wrongBoundarySurface m id = .ok (some t)) :
    NamesComponent m .block "Block " id t := by
  obtain ⟨s, _, h⟩ := findSomeM_some h
  split at h
  · cases h
  split at h
  · cases h
  split at h
  · cases h
    refine ⟨" boundary Surface " ++ m.label .surface s ++
          " has a boundary Line not incident to any other Block boundary Surface. Either the surface " ++
          "shouldn't be boundary, or there is a hole in the block boundaries", ?_⟩
    simp only [String.append_assoc]
    rfl
  · cases h

theorem brepBlocks_designate {o : BlocksOracle} {fuel : Nat} {r : BRepBlocksTopologyInspectionResult}
    (h : brepInspectBlocks m o fuel = .ok r) : BlocksDesignate m r := by
  unfold brepInspectBlocks at h
  simp only [bind, Except.bind, pure, Except.pure] at h
  split at h
  · cases h; exact blocksDesignate_empty
  split at h
  · cases h
  split at h
  · cases h
  split at h
  · cases h
  rename_i r0 hr0
  split at h
  · cases h
  rename_i r1 hr1
  have k0 : BlocksDesignate m r0 := by
    have hmesh : BlocksDesignate m (blocksMeshes m {}) := by
      have hb := blocksMeshes_explained (m := m) o
      have hk : blocksMeshes m {} =
          { some_blocks_not_meshed := (blocksMeshes m {}).some_blocks_not_meshed,
            blocks_not_linked_to_a_unique_vertex := (blocksMeshes m {}).blocks_not_linked_to_a_unique_vertex } := by
        unfold blocksMeshes
        simp only []
        refine foldl_keep (fun r : BRepBlocksTopologyInspectionResult => r =
          { some_blocks_not_meshed := r.some_blocks_not_meshed,
            blocks_not_linked_to_a_unique_vertex := r.blocks_not_linked_to_a_unique_vertex }) _ _ ?_ _ ?_
        · intro r c _ hr
          rw [hr]
        · split
          · refine foldl_keep (fun r : BRepBlocksTopologyInspectionResult => r =
              { some_blocks_not_meshed := r.some_blocks_not_meshed,
                blocks_not_linked_to_a_unique_vertex := r.blocks_not_linked_to_a_unique_vertex }) _ _ ?_ _ rfl
            intro r c _ hr
            rw [hr]
          · rfl
      rw [hk]
      refine { blocksDesignate_empty with notMeshed := ?_, notLinked := ?_ }
      · exact explained_mono hb.notMeshed fun id t h => by cases h; exact ⟨_, rfl⟩
      · exact explainedMap_mono hb.notLinked fun id x t h => notLinked_gives h
    unfold blocksModelBoundaries at hr0
    simp only [bind, Except.bind, pure, Except.pure] at hr0
    split at hr0
    · split at hr0
      · cases hr0
      split at hr0
      · cases hr0; exact { hmesh with }
      · cases hr0; exact hmesh
    · cases hr0; exact hmesh
  have k1 : BlocksDesignate m r1 := by
    refine foldlM_keep (BlocksDesignate m) _ _ ?_ _ _ k0 hr1
    intro r v _ r' hr hv'
    simp only [blocksVertex, bind, Except.bind, pure, Except.pure] at hv'
    split at hv'
    · cases hv'
    rename_i o1 h1
    split at hv'
    · cases hv'
    rename_i o2 h2
    split at hv'
    · cases hv'
    rename_i o3 h3
    split at hv'
    · cases hv'
    rename_i o4 h4
    split at hv'
    · cases hv'
    rename_i o5 h5
    cases hv'
    exact { hr with
      two := explained_addOptional hr.two fun t ht => twoBlocks_designates (ht ▸ h1)
      count := explained_addOptional hr.count fun t ht => blockCount_designates (ht ▸ h2)
      single := explained_addOptional hr.single fun t ht => singleSurface_designates (singleSurface_says (ht ▸ h3))
      wrong := explained_addOptional hr.wrong fun t ht => surfaceForBlocks_designates (ht ▸ h4)
      multiple := explained_addOptional hr.multiple fun t ht => multipleSurfaces_designates (ht ▸ h5) }
  refine foldlM_keep (BlocksDesignate m) _ _ ?_ _ _ k1 h
  intro r c _ r' hr hr'
  simp only [blocksBoundaries, bind, Except.bind, pure, Except.pure] at hr'
  split at hr'
  · cases hr'
  split at hr'
  · cases hr'
  rename_i w hw
  cases hr'
  refine { hr with notClosed := ?_, wrongBoundary := ?_ }
  · simp only []
    split
    · exact explained_add hr.notClosed ⟨_, rfl⟩
    · exact hr.notClosed
  · cases w with
    | none => exact hr.wrongBoundary
    | some t => exact explained_add hr.wrongBoundary (wrongBoundary_names hw)

/-! ### Links, without any condition -/

/-- What the messages on links designate. -/
def LinksDesignate (l : WrongLinks) : Prop :=
  Explained l.notLinked DesignatesVertex ∧ Explained l.inexistent DesignatesVertex ∧
    Explained l.nonBijective DesignatesVertex

theorem addLink_designates {exist : ComponentMeshVertex → Bool} {uv : Index} {l l' : WrongLinks}
    {cmv : ComponentMeshVertex} (hl : LinksDesignate l) (h : addLink m exist uv l cmv = .ok l') : LinksDesignate l' := by
  unfold addLink at h
  split at h
  · cases h
    exact ⟨hl.1, explained_add hl.2.1 (by designates), hl.2.2⟩
  split at h
  · cases h
  split at h
  · cases h
    exact ⟨hl.1, hl.2.1, explained_add hl.2.2 (by designates)⟩
  · cases h; exact hl

theorem sectionLinks_designate {r r' : SectionTopologyInspectionResult}
    (h0 : LinksDesignate ⟨r.unique_vertices_not_linked_to_any_component,
      r.unique_vertices_linked_to_inexistant_cmv, r.unique_vertices_nonbijectively_linked_to_cmv⟩)
    (h : sectionAddUniqueVerticesWithWrongLink m r = .ok r') :
    LinksDesignate ⟨r'.unique_vertices_not_linked_to_any_component,
      r'.unique_vertices_linked_to_inexistant_cmv, r'.unique_vertices_nonbijectively_linked_to_cmv⟩ ∧
      r'.corners = r.corners ∧ r'.lines = r.lines ∧ r'.surfaces = r.surfaces := by
  simp only [sectionAddUniqueVerticesWithWrongLink, bind, Except.bind, pure, Except.pure] at h
  split at h
  · cases h
  rename_i l hl
  cases h
  refine ⟨?_, rfl, rfl, rfl⟩
  refine foldlM_keep LinksDesignate _ _ ?_ _ _ h0 hl
  intro l uv _ l' hl h
  unfold sectionAddWrongLinks at h
  simp only [] at h
  split at h
  · cases h
    exact ⟨explained_add hl.1 (by designates), hl.2⟩
  · exact foldlM_keep LinksDesignate _ _ (fun l cmv _ l' hl h =>
      addLink_designates (m := m) (exist := cmvExistsInSection m) hl h) _ _ hl h

theorem brepLinks_designate {r r' : BRepTopologyInspectionResult}
    (h0 : LinksDesignate ⟨r.unique_vertices_not_linked_to_any_component,
      r.unique_vertices_linked_to_inexistant_cmv, r.unique_vertices_nonbijectively_linked_to_cmv⟩)
    (h : brepAddUniqueVerticesWithWrongLink m r = .ok r') :
    LinksDesignate ⟨r'.unique_vertices_not_linked_to_any_component,
      r'.unique_vertices_linked_to_inexistant_cmv, r'.unique_vertices_nonbijectively_linked_to_cmv⟩ ∧
      r'.corners = r.corners ∧ r'.lines = r.lines ∧ r'.surfaces = r.surfaces ∧ r'.blocks = r.blocks := by
  simp only [brepAddUniqueVerticesWithWrongLink, bind, Except.bind, pure, Except.pure] at h
  split at h
  · cases h
  rename_i l hl
  cases h
  refine ⟨?_, rfl, rfl, rfl, rfl⟩
  refine foldlM_keep LinksDesignate _ _ ?_ _ _ h0 hl
  intro l uv _ l' hl h
  unfold brepAddWrongLinks at h
  simp only [] at h
  split at h
  · cases h
    exact ⟨explained_add hl.1 (by designates), hl.2⟩
  · exact foldlM_keep LinksDesignate _ _ (fun l cmv _ l' hl h =>
      addLink_designates (m := m) (exist := cmvExistsInBRep m) hl h) _ _ hl h

/-! ### The whole inspections -/

theorem section_designates (choose : List Failure → Failure) (schedule : List Nat)
    (r : SectionTopologyInspectionResult) (h : inspectSectionTopology m choose schedule = .ok r) :
    SectionDesignates m r := by
  unfold inspectSectionTopology at h
  rw [sectionInvoke] at h
  split at h
  · obtain ⟨hl, e1, e2, e3⟩ := sectionLinks_designate (r := { corners := valueOr {} (sectionInspectCorners m), lines := valueOr {} (sectionInspectLines m), surfaces := valueOr {} (sectionInspectSurfaces m) })
      ⟨explained_new _ _, explained_new _ _, explained_new _ _⟩ h
    have k1 : SectionCornersExplained m r.corners := by
      rw [e1]
      exact valueOr_keeps ⟨explained_new _ _, explainedMap_new _ _ _, explained_new _ _, explained_new _ _,
        explained_new _ _, explained_new _ _⟩ fun x hx => sectionCorners_explained hx
    have k2 : SectionLinesExplained m r.lines := by
      rw [e2]
      exact valueOr_keeps ⟨explained_new _ _, explainedMap_new _ _ _, explained_new _ _, explained_new _ _,
        explained_new _ _, explained_new _ _⟩ fun x hx => sectionLines_explained hx
    have k3 : SectionSurfacesExplained m r.surfaces := by
      rw [e3]
      exact valueOr_keeps ⟨explained_new _ _, explainedMap_new _ _ _, explained_new _ _, explained_new _ _⟩
        fun x hx => sectionSurfaces_explained hx
    exact {
      corners := ⟨explained_mono k1.notMeshed fun _ _ => cornerNotMeshed_names,
        explainedMap_mono k1.notLinked fun _ _ _ => notLinked_gives,
        explained_mono k1.several fun _ _ => severalCorners_designates,
        explained_mono k1.embeddings fun _ _ => severalEmbeddings_designates,
        explained_mono k1.alone fun _ _ => cornerAlone_designates,
        explained_mono k1.line fun _ _ => sectionCornerLine_designates⟩
      lines := ⟨explained_mono k2.notMeshed fun _ _ => notMeshed_names,
        explainedMap_mono k2.notLinked fun _ _ _ => notLinked_gives,
        explained_mono k2.alone fun _ _ => lineAlone_designates,
        explained_mono k2.embedded fun _ _ => sectionEmbeddedLine_designates,
        explained_mono k2.single fun _ _ => sectionSingleLine_designates,
        explained_mono k2.several fun _ _ => severalLines_designates⟩
      surfaces := ⟨explained_mono k3.notMeshed fun _ _ => notMeshed_names,
        explainedMap_mono k3.notLinked fun _ _ _ => notLinked_gives,
        explained_mono k3.two fun _ _ => twoSurfaces_designates,
        explained_mono k3.border fun _ _ => sectionBorder_designates⟩
      links := hl }
  · cases h

theorem brep_designates (hit : ∀ map, (m.iterate map).Perm map) (o : BlocksOracle) (fuel : Nat)
    (choose : List Failure → Failure) (schedule : List Nat) (r : BRepTopologyInspectionResult)
    (h : inspectBRepTopology m o fuel choose schedule = .ok r) : BRepDesignates m r := by
  unfold inspectBRepTopology at h
  rw [brepInvoke] at h
  split at h
  · obtain ⟨hl, e1, e2, e3, e4⟩ := brepLinks_designate (r := { corners := valueOr {} (brepInspectCorners m), lines := valueOr {} (brepInspectLines m), surfaces := valueOr {} (brepInspectSurfaces m), blocks := valueOr {} (brepInspectBlocks m o fuel) })
      ⟨explained_new _ _, explained_new _ _, explained_new _ _⟩ h
    have k1 : BRepCornersExplained m r.corners := by
      rw [e1]
      exact valueOr_keeps ⟨explained_new _ _, explainedMap_new _ _ _, explained_new _ _, explained_new _ _,
        explained_new _ _, explained_new _ _⟩ fun x hx => brepCorners_explained hx
    have k2 : BRepLinesExplained m r.lines := by
      rw [e2]
      exact valueOr_keeps ⟨explained_new _ _, explainedMap_new _ _ _, explainedMap_new _ _ _, explained_new _ _,
        explained_new _ _, explained_new _ _, explained_new _ _⟩ fun x hx => brepLines_explained hit hx
    have k3 : BRepSurfacesExplained m r.surfaces := by
      rw [e3]
      exact valueOr_keeps ⟨explained_new _ _, explainedMap_new _ _ _, explainedMap_new _ _ _, explained_new _ _,
        explained_new _ _, explained_new _ _⟩ fun x hx => brepSurfaces_explained hit hx
    have k4 : BlocksDesignate m r.blocks := by
      rw [e4]
      exact valueOr_keeps blocksDesignate_empty fun x hx => brepBlocks_designate hx
    exact {
      corners := ⟨explained_mono k1.notMeshed fun _ _ => cornerNotMeshed_names,
        explainedMap_mono k1.notLinked fun _ _ _ => notLinked_gives,
        explained_mono k1.several fun _ _ => severalCorners_designates,
        explained_mono k1.embedded fun _ _ => multiplyEmbedded_designates,
        explained_mono k1.alone fun _ _ => cornerAlone_designates,
        explained_mono k1.line fun _ _ => brepCornerLine_designates⟩
      lines := ⟨explained_mono k2.notMeshed fun _ _ => notMeshed_names,
        explainedMap_mono k2.notLinked fun _ _ _ => notLinked_gives,
        fun e he => (k2.edges e he).1,
        explained_mono k2.embedded fun _ _ => brepEmbeddedLine_designates,
        explained_mono k2.surfaces fun _ _ => brepLineSurfaces_designates,
        explained_mono k2.single fun _ _ => brepSingleLine_designates,
        explained_mono k2.several fun _ _ => severalLines_designates⟩
      surfaces := ⟨explained_mono k3.notMeshed fun _ _ => notMeshed_names,
        explainedMap_mono k3.notLinked fun _ _ _ => notLinked_gives,
        fun e he => (k3.facets e he).1,
        explained_mono k3.embedded fun _ _ => brepEmbeddedSurface_designates,
        explained_mono k3.several fun _ _ => brepSeveralSurfaces_designates,
        explained_mono k3.border fun _ _ => brepBorder_designates⟩
      blocks := ⟨k4.notMeshed, k4.notLinked, k4.notClosed, k4.wrongBoundary, k4.two, k4.count, k4.single, k4.wrong,
        k4.multiple⟩
      links := hl }
  · cases h

end Inspector
