import Verif.Proofs.TopologyBlocks
import Verif.Proofs.TopologyLinesInspect
/-! Inspection of the blocks of a BRep. -/
namespace Inspector
open Spec

variable {m : TopologyModel} (wf : WellFormed m) (coh : CoherentLines m)

include wf coh in
theorem cannotBound_has {s : Uuid} (h : CannotBound m s) : Has m .surface s := by
  by_contra hc
  apply h
  refine ⟨fun x => x = s, ?_, rfl⟩
  rintro x rfl line hl
  exact absurd (wf.incidences line _ ((coh line x).2 hl)) hc

theorem exists_bound {α : Type} (l : List α) (P : α → Nat → Prop) (h : ∀ x ∈ l, ∃ N, ∀ n ≥ N, P x n) :
    ∃ N, ∀ n ≥ N, ∀ x ∈ l, P x n := by
  induction l with
  | nil => exact ⟨0, by simp⟩
  | cons x l ih =>
    obtain ⟨N1, h1⟩ := h x (by simp)
    obtain ⟨N2, h2⟩ := ih (fun y hy => h y (by simp [hy]))
    refine ⟨max N1 N2, fun n hn y hy => ?_⟩
    rcases List.mem_cons.1 hy with rfl | hy
    · exact h1 n (by omega)
    · exact h2 n (by omega) y hy

include wf in
theorem wrongBoundary_answers (block : Uuid) : Answers (wrongBoundarySurface m block) (HasOpenBoundary m block) := by
  unfold wrongBoundarySurface
  refine Answers.congr (findSomeM_answers _
    (fun s => Active m .surface s ∧ surfaceBoundariesAreNotLinked m block s = true) _ ?_) ?_
  · intro s hs
    obtain ⟨c, hc, _, _, ha⟩ := component_ok (wf.ids .surface) (wf.boundaries block _ (mem_related.1 hs))
    simp only [] at hc ha
    rw [hc]
    refine answers_iteP (fun h => answers_none fun hp => ?_) (fun h => ?_)
    · rw [ha.2 hp.1] at h; cases h
    · exact answers_iteP (fun h2 => answers_some _ ⟨ha.1 (by simpa using h), h2⟩)
        (fun h2 => answers_none fun hp => h2 hp.2)
  · unfold HasOpenBoundary
    simp only [mem_related, openBoundary_iff]

include wf coh in
open Classical in
theorem closed_ok {g : BlockGeometry} (hg : RaisesOpenGeode g) (block : Uuid) :
    ∃ N, ∀ fuel ≥ N, blockBoundariesAreClosed m g fuel block = .ok (decide (BoundaryEncloses m g block)) := by
  obtain ⟨parts, N, hp, he⟩ := linkedBoundaryParts_terminates coh (queueWithBlockBoundaries m block)
  refine ⟨N, fun fuel hf => ?_⟩
  have hs : ∀ p ∈ parts, ∀ s ∈ p, Has m .surface s := by
    intro p hpm s hs
    have := (hp.cover s).2 ⟨p, hpm, hs⟩
    rw [queueWithBlockBoundaries_eq] at this
    exact wf.boundaries block _ (mem_related.1 this)
  obtain ⟨b, h1, h2⟩ := blockClosed_spec wf hg (he fuel hf) hs
  rw [h1]
  congr 1
  rw [Bool.eq_iff_iff, h2, decide_eq_true_eq]
  constructor
  · intro h; exact ⟨parts, N, he, h⟩
  · rintro ⟨parts', N', he', h⟩
    have e1 := he (max N N') (by omega)
    have e2 := he' (max N N') (by omega)
    rw [e1] at e2
    cases e2
    exact h

/-- The effect of the criteria at one vertex. -/
def blocksVertexStep (m : TopologyModel) (NB D : List Uuid) (r : BRepBlocksTopologyInspectionResult) (v : Index) :
    BRepBlocksTopologyInspectionResult :=
  { r with
    unique_vertices_part_of_two_blocks_and_no_boundary_surface :=
      addOptional r.unique_vertices_part_of_two_blocks_and_no_boundary_surface v
        (okOr (twoBlocksAndNoBoundarySurface m v))
    unique_vertices_with_incorrect_block_cmvs_count :=
      addOptional r.unique_vertices_with_incorrect_block_cmvs_count v (okOr (blockCmvsCountIsIncorrect m v))
    unique_vertices_linked_to_a_single_and_invalid_surface :=
      addOptional r.unique_vertices_linked_to_a_single_and_invalid_surface v (okOr (invalidSingleSurface m v NB))
    unique_vertices_linked_to_surface_with_wrong_relationship_to_blocks :=
      addOptional r.unique_vertices_linked_to_surface_with_wrong_relationship_to_blocks v
        (okOr (wrongRelationshipsToBlock m v NB D))
    unique_vertex_linked_to_multiple_invalid_surfaces :=
      addOptional r.unique_vertex_linked_to_multiple_invalid_surfaces v
        (okOr (invalidMultipleSurfaces m v)) }

open Classical in
/-- The effect of the criteria on the boundary of one block. -/
noncomputable def blocksBoundariesStep (m : TopologyModel) (g : BlockGeometry)
    (r : BRepBlocksTopologyInspectionResult) (c : TopologyComponent) : BRepBlocksTopologyInspectionResult :=
  { r with
    blocks_with_not_closed_boundary_surfaces :=
      if decide (¬ BoundaryEncloses m g c.id) = true then
        r.blocks_with_not_closed_boundary_surfaces.add c.id
          ("Block " ++ m.label .block c.id ++ " boundaries are not closed or form several closed volumes.")
      else r.blocks_with_not_closed_boundary_surfaces
    wrong_block_boundary_surface :=
      if decide (HasOpenBoundary m c.id) = true then
        r.wrong_block_boundary_surface.add c.id ((okOr (wrongBoundarySurface m c.id)).getD "")
      else r.wrong_block_boundary_surface }

include wf in
theorem blocksBoundaries_step {o : BlocksOracle} {fuel : Nat} {c : TopologyComponent}
    (h : blockBoundariesAreClosed m o.geometry fuel c.id =
      .ok (@decide (BoundaryEncloses m o.geometry c.id) (Classical.propDecidable _)))
    (r : BRepBlocksTopologyInspectionResult) :
    blocksBoundaries m o fuel r c = .ok (blocksBoundariesStep m o.geometry r c) := by
  classical
  obtain ⟨b, hb, hp⟩ := wrongBoundary_answers wf c.id
  unfold blocksBoundaries blocksBoundariesStep
  rw [h, hb]
  simp only [bind, Except.bind, decide_not, okOr]
  cases b with
  | none =>
    have : decide (HasOpenBoundary m c.id) = false := by
      rw [decide_eq_false_iff_not, ← hp]; simp
    rw [this]; rfl
  | some s =>
    have : decide (HasOpenBoundary m c.id) = true := by
      rw [decide_eq_true_eq, ← hp]; rfl
    rw [this]; rfl

theorem modelBoundaries_ok (coh : CoherentLines m) {o : BlocksOracle}
    (hmb : o.modelBoundaries = [] ∨ o.modelBoundaries.flatten ≠ []) :
    ∃ (issues : Issues Index) (N : Nat), (∀ fuel ≥ N, ∀ r : BRepBlocksTopologyInspectionResult,
      r.model_boundaries_dont_form_a_closed_surface = Issues.new "ModelBoundaries do not form a valid closed surface" →
      blocksModelBoundaries m o fuel r = .ok { r with model_boundaries_dont_form_a_closed_surface := issues }) ∧
      issues.issues = @ite _ (o.modelBoundaries = [] ∨ AllLinked m o.modelBoundaries.flatten)
        (Classical.propDecidable _) [] [0] := by
  classical
  by_cases hnil : o.modelBoundaries = []
  · refine ⟨Issues.new "ModelBoundaries do not form a valid closed surface", 0, ?_, ?_⟩
    · intro fuel _ r hr
      unfold blocksModelBoundaries
      rw [hnil, ← hr]
      rfl
    · rw [if_pos (Or.inl hnil)]; rfl
  · have hne := hmb.resolve_left hnil
    obtain ⟨first, rest, hq⟩ := List.exists_cons_of_ne_nil hne
    obtain ⟨P, Q', N, hp, he⟩ := closedLinkedSurfaces_terminates coh first rest
    have hall : Q'.isEmpty = true ↔ AllLinked m o.modelBoundaries.flatten := by
      rw [List.isEmpty_iff, hq]
      have hfirst := hp.head first rfl
      constructor
      · intro hnil a ha b hb
        have hin : ∀ x ∈ first :: rest, x ∈ P := by
          intro x hx
          by_contra hc
          have := (hp.rest x).2 ⟨hx, hc⟩
          rw [hnil] at this
          cases this
        exact ((hp.component a (hin a ha) b).1 (hin b hb)).2
      · intro hall
        rw [List.eq_nil_iff_forall_not_mem]
        intro x hx
        obtain ⟨h1, h2⟩ := (hp.rest x).1 hx
        exact h2 ((hp.component first hfirst x).2 ⟨h1, hall first (by simp) x h1⟩)
    have hlen : (o.modelBoundaries.length != 0) = true := by
      rw [bne_iff_ne, Ne, List.length_eq_zero_iff]; exact hnil
    have hrun : ∀ fuel ≥ N, brepBoundariesAreClosed m o.modelBoundaries fuel = .ok Q'.isEmpty := by
      intro fuel hf
      unfold brepBoundariesAreClosed
      rw [queueWithModelBoundaries_eq, hq, he fuel hf]
      rfl
    cases hQ : Q'.isEmpty
    · refine ⟨(Issues.new "ModelBoundaries do not form a valid closed surface").add 0
        "ModelBoundaries don't form a valid closed surface.", N, ?_, ?_⟩
      · intro fuel hf r hr
        unfold blocksModelBoundaries
        rw [if_pos hlen, hrun fuel hf, hQ, ← hr]
        rfl
      · rw [if_neg]
        · rfl
        · rintro (h | h)
          · exact hnil h
          · rw [← hall, hQ] at h; cases h
    · refine ⟨Issues.new "ModelBoundaries do not form a valid closed surface", N, ?_, ?_⟩
      · intro fuel hf r hr
        unfold blocksModelBoundaries
        rw [if_pos hlen, hrun fuel hf, hQ, ← hr]
        rfl
      · rw [if_pos (Or.inr (hall.1 hQ))]; rfl

/-- The first part of the result. -/
theorem blocksMeshes_spec (wf : WellFormed m) (hsz : ∀ c ∈ m.components .block, c.nbVertices < 2 ^ 32) :
    ∃ (a : Issues Uuid) (b : IssuesMap Index), blocksMeshes m {} = { some_blocks_not_meshed := a, blocks_not_linked_to_a_unique_vertex := b } ∧
    a.issues = @ite _ (∃ c ∈ m.components .block, c.active = true ∧ BlockMeshed c) (Classical.propDecidable _)
      ((((m.components .block).filter fun c => c.active).filter
        fun c => decide (¬ BlockMeshed c)).map TopologyComponent.id) [] ∧
    MapReports b
      (((m.components .block).filter fun c => c.active).filter fun c => decide (BlockMeshed c))
      TopologyComponent.id (fun c l => Exactly (· < ·) (NotAssociated m .block c) l) := by
  classical
  have hmeshed : ((m.activeComponents .block).filter fun block => block.nbVertices != 0 && block.nbElements != 0) =
      (((m.components .block).filter fun c => c.active).filter fun c => decide (BlockMeshed c)) := by
    apply List.filter_congr
    intro c _
    rw [Bool.eq_iff_iff, decide_eq_true_eq]; simp [BlockMeshed]
  have hnot : ((m.activeComponents .block).filter fun block => !(block.nbVertices != 0 && block.nbElements != 0)) =
      (((m.components .block).filter fun c => c.active).filter fun c => decide (¬ BlockMeshed c)) := by
    apply List.filter_congr
    intro c _
    rw [Bool.eq_iff_iff, decide_eq_true_eq]; simp [BlockMeshed]; tauto
  have keyB : ∀ (l : List TopologyComponent) (r : BRepBlocksTopologyInspectionResult),
      l.foldl (fun result block =>
        { result with
          blocks_not_linked_to_a_unique_vertex :=
            addNotAssociated m .block "Block " result.blocks_not_linked_to_a_unique_vertex block }) r =
      { r with blocks_not_linked_to_a_unique_vertex :=
          l.foldl (addNotAssociated m .block "Block ") r.blocks_not_linked_to_a_unique_vertex } := by
    intro l
    induction l with
    | nil => intro r; rfl
    | cons c l ih => intro r; rw [List.foldl_cons, ih, List.foldl_cons]
  have keyA : ∀ (l : List TopologyComponent) (r : BRepBlocksTopologyInspectionResult),
      ∃ a : Issues Uuid, l.foldl (fun result block =>
        { result with
          some_blocks_not_meshed :=
            result.some_blocks_not_meshed.add block.id ("Block " ++ m.label .block block.id ++ " is not meshed.") }) r =
      { r with some_blocks_not_meshed := a } ∧ a.issues = r.some_blocks_not_meshed.issues ++ l.map TopologyComponent.id := by
    intro l
    induction l with
    | nil => intro r; exact ⟨r.some_blocks_not_meshed, rfl, by simp⟩
    | cons c l ih =>
      intro r
      obtain ⟨a, h1, h2⟩ := ih
        { r with
          some_blocks_not_meshed :=
            r.some_blocks_not_meshed.add c.id ("Block " ++ m.label .block c.id ++ " is not meshed.") }
      refine ⟨a, by rw [List.foldl_cons, h1], ?_⟩
      rw [h2]; simp [Issues.add]
  unfold blocksMeshes
  simp only []
  rw [hmeshed, hnot]
  have hne : (((m.components .block).filter fun c => c.active).filter fun c => decide (BlockMeshed c)) ≠ [] ↔
      ∃ c ∈ m.components .block, c.active = true ∧ BlockMeshed c := by
    rw [show ∀ l : List TopologyComponent, l ≠ [] ↔ ∃ x, x ∈ l from fun l => by cases l <;> simp]
    simp only [List.mem_filter, decide_eq_true_eq]
    constructor
    · rintro ⟨c, ⟨h1, h2⟩, h3⟩; exact ⟨c, h1, h2, h3⟩
    · rintro ⟨c, h1, h2, h3⟩; exact ⟨c, ⟨h1, h2⟩, h3⟩
  have hmap := notAssociated_mapReports m .block "Block " "Blocks mesh vertices not linked to unique vertices"
    (((m.components .block).filter fun c => c.active).filter fun c => decide (BlockMeshed c))
    ((wf.ids .block).sublist ((List.filter_sublist.trans List.filter_sublist).map _))
    (fun c hc => hsz c (List.mem_filter.1 (List.mem_filter.1 hc).1).1)
  rw [keyB]
  by_cases hm : ∃ c ∈ m.components .block, c.active = true ∧ BlockMeshed c
  · rw [if_pos hm]
    have h2 : (((m.components .block).filter fun c => c.active).filter fun c => decide (BlockMeshed c)).isEmpty = false := by
      rw [List.isEmpty_eq_false_iff]; exact hne.2 hm
    cases hE : (((m.components .block).filter fun c => c.active).filter fun c => decide (¬ BlockMeshed c)).isEmpty
    · rw [h2]
      simp only [Bool.not_false, Bool.and_self, if_true]
      obtain ⟨a, h3, h4⟩ := keyA (((m.components .block).filter fun c => c.active).filter fun c => decide (¬ BlockMeshed c)) {}
      rw [h3]
      exact ⟨a, _, rfl, by rw [h4]; rfl, hmap⟩
    · simp only [Bool.not_true, Bool.false_and, Bool.false_eq_true, if_false]
      refine ⟨_, _, rfl, ?_, hmap⟩
      rw [List.isEmpty_iff.1 hE]; rfl
  · rw [if_neg hm]
    have h2 : (((m.components .block).filter fun c => c.active).filter fun c => decide (BlockMeshed c)).isEmpty = true := by
      rw [List.isEmpty_iff]
      by_contra hc
      exact hm (hne.1 hc)
    simp only [h2, Bool.not_true, Bool.and_false, Bool.false_eq_true, if_false]
    exact ⟨_, _, rfl, rfl, hmap⟩

include wf coh in
theorem brepInspectBlocks_spec {o : BlocksOracle} (hf : EdgeFinder o.edgeFromVertices) (hg : RaisesOpenGeode o.geometry)
    (hrays : RaysAnswer m o.isInsideBlock)
    (hmb : o.modelBoundaries = [] ∨ o.modelBoundaries.flatten ≠ [])
    (hsz : ∀ c ∈ m.components .block, c.nbVertices < 2 ^ 32)
    (hcount : ∀ v < m.nbUniqueVertices, ∀ b, At m v .block b → CountsFit m v b)
    (hact : ∃ c ∈ m.components .block, c.active = true) :
    ∃ r N, (∀ fuel ≥ N, brepInspectBlocks m o fuel = .ok r) ∧ BlocksReport m o r := by
  classical
  obtain ⟨NB, N1, hNB, _, hNBs⟩ := findNotBoundarySurfaces_spec wf coh hf
  obtain ⟨D, hD, _, hDs⟩ := findDangling_spec wf hrays NB (fun s hs => (hNBs s).1 hs)
    (fun s hs => cannotBound_has wf coh ((hNBs s).1 hs))
  obtain ⟨mb, N2, hmb', hmbi⟩ := modelBoundaries_ok coh hmb
  obtain ⟨N3, hclosed⟩ := exists_bound (m.activeComponents .block)
    (fun c fuel => blockBoundariesAreClosed m o.geometry fuel c.id = .ok (decide (BoundaryEncloses m o.geometry c.id)))
    (fun c _ => closed_ok wf coh hg c.id)
  obtain ⟨a, bm, hmesh, ha, hbm⟩ := blocksMeshes_spec wf hsz
  have hlen : ((m.activeComponents .block).length == 0) = false := by
    obtain ⟨c, hc, hca⟩ := hact
    rw [beq_eq_false_iff_ne, Ne, List.length_eq_zero_iff]
    exact List.ne_nil_of_mem (List.mem_filter.2 ⟨hc, hca⟩)
  let r0 : BRepBlocksTopologyInspectionResult :=
    { some_blocks_not_meshed := a, blocks_not_linked_to_a_unique_vertex := bm,
      model_boundaries_dont_form_a_closed_surface := mb }
  have hvertex : ∀ r : BRepBlocksTopologyInspectionResult, ∀ v ∈ List.range m.nbUniqueVertices,
      blocksVertex m NB D r v = .ok (blocksVertexStep m NB D r v) := by
    intro r v hv
    have hv := List.mem_range.1 hv
    unfold blocksVertex blocksVertexStep
    conv =>
      lhs
      rw [(twoBlocks_answers wf hv).eq, (count_vertex_answers wf hv (hcount v hv)).eq, (single_answers wf hv hNBs).eq,
        (wrongRelationships_answers wf hv hNBs hDs).eq, (multiple_answers wf hv).eq]
    rfl
  let r1 := (List.range m.nbUniqueVertices).foldl (blocksVertexStep m NB D) r0
  let r2 := (m.activeComponents .block).foldl (blocksBoundariesStep m o.geometry) r1
  refine ⟨r2, max N1 (max N2 N3), fun fuel hfuel => ?_, ?_⟩
  · unfold brepInspectBlocks
    rw [hlen]
    simp only [Bool.false_eq_true, if_false, bind, Except.bind]
    rw [hNB fuel (by omega)]
    simp only []
    rw [hD]
    simp only []
    rw [hmesh, hmb' fuel (by omega) _ rfl]
    simp only []
    rw [foldlM_step _ (blocksVertexStep m NB D) _ hvertex]
    simp only []
    rw [foldlM_step _ (blocksBoundariesStep m o.geometry) _ (fun r c hc =>
      blocksBoundaries_step wf (by convert hclosed fuel (by omega) c hc) r)]
  · have e1 : r2.some_blocks_not_meshed = a :=
      (foldl_keeps (blocksBoundariesStep m o.geometry) (fun r => r.some_blocks_not_meshed) (fun _ _ => rfl) _ r1).trans
        (foldl_keeps (blocksVertexStep m NB D) (fun r => r.some_blocks_not_meshed) (fun _ _ => rfl) _ r0)
    have e2 : r2.blocks_not_linked_to_a_unique_vertex = bm :=
      (foldl_keeps (blocksBoundariesStep m o.geometry) (fun r => r.blocks_not_linked_to_a_unique_vertex)
        (fun _ _ => rfl) _ r1).trans
        (foldl_keeps (blocksVertexStep m NB D) (fun r => r.blocks_not_linked_to_a_unique_vertex) (fun _ _ => rfl) _ r0)
    have e3 : r2.model_boundaries_dont_form_a_closed_surface = mb :=
      (foldl_keeps (blocksBoundariesStep m o.geometry) (fun r => r.model_boundaries_dont_form_a_closed_surface)
        (fun _ _ => rfl) _ r1).trans
        (foldl_keeps (blocksVertexStep m NB D) (fun r => r.model_boundaries_dont_form_a_closed_surface)
          (fun _ _ => rfl) _ r0)
    have e4 : r1.blocks_with_not_closed_boundary_surfaces.issues = [] := by
      rw [show r1.blocks_with_not_closed_boundary_surfaces = r0.blocks_with_not_closed_boundary_surfaces from
        foldl_keeps (blocksVertexStep m NB D) (fun r => r.blocks_with_not_closed_boundary_surfaces) (fun _ _ => rfl) _ r0]
      rfl
    have e5 : r1.wrong_block_boundary_surface.issues = [] := by
      rw [show r1.wrong_block_boundary_surface = r0.wrong_block_boundary_surface from
        foldl_keeps (blocksVertexStep m NB D) (fun r => r.wrong_block_boundary_surface) (fun _ _ => rfl) _ r0]
      rfl
    refine ⟨by rw [e1, ha]; congr, by rw [e2]; convert hbm, by rw [e3, hmbi]; congr, ?_, ?_, ?_, ?_, ?_, ?_, ?_⟩
    · rw [foldl_addUuid (blocksBoundariesStep m o.geometry)
        (fun r => r.blocks_with_not_closed_boundary_surfaces)
        (fun c => decide (¬ BoundaryEncloses m o.geometry c.id))
        (fun c => "Block " ++ m.label .block c.id ++ " boundaries are not closed or form several closed volumes.")
        (fun r c => rfl), e4, List.nil_append]
      rfl
    · rw [foldl_addUuid (blocksBoundariesStep m o.geometry)
        (fun r => r.wrong_block_boundary_surface)
        (fun c => decide (HasOpenBoundary m c.id))
        (fun c => (okOr (wrongBoundarySurface m c.id)).getD "")
        (fun r c => rfl), e5, List.nil_append]
      rfl
    · rw [foldl_keeps (blocksBoundariesStep m o.geometry)
        (fun r => r.unique_vertices_part_of_two_blocks_and_no_boundary_surface) (fun _ _ => rfl)]
      exact exactly_check _ (fun r : BRepBlocksTopologyInspectionResult =>
        r.unique_vertices_part_of_two_blocks_and_no_boundary_surface) _ _ _ (fun _ _ => rfl)
        (fun v hv => twoBlocks_answers wf hv) _ rfl
    · rw [foldl_keeps (blocksBoundariesStep m o.geometry)
        (fun r => r.unique_vertices_with_incorrect_block_cmvs_count) (fun _ _ => rfl)]
      exact exactly_check _ (fun r : BRepBlocksTopologyInspectionResult =>
        r.unique_vertices_with_incorrect_block_cmvs_count) _ _ _ (fun _ _ => rfl)
        (fun v hv => count_vertex_answers wf hv (hcount v hv)) _ rfl
    · rw [foldl_keeps (blocksBoundariesStep m o.geometry)
        (fun r => r.unique_vertices_linked_to_a_single_and_invalid_surface) (fun _ _ => rfl)]
      exact exactly_check _ (fun r : BRepBlocksTopologyInspectionResult =>
        r.unique_vertices_linked_to_a_single_and_invalid_surface) _ _ _ (fun _ _ => rfl)
        (fun v hv => single_answers wf hv hNBs) _ rfl
    · rw [foldl_keeps (blocksBoundariesStep m o.geometry)
        (fun r => r.unique_vertices_linked_to_surface_with_wrong_relationship_to_blocks) (fun _ _ => rfl)]
      exact exactly_check _ (fun r : BRepBlocksTopologyInspectionResult =>
        r.unique_vertices_linked_to_surface_with_wrong_relationship_to_blocks) _ _ _ (fun _ _ => rfl)
        (fun v hv => wrongRelationships_answers wf hv hNBs hDs) _ rfl
    · rw [foldl_keeps (blocksBoundariesStep m o.geometry)
        (fun r => r.unique_vertex_linked_to_multiple_invalid_surfaces) (fun _ _ => rfl)]
      exact exactly_check _ (fun r : BRepBlocksTopologyInspectionResult =>
        r.unique_vertex_linked_to_multiple_invalid_surfaces) (fun v => invalidMultipleSurfaces m v) _ _
        (fun _ _ => rfl) (fun v hv => multiple_answers wf hv) _ rfl

end Inspector
