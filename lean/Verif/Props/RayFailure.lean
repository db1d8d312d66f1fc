import Verif.Props.TopologyInspector
/-
C110: what an exception of the ray tracing of the block inspection does to the topology inspection of a BRep.
-/
namespace Inspector
open Spec

/-- The ray tracing raises an OpenGeode exception for every point. -/
def raisingRays (o : BlocksOracle) : BlocksOracle :=
  { o with
    isInsideBlock := fun _ _ => .error .openGeodeException }

/-- **C110 is false**: a block of the BRep has no mesh although others have one; when the ray tracing answers,
`inspect_brep_topology` reports this block, and when the ray tracing raises, although this issue has nothing to do with
it, `inspect_brep_topology` returns normally, without any issue about the blocks. -/
theorem C110_false : ∃ (m : TopologyModel) (o o' : BlocksOracle) (block : Uuid), WellFormed m ∧ UniqueIds m ∧
    CoherentLines m ∧ EdgeFinder o.edgeFromVertices ∧ RaisesOpenGeode o.geometry ∧
    o' = { o with isInsideBlock := o'.isInsideBlock } ∧
    (∀ s b f, o'.isInsideBlock s b = .error f → f = .openGeodeException) ∧
    ∀ fuel ≥ 20, ∀ choose, (∀ failures ≠ [], choose failures ∈ failures) → ∀ schedule,
      (∃ r, inspectBRepTopology m o fuel choose schedule = .ok r ∧
        block ∈ r.blocks.some_blocks_not_meshed.issues) ∧
      ∃ r, inspectBRepTopology m o' fuel choose schedule = .ok r ∧ r.blocks = {} := by
  refine ⟨blocksBRep.toModel, exampleOracle, raisingRays exampleOracle, 7, blocksBRep.wf_of_check (by decide),
    uniqueIds_of_check _ (by decide), blocksBRep.coherent_of_check (by decide), firstEdge_finder, noGeometry_raises, rfl,
    fun _ _ f h => by cases h; rfl, ?_⟩
  intro fuel hf choose hch schedule
  obtain ⟨k, rfl⟩ := Nat.exists_eq_add_of_le' hf
  have hchoose : choose [.openGeodeException] = .openGeodeException := by
    simpa using hch [.openGeodeException] (by simp)
  constructor
  · have e : uncaught choose (failureOf (brepInspectCorners blocksBRep.toModel) ++
        failureOf (brepInspectLines blocksBRep.toModel) ++ failureOf (brepInspectSurfaces blocksBRep.toModel) ++
        failureOf (brepInspectBlocks blocksBRep.toModel exampleOracle (k + 20))) = none := by
      have : failureOf (brepInspectCorners blocksBRep.toModel) ++
        failureOf (brepInspectLines blocksBRep.toModel) ++ failureOf (brepInspectSurfaces blocksBRep.toModel) ++
        failureOf (brepInspectBlocks blocksBRep.toModel exampleOracle (k + 20)) = [] := by rfl
      rw [this]; rfl
    unfold inspectBRepTopology
    rw [brepInvoke, e]
    exact ⟨_, rfl, List.mem_of_elem_eq_true (by rfl)⟩
  · have e : uncaught choose (failureOf (brepInspectCorners blocksBRep.toModel) ++
        failureOf (brepInspectLines blocksBRep.toModel) ++ failureOf (brepInspectSurfaces blocksBRep.toModel) ++
        failureOf (brepInspectBlocks blocksBRep.toModel (raisingRays exampleOracle) (k + 20))) = none := by
      have : failureOf (brepInspectCorners blocksBRep.toModel) ++
        failureOf (brepInspectLines blocksBRep.toModel) ++ failureOf (brepInspectSurfaces blocksBRep.toModel) ++
        failureOf (brepInspectBlocks blocksBRep.toModel (raisingRays exampleOracle) (k + 20)) =
          [.openGeodeException] := by rfl
      rw [this]
      simp [uncaught, thrownBy, hchoose]
    unfold inspectBRepTopology
    rw [brepInvoke, e]
    exact ⟨_, rfl, by rfl⟩

/-- A fold which fails at one of its elements, and fails nowhere else otherwise. -/
theorem foldlM_fails {R α : Type} (body : R → α → Except Failure R) (e : Failure) : ∀ (l : List α),
    (∀ r, ∀ x ∈ l, ∀ f, body r x = .error f → f = e) → (∃ x ∈ l, ∀ r, body r x = .error e) →
    ∀ r, l.foldlM body r = .error e
  | [], _, h, _ => by obtain ⟨x, hx, _⟩ := h; cases hx
  | x :: l, hall, h, r => by
    rw [List.foldlM_cons]
    cases hb : body r x with
    | error f =>
      rw [hall r x (by simp) f hb]
      rfl
    | ok r' =>
      obtain ⟨y, hy, hfail⟩ := h
      rcases List.mem_cons.1 hy with rfl | hy
      · rw [hfail r] at hb
        cases hb
      · exact foldlM_fails body e l (fun r x hx => hall r x (by simp [hx])) ⟨y, hy, hfail⟩ r'

/-- **C110**, what happens in general (1): if a surface which has a polygon and cannot be a boundary is such that the
ray tracing raises for the first block, and the ray tracing raises only OpenGeode exceptions, then
`inspect_brep_topology` ends without an exception of the block inspection, and reports no issue about blocks, whatever
the blocks are. -/
theorem C110_hidden_partial (m : TopologyModel) (wf : WellFormed m) (ui : UniqueIds m) (coh : CoherentLines m)
    (o : BlocksOracle) (hf : EdgeFinder o.edgeFromVertices)
    (hact : ∃ c ∈ m.components .block, c.active = true)
    (honly : ∀ s b f, o.isInsideBlock s b = .error f → f = .openGeodeException)
    (s : Uuid) (hs : CannotBound m s) (hpoly : ∃ c ∈ m.components .surface, c.id = s ∧ c.nbElements ≠ 0)
    (hraise : ∀ block, (m.components .block).head? = some block →
      o.isInsideBlock s block.id = .error .openGeodeException) :
    ∃ N, ∀ fuel ≥ N, brepInspectBlocks m o fuel = .error .openGeodeException ∧
      ∀ choose, (∀ failures ≠ [], choose failures ∈ failures) → ∀ schedule r,
        inspectBRepTopology m o fuel choose schedule = .ok r → r.blocks = {} := by
  obtain ⟨NB, N, hNB, _, hNBs⟩ := findNotBoundarySurfaces_spec wf coh hf
  refine ⟨N, fun fuel hle => ?_⟩
  have hD : findDanglingSurfaces m o.isInsideBlock NB = .error .openGeodeException := by
    unfold findDanglingSurfaces
    refine foldlM_fails _ _ NB ?_ ⟨s, (hNBs s).2 hs, ?_⟩ []
    · intro r x hx f h
      obtain ⟨c, h1, -⟩ := component_ok (wf.ids .surface) (cannotBound_has wf coh ((hNBs x).1 hx))
      simp only [bind, Except.bind, h1] at h
      split at h
      · cases h
      · split at h
        · rename_i f' hl
          cases h
          obtain ⟨b, _, hb⟩ := loopAnyM_error _ _ _ hl
          exact honly _ _ _ hb
        · cases h
    · intro r
      obtain ⟨c, h1, h2, h3, _⟩ := component_ok (wf.ids .surface) (cannotBound_has wf coh hs)
      obtain ⟨c', hc', hid, hne⟩ := hpoly
      have : c' = c := List.inj_on_of_nodup_map (wf.ids .surface) hc' h2 (hid.trans h3.symm)
      subst this
      obtain ⟨b, hb, _⟩ := hact
      cases hblocks : m.components .block with
      | nil => rw [hblocks] at hb; cases hb
      | cons first rest =>
        have hfirst := hraise first (by rw [hblocks]; rfl)
        simp only [bind, Except.bind, h1]
        rw [if_neg (by simp [hne])]
        unfold loopAnyM
        rw [hfirst]
  have hb : brepInspectBlocks m o fuel = .error .openGeodeException := by
    unfold brepInspectBlocks
    have hlen : ((m.activeComponents .block).length == 0) = false := by
      obtain ⟨c, hc, hca⟩ := hact
      have : c ∈ m.activeComponents .block := by
        unfold TopologyModel.activeComponents; exact List.mem_filter.2 ⟨hc, hca⟩
      cases hl : m.activeComponents .block with
      | nil => rw [hl] at this; cases this
      | cons => rfl
    simp only [hlen, Bool.false_eq_true, if_false, bind, Except.bind, hNB fuel hle, hD]
  refine ⟨hb, fun choose hch schedule r hr => ?_⟩
  exact ((C54_brep_partial m ui o fuel choose hch schedule).1 r hr).2.2.2.2 _ hb

/-- The hypotheses are met by a model whose blocks have issues. -/
example : WellFormed blocksBRep.toModel ∧ UniqueIds blocksBRep.toModel ∧ CoherentLines blocksBRep.toModel ∧
    EdgeFinder (raisingRays exampleOracle).edgeFromVertices ∧
    (∃ c ∈ blocksBRep.toModel.components .block, c.active = true) ∧
    CannotBound blocksBRep.toModel 4 ∧
    (∃ c ∈ blocksBRep.toModel.components .surface, c.id = 4 ∧ c.nbElements ≠ 0) :=
  ⟨blocksBRep.wf_of_check (by decide), uniqueIds_of_check _ (by decide), blocksBRep.coherent_of_check (by decide),
    firstEdge_finder, by decide,
    cannotBound_of_free_line (blocksBRep.coherent_of_check (by decide)) (line := 14) (by decide) (by decide),
    ⟨4, true, 3, 1⟩, by decide, rfl, by decide⟩

/-- **C110**, what happens in general (2): the ray tracing may raise for the surfaces which bound a block, which have no
polygon, or for no block of the model: the lists are still exact.  (`RaysAnswer` asks for nothing about them.) -/
theorem C110_exact_partial (m : TopologyModel) (wf : WellFormed m) (ui : UniqueIds m) (coh : CoherentLines m)
    (o : BlocksOracle) (hf : EdgeFinder o.edgeFromVertices) (hg : RaisesOpenGeode o.geometry)
    (hrays : ∀ s, CannotBound m s → (∃ c ∈ m.components .surface, c.id = s ∧ c.nbElements ≠ 0) →
      ∀ block ∈ m.components .block, ∃ inside, o.isInsideBlock s block.id = .ok inside)
    (hmb : o.modelBoundaries = [] ∨ o.modelBoundaries.flatten ≠ [])
    (hsz : ∀ c ∈ m.components .block, c.nbVertices < 2 ^ 32)
    (hcount : ∀ v < m.nbUniqueVertices, ∀ b, At m v .block b → CountsFit m v b)
    (hact : ∃ c ∈ m.components .block, c.active = true) :
    ∃ N, ∀ fuel ≥ N, ∀ choose, (∀ failures ≠ [], choose failures ∈ failures) → ∀ schedule r,
      inspectBRepTopology m o fuel choose schedule = .ok r → BlocksReport m o r.blocks := by
  obtain ⟨b, N, hb, hrep⟩ := C75_block_reports m wf coh o hf hg hrays hmb hsz hcount hact
  refine ⟨N, fun fuel hle choose hch schedule r hr => ?_⟩
  rw [((C54_brep_partial m ui o fuel choose hch schedule).1 r hr).2.2.2.1 b (hb fuel hle)]
  exact hrep

/-- The ray tracing raises for every surface but 3 and 4. -/
def raysOfFour : Uuid → Uuid → Except Failure Bool :=
  fun s _ => if s = 4 ∨ s = 3 then .ok false else .error .openGeodeException

/-- The hypothesis about the rays is met by an oracle which raises for the two surfaces which bound the block. -/
example : ∀ s, CannotBound blocksBRep.toModel s →
    (∃ c ∈ blocksBRep.toModel.components .surface, c.id = s ∧ c.nbElements ≠ 0) →
      ∀ block ∈ blocksBRep.toModel.components .block, ∃ inside, raysOfFour s block.id = .ok inside := by
  intro s hs ⟨c, hc, hid, _⟩ block _
  have hno : ¬ (s = 1 ∨ s = 2) := by
    intro h12
    refine hs ⟨fun x => x = 1 ∨ x = 2, ?_, h12⟩
    intro x hx line hline
    rcases hx with rfl | rfl
    · refine ⟨2, .inr rfl, by decide, ?_⟩
      have : line = 11 ∨ line = 12 := by
        simpa [blocksBRep, peelBRep, TopologyData.toModel, TopologyData.select] using hline
      rcases this with rfl | rfl <;> decide
    · refine ⟨1, .inl rfl, by decide, ?_⟩
      have : line = 11 ∨ line = 12 := by
        simpa [blocksBRep, peelBRep, TopologyData.toModel, TopologyData.select] using hline
      rcases this with rfl | rfl <;> decide
  refine ⟨false, if_pos ?_⟩
  have hmem : s ∈ (blocksBRep.toModel.components .surface).map TopologyComponent.id := List.mem_map.2 ⟨c, hc, hid⟩
  have : s = 1 ∨ s = 2 ∨ s = 3 ∨ s = 4 := by
    simpa [blocksBRep, peelBRep, TopologyData.toModel, TopologyData.components] using hmem
  rcases this with h | h | h | h
  · exact absurd (.inl h) hno
  · exact absurd (.inr h) hno
  · exact .inr h
  · exact .inl h

end Inspector
