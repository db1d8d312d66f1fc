import Verif.Proofs.Degeneration
/-
Properties C19 - C23: degeneration.
-/
namespace Inspector
open Spec

/-! ### C19, C20, C21: which edges and elements are reported -/

/-- a curve with edges of length 5, 0, NaN, 3 -/
def exampleCurve : CurveMeasures where
  nbEdges := 4
  edgeLength e := [.num 5, .num 0, .nan, .num 3].getD e .nan
  isEdgeDegenerated e := e == 1

/-- a mesh with edges of length 3, 7, 0 and elements of minimum height 2, 3, 9 -/
def exampleElements : ElementMeasures where
  nbEdges := 3
  edgeVertices e := (e, e + 1)
  distance u _ := [.num 3, .num 7, .num 0].getD u .nan
  nbElements := 3
  minimumHeight e := [.num 2, .num 3, .num 9].getD e .nan
  isElementDegenerated e := e != 2

/-- **C19** (edged curves). -/
theorem C19_curve_small_edges (mesh : CurveMeasures) (threshold : Dbl) :
    Exactly (· < ·) (fun e => e < mesh.nbEdges ∧ AtMost (mesh.edgeLength e) threshold)
      (curveSmallEdges mesh threshold).issues :=
  curveSmallEdges_ok mesh threshold

/-- **C19** (edged curves, at the global epsilon). -/
theorem C19_curve_degenerated_edges (eps : Dbl) (mesh : CurveMeasures) :
    Exactly (· < ·) (fun e => e < mesh.nbEdges ∧ AtMost (mesh.edgeLength e) eps)
      (curveDegeneratedEdges eps mesh).issues :=
  curveSmallEdges_ok mesh eps

example : (curveSmallEdges exampleCurve (.num 3)).issues = [1, 3] ∧
    (curveDegeneratedEdges (.num 2) exampleCurve).issues = [1] := by decide

/-- **C19** (edges of surfaces and solids). -/
theorem C19_small_edges (mesh : ElementMeasures) (threshold : Dbl) :
    Exactly (· < ·) (fun e => e < mesh.nbEdges ∧ Below (edgeLen mesh e) threshold)
      (smallEdges mesh threshold).issues :=
  smallEdges_ok mesh threshold

/-- **C19** (edges of surfaces and solids, at the global epsilon). -/
theorem C19_degenerated_edges (eps : Dbl) (mesh : ElementMeasures) :
    Exactly (· < ·) (fun e => e < mesh.nbEdges ∧ Below (edgeLen mesh e) eps)
      (degeneratedEdges eps mesh).issues :=
  smallEdges_ok mesh eps

/-- **C19** (polygons). -/
theorem C19_small_height_polygons (mesh : ElementMeasures) (threshold : Dbl) :
    Exactly (· < ·) (fun e => e < mesh.nbElements ∧ AtMost (mesh.minimumHeight e) threshold)
      (smallHeightPolygons mesh threshold).issues :=
  smallHeightPolygons_ok mesh threshold

/-- **C19** (polygons, at the global epsilon). -/
theorem C19_degenerated_polygons (eps : Dbl) (mesh : ElementMeasures) :
    Exactly (· < ·) (fun e => e < mesh.nbElements ∧ AtMost (mesh.minimumHeight e) eps)
      (degeneratedPolygons eps mesh).issues :=
  smallHeightPolygons_ok mesh eps

/-- **C19** (polyhedra). -/
theorem C19_small_height_polyhedra (mesh : ElementMeasures) (threshold : Dbl) :
    Exactly (· < ·) (fun e => e < mesh.nbElements ∧ AtMost (mesh.minimumHeight e) threshold)
      (smallHeightPolyhedra mesh threshold).issues :=
  smallHeightPolyhedra_ok mesh threshold

/-- **C19** (polyhedra, at the global epsilon). -/
theorem C19_degenerated_polyhedra (eps : Dbl) (mesh : ElementMeasures) :
    Exactly (· < ·) (fun e => e < mesh.nbElements ∧ AtMost (mesh.minimumHeight e) eps)
      (degeneratedPolyhedra eps mesh).issues :=
  smallHeightPolyhedra_ok mesh eps

/-- a length equal to the threshold is not small for an edge, a height equal to it is -/
example : (smallEdges exampleElements (.num 3)).issues = [2] ∧
    (smallHeightPolygons exampleElements (.num 3)).issues = [0, 1] ∧
    (smallHeightPolyhedra exampleElements (.num 3)).issues = [0, 1] := by decide

/-- **C19** (Section): the inspection of a Section reports, at the global epsilon, the edges of its
active Lines and Surfaces and the polygons of its active Surfaces. -/
theorem C19_section (eps : Dbl) (model : DegenerationModel) (hn : (allIds model).Nodup)
    (hs : SizesOk model) :
    Reports (inspectSectionDegeneration eps model).degenerated_edges
      (lineEdgeReports model.lines eps ++ elementEdgeReports model.surfaces eps) ∧
    Reports (inspectSectionDegeneration eps model).degenerated_polygons
      (heightReports model.surfaces eps) :=
  ⟨addSmallEdges_reports _ model eps hn hs, addSmallHeightPolygons_reports _ model eps hn hs⟩

/-- **C19** (BRep): the edges of the active Lines, Surfaces and Blocks, the polygons of the active
Surfaces and the polyhedra of the active Blocks. -/
theorem C19_brep (eps : Dbl) (model : DegenerationModel) (hn : (allIds model).Nodup)
    (hs : SizesOk model) :
    Reports (inspectBRepDegeneration eps model).degenerated_edges
      (lineEdgeReports model.lines eps ++ elementEdgeReports model.surfaces eps ++
        elementEdgeReports model.blocks eps) ∧
    Reports (inspectBRepDegeneration eps model).degenerated_polygons
      (heightReports model.surfaces eps) ∧
    Reports (inspectBRepDegeneration eps model).degenerated_polyhedra
      (heightReports model.blocks eps) := by
  refine ⟨allEdges_reports _ _ model eps hn hs, addSmallHeightPolygons_reports _ model eps hn hs, ?_⟩
  have := (solids_reports "degenerated edges" "degenerated polyhedra" model eps hn hs).2
  rw [addSolidSmallElements_eq] at this
  unfold inspectBRepDegeneration
  simp only
  rw [addSolidSmallElements_eq]
  exact this

/-- **C19** (BRep, thresholds): the three inspections with a threshold.  The edges of the Blocks are
reported by the inspection of the polyhedra, not by the inspection of the edges. -/
theorem C19_brep_thresholds (model : DegenerationModel) (t : Dbl) (hn : (allIds model).Nodup)
    (hs : SizesOk model) :
    Reports (inspectBRepEdgesDegeneration model t).degenerated_edges
      (lineEdgeReports model.lines t ++ elementEdgeReports model.surfaces t) ∧
    Reports (inspectBRepPolygonsDegeneration model t).degenerated_polygons
      (heightReports model.surfaces t) ∧
    Reports (inspectBRepPolyhedraDegeneration model t).degenerated_edges
      (elementEdgeReports model.blocks t) ∧
    Reports (inspectBRepPolyhedraDegeneration model t).degenerated_polyhedra
      (heightReports model.blocks t) :=
  ⟨addSmallEdges_reports _ model t hn hs, addSmallHeightPolygons_reports _ model t hn hs,
    (solids_reports _ _ model t hn hs).1, (solids_reports _ _ model t hn hs).2⟩

/-- a model with active and inactive components -/
def exampleDegenerationModel : DegenerationModel where
  lines := [⟨1, true, "l", exampleCurve⟩, ⟨2, false, "l'", exampleCurve⟩]
  surfaces := [⟨3, true, "s", exampleElements⟩]
  blocks := [⟨4, false, "b", exampleElements⟩, ⟨5, true, "b'", exampleElements⟩]

example : (allIds exampleDegenerationModel).Nodup ∧ SizesOk exampleDegenerationModel ∧
    (inspectBRepDegeneration (.num 3) exampleDegenerationModel).degenerated_edges.entries.map
      (fun e => (e.1, e.2.issues)) = [(1, [1, 3]), (3, [2]), (5, [2])] ∧
    (inspectBRepDegeneration (.num 3) exampleDegenerationModel).degenerated_polyhedra.entries.map
      (fun e => (e.1, e.2.issues)) = [(5, [0, 1])] := by
  refine ⟨by decide, ⟨by decide, by decide, by decide⟩, by decide, by decide⟩

/-- **C20.** Raising the threshold only adds reports. -/
theorem C20_monotone (t t' : Dbl) (h : AtMost t t') (curve : CurveMeasures) (mesh : ElementMeasures) :
    ((curveSmallEdges curve t).issues.Sublist (curveSmallEdges curve t').issues) ∧
    ((smallEdges mesh t).issues.Sublist (smallEdges mesh t').issues) ∧
    ((smallHeightPolygons mesh t).issues.Sublist (smallHeightPolygons mesh t').issues) ∧
    ((smallHeightPolyhedra mesh t).issues.Sublist (smallHeightPolyhedra mesh t').issues) :=
  ⟨exactly_sublist (curveSmallEdges_ok ..) (curveSmallEdges_ok ..) (fun _ hx => Inspector.AtMost.mono hx h),
   exactly_sublist (smallEdges_ok ..) (smallEdges_ok ..) (fun _ hx => Inspector.Below.mono hx h),
   exactly_sublist (smallHeightPolygons_ok ..) (smallHeightPolygons_ok ..) (fun _ hx => Inspector.AtMost.mono hx h),
   exactly_sublist (smallHeightPolyhedra_ok ..) (smallHeightPolyhedra_ok ..) (fun _ hx => Inspector.AtMost.mono hx h)⟩

example : AtMost (.num 3) (.num 8) ∧ (smallEdges exampleElements (.num 3)).issues = [2] ∧
    (smallEdges exampleElements (.num 8)).issues = [0, 1, 2] := by
  refine ⟨⟨3, 8, rfl, rfl, by decide⟩, by decide, by decide⟩

/-- **C21.** The boolean in terms of the notions of the mesh. -/
theorem C21_boolean (eps : Dbl) (curve : CurveMeasures) (mesh : ElementMeasures) :
    (curveIsMeshDegenerated curve = true ↔ ∃ e, e < curve.nbEdges ∧ curve.isEdgeDegenerated e = true) ∧
    (surfaceIsMeshDegenerated eps mesh = true ↔
      (∃ e, e < mesh.nbEdges ∧ Below (edgeLen mesh e) eps) ∨
      ∃ p, p < mesh.nbElements ∧ mesh.isElementDegenerated p = true) ∧
    (solidIsMeshDegenerated eps mesh = true ↔
      (∃ e, e < mesh.nbEdges ∧ Below (edgeLen mesh e) eps) ∨
      ∃ p, p < mesh.nbElements ∧ mesh.isElementDegenerated p = true) := by
  have hedges : edgesAreDegenerated eps mesh = true ↔ ∃ e, e < mesh.nbEdges ∧ Below (edgeLen mesh e) eps := by
    unfold edgesAreDegenerated
    rw [loopAny_iff]
    refine exists_congr fun e => ?_
    rw [List.mem_range]
    exact and_congr Iff.rfl (lt_iff _ _)
  refine ⟨?_, ?_, ?_⟩
  · unfold curveIsMeshDegenerated
    rw [loopAny_iff]
    simp only [List.mem_range]
  · unfold surfaceIsMeshDegenerated
    cases h : edgesAreDegenerated eps mesh
    · rw [h] at hedges
      simp only [Bool.false_eq_true, if_false]
      rw [loopAny_iff, ← hedges]
      simp only [List.mem_range]
      simp
    · rw [h] at hedges
      simpa using Or.inl (hedges.1 rfl)
  · unfold solidIsMeshDegenerated
    cases h : edgesAreDegenerated eps mesh
    · rw [h] at hedges
      simp only [Bool.false_eq_true, if_false]
      rw [loopAny_iff, ← hedges]
      simp only [List.mem_range]
      simp
    · rw [h] at hedges
      simpa using Or.inl (hedges.1 rfl)

/-- **C21.** When the mesh calls degenerated what is at most epsilon, the boolean is true exactly when
one of the lists is not empty. -/
theorem C21_boolean_lists (eps : Dbl) (curve : CurveMeasures) (mesh : ElementMeasures)
    (hc : ∀ e, e < curve.nbEdges → (curve.isEdgeDegenerated e = true ↔ AtMost (curve.edgeLength e) eps))
    (hm : ∀ p, p < mesh.nbElements →
      (mesh.isElementDegenerated p = true ↔ AtMost (mesh.minimumHeight p) eps)) :
    (curveIsMeshDegenerated curve = true ↔ (curveDegeneratedEdges eps curve).issues ≠ []) ∧
    (surfaceIsMeshDegenerated eps mesh = true ↔
      (degeneratedEdges eps mesh).issues ≠ [] ∨ (degeneratedPolygons eps mesh).issues ≠ []) ∧
    (solidIsMeshDegenerated eps mesh = true ↔
      (degeneratedEdges eps mesh).issues ≠ [] ∨ (degeneratedPolyhedra eps mesh).issues ≠ []) := by
  obtain ⟨h1, h2, h3⟩ := C21_boolean eps curve mesh
  have hp : (∃ p, p < mesh.nbElements ∧ mesh.isElementDegenerated p = true) ↔
      ∃ p, p < mesh.nbElements ∧ AtMost (mesh.minimumHeight p) eps :=
    exists_congr fun p => and_congr_right fun h => hm p h
  refine ⟨?_, ?_, ?_⟩
  · rw [h1, exactly_nil_iff (C19_curve_degenerated_edges eps curve)]
    exact exists_congr fun p => and_congr_right fun h => hc p h
  · rw [h2, hp, exactly_nil_iff (C19_degenerated_edges eps mesh),
      exactly_nil_iff (C19_degenerated_polygons eps mesh)]
  · rw [h3, hp, exactly_nil_iff (C19_degenerated_edges eps mesh),
      exactly_nil_iff (C19_degenerated_polyhedra eps mesh)]

/-- the hypotheses of `C21_boolean_lists` are met, with a degenerated edge and degenerated elements -/
example : (∀ e, e < exampleCurve.nbEdges →
      (exampleCurve.isEdgeDegenerated e = true ↔ AtMost (exampleCurve.edgeLength e) (.num 2))) ∧
    (∀ p, p < exampleElements.nbElements →
      (exampleElements.isElementDegenerated p = true ↔ AtMost (exampleElements.minimumHeight p) (.num 3))) ∧
    surfaceIsMeshDegenerated (.num 3) exampleElements = true := by
  refine ⟨?_, ?_, by decide⟩
  · intro e he
    rw [← le_iff]
    have : e < 4 := he
    match e, this with
    | 0, _ | 1, _ | 2, _ | 3, _ => decide
  · intro e he
    rw [← le_iff]
    have : e < 3 := he
    match e, this with
    | 0, _ | 1, _ | 2, _ => decide

/-! ### C22, C23: the edges of the meshes are left as found -/

/-- the tasks of a model query are those of its active Surfaces, in any order -/
def SchedulesOk (calls : List DegenerationCall) : Prop :=
  ∀ h read active schedule, .querySurfaces h read active schedule ∈ calls → schedule.Perm active

/-- **C22 / C23.** For every history of creations, queries and destructions of any number of
inspectors, on meshes or on models: if none is alive before and after, every mesh has its edges
enabled exactly if it had before. -/
theorem C22_edges_left_as_found (w : EdgesWorld) (calls : List DegenerationCall)
    (hsched : SchedulesOk calls)
    (hbefore : ∀ h, w.alive h = none) (hafter : ∀ h, (w.run calls).alive h = none) (key : MeshKey) :
    (w.run calls).enabled key = w.enabled key :=
  edgesInv_end w.enabled (w.run calls)
    (edgesInv_run w.enabled w calls
      (fun h read a s hc _ hk => (hsched h read a s hc).mem_iff.1 hk) (edgesInv_init w hbefore)).1 hafter key

/-- **C22.** At any moment of such a history (inspectors may still be alive), no mesh whose edges were
enabled at the start has them disabled. -/
theorem C22_never_disabled (w : EdgesWorld) (calls : List DegenerationCall)
    (hsched : SchedulesOk calls) (hbefore : ∀ h, w.alive h = none) (key : MeshKey)
    (he : w.enabled key = true) : (w.run calls).enabled key = true :=
  ((edgesInv_run w.enabled w calls
      (fun h read a s hc _ hk => (hsched h read a s hc).mem_iff.1 hk) (edgesInv_init w hbefore)).1.1 key he).1

/-- **C22.** Every loop over the edges of a mesh is done with the edges enabled. -/
theorem C22_edges_enabled_during_queries (w : EdgesWorld) (calls : List DegenerationCall)
    (hsched : SchedulesOk calls) (hbefore : ∀ h, w.alive h = none) (hseen : w.seen = []) :
    ∀ b ∈ (w.run calls).seen, b = true := by
  obtain ⟨n, hn⟩ := (edgesInv_run w.enabled w calls
      (fun h read a s hc _ hk => (hsched h read a s hc).mem_iff.1 hk) (edgesInv_init w hbefore)).2
  rw [hn, hseen, List.nil_append]
  intro b hb
  exact List.eq_of_mem_replicate hb

/-- mesh 0 has its edges, meshes 1, 2 and 3 do not -/
def exampleWorld : EdgesWorld where
  enabled k := k == 0
  alive _ := none

/-- two interleaved inspectors on the same mesh 1 and one on a model whose Surfaces are 0, 1, 2 and
Block is 3; the tasks of the model run in another order and read garbage for the dangling boolean -/
def exampleCalls : List DegenerationCall :=
  [.createOnMesh 0 1, .query 0, .createOnMesh 1 1, .query 1, .createOnModel 2,
   .querySurfaces 2 (fun _ b => !b) [0, 1, 2] [2, 0, 1], .destroy 0, .query 1,
   .querySurfaces 2 (fun _ b => b) [0, 1, 2] [1, 2, 0], .queryBlocks 2 [3], .destroy 2, .destroy 1]

/-- a loop over the edges of mesh 1, were they not enabled before, would be seen -/
example : (exampleWorld.loopOnEdges 1).seen = [false] ∧ ((exampleWorld.enable 1).loopOnEdges 1).seen = [true] := by decide

example : SchedulesOk exampleCalls ∧ (∀ h, exampleWorld.alive h = none) ∧
    (∀ h, (exampleWorld.run exampleCalls).alive h = none) ∧
    (exampleWorld.run exampleCalls).seen.length = 10 ∧
    (exampleWorld.run (exampleCalls.take 10)).enabled 3 = true := by
  refine ⟨?_, fun _ => rfl, ?_, by decide, by decide⟩
  · intro h read active schedule hm
    simp [exampleCalls] at hm
    rcases hm with ⟨_, _, rfl, rfl⟩ | ⟨_, _, rfl, rfl⟩ <;> decide
  · intro h
    match h with
    | 0 | 1 | 2 => decide
    | n + 3 => rfl

/-- **C23.** A model inspection object used alone: created, queried any number of times in any way,
then destroyed; every Surface and Block mesh has its edges enabled exactly if it had before. -/
theorem C23_model_edges_left_as_found (w : EdgesWorld) (hbefore : ∀ h, w.alive h = none)
    (handle : Nat) (queries : List DegenerationCall)
    (hq : ∀ q ∈ queries, (∃ read active schedule, schedule.Perm active ∧
        q = .querySurfaces handle read active schedule) ∨ ∃ active, q = .queryBlocks handle active)
    (key : MeshKey) :
    (w.run (.createOnModel handle :: queries ++ [.destroy handle])).enabled key = w.enabled key := by
  have halive : ∀ (qs : List DegenerationCall) (w : EdgesWorld),
      (∀ q ∈ qs, (∃ read active schedule, schedule.Perm active ∧
        q = .querySurfaces handle read active schedule) ∨ ∃ active, q = .queryBlocks handle active) →
      (∃ s b, w.alive handle = some (.model s b)) → (∀ h, h ≠ handle → w.alive h = none) →
      (∃ s b, (w.run qs).alive handle = some (.model s b)) ∧ (∀ h, h ≠ handle → (w.run qs).alive h = none) := by
    intro qs
    induction qs with
    | nil => intro w _ h1 h2; exact ⟨h1, h2⟩
    | cons q qs ih =>
      intro w hq h1 h2
      obtain ⟨s, b, h1⟩ := h1
      refine ih (w.call q) (fun q hq' => hq q (by simp [hq'])) ?_ ?_
      · rcases hq q (by simp) with ⟨read, a, sc, _, rfl⟩ | ⟨a, rfl⟩
        · simp only [EdgesWorld.call, h1]
          exact ⟨_, _, by rw [alive_setAlive, if_pos rfl]⟩
        · simp only [EdgesWorld.call, h1]
          exact ⟨_, _, by rw [alive_setAlive, if_pos rfl]⟩
      · intro h hh
        rcases hq q (by simp) with ⟨read, a, sc, _, rfl⟩ | ⟨a, rfl⟩
        · simp only [EdgesWorld.call, h1]
          rw [alive_setAlive, if_neg hh]
          have := (surfaceTasks_spec read (surfacesOnWhichEnableEdges w a s).1 sc w).2.2.1
          unfold EdgesWorld.modelSmallEdges
          simp only [this]
          exact h2 h hh
        · simp only [EdgesWorld.call, h1]
          rw [alive_setAlive, if_neg hh, (modelSolids_spec a b w).2.2.2.2.1]
          exact h2 h hh
  apply C22_edges_left_as_found
  · intro h read active schedule hm
    rw [List.mem_append, List.mem_cons] at hm
    rcases hm with (hm | hm) | hm
    · simp at hm
    · rcases hq _ hm with ⟨read', a', s', hp, heq⟩ | ⟨a, heq⟩
      · simp only [DegenerationCall.querySurfaces.injEq] at heq
        obtain ⟨-, -, rfl, rfl⟩ := heq
        exact hp
      · simp at heq
    · simp at hm
  · exact hbefore
  · have hrun : w.run (.createOnModel handle :: queries ++ [.destroy handle])
        = ((w.setAlive handle (some (.model [] []))).run queries).call (.destroy handle) := by
      unfold EdgesWorld.run
      simp only [List.foldl_append, List.foldl_cons, List.foldl_nil]
      have : w.call (.createOnModel handle) = w.setAlive handle (some (.model [] [])) := by
        simp only [EdgesWorld.call, hbefore handle]
      rw [this]
    obtain ⟨⟨s, b, h1⟩, h2⟩ := halive queries (w.setAlive handle (some (.model [] []))) hq
      ⟨[], [], by rw [alive_setAlive, if_pos rfl]⟩
      (fun h hh => by rw [alive_setAlive, if_neg hh]; exact hbefore h)
    intro h
    rw [hrun]
    simp only [EdgesWorld.call, h1]
    rw [alive_setAlive]
    by_cases hh : h = handle
    · rw [if_pos hh]
    · rw [if_neg hh, (destroyModel_spec s b _).2.1]
      exact h2 h hh

/-- the hypotheses of C23 are met by a BRep whose Surfaces 0, 1 and Block 2 have no edges but 0 -/
example : (∀ q ∈ [DegenerationCall.querySurfaces 7 (fun _ b => b) [0, 1] [1, 0], .queryBlocks 7 [2]],
      (∃ read active schedule, schedule.Perm active ∧ q = .querySurfaces 7 read active schedule) ∨
        ∃ active, q = .queryBlocks 7 active) := by
  intro q hq
  simp only [List.mem_cons, List.not_mem_nil, or_false] at hq
  rcases hq with rfl | rfl
  · exact Or.inl ⟨_, _, _, by decide, rfl⟩
  · exact Or.inr ⟨_, rfl⟩

end Inspector
