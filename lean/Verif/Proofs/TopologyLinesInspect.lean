import Verif.Proofs.TopologyBRepLines
import Verif.Proofs.TopologyCorners
/-! Inspections of lines: the lists are exact, and agree with the boolean functions. -/
namespace Inspector
open Spec

variable {m : TopologyModel} (wf : WellFormed m) {v : Index}

/-- `if( check( v ) ) return false; ...` -/
theorem decides_chain {e : Except Failure (Option String)} {k : Except Failure Bool} {P Q : Prop}
    (he : Answers e P) (hk : Decides k Q) :
    Decides (e >>= fun o => if o.isSome = true then pure false else k) (¬ P ∧ Q) := by
  obtain ⟨o, rfl, hp⟩ := he
  obtain ⟨b, rfl, hq⟩ := hk
  cases o with
  | none => exact ⟨b, rfl, by simp at hp; rw [hq]; simp [hp]⟩
  | some s => exact ⟨false, rfl, by simp at hp; simp [hp]⟩

/-- `if( !condition ) return true; ...` -/
theorem decides_guard {e : Except Failure Bool} {k : Except Failure Bool} {P Q : Prop}
    (he : Decides e P) (hk : Decides k Q) :
    Decides (e >>= fun b => if (!b) = true then pure true else k) (P → Q) := by
  obtain ⟨b, rfl, hp⟩ := he
  obtain ⟨c, rfl, hq⟩ := hk
  cases b with
  | false => exact ⟨true, rfl, by simp at hp; simp [hp]⟩
  | true => exact ⟨c, rfl, by simp at hp; rw [hq]; simp [hp]⟩

theorem decides_true : Decides (pure true) True := ⟨true, rfl, by simp⟩

/-- A fold which does not fail did not fail on any element. -/
theorem foldlM_inv {R α : Type} (body : R → α → Except Failure R) (step : R → α → R) (P : α → Prop)
    (h : ∀ r x r', body r x = .ok r' → r' = step r x ∧ P x) :
    ∀ (l : List α) (r r' : R), l.foldlM body r = .ok r' → r' = l.foldl step r ∧ ∀ x ∈ l, P x
  | [], r, r', hr => by
    have : r = r' := Except.ok.inj hr
    exact ⟨this.symm, by simp⟩
  | x :: l, r, r', hr => by
    rw [List.foldlM_cons] at hr
    cases hb : body r x with
    | error f => rw [hb] at hr; simp [bind, Except.bind] at hr
    | ok r1 =>
      rw [hb] at hr
      obtain ⟨h1, h2⟩ := h r x r1 hb
      obtain ⟨h3, h4⟩ := foldlM_inv body step P h l r1 r' hr
      refine ⟨by rw [h3, h1]; rfl, ?_⟩
      intro y hy
      rcases List.mem_cons.1 hy with rfl | hy
      · exact h2
      · exact h4 y hy

/-- A check which does not fail answers its own result. -/
theorem answers_self {e : Except Failure (Option String)} (h : ∃ o, e = .ok o) :
    Answers e ((okOr e).isSome = true) := by
  obtain ⟨o, rfl⟩ := h
  exact ⟨o, rfl, Iff.rfl⟩

/-! ### Section -/

/-- The effect of the Section lines criteria at one vertex. -/
def sectionLinesStep (m : TopologyModel) (r : SectionLinesTopologyInspectionResult) (v : Index) :
    SectionLinesTopologyInspectionResult :=
  { r with
    unique_vertices_linked_to_line_with_wrong_relationship_to_surface :=
      addOptional r.unique_vertices_linked_to_line_with_wrong_relationship_to_surface v
        (okOr (sectionLineWrongRelationships m v))
    unique_vertices_linked_to_a_line_with_invalid_embeddings :=
      addOptional r.unique_vertices_linked_to_a_line_with_invalid_embeddings v
        (okOr (sectionInvalidEmbeddedLine m v))
    unique_vertices_linked_to_a_single_and_invalid_line :=
      addOptional r.unique_vertices_linked_to_a_single_and_invalid_line v
        (okOr (sectionInvalidSingleLine m v))
    unique_vertices_linked_to_several_lines_but_not_linked_to_a_corner :=
      addOptional r.unique_vertices_linked_to_several_lines_but_not_linked_to_a_corner v
        (okOr (sectionLinesButNotCorner m v)) }

variable (hs : ∀ id, Active m .line id → ∀ e ∈ m.embeddings id, e.type = .surface)

include wf hs in
theorem sectionEmbeddedLine_answers (hv : v < m.nbUniqueVertices) :
    Answers (sectionInvalidEmbeddedLine m v) (EmbeddedBefore m v (m.componentMeshVertices v)) :=
  sectionEmbeddedLineLoop_answers wf hs _ (wf.vertices v hv)

include wf hs in
theorem sectionLinesVertex_step (hv : v < m.nbUniqueVertices) (r : SectionLinesTopologyInspectionResult) :
    sectionLinesVertex m r v = .ok (sectionLinesStep m r v) := by
  unfold sectionLinesVertex sectionLinesStep
  conv =>
    lhs
    rw [(sectionLineAlone_answers wf hv).eq, (sectionEmbeddedLine_answers wf hs hv).eq,
      (sectionSingleLine_answers wf hv).eq, (sectionLinesButNotCorner_answers wf hv).eq]
  rfl

include wf hs in
theorem sectionInspectLines_spec (hsz : ∀ c ∈ m.components .line, c.nbVertices < 2 ^ 32) :
    ∃ r, sectionInspectLines m = .ok r ∧
      r.lines_not_meshed.issues =
        ((m.activeComponents .line).filter fun c => c.nbVertices == 0 || c.nbElements == 0).map
          TopologyComponent.id ∧
      MapReports r.lines_not_linked_to_a_unique_vertex (m.activeComponents .line) TopologyComponent.id
        (fun c l => Exactly (· < ·) (NotAssociated m .line c) l) ∧
      Exactly (· < ·) (fun v => v < m.nbUniqueVertices ∧ LineAlone m v)
        r.unique_vertices_linked_to_line_with_wrong_relationship_to_surface.issues ∧
      Exactly (· < ·) (fun v => v < m.nbUniqueVertices ∧ EmbeddedBefore m v (m.componentMeshVertices v))
        r.unique_vertices_linked_to_a_line_with_invalid_embeddings.issues ∧
      Exactly (· < ·) (fun v => v < m.nbUniqueVertices ∧ InvalidSingleLine m v)
        r.unique_vertices_linked_to_a_single_and_invalid_line.issues ∧
      Exactly (· < ·) (fun v => v < m.nbUniqueVertices ∧ LinesWithoutCorner m v)
        r.unique_vertices_linked_to_several_lines_but_not_linked_to_a_corner.issues := by
  refine ⟨_, foldlM_step _ (sectionLinesStep m) _ (fun r x hx =>
    sectionLinesVertex_step wf hs (List.mem_range.1 hx) r) _, ?_, ?_, ?_, ?_, ?_, ?_⟩
  · rw [foldl_keeps (sectionLinesStep m) (fun r => r.lines_not_meshed) (fun _ _ => rfl)]
    rw [foldl_addUuid (sectionLinesComponent m)
      (fun r : SectionLinesTopologyInspectionResult => r.lines_not_meshed)
      (fun c => c.nbVertices == 0 || c.nbElements == 0)
      (fun c => "Line " ++ m.label .line c.id ++ " is not meshed") (fun r c => by
        unfold sectionLinesComponent lineIsMeshed
        cases h1 : c.nbVertices == 0 <;> cases h2 : c.nbElements == 0 <;> simp [bne, h1, h2])]
    rfl
  · rw [foldl_keeps (sectionLinesStep m) (fun r => r.lines_not_linked_to_a_unique_vertex) (fun _ _ => rfl)]
    rw [foldl_addNotAssociated (sectionLinesComponent m) (fun r : SectionLinesTopologyInspectionResult =>
      r.lines_not_linked_to_a_unique_vertex) .line "Line " (fun r c => rfl)]
    exact notAssociated_mapReports m _ _ _ _ (active_nodup wf _)
      (fun c hc => hsz c (List.mem_filter.1 hc).1)
  all_goals have hkeep := fun (β : Type) (p : SectionLinesTopologyInspectionResult → β) h l r =>
    foldl_keeps (sectionLinesComponent m) p h l r
  · exact exactly_check _ (fun r : SectionLinesTopologyInspectionResult =>
      r.unique_vertices_linked_to_line_with_wrong_relationship_to_surface) _ _ _ (fun _ _ => rfl)
      (fun v hv => sectionLineAlone_answers wf hv) _
      (by rw [hkeep _ (fun r => r.unique_vertices_linked_to_line_with_wrong_relationship_to_surface)
        (fun _ _ => rfl)]; rfl)
  · exact exactly_check _ (fun r : SectionLinesTopologyInspectionResult =>
      r.unique_vertices_linked_to_a_line_with_invalid_embeddings) _ _ _ (fun _ _ => rfl)
      (fun v hv => sectionEmbeddedLine_answers wf hs hv) _
      (by rw [hkeep _ (fun r => r.unique_vertices_linked_to_a_line_with_invalid_embeddings)
        (fun _ _ => rfl)]; rfl)
  · exact exactly_check _ (fun r : SectionLinesTopologyInspectionResult =>
      r.unique_vertices_linked_to_a_single_and_invalid_line) _ _ _ (fun _ _ => rfl)
      (fun v hv => sectionSingleLine_answers wf hv) _
      (by rw [hkeep _ (fun r => r.unique_vertices_linked_to_a_single_and_invalid_line)
        (fun _ _ => rfl)]; rfl)
  · exact exactly_check _ (fun r : SectionLinesTopologyInspectionResult =>
      r.unique_vertices_linked_to_several_lines_but_not_linked_to_a_corner) _ _ _ (fun _ _ => rfl)
      (fun v hv => sectionLinesButNotCorner_answers wf hv) _
      (by rw [hkeep _ (fun r => r.unique_vertices_linked_to_several_lines_but_not_linked_to_a_corner)
        (fun _ _ => rfl)]; rfl)

include wf hs in
theorem sectionLines_decides (hv : v < m.nbUniqueVertices) :
    Decides (sectionLinesTopologyIsValid m v) ((∃ id, ActiveAt m v .line id) →
      ¬ LineAlone m v ∧ ¬ EmbeddedBefore m v (m.componentMeshVertices v) ∧ ¬ InvalidSingleLine m v ∧
        ¬ LinesWithoutCorner m v ∧ True) := by
  unfold sectionLinesTopologyIsValid
  exact decides_guard (hasActive_decides wf hv .line) (decides_chain (sectionLineAlone_answers wf hv)
    (decides_chain (sectionEmbeddedLine_answers wf hs hv) (decides_chain (sectionSingleLine_answers wf hv)
      (decides_chain (sectionLinesButNotCorner_answers wf hv) decides_true))))

theorem twiceActive_active {kind : ComponentType} (h : TwiceActive m v kind) : ∃ id, ActiveAt m v kind id := by
  obtain ⟨a, b, hsub, ht, ha, _⟩ := h
  exact ⟨a.component_id.id, ⟨a, hsub.subset (by simp), by rw [← ht]⟩, ha⟩

/-! ### BRep -/

/-- The effect of the BRep lines criteria at one vertex. -/
def brepLinesStep (m : TopologyModel) (r : BRepLinesTopologyInspectionResult) (v : Index) :
    BRepLinesTopologyInspectionResult :=
  { r with
    unique_vertices_linked_to_a_line_with_invalid_embeddings :=
      addOptional r.unique_vertices_linked_to_a_line_with_invalid_embeddings v
        (okOr (brepInvalidEmbeddedLine m v))
    unique_vertices_linked_to_line_with_wrong_relationship_to_surface :=
      addOptional r.unique_vertices_linked_to_line_with_wrong_relationship_to_surface v
        (okOr (brepLineWrongRelationships m v))
    unique_vertices_linked_to_a_single_and_invalid_line :=
      addOptional r.unique_vertices_linked_to_a_single_and_invalid_line v
        (okOr (brepInvalidSingleLine m v))
    unique_vertices_linked_to_several_lines_but_not_linked_to_a_corner :=
      addOptional r.unique_vertices_linked_to_several_lines_but_not_linked_to_a_corner v
        (okOr (brepLinesButNotCorner m v)) }

/-- The four criteria do not fail at `v`. -/
def BRepLinesOk (m : TopologyModel) (v : Index) : Prop :=
  (∃ o, brepInvalidEmbeddedLine m v = .ok o) ∧ (∃ o, brepLineWrongRelationships m v = .ok o) ∧
  (∃ o, brepInvalidSingleLine m v = .ok o) ∧ (∃ o, brepLinesButNotCorner m v = .ok o)

theorem brepLinesVertex_inv (r : BRepLinesTopologyInspectionResult) (v : Index)
    (r' : BRepLinesTopologyInspectionResult) (h : brepLinesVertex m r v = .ok r') :
    r' = brepLinesStep m r v ∧ BRepLinesOk m v := by
  unfold brepLinesVertex at h
  unfold brepLinesStep BRepLinesOk
  cases h1 : brepInvalidEmbeddedLine m v with
  | error f => rw [h1] at h; simp [bind, Except.bind] at h
  | ok o1 =>
  cases h2 : brepLineWrongRelationships m v with
  | error f => rw [h1, h2] at h; simp [bind, Except.bind] at h
  | ok o2 =>
  cases h3 : brepInvalidSingleLine m v with
  | error f => rw [h1, h2, h3] at h; simp [bind, Except.bind] at h
  | ok o3 =>
  cases h4 : brepLinesButNotCorner m v with
  | error f => rw [h1, h2, h3, h4] at h; simp [bind, Except.bind] at h
  | ok o4 =>
  rw [h1, h2, h3, h4] at h
  exact ⟨(Except.ok.inj h).symm, ⟨_, rfl⟩, ⟨_, rfl⟩, ⟨_, rfl⟩, ⟨_, rfl⟩⟩

theorem brepLinesVertex_step (h : BRepLinesOk m v) (r : BRepLinesTopologyInspectionResult) :
    brepLinesVertex m r v = .ok (brepLinesStep m r v) := by
  obtain ⟨⟨o1, h1⟩, ⟨o2, h2⟩, ⟨o3, h3⟩, ⟨o4, h4⟩⟩ := h
  unfold brepLinesVertex brepLinesStep
  rw [h1, h2, h3, h4]
  rfl

theorem findSomeM_none {α : Type} (f : α → Except Failure (Option String)) (l : List α)
    (h : ∀ x ∈ l, f x = .ok none) : findSomeM f l = .ok none := by
  induction l with
  | nil => rfl
  | cons x l ih =>
    rw [findSomeM, h x (by simp)]
    exact ih (fun y hy => h y (by simp [hy]))

include wf in
/-- Without active line at `v`, no criterion on lines finds anything. -/
theorem brepLines_none (hv : v < m.nbUniqueVertices) (h : ¬ ∃ id, ActiveAt m v .line id) :
    brepInvalidEmbeddedLine m v = .ok none ∧ brepLineWrongRelationships m v = .ok none ∧
    brepInvalidSingleLine m v = .ok none ∧ brepLinesButNotCorner m v = .ok none := by
  have hnot : ∀ cmv ∈ m.componentMeshVertices v, ¬ ActiveCmv m .line cmv := by
    rintro cmv hm ⟨ht, ha⟩
    exact h ⟨_, ⟨cmv, hm, by rw [← ht]⟩, ha⟩
  have eq_none : ∀ {e : Except Failure (Option String)} {P : Prop}, Answers e P → ¬ P → e = .ok none := by
    rintro e P ⟨o, rfl, hp⟩ hn
    cases o with
    | none => rfl
    | some s => exact absurd (hp.1 rfl) hn
  refine ⟨findSomeM_none _ _ ?_, findSomeM_none _ _ ?_, eq_none (brepSingleLine_answers wf hv) ?_,
    eq_none (brepLinesButNotCorner_answers wf hv) ?_⟩
  · intro cmv hm
    rw [ifActive_neg (wf.ids .line) (wf.vertices v hv cmv hm) (hnot cmv hm)]
  · intro cmv hm
    have := ifActive_neg (β := Option String) (skip := .ok none) (body := .error .otherException)
      (wf.ids .line) (wf.vertices v hv cmv hm) (hnot cmv hm)
    unfold ifActive at this
    split
    · rfl
    · rename_i ht
      rw [if_neg ht] at this
      split
      · rename_i f hf; rw [hf] at this; exact absurd this (by simp)
      · rename_i c hf
        rw [hf] at this
        split
        · rfl
        · rename_i hc; simp only [hc] at this; exact absurd this (by simp)
  · rintro ⟨line, ha, _⟩; exact h ⟨line, ha⟩
  · rintro ⟨ha, _⟩; exact h (twiceActive_active ha)

include wf in
theorem brepLines_decides_self (hv : v < m.nbUniqueVertices) (h : BRepLinesOk m v) :
    Decides (brepLinesTopologyIsValid m v)
      ((okOr (brepInvalidEmbeddedLine m v)).isSome = false ∧ (okOr (brepLineWrongRelationships m v)).isSome = false ∧
        (okOr (brepInvalidSingleLine m v)).isSome = false ∧ (okOr (brepLinesButNotCorner m v)).isSome = false) := by
  obtain ⟨h1, h2, h3, h4⟩ := h
  have key := decides_guard (hasActive_decides wf hv .line) (decides_chain (answers_self h1)
    (decides_chain (answers_self h3) (decides_chain (answers_self h2) (decides_chain (answers_self h4)
      decides_true))))
  refine Decides.congr (e := brepLinesTopologyIsValid m v) key ?_
  by_cases ha : ∃ id, ActiveAt m v .line id
  · simp only [ha, true_imp_iff, Bool.not_eq_true]; tauto
  · obtain ⟨e1, e2, e3, e4⟩ := brepLines_none wf hv ha
    simp [ha, e1, e2, e3, e4, okOr]

/-! Edges of lines -/

/-- The value of an inspection of elements, empty if it fails. -/
def okIssues (e : Except Failure (Issues Index)) : Issues Index :=
  match e with
  | .ok s => s
  | .error _ => Issues.new ""

theorem addIssues_of_zero {α : Type} (map : IssuesMap α) (id : Uuid) {s : Issues α} (h : s.nbIssues = 0) :
    map.addIssues id s = map := by
  unfold IssuesMap.addIssues
  simp only [h]; rfl

theorem addNotAssociated_eq (kind : ComponentType) (label : String) (map : IssuesMap Index)
    (c : TopologyComponent) : addNotAssociated m kind label map c =
      if (verticesNotAssociated m kind c).nbIssues != 0 then
        map.addIssues c.id ((verticesNotAssociated m kind c).setDescription (label ++ m.label kind c.id))
      else map := rfl

theorem notAssociated_zero {kind : ComponentType} {c : TopologyComponent} (hsz : c.nbVertices < 2 ^ 32) :
    (verticesNotAssociated m kind c).nbIssues = 0 ↔ ∀ v, ¬ NotAssociated m kind c v := by
  have h1 := nbIssues_ne_zero (lt_of_le_of_lt (verticesNotAssociated_length m kind c) hsz)
  have h2 := (verticesNotAssociated_exactly m kind c).2
  constructor
  · intro h v hv
    have : (verticesNotAssociated m kind c).issues ≠ [] := List.ne_nil_of_mem ((h2 v).2 hv)
    have := h1.2 this
    simp [h] at this
  · intro h
    by_contra hne
    have := h1.1 (by simpa using hne)
    obtain ⟨x, hx⟩ := List.exists_mem_of_ne_nil _ this
    exact h x ((h2 x).1 hx)

/-- Issues of the elements of a component, none if a vertex of the component has no unique vertex. -/
def elementIssues (m : TopologyModel) (kind : ComponentType) (label : String)
    (check : TopologyComponent → Index → Except Failure (Option String)) (c : TopologyComponent) : Issues Index :=
  if (verticesNotAssociated m kind c).nbIssues != 0 then Issues.new ""
  else okIssues (inspectElements (check c) (label ++ m.label kind c.id) c.nbElements)

theorem exactly_length_le {n : Nat} {P : Nat → Prop} {l : List Nat} (h : Exactly (· < ·) (fun e => e < n ∧ P e) l) :
    l.length ≤ n := by
  have hn : l.Nodup := h.1.imp (fun hlt => Nat.ne_of_lt hlt)
  have := List.Nodup.subperm hn (l₂ := List.range n) (fun x hx => List.mem_range.2 ((h.2 x).1 hx).1)
  simpa using this.length_le

/-- The elements reported for a component. -/
theorem elementIssues_exactly {kind : ComponentType} {label : String}
    {check : TopologyComponent → Index → Except Failure (Option String)} {c : TopologyComponent}
    {P : Index → Prop} (hsz : c.nbVertices < 2 ^ 32)
    (hc : (∀ v, ¬ NotAssociated m kind c v) → ∀ e < c.nbElements, Answers (check c e) (P e)) :
    Exactly (· < ·) (fun e => e < c.nbElements ∧ (∀ v, ¬ NotAssociated m kind c v) ∧ P e)
      (elementIssues m kind label check c).issues := by
  unfold elementIssues
  by_cases h : (verticesNotAssociated m kind c).nbIssues = 0
  · have ha := (notAssociated_zero hsz).1 h
    obtain ⟨s, hs, he⟩ := inspectElements_spec (check c) (label ++ m.label kind c.id) c.nbElements P (hc ha)
    rw [h, hs]
    refine ⟨he.1, fun x => (he.2 x).trans ?_⟩
    constructor
    · rintro ⟨h1, h2⟩; exact ⟨h1, ha, h2⟩
    · rintro ⟨h1, _, h2⟩; exact ⟨h1, h2⟩
  · have hb : ((verticesNotAssociated m kind c).nbIssues != 0) = true := by simp [h]
    rw [hb, if_pos rfl]
    refine ⟨List.Pairwise.nil, fun x => ?_⟩
    constructor
    · intro hx; simp [Issues.new] at hx
    · rintro ⟨_, h2, _⟩; exact absurd ((notAssociated_zero hsz).2 h2) h

/-- The effect of the BRep lines criteria on one line. -/
def brepLinesComponentStep (m : TopologyModel) (r : BRepLinesTopologyInspectionResult) (c : TopologyComponent) :
    BRepLinesTopologyInspectionResult :=
  { r with
    lines_not_meshed :=
      if (c.nbVertices == 0 || c.nbElements == 0) = true then
        r.lines_not_meshed.add c.id ("Line " ++ m.label .line c.id ++ " is not meshed")
      else r.lines_not_meshed
    lines_not_linked_to_a_unique_vertex :=
      addNotAssociated m .line "Line " r.lines_not_linked_to_a_unique_vertex c
    line_edges_with_wrong_component_edges_around :=
      r.line_edges_with_wrong_component_edges_around.addIssues c.id
        (elementIssues m .line "Line " (lineEdgeHasWrongComponentEdgesAround m) c) }

variable (aw : AroundWellFormed m)

include wf aw in
theorem lineEdges_answers {c : TopologyComponent} (hc : c ∈ m.components .line)
    (ha : ∀ v, ¬ NotAssociated m .line c v) : ∀ e < c.nbElements,
    Answers (lineEdgeHasWrongComponentEdgesAround m c e) (EdgeIsWrong m c.id e) := by
  intro e he
  refine lineEdge_answers wf aw c e ?_
  intro x hx hn
  exact ha x ⟨aw.edgeVertices c hc e he x hx, hn⟩

include wf aw in
theorem brepLinesComponent_step {c : TopologyComponent} (hc : c ∈ m.components .line)
    (hsz : c.nbVertices < 2 ^ 32) (r : BRepLinesTopologyInspectionResult) :
    brepLinesComponent m r c = .ok (brepLinesComponentStep m r c) := by
  have hmesh : (!lineIsMeshed c) = (c.nbVertices == 0 || c.nbElements == 0) := by
    unfold lineIsMeshed
    cases h1 : c.nbVertices == 0 <;> cases h2 : c.nbElements == 0 <;> simp [bne, h1, h2]
  unfold brepLinesComponent brepLinesComponentStep
  rw [addNotAssociated_eq, hmesh]
  unfold elementIssues
  by_cases h : (verticesNotAssociated m .line c).nbIssues = 0
  · have hb : ((verticesNotAssociated m .line c).nbIssues != 0) = false := by simp [h]
    obtain ⟨s, hs, he⟩ := inspectElements_spec (lineEdgeHasWrongComponentEdgesAround m c)
      ("Line " ++ m.label .line c.id) c.nbElements _ (lineEdges_answers wf aw hc ((notAssociated_zero hsz).1 h))
    simp only [hb, Bool.false_eq_true, if_false, hs, okIssues]
    by_cases h2 : s.nbIssues = 0
    · have hb2 : (s.nbIssues != 0) = false := by simp [h2]
      simp only [bind, Except.bind, hb2, Bool.false_eq_true, if_false]
      rw [addIssues_of_zero _ _ h2]
      rfl
    · have hb2 : (s.nbIssues != 0) = true := by simp [h2]
      simp only [bind, Except.bind, hb2, if_true]
      rfl
  · have hb : ((verticesNotAssociated m .line c).nbIssues != 0) = true := by simp [h]
    simp only [hb, if_true]
    rw [addIssues_of_zero (s := Issues.new "") _ _ rfl]
    rfl

theorem foldl_addVal {R : Type} (step : R → TopologyComponent → R) (proj : R → IssuesMap Index)
    (val : TopologyComponent → Issues Index)
    (h : ∀ r c, proj (step r c) = (proj r).addIssues c.id (val c))
    (l : List TopologyComponent) (r : R) :
    proj (l.foldl step r) = l.foldl (fun map c => map.addIssues c.id (val c)) (proj r) := by
  induction l generalizing r with
  | nil => rfl
  | cons c l ih => rw [List.foldl_cons, ih, h, List.foldl_cons]

theorem mem_active {c : TopologyComponent} {kind : ComponentType} (h : c ∈ m.activeComponents kind) :
    c ∈ m.components kind := (List.mem_filter.1 h).1

include wf aw in
theorem brepLinesComponents_fold (hsz : ∀ c ∈ m.components .line, c.nbVertices < 2 ^ 32 ∧ c.nbElements < 2 ^ 32) :
    ∃ r, (m.activeComponents .line).foldlM (brepLinesComponent m) {} = .ok r ∧ BRepLinesComponents m r ∧
      r.unique_vertices_linked_to_a_line_with_invalid_embeddings.issues = [] ∧
      r.unique_vertices_linked_to_line_with_wrong_relationship_to_surface.issues = [] ∧
      r.unique_vertices_linked_to_a_single_and_invalid_line.issues = [] ∧
      r.unique_vertices_linked_to_several_lines_but_not_linked_to_a_corner.issues = [] := by
  refine ⟨_, foldlM_step _ (brepLinesComponentStep m) _ (fun r c hc =>
    brepLinesComponent_step wf aw (mem_active hc) (hsz c (mem_active hc)).1 r) _, ⟨?_, ?_, ?_⟩, ?_⟩
  · rw [foldl_addUuid (brepLinesComponentStep m)
      (fun r : BRepLinesTopologyInspectionResult => r.lines_not_meshed)
      (fun c => c.nbVertices == 0 || c.nbElements == 0)
      (fun c => "Line " ++ m.label .line c.id ++ " is not meshed") (fun r c => rfl)]
    rfl
  · rw [foldl_addNotAssociated (brepLinesComponentStep m) (fun r : BRepLinesTopologyInspectionResult =>
      r.lines_not_linked_to_a_unique_vertex) .line "Line " (fun r c => rfl)]
    exact notAssociated_mapReports m _ _ _ _ (active_nodup wf _) (fun c hc => (hsz c (mem_active hc)).1)
  · rw [foldl_addVal (brepLinesComponentStep m) (fun r : BRepLinesTopologyInspectionResult =>
      r.line_edges_with_wrong_component_edges_around) _ (fun r c => rfl)]
    have hex : ∀ c ∈ m.activeComponents .line, Exactly (· < ·) (fun e => e < c.nbElements ∧
        (∀ v, ¬ NotAssociated m .line c v) ∧ EdgeIsWrong m c.id e)
        (elementIssues m .line "Line " (lineEdgeHasWrongComponentEdgesAround m) c).issues :=
      fun c hc => elementIssues_exactly (hsz c (mem_active hc)).1
        (fun ha => lineEdges_answers wf aw (mem_active hc) ha)
    refine mapReports_of_adds _ _ _ _ _ (active_nodup wf _) ?_ hex
    intro c hc
    exact lt_of_le_of_lt (exactly_length_le (hex c hc)) (hsz c (mem_active hc)).2
  · refine ⟨?_, ?_, ?_, ?_⟩
    · rw [foldl_keeps (brepLinesComponentStep m)
        (fun r => r.unique_vertices_linked_to_a_line_with_invalid_embeddings) (fun _ _ => rfl)]; rfl
    · rw [foldl_keeps (brepLinesComponentStep m)
        (fun r => r.unique_vertices_linked_to_line_with_wrong_relationship_to_surface) (fun _ _ => rfl)]; rfl
    · rw [foldl_keeps (brepLinesComponentStep m)
        (fun r => r.unique_vertices_linked_to_a_single_and_invalid_line) (fun _ _ => rfl)]; rfl
    · rw [foldl_keeps (brepLinesComponentStep m)
        (fun r => r.unique_vertices_linked_to_several_lines_but_not_linked_to_a_corner) (fun _ _ => rfl)]; rfl

include wf aw in
/-- The inspection of lines of a BRep succeeds exactly when no criterion fails at a unique vertex. -/
theorem brepInspectLines_ok_iff
    (hsz : ∀ c ∈ m.components .line, c.nbVertices < 2 ^ 32 ∧ c.nbElements < 2 ^ 32) :
    (∃ r, brepInspectLines m = .ok r) ↔ ∀ v < m.nbUniqueVertices, BRepLinesOk m v := by
  obtain ⟨r0, h0, _⟩ := brepLinesComponents_fold wf aw hsz
  unfold brepInspectLines
  rw [h0]
  constructor
  · rintro ⟨r, hr⟩ v hv
    exact (foldlM_inv _ (brepLinesStep m) (BRepLinesOk m) (fun r x r' h => brepLinesVertex_inv r x r' h)
      _ _ _ hr).2 v (List.mem_range.2 hv)
  · intro h
    exact ⟨_, foldlM_step _ (brepLinesStep m) _ (fun r x hx => brepLinesVertex_step (h x (List.mem_range.1 hx)) r) _⟩

include wf aw in
theorem brepInspectLines_lists (hsz : ∀ c ∈ m.components .line, c.nbVertices < 2 ^ 32 ∧ c.nbElements < 2 ^ 32)
    {P1 P2 P3 P4 : Index → Prop}
    (h1 : ∀ v < m.nbUniqueVertices, Answers (brepInvalidEmbeddedLine m v) (P1 v))
    (h2 : ∀ v < m.nbUniqueVertices, Answers (brepLineWrongRelationships m v) (P2 v))
    (h3 : ∀ v < m.nbUniqueVertices, Answers (brepInvalidSingleLine m v) (P3 v))
    (h4 : ∀ v < m.nbUniqueVertices, Answers (brepLinesButNotCorner m v) (P4 v)) :
    ∃ r, brepInspectLines m = .ok r ∧ BRepLinesComponents m r ∧
      Exactly (· < ·) (fun v => v < m.nbUniqueVertices ∧ P1 v)
        r.unique_vertices_linked_to_a_line_with_invalid_embeddings.issues ∧
      Exactly (· < ·) (fun v => v < m.nbUniqueVertices ∧ P2 v)
        r.unique_vertices_linked_to_line_with_wrong_relationship_to_surface.issues ∧
      Exactly (· < ·) (fun v => v < m.nbUniqueVertices ∧ P3 v)
        r.unique_vertices_linked_to_a_single_and_invalid_line.issues ∧
      Exactly (· < ·) (fun v => v < m.nbUniqueVertices ∧ P4 v)
        r.unique_vertices_linked_to_several_lines_but_not_linked_to_a_corner.issues := by
  obtain ⟨r0, hr0, hcomp, e1, e2, e3, e4⟩ := brepLinesComponents_fold wf aw hsz
  unfold brepInspectLines
  rw [hr0]
  refine ⟨_, foldlM_step _ (brepLinesStep m) _ (fun r x hx => brepLinesVertex_step ?_ r) _,
    ⟨?_, ?_, ?_⟩, ?_, ?_, ?_, ?_⟩
  · have hv := List.mem_range.1 hx
    exact ⟨⟨_, (h1 x hv).eq⟩, ⟨_, (h2 x hv).eq⟩, ⟨_, (h3 x hv).eq⟩, ⟨_, (h4 x hv).eq⟩⟩
  · rw [foldl_keeps (brepLinesStep m) (fun r => r.lines_not_meshed) (fun _ _ => rfl)]; exact hcomp.1
  · rw [foldl_keeps (brepLinesStep m) (fun r => r.lines_not_linked_to_a_unique_vertex) (fun _ _ => rfl)]
    exact hcomp.2.1
  · rw [foldl_keeps (brepLinesStep m) (fun r => r.line_edges_with_wrong_component_edges_around) (fun _ _ => rfl)]
    exact hcomp.2.2
  · exact exactly_check _ (fun r : BRepLinesTopologyInspectionResult =>
      r.unique_vertices_linked_to_a_line_with_invalid_embeddings) _ _ _ (fun _ _ => rfl) h1 _ e1
  · exact exactly_check _ (fun r : BRepLinesTopologyInspectionResult =>
      r.unique_vertices_linked_to_line_with_wrong_relationship_to_surface) _ _ _ (fun _ _ => rfl) h2 _ e2
  · exact exactly_check _ (fun r : BRepLinesTopologyInspectionResult =>
      r.unique_vertices_linked_to_a_single_and_invalid_line) _ _ _ (fun _ _ => rfl) h3 _ e3
  · exact exactly_check _ (fun r : BRepLinesTopologyInspectionResult =>
      r.unique_vertices_linked_to_several_lines_but_not_linked_to_a_corner) _ _ _ (fun _ _ => rfl) h4 _ e4

end Inspector
