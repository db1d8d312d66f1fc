import Verif.Proofs.TopologyLinesInspect
/-! Checks which may fail: when they do not, they answer their criterion. -/
namespace Inspector
open Spec

/-- If the check does not fail, it finds something exactly when `P` holds. -/
def AnswersIf (e : Except Failure (Option String)) (P : Prop) : Prop :=
  ∀ o, e = .ok o → (o.isSome = true ↔ P)

theorem AnswersIf.congr {e : Except Failure (Option String)} {P Q : Prop} (h : AnswersIf e P) (hpq : P ↔ Q) :
    AnswersIf e Q := fun o ho => (h o ho).trans hpq

theorem Answers.toIf {e : Except Failure (Option String)} {P : Prop} (h : Answers e P) : AnswersIf e P := by
  obtain ⟨o, rfl, hp⟩ := h
  intro o' ho
  rw [← Except.ok.inj ho]; exact hp

theorem AnswersIf.toAnswers {e : Except Failure (Option String)} {P : Prop} (h : AnswersIf e P)
    (hok : ∃ o, e = .ok o) : Answers e P := by
  obtain ⟨o, rfl⟩ := hok
  exact ⟨o, rfl, h o rfl⟩

theorem answersIf_error {f : Failure} {P : Prop} : AnswersIf (.error f) P := by
  intro o ho; exact absurd ho (by simp)

theorem answersIf_iteP {c : Prop} [Decidable c] {a b : Except Failure (Option String)} {P : Prop}
    (ha : c → AnswersIf a P) (hb : ¬ c → AnswersIf b P) : AnswersIf (if c then a else b) P := by
  split
  · exact ha ‹_›
  · exact hb ‹_›

theorem findSomeM_answersIf {α : Type} (f : α → Except Failure (Option String)) (P : α → Prop) (l : List α)
    (h : ∀ x ∈ l, AnswersIf (f x) (P x)) : AnswersIf (findSomeM f l) (∃ x ∈ l, P x) := by
  induction l with
  | nil => exact (answers_none (by simp)).toIf
  | cons x l ih =>
    rw [findSomeM]
    cases hf : f x with
    | error e => exact answersIf_error
    | ok o =>
      have hx := h x (by simp) o hf
      cases o with
      | some s => exact (answers_some _ ⟨x, by simp, hx.1 rfl⟩).toIf
      | none =>
        have hx' : ¬ P x := by simpa using hx
        refine (ih (fun y hy => h y (by simp [hy]))).congr ?_
        simp [hx']

variable {m : TopologyModel} (wf : WellFormed m) {v : Index} (hv : v < m.nbUniqueVertices)

include wf in
theorem brepEmbeddedLine_answersIf (hv : v < m.nbUniqueVertices) :
    AnswersIf (brepInvalidEmbeddedLine m v) (BRepInvalidEmbeddedLine m v) := by
  unfold brepInvalidEmbeddedLine BRepInvalidEmbeddedLine
  refine AnswersIf.congr (findSomeM_answersIf _ (fun cmv => ActiveCmv m .line cmv ∧
    ∃ e ∈ m.embeddings cmv.component_id.id, EmbeddingWrong m v cmv.component_id.id e) _ ?_)
    (activeAt_iff (P := fun line => ∃ e ∈ m.embeddings line, EmbeddingWrong m v line e))
  intro cmv hm
  by_cases ha : ActiveCmv m .line cmv
  · rw [ifActive_pos (wf.ids .line) ha]
    refine AnswersIf.congr (P := ∃ e ∈ m.embeddings cmv.component_id.id, EmbeddingWrong m v cmv.component_id.id e)
      ?_ (by simp [ha])
    unfold brepEmbeddingLoop
    refine findSomeM_answersIf _ _ _ ?_
    intro e he
    have hany : (m.componentMeshVertices v).any (fun cmv => cmv.component_id == e) = true ↔ At m v e.type e.id := by
      rw [List.any_eq_true]
      unfold At
      simp
    refine answersIf_iteP (fun hb => ?_) (fun hb => answersIf_iteP (fun hm => ?_)
      (fun hm => answersIf_iteP (fun hn => ?_) (fun hn => ?_)))
    · split
      · exact answersIf_error
      · exact (answers_some _ (Or.inl hb)).toIf
    · refine (answers_none ?_).toIf
      rw [Bool.and_eq_true, beq_iff_eq, Bool.not_eq_true', ← Bool.not_eq_true, brepBlocksAreMeshed_iff] at hm
      rintro (h | h)
      · exact hb h
      · exact hm.2 (h.1 hm.1)
    · split
      · exact answersIf_error
      · refine (answers_some _ (Or.inr ⟨?_, ?_⟩)).toIf
        · intro ht
          rw [Bool.and_eq_true, beq_iff_eq, Bool.not_eq_true', ← Bool.not_eq_true, brepBlocksAreMeshed_iff] at hm
          by_contra hc; exact hm ⟨ht, hc⟩
        · rw [Bool.not_eq_true', ← Bool.not_eq_true, hany] at hn; exact hn
    · refine (answers_none ?_).toIf
      rw [Bool.not_eq_true', ← Bool.not_eq_true, hany, not_not] at hn
      rintro (h | h)
      · exact hb h
      · exact h.2 hn
  · rw [ifActive_neg (wf.ids .line) (wf.vertices v hv cmv hm) ha]
    exact (answers_none (fun h => ha h.1)).toIf

variable (aw : AroundWellFormed m)

include wf aw in
theorem brepLineRelationships_answersIf (line : TopologyComponent) :
    AnswersIf (brepLineRelationships m v line) (line.nbElements ≠ 0 ∧ FirstEdgeIsWrong m line.id) := by
  by_cases h : line.nbElements ≠ 0 ∧ ∃ x ∈ m.lineEdgeVertices line.id 0, m.uniqueVertex ⟨⟨.line, line.id⟩, x⟩ = none
  · obtain ⟨h0, x, hx, hn⟩ := h
    have : m.componentMeshEdges line.id 0 = .error .undefinedBehaviour := by
      unfold TopologyModel.componentMeshEdges
      rw [if_pos]
      rw [List.any_eq_true]
      exact ⟨x, hx, by simp [hn]⟩
    unfold brepLineRelationships
    rw [this]
    have h0' : (line.nbElements == 0) = false := by simpa using h0
    rw [h0']
    exact answersIf_error
  · refine (brepLineRelationships_answers wf aw line ?_).toIf
    intro h0 x hx hn
    exact h ⟨h0, x, hx, hn⟩

include wf aw in
theorem brepLineWrong_answersIf (hv : v < m.nbUniqueVertices) :
    AnswersIf (brepLineWrongRelationships m v) (BRepLineWrong m v) := by
  unfold brepLineWrongRelationships BRepLineWrong
  refine AnswersIf.congr (P := ∃ cmv ∈ m.componentMeshVertices v, ActiveCmv m .line cmv ∧
    ((∃ c ∈ m.components .line, c.id = cmv.component_id.id ∧ c.nbElements ≠ 0) ∧
      FirstEdgeIsWrong m cmv.component_id.id)) (findSomeM_answersIf _ _ _ ?_)
    (activeAt_iff (P := fun line => (∃ c ∈ m.components .line, c.id = line ∧ c.nbElements ≠ 0) ∧
      FirstEdgeIsWrong m line))
  intro cmv hm
  refine answersIf_iteP (fun ht => (answers_none (fun hp => ?_)).toIf) (fun ht => ?_)
  · simp [hp.1.1] at ht
  have ht' : cmv.component_id.type = .line := by simpa using ht
  have hh := wf.vertices v hv cmv hm
  rw [ht'] at hh
  obtain ⟨c, hc, hmem, hid, hact⟩ := component_ok (wf.ids .line) hh
  rw [hc]
  refine answersIf_iteP (fun ha => (answers_none (fun hp => ?_)).toIf) (fun ha => ?_)
  · simp [hact.2 hp.1.2] at ha
  have ha' : c.active = true := by simpa using ha
  refine (brepLineRelationships_answersIf wf aw c).congr ?_
  rw [hid]
  constructor
  · rintro ⟨hn, hw⟩
    exact ⟨⟨ht', hact.1 ha'⟩, ⟨c, hmem, hid, hn⟩, hw⟩
  · rintro ⟨_, ⟨d, hd, hdid, hn⟩, hw⟩
    have : d = c := List.inj_on_of_nodup_map (wf.ids .line) hd hmem (by rw [hdid, hid])
    rw [← this]
    exact ⟨hn, hw⟩

/-- When the inspection of the lines of a BRep completes, every list is exact. -/
theorem brepInspectLines_exact (wf : WellFormed m) (aw : AroundWellFormed m)
    (hsz : ∀ c ∈ m.components .line, c.nbVertices < 2 ^ 32 ∧ c.nbElements < 2 ^ 32)
    {r : BRepLinesTopologyInspectionResult} (hr : brepInspectLines m = .ok r) :
    BRepLinesComponents m r ∧
      Exactly (· < ·) (fun v => v < m.nbUniqueVertices ∧ BRepInvalidEmbeddedLine m v)
        r.unique_vertices_linked_to_a_line_with_invalid_embeddings.issues ∧
      Exactly (· < ·) (fun v => v < m.nbUniqueVertices ∧ BRepLineWrong m v)
        r.unique_vertices_linked_to_line_with_wrong_relationship_to_surface.issues ∧
      Exactly (· < ·) (fun v => v < m.nbUniqueVertices ∧ BRepInvalidSingleLine m v)
        r.unique_vertices_linked_to_a_single_and_invalid_line.issues ∧
      Exactly (· < ·) (fun v => v < m.nbUniqueVertices ∧ LinesWithoutCorner m v)
        r.unique_vertices_linked_to_several_lines_but_not_linked_to_a_corner.issues := by
  have hok := (brepInspectLines_ok_iff wf aw hsz).1 ⟨r, hr⟩
  obtain ⟨r', hr', h⟩ := brepInspectLines_lists wf aw hsz
    (fun v hv => (brepEmbeddedLine_answersIf wf hv).toAnswers (hok v hv).1)
    (fun v hv => (brepLineWrong_answersIf wf aw hv).toAnswers (hok v hv).2.1)
    (fun v hv => brepSingleLine_answers wf hv) (fun v hv => brepLinesButNotCorner_answers wf hv)
  rw [hr] at hr'
  rw [Except.ok.inj hr']
  exact h

include wf aw in
/-- When the inspection of the lines of a BRep completes, the boolean function agrees with it. -/
theorem brepLines_agree (hv : v < m.nbUniqueVertices)
    (hsz : ∀ c ∈ m.components .line, c.nbVertices < 2 ^ 32 ∧ c.nbElements < 2 ^ 32)
    {r : BRepLinesTopologyInspectionResult} (hr : brepInspectLines m = .ok r) :
    ∃ b, brepLinesTopologyIsValid m v = .ok b ∧ (b = true ↔
      v ∉ r.unique_vertices_linked_to_a_line_with_invalid_embeddings.issues ∧
      v ∉ r.unique_vertices_linked_to_line_with_wrong_relationship_to_surface.issues ∧
      v ∉ r.unique_vertices_linked_to_a_single_and_invalid_line.issues ∧
      v ∉ r.unique_vertices_linked_to_several_lines_but_not_linked_to_a_corner.issues) := by
  have hok := (brepInspectLines_ok_iff wf aw hsz).1 ⟨r, hr⟩
  obtain ⟨r', hr', _, h1, h2, h3, h4⟩ := brepInspectLines_lists wf aw hsz
    (fun v hv => answers_self (hok v hv).1) (fun v hv => answers_self (hok v hv).2.1)
    (fun v hv => answers_self (hok v hv).2.2.1) (fun v hv => answers_self (hok v hv).2.2.2)
  rw [hr] at hr'
  rw [Except.ok.inj hr']
  refine (brepLines_decides_self wf hv (hok v hv)).congr ?_
  rw [h1.2, h2.2, h3.2, h4.2]
  simp [hv]

end Inspector
