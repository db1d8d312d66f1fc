import Verif.Proofs.TopologyLines
import Verif.Proofs.HashMap
/-! Lines of a BRep: each check answers its criterion. -/
namespace Inspector
open Spec

variable {m : TopologyModel} (wf : WellFormed m) {v : Index} (hv : v < m.nbUniqueVertices)

/-- `auto r = e; if( r ) return r; ...` -/
theorem answers_chain {e k : Except Failure (Option String)} {P Q : Prop} (he : Answers e P)
    (hk : Answers k Q) :
    Answers (e >>= fun o => if o.isSome = true then pure o else k) (P ∨ Q) := by
  obtain ⟨o, rfl, hp⟩ := he
  obtain ⟨o', rfl, hq⟩ := hk
  cases o with
  | none => exact ⟨o', rfl, by simp at hp; rw [hq]; simp [hp]⟩
  | some s => exact ⟨some s, rfl, by simp at hp; simp [hp]⟩

/-- A lookup of an existing component followed by a test of its activity. -/
theorem answers_component {kind : ComponentType} {id : Uuid} (wf : WellFormed m) (h : Has m kind id)
    (body : TopologyComponent → Except Failure (Option String)) (P : Prop)
    (hb : ∀ c ∈ m.components kind, c.id = id → (c.active = true ↔ Active m kind id) → Answers (body c) P) :
    Answers (match m.component kind id with | .error f => .error f | .ok c => body c) P := by
  obtain ⟨c, hc, hm, hid, hact⟩ := component_ok (wf.ids _) h
  rw [hc]
  exact hb c hm hid hact

include wf in
theorem has_of_at (hv : v < m.nbUniqueVertices) {kind : ComponentType} {id : Uuid} (h : At m v kind id) :
    Has m kind id := by
  obtain ⟨cmv, hm, hc⟩ := h
  have := wf.vertices v hv cmv hm
  rwa [hc] at this

include wf in
theorem brepEmbeddingLoop_answers (line : Uuid)
    (hs : ∀ e ∈ m.embeddings line, EmbeddingWrong m v line e → e.type = .surface) :
    Answers (brepEmbeddingLoop m v line) (∃ e ∈ m.embeddings line, EmbeddingWrong m v line e) := by
  unfold brepEmbeddingLoop
  refine findSomeM_answers _ _ _ ?_
  intro e he
  have hh : EmbeddingWrong m v line e → ∃ c, m.component .surface e.id = .ok c := by
    intro hw
    have := wf.embeddings _ e he
    rw [hs e he hw] at this
    obtain ⟨c, hc, _⟩ := component_ok (wf.ids _) this
    exact ⟨c, hc⟩
  refine answers_iteP (fun hb => ?_) (fun hb => ?_)
  · have hw : EmbeddingWrong m v line e := Or.inl hb
    obtain ⟨c, hc⟩ := hh hw
    rw [hc]
    exact answers_some _ hw
  refine answers_iteP (fun hk => answers_none ?_) (fun hk => ?_)
  · rw [Bool.and_eq_true, Bool.not_eq_true', ← Bool.not_eq_true, brepBlocksAreMeshed_iff] at hk
    rintro (h | h)
    · exact hb h
    · exact hk.2 (h.1 (by simpa using hk.1))
  have hk' : e.type = .block → AllMeshed m .block := by
    intro ht
    rw [← brepBlocksAreMeshed_iff]
    simpa [ht] using hk
  have hany : ((m.componentMeshVertices v).any fun cmv => cmv.component_id == e) = true ↔
      At m v e.type e.id := by
    unfold At
    simp
  refine answers_iteP (fun ha => ?_) (fun ha => answers_none ?_)
  · rw [Bool.not_eq_true', ← Bool.not_eq_true, hany] at ha
    have hw : EmbeddingWrong m v line e := Or.inr ⟨hk', ha⟩
    obtain ⟨c, hc⟩ := hh hw
    rw [hc]
    exact answers_some _ hw
  · rw [Bool.not_eq_true', ← Bool.not_eq_true, hany, not_not] at ha
    rintro (h | h)
    · exact hb h
    · exact h.2 ha

include wf hv in
theorem brepEmbeddedLine_answers
    (hs : ∀ line, ActiveAt m v .line line → ∀ e ∈ m.embeddings line,
      EmbeddingWrong m v line e → e.type = .surface) :
    Answers (brepInvalidEmbeddedLine m v) (BRepInvalidEmbeddedLine m v) := by
  refine activeLoop_answers wf hv .line _ (fun line => ∃ e ∈ m.embeddings line, EmbeddingWrong m v line e) ?_
  rintro cmv hm ⟨ht, ha⟩
  exact brepEmbeddingLoop_answers wf _ (hs _ ⟨⟨cmv, hm, by rw [← ht]⟩, ha⟩)

theorem related_nil {l : List ComponentID} {kind : ComponentType} :
    (m.related l kind).length < 1 ↔ ∀ s, ⟨kind, s⟩ ∉ l := by
  have : (m.related l kind).length < 1 ↔ m.related l kind = [] := by
    rw [← List.length_eq_zero_iff]; omega
  rw [this, List.eq_nil_iff_forall_not_mem]
  simp only [mem_related]

include wf hv in
theorem brepSingleLine_answers : Answers (brepInvalidSingleLine m v) (BRepInvalidSingleLine m v) := by
  have hnot : ∀ {l : List Uuid}, componentsUuids m v .line = l → (∀ x, l ≠ [x]) →
      ¬ BRepInvalidSingleLine m v := by
    rintro l hl hx ⟨line, ⟨hat, _⟩, huniq, _⟩
    apply hx line
    rw [← hl]
    rw [singleton_iff (componentsUuids_nodup _ _ _)]
    exact ⟨mem_componentsUuids.2 hat, fun x hx => huniq x (mem_componentsUuids.1 hx)⟩
  unfold brepInvalidSingleLine
  split
  case h_2 hne => exact answers_none (hnot rfl (fun x hx => hne x hx))
  case h_1 line hl =>
  rw [singleton_iff (componentsUuids_nodup _ _ _)] at hl
  obtain ⟨hmem, huniq⟩ := hl
  have hat := mem_componentsUuids.1 hmem
  have huniq' : ∀ l, At m v .line l → l = line := fun l h => huniq l (mem_componentsUuids.2 h)
  refine answers_component wf (has_of_at wf hv hat) _ _ ?_
  intro c _ _ hact
  have hsub : ∀ {P Q : Uuid → Prop},
      (∃ l, ActiveAt m v .line l ∧ (∀ l', At m v .line l' → l' = l) ∧ P l ∧ Q l) ↔
      Active m .line line ∧ P line ∧ Q line := by
    intro P Q
    constructor
    · rintro ⟨l, ⟨h1, h2⟩, _, hp⟩
      have := huniq' l h1
      subst this
      exact ⟨h2, hp⟩
    · rintro ⟨h2, hp⟩
      exact ⟨line, ⟨hat, h2⟩, huniq', hp⟩
  unfold BRepInvalidSingleLine
  rw [hsub (P := fun line => _ ∨ _) (Q := fun line => _ ∨ _)]
  refine answers_iteP (fun ha => answers_none (fun hp => ?_)) (fun ha => ?_)
  · simp [hact.2 hp.1] at ha
  have ha' : Active m .line line := hact.1 (by simpa using ha)
  have hrel : (decide ((m.related (m.embeddings line) .surface).length < 1) &&
      decide (m.nbIncidences line < 1)) = true ↔
      ¬ ((∃ s, ⟨.surface, s⟩ ∈ m.embeddings line) ∨ m.incidences line ≠ []) := by
    rw [Bool.and_eq_true, decide_eq_true_eq, decide_eq_true_eq, related_nil]
    unfold TopologyModel.nbIncidences
    simp
  refine answers_iteP (fun hr => answers_none (fun hp => hrel.1 hr hp.2.1)) (fun hr => ?_)
  have hr' : (∃ s, ⟨.surface, s⟩ ∈ m.embeddings line) ∨ m.incidences line ≠ [] := by
    by_contra h; exact hr (hrel.2 h)
  have hnd := componentsUuids_nodup m v .surface
  split
  case h_1 s hs =>
    rw [singleton_iff hnd] at hs
    obtain ⟨hsm, hsu⟩ := hs
    have hsat := mem_componentsUuids.1 hsm
    have hsu' : ∀ s', At m v .surface s' → s' = s := fun s' h => hsu s' (mem_componentsUuids.2 h)
    have hcond : (!m.isInternal line s && !(decide (m.nbEmbeddings s > 0) || m.isBoundary line s)) = true ↔
        m.isInternal line s = false ∧ m.embeddings s = [] ∧ m.isBoundary line s = false := by
      unfold TopologyModel.nbEmbeddings
      simp
    refine answers_iteP (fun h => ?_) (fun h => answers_none ?_)
    · refine answers_component wf (has_of_at wf hv hsat) _ _ (fun _ _ _ _ => answers_some _ ?_)
      exact ⟨ha', hr', Or.inl ⟨s, hsat, hsu', hcond.1 h⟩⟩
    · rintro ⟨_, _, ⟨s', hs', _, hx⟩ | ⟨hx, _⟩ | ⟨s1, s2, hne, h1, h2, _⟩⟩
      · rw [hsu' s' hs'] at hx
        exact h (hcond.2 hx)
      · exact hx s hsat
      · exact hne ((hsu' s1 h1).trans (hsu' s2 h2).symm)
  case h_2 hs =>
    have hno : ∀ s, ¬ At m v .surface s := by
      intro s h
      have := mem_componentsUuids.2 h
      rw [hs] at this
      simp at this
    have hbd := componentsUuids_nodup m v .block
    refine answers_iteP (fun hb => answers_none ?_) (fun hb => ?_)
    · rw [Bool.not_eq_true', ← Bool.not_eq_true, brepBlocksAreMeshed_iff] at hb
      rintro ⟨_, _, ⟨s', hs', _⟩ | ⟨_, hx, _⟩ | ⟨s1, s2, hne, h1, h2, _⟩⟩
      · exact hno _ hs'
      · exact hb hx
      · exact hno _ h1
    rw [Bool.not_eq_true', ← Bool.not_eq_true, brepBlocksAreMeshed_iff, not_not] at hb
    refine answers_iteP (fun hlen => answers_some _ ?_) (fun hlen => ?_)
    · refine ⟨ha', hr', Or.inr (Or.inl ⟨hno, hb, ?_⟩)⟩
      rintro ⟨b, hbat, hbu, _⟩
      have : componentsUuids m v .block = [b] := by
        rw [singleton_iff hbd]
        exact ⟨mem_componentsUuids.2 hbat, fun x hx => hbu x (mem_componentsUuids.1 hx)⟩
      simp [this] at hlen
    obtain ⟨b, hbl⟩ := List.length_eq_one_iff.1 (show (componentsUuids m v .block).length = 1 by
      simpa using hlen)
    have hbl' := hbl
    rw [singleton_iff hbd] at hbl'
    have hbat := mem_componentsUuids.1 hbl'.1
    have hbu : ∀ x, At m v .block x → x = b := fun x h => hbl'.2 x (mem_componentsUuids.2 h)
    rw [hbl]
    refine answers_iteP (fun hi => answers_some _ ?_) (fun hi => answers_none ?_)
    · refine ⟨ha', hr', Or.inr (Or.inl ⟨hno, hb, ?_⟩)⟩
      rintro ⟨x, hx, _, hint⟩
      rw [hbu x hx] at hint
      simp [hint] at hi
    · rintro ⟨_, _, ⟨s', hs', _⟩ | ⟨_, _, hx⟩ | ⟨s1, s2, hne, h1, h2, _⟩⟩
      · exact hno _ hs'
      · exact hx ⟨b, hbat, hbu, by simpa using hi⟩
      · exact hno _ h1
  case h_3 h1 h0 =>
    have hmany : ∀ s, At m v .surface s → ∃ s', s ≠ s' ∧ At m v .surface s' := by
      intro s hs
      by_contra hc
      push Not at hc
      apply h1 s
      rw [singleton_iff hnd]
      refine ⟨mem_componentsUuids.2 hs, fun x hx => ?_⟩
      by_contra hne
      exact hc x (fun h => hne h.symm) (mem_componentsUuids.1 hx)
    refine (findSomeM_answers _ (fun s => m.isBoundary line s = false ∧ m.isInternal line s = false) _ ?_).congr ?_
    · intro s hs
      refine answers_component wf (has_of_at wf hv (mem_componentsUuids.1 hs)) _ _ ?_
      intro _ _ _ _
      exact answers_iteP (fun h => answers_some _ (by simpa using h)) (fun h => answers_none (by simpa using h))
    · constructor
      · rintro ⟨s, hs, hb⟩
        obtain ⟨s', hne, hs'⟩ := hmany s (mem_componentsUuids.1 hs)
        exact ⟨ha', hr', Or.inr (Or.inr ⟨s, s', hne, mem_componentsUuids.1 hs, hs', hb⟩)⟩
      · rintro ⟨_, _, ⟨s', hs', hu, _⟩ | ⟨hx, _⟩ | ⟨s1, s2, hne, h1, h2, hb⟩⟩
        · obtain ⟨s2, hne, hs2⟩ := hmany s' hs'
          exact absurd (hu s2 hs2) (fun h => hne h.symm)
        · exfalso
          apply h0
          rw [List.eq_nil_iff_forall_not_mem]
          exact fun s h => hx s (mem_componentsUuids.1 h)
        · exact ⟨s1, mem_componentsUuids.2 h1, hb⟩

/-! Edges around -/

theorem componentMeshEdges_ok {line edge : Nat}
    (h : ∀ x ∈ m.lineEdgeVertices line edge, m.uniqueVertex ⟨⟨.line, line⟩, x⟩ ≠ none) :
    m.componentMeshEdges line edge = .ok (m.surfaceEdges line edge, m.blockEdges line edge) := by
  unfold TopologyModel.componentMeshEdges
  have : ((m.lineEdgeVertices line edge).any fun v => m.uniqueVertex ⟨⟨.line, line⟩, v⟩ == none) = false := by
    rw [List.any_eq_false]
    intro x hx
    simpa using h x hx
  rw [this]
  rfl

variable (aw : AroundWellFormed m)

include wf aw in
theorem brepLineRelationships_answers (line : TopologyComponent)
    (has : line.nbElements ≠ 0 → ∀ x ∈ m.lineEdgeVertices line.id 0,
      m.uniqueVertex ⟨⟨.line, line.id⟩, x⟩ ≠ none) :
    Answers (brepLineRelationships m v line) (line.nbElements ≠ 0 ∧ FirstEdgeIsWrong m line.id) := by
  unfold brepLineRelationships
  by_cases h0 : line.nbElements = 0
  · refine answers_iteP (fun _ => answers_none (by simp [h0])) (fun h => absurd (by simpa using h0) h)
  have h0' : (line.nbElements == 0) = false := by simpa using h0
  simp only [h0', Bool.false_eq_true, if_false]
  rw [componentMeshEdges_ok (has h0)]
  refine Answers.congr (P := (∃ s ∈ m.related (m.incidences line.id) .surface, Active m .surface s ∧
      (m.surfaceEdges line.id 0).find? s ≠ some 1) ∨
    (∃ s ∈ m.related (m.embeddings line.id) .surface, Active m .surface s ∧
      ¬ ∃ n, (m.surfaceEdges line.id 0).find? s = some n ∧ 2 ≤ n) ∨
    ((m.incidences line.id = [] ∧ (∀ s, ⟨.surface, s⟩ ∉ m.embeddings line.id)) ∧
      ∃ s ∈ (m.iterate (m.surfaceEdges line.id 0)).map Prod.fst, Active m .surface s)) ?_ ?_
  · refine answers_chain (findSomeM_answers _ _ _ ?_) (answers_chain (findSomeM_answers _ _ _ ?_) ?_)
    · intro s hs
      refine answers_component wf (wf.incidences _ _ (mem_related.1 hs)) _ _ ?_
      intro c _ _ hact
      refine answers_iteP (fun ha => answers_none (fun hp => ?_)) (fun ha => ?_)
      · simp [hact.2 hp.1] at ha
      have ha' : Active m .surface s := hact.1 (by simpa using ha)
      cases hf : (m.surfaceEdges line.id 0).find? s with
      | none => exact answers_some _ ⟨ha', by simp⟩
      | some n =>
        refine answers_iteP (fun hn => answers_some _ ⟨ha', ?_⟩) (fun hn => answers_none (fun hp => ?_))
        · simpa using hn
        · have : n = 1 := by simpa using hn
          exact hp.2 (by rw [this])
    · intro s hs
      refine answers_component wf (wf.embeddings _ _ (mem_related.1 hs)) _ _ ?_
      intro c _ _ hact
      refine answers_iteP (fun ha => answers_none (fun hp => ?_)) (fun ha => ?_)
      · simp [hact.2 hp.1] at ha
      have ha' : Active m .surface s := hact.1 (by simpa using ha)
      cases hf : (m.surfaceEdges line.id 0).find? s with
      | none => exact answers_some _ ⟨ha', by simp⟩
      | some n =>
        refine answers_iteP (fun hn => answers_some _ ⟨ha', ?_⟩) (fun hn => answers_none (fun hp => ?_))
        · rintro ⟨n', hn', h2⟩
          simp only [Option.some.injEq] at hn'
          omega
        · exact hp.2 ⟨n, rfl, by omega⟩
    · have hcond : (m.nbIncidences line.id == 0 &&
          (m.related (m.embeddings line.id) .surface).length == 0) = true ↔
          (m.incidences line.id = [] ∧ ∀ s, ⟨.surface, s⟩ ∉ m.embeddings line.id) := by
        rw [Bool.and_eq_true, beq_iff_eq, beq_iff_eq, ← Nat.lt_one_iff (n := List.length _), related_nil]
        unfold TopologyModel.nbIncidences
        rw [List.length_eq_zero_iff]
      refine answers_iteP (fun h => ?_) (fun h => answers_none (fun hp => h (hcond.2 hp.1)))
      refine (findSomeM_answers _ (fun s => Active m .surface s) _ ?_).congr ?_
      · intro s hs
        have hh : Has m .surface s := by
          obtain ⟨e, he, rfl⟩ := List.mem_map.1 hs
          exact aw.surfaces _ _ _ e.2 ((aw.iterate _).mem_iff.1 he)
        refine answers_component wf hh _ _ ?_
        intro c _ _ hact
        exact answers_iteP (fun ha => answers_some _ (hact.1 ha)) (fun ha => answers_none (fun hp => ha (hact.2 hp)))
      · constructor
        · intro hp; exact ⟨hcond.1 h, hp⟩
        · intro hp; exact hp.2
  · unfold FirstEdgeIsWrong
    simp only [mem_related, ne_eq, h0, not_false_eq_true, true_and]
    have : (∃ s ∈ (m.iterate (m.surfaceEdges line.id 0)).map Prod.fst, Active m .surface s) ↔
        ∃ s n, (s, n) ∈ m.surfaceEdges line.id 0 ∧ Active m .surface s := by
      constructor
      · rintro ⟨s, hs, ha⟩
        obtain ⟨e, he, rfl⟩ := List.mem_map.1 hs
        exact ⟨e.1, e.2, (aw.iterate _).mem_iff.1 he, ha⟩
      · rintro ⟨s, n, hs, ha⟩
        exact ⟨s, List.mem_map.2 ⟨(s, n), (aw.iterate _).mem_iff.2 hs, rfl⟩, ha⟩
    rw [this, and_assoc]

include wf hv aw in
theorem brepLineWrong_answers
    (has : ∀ c ∈ m.components .line, c.active = true → At m v .line c.id → c.nbElements ≠ 0 →
      ∀ x ∈ m.lineEdgeVertices c.id 0, m.uniqueVertex ⟨⟨.line, c.id⟩, x⟩ ≠ none) :
    Answers (brepLineWrongRelationships m v) (BRepLineWrong m v) := by
  unfold brepLineWrongRelationships BRepLineWrong
  refine Answers.congr (P := ∃ cmv ∈ m.componentMeshVertices v, ActiveCmv m .line cmv ∧
    ((∃ c ∈ m.components .line, c.id = cmv.component_id.id ∧ c.nbElements ≠ 0) ∧
      FirstEdgeIsWrong m cmv.component_id.id)) (findSomeM_answers _ _ _ ?_)
    (activeAt_iff (P := fun line => (∃ c ∈ m.components .line, c.id = line ∧ c.nbElements ≠ 0) ∧
      FirstEdgeIsWrong m line))
  intro cmv hm
  refine answers_iteP (fun ht => answers_none (fun hp => ?_)) (fun ht => ?_)
  · simp [hp.1.1] at ht
  have ht' : cmv.component_id.type = .line := by simpa using ht
  have hh := wf.vertices v hv cmv hm
  rw [ht'] at hh
  refine answers_component wf hh _ _ ?_
  intro c hc hid hact
  refine answers_iteP (fun ha => answers_none (fun hp => ?_)) (fun ha => ?_)
  · simp [hact.2 hp.1.2] at ha
  have ha' : c.active = true := by simpa using ha
  have hat : At m v .line c.id := ⟨cmv, hm, by rw [hid, ← ht']⟩
  refine (brepLineRelationships_answers wf aw c (has c hc ha' hat)).congr ?_
  rw [hid]
  constructor
  · rintro ⟨hn, hw⟩
    exact ⟨⟨ht', hact.1 ha'⟩, ⟨c, hc, hid, hn⟩, hw⟩
  · rintro ⟨_, ⟨d, hd, hdid, hn⟩, hw⟩
    have : d = c := List.inj_on_of_nodup_map (wf.ids .line) hd hc (by rw [hdid, hid])
    rw [← this]
    exact ⟨hn, hw⟩

theorem find?_isNone {V : Type} (map : HMap Uuid V) (k : Uuid) :
    (map.find? k).isNone = true ↔ ∀ n, (k, n) ∉ map := by
  rw [Option.isNone_iff_eq_none, HMap.find?_none_iff, List.mem_map]
  constructor
  · intro h n hn; exact h ⟨(k, n), hn, rfl⟩
  · rintro h ⟨⟨a, n⟩, he, rfl⟩; exact h n he

include wf aw in
theorem lineEdge_answers (line : TopologyComponent) (edge : Index)
    (has : ∀ x ∈ m.lineEdgeVertices line.id edge, m.uniqueVertex ⟨⟨.line, line.id⟩, x⟩ ≠ none) :
    Answers (lineEdgeHasWrongComponentEdgesAround m line edge) (EdgeIsWrong m line.id edge) := by
  unfold lineEdgeHasWrongComponentEdgesAround
  rw [componentMeshEdges_ok has]
  refine Answers.congr (P := (∃ e ∈ m.iterate (m.surfaceEdges line.id edge), Active m .surface e.1 ∧
      ¬ (m.isBoundary line.id e.1 = true ∧ e.2 = 1) ∧
      ¬ (m.isBoundary line.id e.1 = false ∧ m.isInternal line.id e.1 = true ∧ e.2 = 2)) ∨
    (∃ s ∈ m.related (m.embeddings line.id) .surface, Active m .surface s ∧
      ∀ n, (s, n) ∉ m.surfaceEdges line.id edge) ∨
    (∃ s ∈ m.related (m.incidences line.id) .surface, Active m .surface s ∧
      ∀ n, (s, n) ∉ m.surfaceEdges line.id edge) ∨
    (∃ e ∈ m.iterate (m.blockEdges line.id edge), Active m .block e.1 ∧
      m.isInternal line.id e.1 = true ∧ e.2 ≠ 1) ∨
    (∃ b ∈ m.related (m.embeddings line.id) .block, ∃ c ∈ m.components .block, c.id = b ∧ c.active = true ∧
      c.nbElements ≠ 0 ∧ ∀ n, (b, n) ∉ m.blockEdges line.id edge)) ?_ ?_
  · refine answers_chain (findSomeM_answers _ _ _ ?_) (answers_chain (findSomeM_answers _ _ _ ?_)
      (answers_chain (findSomeM_answers _ _ _ ?_) (answers_chain (findSomeM_answers _ _ _ ?_)
        (findSomeM_answers _ _ _ ?_))))
    · intro e he
      refine answers_component wf (aw.surfaces _ _ _ e.2 ((aw.iterate _).mem_iff.1 he)) _ _ ?_
      intro c _ _ hact
      refine answers_iteP (fun ha => answers_none (fun hp => ?_)) (fun ha => ?_)
      · simp [hact.2 hp.1] at ha
      have ha' : Active m .surface e.1 := hact.1 (by simpa using ha)
      refine answers_iteP (fun hb => ?_) (fun hb => ?_)
      · refine answers_iteP (fun hn => answers_some _ ⟨ha', ?_, ?_⟩) (fun hn => answers_none (fun hp => ?_))
        · rintro ⟨_, h⟩; simp [h] at hn
        · rw [hb]; simp
        · exact hp.2.1 ⟨hb, by simpa using hn⟩
      · refine answers_iteP (fun hi => ?_) (fun hi => answers_some _ ⟨ha', fun h => hb h.1, fun h => hi h.2.1⟩)
        refine answers_iteP (fun hn => answers_some _ ⟨ha', fun h => hb h.1, ?_⟩)
          (fun hn => answers_none (fun hp => ?_))
        · rintro ⟨_, _, h⟩; simp [h] at hn
        · exact hp.2.2 ⟨by simpa using hb, hi, by simpa using hn⟩
    · intro s hs
      refine answers_component wf (wf.embeddings _ _ (mem_related.1 hs)) _ _ ?_
      intro c _ _ hact
      refine answers_iteP (fun ha => answers_none (fun hp => ?_)) (fun ha => ?_)
      · simp [hact.2 hp.1] at ha
      have ha' : Active m .surface s := hact.1 (by simpa using ha)
      exact answers_iteP (fun h => answers_some _ ⟨ha', (find?_isNone _ _).1 h⟩)
        (fun h => answers_none (fun hp => h ((find?_isNone _ _).2 hp.2)))
    · intro s hs
      refine answers_component wf (wf.incidences _ _ (mem_related.1 hs)) _ _ ?_
      intro c _ _ hact
      refine answers_iteP (fun ha => answers_none (fun hp => ?_)) (fun ha => ?_)
      · simp [hact.2 hp.1] at ha
      have ha' : Active m .surface s := hact.1 (by simpa using ha)
      exact answers_iteP (fun h => answers_some _ ⟨ha', (find?_isNone _ _).1 h⟩)
        (fun h => answers_none (fun hp => h ((find?_isNone _ _).2 hp.2)))
    · intro e he
      refine answers_component wf (aw.blocks _ _ _ e.2 ((aw.iterate _).mem_iff.1 he)) _ _ ?_
      intro c _ _ hact
      refine answers_iteP (fun ha => ?_) (fun ha => answers_none (fun hp => ha ?_))
      · rw [Bool.and_eq_true] at ha
        refine answers_iteP (fun hn => answers_some _ ⟨hact.1 ha.1, ha.2, by simpa using hn⟩)
          (fun hn => answers_none (fun hp => hp.2.2 (by simpa using hn)))
      · rw [hact.2 hp.1, hp.2.1]; rfl
    · intro b hb
      refine answers_component wf (wf.embeddings _ _ (mem_related.1 hb)) _ _ ?_
      intro c hc hid _
      refine answers_iteP (fun ha => answers_none (fun hp => ?_)) (fun ha => ?_)
      · obtain ⟨d, hd, hdid, hda, hdn, _⟩ := hp
        have : d = c := List.inj_on_of_nodup_map (wf.ids .block) hd hc (by rw [hdid, hid])
        rw [← this, hda] at ha
        simp [hdn] at ha
      · have ha' : c.active = true ∧ c.nbElements ≠ 0 := by simpa using ha
        refine answers_iteP (fun h => answers_some _ ⟨c, hc, hid, ha'.1, ha'.2, (find?_isNone _ _).1 h⟩)
          (fun h => answers_none (fun hp => ?_))
        obtain ⟨d, hd, hdid, hda, hdn, hno⟩ := hp
        exact h ((find?_isNone _ _).2 hno)
  · unfold EdgeIsWrong
    simp only [mem_related]
    constructor
    · rintro (⟨e, he, h⟩ | ⟨s, hs, h⟩ | ⟨s, hs, h⟩ | ⟨e, he, h⟩ | ⟨b, hb, c, hc, rfl, h⟩)
      · exact Or.inl ⟨e.1, e.2, (aw.iterate _).mem_iff.1 he, h⟩
      · exact Or.inr (Or.inl ⟨s, Or.inl hs, h⟩)
      · exact Or.inr (Or.inl ⟨s, Or.inr hs, h⟩)
      · exact Or.inr (Or.inr (Or.inl ⟨e.1, e.2, (aw.iterate _).mem_iff.1 he, h⟩))
      · exact Or.inr (Or.inr (Or.inr ⟨c, hc, hb, h⟩))
    · rintro (⟨s, n, he, h⟩ | ⟨s, hs | hs, h⟩ | ⟨s, n, he, h⟩ | ⟨c, hc, hb, h⟩)
      · exact Or.inl ⟨(s, n), (aw.iterate _).mem_iff.2 he, h⟩
      · exact Or.inr (Or.inl ⟨s, hs, h⟩)
      · exact Or.inr (Or.inr (Or.inl ⟨s, hs, h⟩))
      · exact Or.inr (Or.inr (Or.inr (Or.inl ⟨(s, n), (aw.iterate _).mem_iff.2 he, h⟩)))
      · exact Or.inr (Or.inr (Or.inr (Or.inr ⟨c.id, hb, c, hc, rfl, h⟩)))

end Inspector
