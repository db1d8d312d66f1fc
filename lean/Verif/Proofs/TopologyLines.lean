import Verif.Proofs.TopologyCorners
/-! Lines: each check answers its criterion; folds of the inspections. -/
namespace Inspector
open Spec

variable {m : TopologyModel} (wf : WellFormed m) {v : Index} (hv : v < m.nbUniqueVertices)

include wf hv in
theorem sectionLineAlone_answers : Answers (sectionLineWrongRelationships m v) (LineAlone m v) := by
  refine activeLoop_answers wf hv .line _ (fun c => m.embeddings c = [] ∧ m.incidences c = []) ?_
  intro cmv _ _
  refine answers_iteP (fun h => answers_some _ ?_) (fun h => answers_none ?_)
  all_goals simpa [TopologyModel.nbEmbeddings, TopologyModel.nbIncidences] using h

theorem sectionSurfacesAreMeshed_iff : sectionSurfacesAreMeshed m = true ↔ AllMeshed m .surface :=
  allMeshed_iff

theorem brepBlocksAreMeshed_iff : brepBlocksAreMeshed m = true ↔ AllMeshed m .block :=
  allMeshed_iff

include wf in
theorem sectionEmbeddingLoop_answers (line : Uuid) (hs : ∀ e ∈ m.embeddings line, e.type = .surface) :
    Answers (sectionEmbeddingLoop m v line)
      (AllMeshed m .surface ∧ ∃ e ∈ m.embeddings line, Active m .surface e.id ∧
        ∀ cmv ∈ m.componentMeshVertices v, cmv.component_id.id ≠ e.id) := by
  unfold sectionEmbeddingLoop
  refine (findSomeM_answers _ (fun e => Active m .surface e.id ∧ AllMeshed m .surface ∧
    ∀ cmv ∈ m.componentMeshVertices v, cmv.component_id.id ≠ e.id) _ ?_).congr ?_
  · intro e he
    have hh := wf.embeddings _ e he
    rw [hs e he] at hh
    obtain ⟨c, hc, _, _, hact⟩ := component_ok (wf.ids _) hh
    rw [hc]
    refine answers_iteP (fun ha => answers_none (fun hp => ?_)) (fun ha => ?_)
    · simp [hact.2 hp.1] at ha
    · have ha' : Active m .surface e.id := hact.1 (by simpa using ha)
      refine answers_iteP (fun h => answers_some _ ⟨ha', ?_⟩) (fun h => answers_none (fun hp => h ?_))
      · rw [Bool.and_eq_true, sectionSurfacesAreMeshed_iff] at h
        refine ⟨h.1, ?_⟩
        simpa using h.2
      · rw [Bool.and_eq_true, sectionSurfacesAreMeshed_iff]
        refine ⟨hp.2.1, ?_⟩
        simpa using hp.2.2
  · constructor
    · rintro ⟨e, he, ha, hm, h⟩; exact ⟨hm, e, he, ha, h⟩
    · rintro ⟨hm, e, he, ha, h⟩; exact ⟨e, he, ha, hm, h⟩

theorem embeddedBefore_cons {x : ComponentMeshVertex} {l : List ComponentMeshVertex} :
    EmbeddedBefore m v (x :: l) ↔
      (ActiveCmv m .line x ∧ m.embeddings x.component_id.id ≠ [] ∧ EmbeddedLineIsWrong m v x.component_id.id) ∨
      ((ActiveCmv m .line x → m.embeddings x.component_id.id ≠ []) ∧ EmbeddedBefore m v l) := by
  constructor
  · rintro ⟨pre, cmv, post, hl, ha, he, hw, hp⟩
    cases pre with
    | nil =>
      simp only [List.nil_append, List.cons.injEq] at hl
      obtain ⟨rfl, rfl⟩ := hl
      exact Or.inl ⟨ha, he, hw⟩
    | cons y pre =>
      simp only [List.cons_append, List.cons.injEq] at hl
      obtain ⟨rfl, rfl⟩ := hl
      exact Or.inr ⟨hp x (by simp), pre, cmv, post, rfl, ha, he, hw, fun c hc => hp c (by simp [hc])⟩
  · rintro (⟨ha, he, hw⟩ | ⟨hx, pre, cmv, post, rfl, ha, he, hw, hp⟩)
    · exact ⟨[], x, l, rfl, ha, he, hw, by simp⟩
    · refine ⟨x :: pre, cmv, post, rfl, ha, he, hw, ?_⟩
      intro c hc
      rcases List.mem_cons.1 hc with rfl | hc
      · exact hx
      · exact hp c hc

include wf in
theorem sectionEmbeddedLineLoop_answers
    (hs : ∀ id, Active m .line id → ∀ e ∈ m.embeddings id, e.type = .surface) :
    ∀ (l : List ComponentMeshVertex),
    (∀ cmv ∈ l, Has m cmv.component_id.type cmv.component_id.id) →
    Answers (sectionEmbeddedLineLoop m v l) (EmbeddedBefore m v l)
  | [], _ => by
    rw [sectionEmbeddedLineLoop]
    refine answers_none ?_
    rintro ⟨pre, cmv, post, hl, _⟩
    simp at hl
  | cmv :: l, hl => by
    have hrec := sectionEmbeddedLineLoop_answers hs l (fun c hc => hl c (by simp [hc]))
    rw [sectionEmbeddedLineLoop]
    by_cases ha : ActiveCmv m .line cmv
    · rw [ifActive_pos (wf.ids .line) ha]
      refine answers_iteP (fun h => answers_none ?_) (fun h => ?_)
      · have h0 : m.embeddings cmv.component_id.id = [] := by
          simpa [TopologyModel.nbEmbeddings] using h
        rw [embeddedBefore_cons]
        rintro (⟨_, he, _⟩ | ⟨hx, _⟩)
        · exact he h0
        · exact hx ha h0
      have h0 : m.embeddings cmv.component_id.id ≠ [] := by
        simpa [TopologyModel.nbEmbeddings] using h
      refine answers_iteP (fun h1 => answers_some _ ?_) (fun h1 => ?_)
      · rw [embeddedBefore_cons]; exact Or.inl ⟨ha, h0, Or.inl h1⟩
      refine answers_iteP (fun h2 => answers_some _ ?_) (fun h2 => ?_)
      · rw [embeddedBefore_cons]
        exact Or.inl ⟨ha, h0, Or.inr (Or.inl (by
          intro hn; simp [TopologyModel.nbIncidences, hn] at h2))⟩
      obtain ⟨o, ho, hp⟩ := sectionEmbeddingLoop_answers (v := v) wf cmv.component_id.id (hs _ ha.2)
      rw [ho]
      cases o with
      | some s =>
        simp only [Option.isSome_some, true_iff] at hp
        refine answers_some _ ?_
        rw [embeddedBefore_cons]
        exact Or.inl ⟨ha, h0, Or.inr (Or.inr hp)⟩
      | none =>
        simp only [Option.isSome_none, Bool.false_eq_true, false_iff] at hp
        refine hrec.congr ?_
        rw [embeddedBefore_cons]
        constructor
        · intro h; exact Or.inr ⟨fun _ => h0, h⟩
        · rintro (⟨_, _, hw⟩ | ⟨_, h⟩)
          · exfalso
            rcases hw with hw | hw | hw
            · exact h1 hw
            · apply hw
              simpa [TopologyModel.nbIncidences] using h2
            · exact hp hw
          · exact h
    · rw [ifActive_neg (wf.ids .line) (hl cmv (by simp)) ha]
      refine hrec.congr ?_
      rw [embeddedBefore_cons]
      simp [ha]

/-- Under the hypothesis that all active lines at `v` are embedded, the check of embedded lines is exact. -/
theorem embeddedBefore_iff (h : ∀ id, ActiveAt m v .line id → m.embeddings id ≠ []) :
    EmbeddedBefore m v (m.componentMeshVertices v) ↔ InvalidEmbeddedLine m v := by
  have hcmv : ∀ c ∈ m.componentMeshVertices v, ActiveCmv m .line c → m.embeddings c.component_id.id ≠ [] := by
    rintro c hc ⟨ht, ha⟩
    exact h _ ⟨⟨c, hc, by rw [← ht]⟩, ha⟩
  unfold InvalidEmbeddedLine
  rw [← activeAt_iff (P := fun id => m.embeddings id ≠ [] ∧ EmbeddedLineIsWrong m v id)]
  constructor
  · rintro ⟨pre, cmv, post, hl, ha, he, hw, _⟩
    exact ⟨cmv, by rw [hl]; simp, ha, he, hw⟩
  · rintro ⟨cmv, hm, ha, he, hw⟩
    obtain ⟨pre, post, hl⟩ := List.append_of_mem hm
    exact ⟨pre, cmv, post, hl, ha, he, hw, fun c hc => hcmv c (by rw [hl]; simp [hc])⟩

theorem embeddedBefore_imp : EmbeddedBefore m v (m.componentMeshVertices v) → InvalidEmbeddedLine m v := by
  rintro ⟨pre, cmv, post, hl, ha, he, hw, _⟩
  unfold InvalidEmbeddedLine
  rw [← activeAt_iff (P := fun id => m.embeddings id ≠ [] ∧ EmbeddedLineIsWrong m v id)]
  exact ⟨cmv, by rw [hl]; simp, ha, he, hw⟩

include wf hv in
theorem sectionSingleLine_answers : Answers (sectionInvalidSingleLine m v) (InvalidSingleLine m v) := by
  have hnot : ∀ {l : List Uuid}, componentsUuids m v .line = l → (∀ x, l ≠ [x]) → ¬ InvalidSingleLine m v := by
    rintro l hl hx ⟨line, ⟨hat, _⟩, huniq, _⟩
    apply hx line
    rw [← hl]
    rw [singleton_iff (componentsUuids_nodup _ _ _)]
    exact ⟨mem_componentsUuids.2 hat, fun x hx => huniq x (mem_componentsUuids.1 hx)⟩
  unfold sectionInvalidSingleLine
  split
  case h_2 hne => exact answers_none (hnot rfl (fun x hx => hne x hx))
  case h_1 line hl =>
  rw [singleton_iff (componentsUuids_nodup _ _ _)] at hl
  obtain ⟨hmem, huniq⟩ := hl
  have hat := mem_componentsUuids.1 hmem
  have huniq' : ∀ l, At m v .line l → l = line := fun l h => huniq l (mem_componentsUuids.2 h)
  have hh : Has m .line line := by
    obtain ⟨cmv, hm, hc⟩ := hat
    have := wf.vertices v hv cmv hm
    rwa [hc] at this
  obtain ⟨c, hc, _, _, hact⟩ := component_ok (wf.ids _) hh
  rw [hc]
  have hsub : ∀ {P : Uuid → Prop}, (∃ l, ActiveAt m v .line l ∧ (∀ l', At m v .line l' → l' = l) ∧ P l) ↔
      Active m .line line ∧ P line := by
    intro P
    constructor
    · rintro ⟨l, ⟨h1, h2⟩, _, hp⟩
      have := huniq' l h1
      subst this
      exact ⟨h2, hp⟩
    · rintro ⟨h2, hp⟩
      exact ⟨line, ⟨hat, h2⟩, huniq', hp⟩
  unfold InvalidSingleLine
  rw [hsub (P := fun line => _ ∨ _)]
  refine answers_iteP (fun ha => answers_none (fun hp => ?_)) (fun ha => ?_)
  · simp [hact.2 hp.1] at ha
  have ha' : Active m .line line := hact.1 (by simpa using ha)
  have hnd := componentsUuids_nodup m v .surface
  have h3 : 2 < (componentsUuids m v .surface).length ↔
      ∃ a b c, a ≠ b ∧ a ≠ c ∧ b ≠ c ∧ At m v .surface a ∧ At m v .surface b ∧ At m v .surface c := by
    rw [three_iff hnd]
    simp only [mem_componentsUuids]
  refine answers_iteP (fun hl => answers_some _ ⟨ha', Or.inl (h3.1 hl)⟩) (fun hl => ?_)
  rw [gt_iff_lt, h3] at hl
  have hone : ((componentsUuids m v .surface).length != 1 ||
      !m.isInternal line ((componentsUuids m v .surface).getD 0 0)) = true ↔
      ¬ ∃ s, At m v .surface s ∧ (∀ s', At m v .surface s' → s' = s) ∧ m.isInternal line s = true := by
    constructor
    · rintro h ⟨s, hs, hu, hi⟩
      have : componentsUuids m v .surface = [s] := by
        rw [singleton_iff hnd]
        exact ⟨mem_componentsUuids.2 hs, fun x hx => hu x (mem_componentsUuids.1 hx)⟩
      rw [this] at h
      simp [hi] at h
    · intro h
      by_contra hc
      simp only [Bool.or_eq_true, bne_iff_ne, ne_eq, Bool.not_eq_true', not_or, not_not,
        Bool.not_eq_false] at hc
      obtain ⟨s, hs⟩ := List.length_eq_one_iff.1 hc.1
      apply h
      rw [hs] at hc
      have hs' := hs
      rw [singleton_iff hnd] at hs'
      exact ⟨s, mem_componentsUuids.1 hs'.1, fun x hx => hs'.2 x (mem_componentsUuids.2 hx), by simpa using hc.2⟩
  refine answers_iteP (fun he => ?_) (fun he => ?_)
  · have he' : m.embeddings line ≠ [] := by
      intro h0; simp [TopologyModel.nbEmbeddings, h0] at he
    refine answers_iteP (fun h => answers_some _ ?_) (fun h => answers_none ?_)
    · rw [Bool.and_eq_true, sectionSurfacesAreMeshed_iff, hone] at h
      exact ⟨ha', Or.inr (Or.inl ⟨he', h.1, h.2⟩)⟩
    · rw [Bool.and_eq_true, sectionSurfacesAreMeshed_iff, hone] at h
      rintro ⟨_, hp | hp | hp⟩
      · exact hl hp
      · exact h hp.2
      · exact he' hp.1
  · have he' : m.embeddings line = [] := by
      simpa [TopologyModel.nbEmbeddings] using he
    refine (findSomeM_answers _ (fun s => m.isBoundary line s = false) _ ?_).congr ?_
    · intro s hs
      refine answers_iteP (fun hb => ?_) (fun hb => answers_none (by simpa using hb))
      have hh : Has m .surface s := by
        obtain ⟨cmv, hm, hc⟩ := mem_componentsUuids.1 hs
        have := wf.vertices v hv cmv hm
        rwa [hc] at this
      obtain ⟨c, hc, _⟩ := component_ok (wf.ids _) hh
      rw [hc]
      exact answers_some _ (by simpa using hb)
    · constructor
      · rintro ⟨s, hs, hb⟩
        exact ⟨ha', Or.inr (Or.inr ⟨he', s, mem_componentsUuids.1 hs, hb⟩)⟩
      · rintro ⟨_, hp | hp | ⟨_, s, hs, hb⟩⟩
        · exact absurd hp hl
        · exact absurd he' hp.1
        · exact ⟨s, mem_componentsUuids.2 hs, hb⟩

/-! Counting lines -/

include wf in
theorem sectionLinesAndCorner_ok : ∀ (l : List ComponentMeshVertex) (n : Nat) (b : Bool),
    (∀ cmv ∈ l, Has m cmv.component_id.type cmv.component_id.id) →
    ∃ n' b', sectionLinesAndCorner m l n b = .ok (n', b') ∧ n ≤ n' ∧
      (n < n' ↔ ∃ a ∈ l, ActiveCmv m .line a) ∧
      (n + 1 < n' ↔ ∃ a c, [a, c].Sublist l ∧ ActiveCmv m .line a ∧ ActiveCmv m .line c) ∧
      (b' = true ↔ b = true ∨ ∃ a ∈ l, a.component_id.type = .corner)
  | [], n, b, _ => by
    refine ⟨n, b, rfl, le_refl _, by simp, ?_, by simp⟩
    constructor
    · intro h; omega
    · rintro ⟨a, c, h, _⟩; simp at h
  | cmv :: l, n, b, hl => by
    rw [sectionLinesAndCorner]
    rw [sublist_two_cons (P := ActiveCmv m .line)]
    by_cases ha : ActiveCmv m .line cmv
    · rw [ifActive_pos (wf.ids .line) ha]
      obtain ⟨n', b', he, h1, h2, h3, h4⟩ := sectionLinesAndCorner_ok l (n + 1) b
        (fun c hc => hl c (by simp [hc]))
      refine ⟨n', b', he, by omega, ?_, ?_, ?_⟩
      · constructor
        · intro _; exact ⟨cmv, by simp, ha⟩
        · intro _; omega
      · constructor
        · intro h; exact Or.inl ⟨ha, h2.1 h⟩
        · rintro (⟨_, h⟩ | h)
          · exact h2.2 h
          · have := h3.2 h; omega
      · rw [h4]
        have : cmv.component_id.type ≠ .corner := by rw [ha.1]; simp
        simp [this]
    · rw [ifActive_neg (wf.ids .line) (hl cmv (by simp)) ha]
      by_cases hc : cmv.component_id.type = .corner
      · obtain ⟨n', b', he, h1, h2, h3, h4⟩ := sectionLinesAndCorner_ok l n true
          (fun c hc => hl c (by simp [hc]))
        refine ⟨n', b', by simpa [hc] using he, h1, ?_, ?_, ?_⟩
        · rw [h2]; simp [ha]
        · rw [h3]; simp [ha]
        · rw [h4]; simp [hc]
      · obtain ⟨n', b', he, h1, h2, h3, h4⟩ := sectionLinesAndCorner_ok l n b
          (fun c hc => hl c (by simp [hc]))
        refine ⟨n', b', by simpa [hc] using he, h1, ?_, ?_, ?_⟩
        · rw [h2]; simp [ha]
        · rw [h3]; simp [ha]
        · rw [h4]; simp [hc]

include wf in
theorem brepLinesAndCorner_ok : ∀ (l : List ComponentMeshVertex) (n : Nat) (b : Bool),
    (∀ cmv ∈ l, Has m cmv.component_id.type cmv.component_id.id) →
    ∃ n' b', brepLinesAndCorner m l n b = .ok (n', b') ∧ n ≤ n' ∧
      (n < n' ↔ ∃ a ∈ l, ActiveCmv m .line a) ∧
      (n + 1 < n' ↔ ∃ a c, [a, c].Sublist l ∧ ActiveCmv m .line a ∧ ActiveCmv m .line c) ∧
      (b' = true ↔ b = true ∨ ∃ a ∈ l, a.component_id.type = .corner)
  | [], n, b, _ => by
    refine ⟨n, b, rfl, le_refl _, by simp, ?_, by simp⟩
    constructor
    · intro h; omega
    · rintro ⟨a, c, h, _⟩; simp at h
  | cmv :: l, n, b, hl => by
    rw [brepLinesAndCorner]
    rw [sublist_two_cons (P := ActiveCmv m .line)]
    by_cases hc : cmv.component_id.type = .corner
    · have ha : ¬ ActiveCmv m .line cmv := by rintro ⟨h, _⟩; rw [hc] at h; simp at h
      obtain ⟨n', b', he, h1, h2, h3, h4⟩ := brepLinesAndCorner_ok l n true
        (fun c hc => hl c (by simp [hc]))
      refine ⟨n', b', by simpa [hc] using he, h1, ?_, ?_, ?_⟩
      · rw [h2]; simp [ha]
      · rw [h3]; simp [ha]
      · rw [h4]; simp [hc]
    · have hc' : (cmv.component_id.type == ComponentType.corner) = false := by simpa using hc
      simp only [hc', Bool.false_eq_true, if_false]
      by_cases ha : ActiveCmv m .line cmv
      · rw [ifActive_pos (wf.ids .line) ha]
        obtain ⟨n', b', he, h1, h2, h3, h4⟩ := brepLinesAndCorner_ok l (n + 1) b
          (fun c hc => hl c (by simp [hc]))
        refine ⟨n', b', he, by omega, ?_, ?_, ?_⟩
        · constructor
          · intro _; exact ⟨cmv, by simp, ha⟩
          · intro _; omega
        · constructor
          · intro h; exact Or.inl ⟨ha, h2.1 h⟩
          · rintro (⟨_, h⟩ | h)
            · exact h2.2 h
            · have := h3.2 h; omega
        · rw [h4]
          simp [hc]
      · rw [ifActive_neg (wf.ids .line) (hl cmv (by simp)) ha]
        obtain ⟨n', b', he, h1, h2, h3, h4⟩ := brepLinesAndCorner_ok l n b
          (fun c hc => hl c (by simp [hc]))
        refine ⟨n', b', he, h1, ?_, ?_, ?_⟩
        · rw [h2]; simp [ha]
        · rw [h3]; simp [ha]
        · rw [h4]; simp [hc]

theorem linesWithoutCorner_iff : LinesWithoutCorner m v ↔
    (∃ a b, [a, b].Sublist (m.componentMeshVertices v) ∧ ActiveCmv m .line a ∧ ActiveCmv m .line b) ∧
    ¬ ∃ a ∈ m.componentMeshVertices v, a.component_id.type = .corner := by
  unfold LinesWithoutCorner
  rw [twiceActive_iff]
  have := @at_iff m v .corner (fun _ => True)
  simp only [and_true] at this
  rw [this]

include wf hv in
theorem sectionLinesButNotCorner_answers :
    Answers (sectionLinesButNotCorner m v) (LinesWithoutCorner m v) := by
  obtain ⟨n, b, he, _, _, h3, h4⟩ := sectionLinesAndCorner_ok wf _ 0 false (wf.vertices v hv)
  unfold sectionLinesButNotCorner
  rw [he]
  show Answers (if (decide (n > 1) && !b) = true then _ else _) _
  rw [linesWithoutCorner_iff, ← h3]
  have h4' : (∃ a ∈ m.componentMeshVertices v, a.component_id.type = .corner) ↔ b = true := by
    rw [h4]; simp
  rw [h4']
  refine answers_iteP (fun h => answers_some _ ?_) (fun h => answers_none ?_)
  · simpa using h
  · simpa using h

include wf hv in
theorem brepLinesButNotCorner_answers :
    Answers (brepLinesButNotCorner m v) (LinesWithoutCorner m v) := by
  obtain ⟨n, b, he, _, _, h3, h4⟩ := brepLinesAndCorner_ok wf _ 0 false (wf.vertices v hv)
  unfold brepLinesButNotCorner
  rw [he]
  show Answers (if (decide (n > 1) && !b) = true then _ else _) _
  rw [linesWithoutCorner_iff, ← h3]
  have h4' : (∃ a ∈ m.componentMeshVertices v, a.component_id.type = .corner) ↔ b = true := by
    rw [h4]; simp
  rw [h4']
  refine answers_iteP (fun h => answers_some _ ?_) (fun h => answers_none ?_)
  · simpa using h
  · simpa using h

end Inspector
