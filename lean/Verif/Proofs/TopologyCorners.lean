import Verif.Proofs.Topology
/-! Corners: each check answers its criterion; folds of the inspections. -/
namespace Inspector
open Spec

variable {m : TopologyModel} (wf : WellFormed m) {v : Index} (hv : v < m.nbUniqueVertices)

include wf in
theorem multipleCornersLoop_answers : ∀ (l : List ComponentMeshVertex) (found : Bool),
    (∀ cmv ∈ l, Has m cmv.component_id.type cmv.component_id.id) →
    Answers (multipleCornersLoop m v l found)
      ((found = true ∧ ∃ b ∈ l, ActiveCmv m .corner b) ∨
        ∃ a b, [a, b].Sublist l ∧ ActiveCmv m .corner a ∧ ActiveCmv m .corner b)
  | [], found, _ => by
    rw [multipleCornersLoop]
    refine answers_none ?_
    rintro (⟨_, b, hb, _⟩ | ⟨a, b, hs, _⟩)
    · simp at hb
    · simp at hs
  | cmv :: l, found, hl => by
    rw [multipleCornersLoop]
    by_cases ha : ActiveCmv m .corner cmv
    · rw [ifActive_pos (wf.ids .corner) ha]
      refine answers_iteP (fun hf => answers_some _ (Or.inl ⟨hf, cmv, by simp, ha⟩)) (fun hf => ?_)
      refine (multipleCornersLoop_answers l true (fun c hc => hl c (by simp [hc]))).congr ?_
      rw [sublist_two_cons (P := ActiveCmv m .corner)]
      simp [ha, hf]
    · rw [ifActive_neg (wf.ids .corner) (hl cmv (by simp)) ha]
      refine (multipleCornersLoop_answers l found (fun c hc => hl c (by simp [hc]))).congr ?_
      rw [sublist_two_cons (P := ActiveCmv m .corner)]
      simp [ha]

include wf hv in
theorem sectionMultipleCorners_answers :
    Answers (sectionUniqueVertexHasMultipleCorners m v) (TwiceActive m v .corner) := by
  unfold sectionUniqueVertexHasMultipleCorners
  refine (multipleCornersLoop_answers wf _ _ (wf.vertices v hv)).congr ?_
  rw [twiceActive_iff]
  simp

include wf hv in
theorem brepMultipleCorners_answers :
    Answers (brepUniqueVertexHasMultipleCorners m v) (TwiceActive m v .corner) := by
  unfold brepUniqueVertexHasMultipleCorners
  refine (multipleCornersLoop_answers wf _ _ (wf.vertices v hv)).congr ?_
  rw [twiceActive_iff]
  simp

include wf hv in
theorem sectionMultipleEmbeddings_answers :
    Answers (sectionCornerHasMultipleEmbeddings m v) (CornerWithSeveralEmbeddings m v) := by
  refine activeLoop_answers wf hv .corner _ (fun c => 1 < (m.embeddings c).length) ?_
  intro cmv _ _
  exact answers_iteP (fun h => answers_some _ h) (fun h => answers_none h)

include wf hv in
theorem sectionAlone_answers :
    Answers (sectionCornerIsNotInternalNorBoundary m v) (CornerAlone m v) := by
  refine activeLoop_answers wf hv .corner _ (fun c => m.embeddings c = [] ∧ m.incidences c = []) ?_
  intro cmv _ _
  refine answers_iteP (fun h => answers_some _ ?_) (fun h => answers_none ?_)
  all_goals simpa [TopologyModel.nbEmbeddings, TopologyModel.nbIncidences] using h

include wf hv in
theorem brepAlone_answers :
    Answers (brepCornerIsNotInternalNorBoundary m v) (CornerAlone m v) := by
  refine activeLoop_answers wf hv .corner _ (fun c => m.embeddings c = [] ∧ m.incidences c = []) ?_
  intro cmv _ _
  refine answers_iteP (fun h => answers_some _ ?_) (fun h => answers_none ?_)
  all_goals simpa [TopologyModel.nbEmbeddings, TopologyModel.nbIncidences] using h

include wf hv in
theorem sectionNotBoundary_answers :
    Answers (sectionCornerIsPartOfLineButNotBoundary m v) (CornerNotBoundaryOfLine m v) := by
  refine (activeLoop_answers wf hv .corner _
    (fun c => ∃ l, At m v .line l ∧ m.isBoundary c l = false) ?_).congr ?_
  · intro cmv _ _
    refine (findSomeM_answers _ (fun l => l.component_id.type = .line ∧
      m.isBoundary cmv.component_id.id l.component_id.id = false) _ ?_).congr
      (at_iff (P := fun l => m.isBoundary cmv.component_id.id l = false))
    intro l hl
    by_cases ht : l.component_id.type = .line
    · have hh := wf.vertices v hv l hl
      rw [ht] at hh
      obtain ⟨c, hc, _⟩ := component_ok (wf.ids _) hh
      rw [hc]
      by_cases hb : m.isBoundary cmv.component_id.id l.component_id.id = true
      · simpa [ht, hb] using answers_none (by simp)
      · simp only [ht, hb]
        exact answers_some _ ⟨trivial, by simp⟩
    · simp only [bne_iff_ne, ne_eq, ht, not_false_eq_true, if_true]
      exact answers_none (fun h => h.1.elim)
  · unfold CornerNotBoundaryOfLine
    constructor
    · rintro ⟨c, hc, l, hl, hb⟩; exact ⟨c, l, hc, hl, hb⟩
    · rintro ⟨c, l, hc, hl, hb⟩; exact ⟨c, hc, l, hl, hb⟩

include wf hv in
theorem brepMultiplyEmbedded_answers :
    Answers (brepCornerIsMultiplyEmbedded m v) (CornerMultiplyEmbedded m v) := by
  refine activeLoop_answers wf hv .corner _ (fun c => 1 < (m.embeddings c).length ∧
    ∃ block, ⟨.block, block⟩ ∈ m.embeddings c ∧ Active m .block block) ?_
  intro cmv _ _
  refine answers_iteP (fun h => ?_) (fun h => answers_none (fun hp => h hp.1))
  refine (findSomeM_answers _ (fun e => e.type = .block ∧ Active m .block e.id) _ ?_).congr ?_
  · intro e he
    by_cases ht : e.type = .block
    · have hh := wf.embeddings _ e he
      rw [ht] at hh
      obtain ⟨c, hc, _, _, hact⟩ := component_ok (wf.ids _) hh
      simp only [ht, bne_self_eq_false, Bool.false_eq_true, if_false]
      rw [hc]
      exact answers_iteP (fun ha => answers_some _ ⟨trivial, hact.1 ha⟩)
        (fun ha => answers_none (fun hp => ha (hact.2 hp.2)))
    · simp only [bne_iff_ne, ne_eq, ht, not_false_eq_true, if_true]
      exact answers_none (fun h => h.1.elim)
  · constructor
    · rintro ⟨e, he, ht, ha⟩
      exact ⟨h, e.id, by rw [← ht]; exact he, ha⟩
    · rintro ⟨_, b, hb, ha⟩
      exact ⟨_, hb, rfl, ha⟩

include wf hv in
theorem brepNotOnLine_answers :
    Answers (brepCornerIsPartOfLineButNotBoundary m v) (CornerNotOnLine m v) := by
  refine (activeLoop_answers wf hv .corner _
    (fun c => ∃ l, ActiveAt m v .line l ∧ (m.isBoundary c l = false ∧ ¬ (m.isInternal c l = true ∧
      ((m.componentMeshVertices v).filter fun cmv => cmv.component_id.id == c).length = 2))) ?_).congr ?_
  · intro cmv _ _
    refine activeLoop_answers wf hv .line _ (fun l => m.isBoundary cmv.component_id.id l = false ∧
      ¬ (m.isInternal cmv.component_id.id l = true ∧ ((m.componentMeshVertices v).filter
        fun cmv' => cmv'.component_id.id == cmv.component_id.id).length = 2)) ?_
    intro l _ _
    refine answers_iteP (fun h => answers_none ?_) (fun h => ?_)
    · rw [h]; simp
    · refine answers_iteP (fun hi => ?_) (fun hi => answers_some _ ⟨by simpa using h, fun hp => hi hp.1⟩)
      refine answers_iteP (fun hc => answers_some _ ⟨by simpa using h, fun hp => ?_⟩)
        (fun hc => answers_none (fun hp => hp.2 ⟨hi, by simpa using hc⟩))
      simp [hp.2] at hc
  · unfold CornerNotOnLine
    constructor
    · rintro ⟨c, hc, l, hl, hb⟩; exact ⟨c, l, hc, hl, hb⟩
    · rintro ⟨c, l, hc, hl, hb⟩; exact ⟨c, hc, l, hl, hb⟩

/-! ### Validity -/

include wf in
theorem sectionCornerLoop_decides : ∀ (l : List ComponentMeshVertex) (found : Bool),
    (∀ cmv ∈ l, Has m cmv.component_id.type cmv.component_id.id) →
    Decides (sectionCornerLoop m (m.componentMeshVertices v) l found)
      (¬ (found = true ∧ ∃ b ∈ l, ActiveCmv m .corner b) ∧
       (¬ ∃ a b, [a, b].Sublist l ∧ ActiveCmv m .corner a ∧ ActiveCmv m .corner b) ∧
       ∀ cmv ∈ l, ActiveCmv m .corner cmv →
        ¬ 1 < (m.embeddings cmv.component_id.id).length ∧
        ¬ (m.embeddings cmv.component_id.id = [] ∧ m.incidences cmv.component_id.id = []) ∧
        ¬ ((m.embeddings cmv.component_id.id).length = 1 ∧ 1 < (m.incidences cmv.component_id.id).length) ∧
        ¬ ∃ l, At m v .line l ∧ m.isBoundary cmv.component_id.id l = false)
  | [], found, _ => by
    rw [sectionCornerLoop]
    exact ⟨true, rfl, by simp⟩
  | cmv :: l, found, hl => by
    have hrec := fun f => sectionCornerLoop_decides l f (fun c hc => hl c (by simp [hc]))
    rw [sectionCornerLoop]
    by_cases ha : ActiveCmv m .corner cmv
    · rw [ifActive_pos (wf.ids .corner) ha]
      rw [sublist_two_cons (P := ActiveCmv m .corner)]
      have hline : loopAny (fun line => line.component_id.type == .line &&
          !m.isBoundary cmv.component_id.id line.component_id.id) (m.componentMeshVertices v) = true ↔
          ∃ l, At m v .line l ∧ m.isBoundary cmv.component_id.id l = false := by
        rw [loopAny_iff, ← at_iff]
        simp
      cases hf : found with
      | true => exact ⟨false, by simp, by simp [ha]⟩
      | false =>
        by_cases h1 : 1 < (m.embeddings cmv.component_id.id).length
        · exact ⟨false, by simp [TopologyModel.nbEmbeddings, h1], by simp [ha, h1]⟩
        by_cases h2 : m.embeddings cmv.component_id.id = [] ∧ m.incidences cmv.component_id.id = []
        · refine ⟨false, ?_, ?_⟩
          · simp [TopologyModel.nbEmbeddings, TopologyModel.nbIncidences, h2.1, h2.2]
          · simp [ha, h2.1, h2.2]
        by_cases h3 : (m.embeddings cmv.component_id.id).length = 1 ∧
            1 < (m.incidences cmv.component_id.id).length
        · refine ⟨false, ?_, ?_⟩
          · simp [TopologyModel.nbEmbeddings, TopologyModel.nbIncidences, h3.1, h3.2]
          · simp [ha, h3.1, h3.2]
        by_cases h4 : ∃ l, At m v .line l ∧ m.isBoundary cmv.component_id.id l = false
        · refine ⟨false, ?_, ?_⟩
          · simp only [hline.2 h4, if_true, ite_self, Bool.false_eq_true]
          · constructor
            · simp
            · rintro ⟨_, _, h⟩
              exact absurd h4 (h cmv (by simp) ha).2.2.2
        · obtain ⟨b, hb, hp⟩ := hrec true
          have h4' : loopAny (fun line => line.component_id.type == .line &&
              !m.isBoundary cmv.component_id.id line.component_id.id) (m.componentMeshVertices v) = false := by
            rw [← Bool.not_eq_true, hline]; exact h4
          have h2' : (m.nbEmbeddings cmv.component_id.id != 1 &&
              decide (m.nbIncidences cmv.component_id.id < 1)) = false := by
            rw [← Bool.not_eq_true]
            intro hc
            simp only [Bool.and_eq_true, bne_iff_ne, ne_eq, decide_eq_true_eq] at hc
            apply h2
            unfold TopologyModel.nbEmbeddings TopologyModel.nbIncidences at hc
            constructor
            · rw [← List.length_eq_zero_iff]; omega
            · rw [← List.length_eq_zero_iff]; omega
          have h3' : (m.nbEmbeddings cmv.component_id.id == 1 &&
              decide (m.nbIncidences cmv.component_id.id > 1)) = false := by
            rw [← Bool.not_eq_true]
            intro hc
            simp only [Bool.and_eq_true, beq_iff_eq, decide_eq_true_eq] at hc
            exact h3 hc
          refine ⟨b, ?_, ?_⟩
          · simp only [TopologyModel.nbEmbeddings, gt_iff_lt, h1, if_false] at *
            simp only [Bool.false_eq_true, if_false, h2', h3', h4']
            exact hb
          · rw [hp]
            constructor
            · rintro ⟨p1, p2, p3⟩
              have p1' : ¬ ∃ b ∈ l, ActiveCmv m .corner b := fun h => p1 ⟨rfl, h⟩
              refine ⟨by simp, ?_, ?_⟩
              · rintro (⟨_, h⟩ | h)
                · exact p1' h
                · exact p2 h
              · intro c hc hca
                rcases List.mem_cons.1 hc with rfl | hc
                · exact ⟨h1, h2, h3, h4⟩
                · exact p3 c hc hca
            · rintro ⟨p1, p2, p3⟩
              refine ⟨?_, fun h => p2 (Or.inr h), fun c hc hca => p3 c (by simp [hc]) hca⟩
              rintro ⟨_, h⟩
              exact p2 (Or.inl ⟨ha, h⟩)
    · rw [ifActive_neg (wf.ids .corner) (hl cmv (by simp)) ha]
      refine (hrec found).congr ?_
      rw [sublist_two_cons (P := ActiveCmv m .corner)]
      simp [ha]

include wf hv in
theorem sectionCorner_decides : Decides (sectionCornerTopologyIsValid m v)
    (¬ TwiceActive m v .corner ∧ ¬ CornerWithSeveralEmbeddings m v ∧ ¬ CornerAlone m v ∧
     ¬ CornerNotBoundaryOfLine m v ∧
     ¬ ∃ corner, ActiveAt m v .corner corner ∧ (m.embeddings corner).length = 1 ∧
        1 < (m.incidences corner).length) := by
  unfold sectionCornerTopologyIsValid
  refine (sectionCornerLoop_decides wf _ _ (wf.vertices v hv)).congr ?_
  rw [twiceActive_iff]
  unfold CornerWithSeveralEmbeddings CornerAlone CornerNotBoundaryOfLine
  have e1 := @activeAt_iff m v .corner (fun c => 1 < (m.embeddings c).length)
  have e2 := @activeAt_iff m v .corner (fun c => m.embeddings c = [] ∧ m.incidences c = [])
  have e3 := @activeAt_iff m v .corner (fun c => (m.embeddings c).length = 1 ∧ 1 < (m.incidences c).length)
  have e4 := @activeAt_iff m v .corner (fun c => ∃ l, At m v .line l ∧ m.isBoundary c l = false)
  rw [← e1, ← e2, ← e3]
  constructor
  · rintro ⟨_, p2, p3⟩
    refine ⟨p2, ?_, ?_, ?_, ?_⟩
    · rintro ⟨c, hc, ha, h⟩; exact (p3 c hc ha).1 h
    · rintro ⟨c, hc, ha, h⟩; exact (p3 c hc ha).2.1 h
    · rintro ⟨c, l, hc, hl, h⟩
      obtain ⟨cmv, hm, ha, hx⟩ := e4.2 ⟨c, hc, l, hl, h⟩
      exact (p3 cmv hm ha).2.2.2 hx
    · rintro ⟨c, hc, ha, h⟩; exact (p3 c hc ha).2.2.1 h
  · rintro ⟨p2, q1, q2, q4, q3⟩
    refine ⟨by simp, p2, fun cmv hm ha => ⟨fun h => q1 ⟨cmv, hm, ha, h⟩, fun h => q2 ⟨cmv, hm, ha, h⟩,
      fun h => q3 ⟨cmv, hm, ha, h⟩, fun h => ?_⟩⟩
    obtain ⟨c, hc, l, hl, hb⟩ := e4.1 ⟨cmv, hm, ha, h⟩
    exact q4 ⟨c, l, hc, hl, hb⟩

include wf in
theorem brepCornerLoop_decides : ∀ (l : List ComponentMeshVertex) (found : Bool),
    (∀ cmv ∈ l, Has m cmv.component_id.type cmv.component_id.id) →
    Decides (brepCornerLoop m l found)
      (¬ (found = true ∧ ∃ b ∈ l, ActiveCmv m .corner b) ∧
       (¬ ∃ a b, [a, b].Sublist l ∧ ActiveCmv m .corner a ∧ ActiveCmv m .corner b) ∧
       ∀ cmv ∈ l, ActiveCmv m .corner cmv →
        ¬ (m.embeddings cmv.component_id.id = [] ∧ m.incidences cmv.component_id.id = []) ∧
        ¬ (m.embeddings cmv.component_id.id ≠ [] ∧ 1 < (m.incidences cmv.component_id.id).length))
  | [], found, _ => by
    rw [brepCornerLoop]
    exact ⟨true, rfl, by simp⟩
  | cmv :: l, found, hl => by
    have hrec := fun f => brepCornerLoop_decides l f (fun c hc => hl c (by simp [hc]))
    rw [brepCornerLoop]
    by_cases ha : ActiveCmv m .corner cmv
    · rw [ifActive_pos (wf.ids .corner) ha]
      rw [sublist_two_cons (P := ActiveCmv m .corner)]
      cases hf : found with
      | true => exact ⟨false, by simp, by simp [ha]⟩
      | false =>
        by_cases h2 : m.embeddings cmv.component_id.id = [] ∧ m.incidences cmv.component_id.id = []
        · refine ⟨false, ?_, ?_⟩
          · simp [TopologyModel.nbEmbeddings, TopologyModel.nbIncidences, h2.1, h2.2]
          · simp [ha, h2.1, h2.2]
        by_cases h3 : m.embeddings cmv.component_id.id ≠ [] ∧
            1 < (m.incidences cmv.component_id.id).length
        · refine ⟨false, ?_, ?_⟩
          · simp [TopologyModel.nbEmbeddings, TopologyModel.nbIncidences, h3.1, h3.2]
          · simp [ha, h3.1, h3.2]
        · obtain ⟨b, hb, hp⟩ := hrec true
          have h2' : (m.nbEmbeddings cmv.component_id.id == 0 &&
              m.nbIncidences cmv.component_id.id == 0) = false := by
            rw [← Bool.not_eq_true]
            intro hc
            apply h2
            simpa [TopologyModel.nbEmbeddings, TopologyModel.nbIncidences] using hc
          have h3' : (m.nbEmbeddings cmv.component_id.id != 0 &&
              decide (m.nbIncidences cmv.component_id.id > 1)) = false := by
            rw [← Bool.not_eq_true]
            intro hc
            apply h3
            simpa [TopologyModel.nbEmbeddings, TopologyModel.nbIncidences] using hc
          refine ⟨b, ?_, ?_⟩
          · simp only [Bool.false_eq_true, if_false, h2', h3']
            exact hb
          · rw [hp]
            constructor
            · rintro ⟨p1, p2, p3⟩
              have p1' : ¬ ∃ b ∈ l, ActiveCmv m .corner b := fun h => p1 ⟨rfl, h⟩
              refine ⟨by simp, ?_, ?_⟩
              · rintro (⟨_, h⟩ | h)
                · exact p1' h
                · exact p2 h
              · intro c hc hca
                rcases List.mem_cons.1 hc with rfl | hc
                · exact ⟨h2, h3⟩
                · exact p3 c hc hca
            · rintro ⟨p1, p2, p3⟩
              refine ⟨?_, fun h => p2 (Or.inr h), fun c hc hca => p3 c (by simp [hc]) hca⟩
              rintro ⟨_, h⟩
              exact p2 (Or.inl ⟨ha, h⟩)
    · rw [ifActive_neg (wf.ids .corner) (hl cmv (by simp)) ha]
      refine (hrec found).congr ?_
      rw [sublist_two_cons (P := ActiveCmv m .corner)]
      simp [ha]

include wf hv in
theorem brepCorner_decides : Decides (brepCornerTopologyIsValid m v)
    (¬ TwiceActive m v .corner ∧ ¬ CornerMultiplyEmbedded m v ∧ ¬ CornerAlone m v ∧
     ¬ CornerNotOnLine m v ∧
     ¬ ∃ corner, ActiveAt m v .corner corner ∧ m.embeddings corner ≠ [] ∧
        1 < (m.incidences corner).length) := by
  obtain ⟨b, hb, hp⟩ := brepCornerLoop_decides wf _ false (wf.vertices v hv)
  obtain ⟨o1, h1, p1⟩ := brepMultiplyEmbedded_answers wf hv
  obtain ⟨o2, h2, p2⟩ := brepNotOnLine_answers wf hv
  have e2 := @activeAt_iff m v .corner (fun c => m.embeddings c = [] ∧ m.incidences c = [])
  have e3 := @activeAt_iff m v .corner (fun c => m.embeddings c ≠ [] ∧ 1 < (m.incidences c).length)
  have hb' : b = true ↔ ¬ TwiceActive m v .corner ∧ ¬ CornerAlone m v ∧
      ¬ ∃ corner, ActiveAt m v .corner corner ∧ m.embeddings corner ≠ [] ∧
        1 < (m.incidences corner).length := by
    rw [hp, twiceActive_iff]
    unfold CornerAlone
    rw [← e2, ← e3]
    constructor
    · rintro ⟨_, q, r⟩
      refine ⟨q, ?_, ?_⟩
      · rintro ⟨c, hc, ha, h⟩; exact (r c hc ha).1 h
      · rintro ⟨c, hc, ha, h⟩; exact (r c hc ha).2 h
    · rintro ⟨q, r1, r2⟩
      exact ⟨by simp, q, fun c hc ha => ⟨fun h => r1 ⟨c, hc, ha, h⟩, fun h => r2 ⟨c, hc, ha, h⟩⟩⟩
  unfold brepCornerTopologyIsValid
  rw [hb, h1, h2]
  cases b with
  | false =>
    refine ⟨false, rfl, ?_⟩
    simp only [Bool.false_eq_true, false_iff] at hb' ⊢
    rintro ⟨q1, q2, q3, q4, q5⟩
    exact hb' ⟨q1, q3, q5⟩
  | true =>
    simp only [true_iff] at hb'
    cases ho1 : o1 with
    | some s =>
      refine ⟨false, rfl, ?_⟩
      rw [ho1] at p1
      simp only [Option.isSome_some, true_iff] at p1
      simp only [Bool.false_eq_true, false_iff]
      rintro ⟨q1, q2, q3, q4, q5⟩
      exact q2 p1
    | none =>
      rw [ho1] at p1
      simp only [Option.isSome_none, Bool.false_eq_true, false_iff] at p1
      cases ho2 : o2 with
      | some s =>
        refine ⟨false, rfl, ?_⟩
        rw [ho2] at p2
        simp only [Option.isSome_some, true_iff] at p2
        simp only [Bool.false_eq_true, false_iff]
        rintro ⟨q1, q2, q3, q4, q5⟩
        exact q4 p2
      | none =>
        rw [ho2] at p2
        simp only [Option.isSome_none, Bool.false_eq_true, false_iff] at p2
        exact ⟨true, rfl, by simp only [true_iff]; exact ⟨hb'.1, p1, hb'.2.1, p2, hb'.2.2⟩⟩

/-! ### Inspections -/

theorem active_nodup (wf : WellFormed m) (kind : ComponentType) :
    ((m.activeComponents kind).map TopologyComponent.id).Nodup :=
  (wf.ids kind).sublist (List.filter_sublist.map _)

/-- A fold adding the uuid of some components to a list. -/
theorem foldl_addUuid {R : Type} (step : R → TopologyComponent → R) (proj : R → Issues Uuid)
    (bad : TopologyComponent → Bool) (text : TopologyComponent → String)
    (h : ∀ r c, proj (step r c) = if bad c = true then (proj r).add c.id (text c) else proj r)
    (l : List TopologyComponent) (r : R) :
    (proj (l.foldl step r)).issues = (proj r).issues ++ (l.filter bad).map TopologyComponent.id := by
  induction l generalizing r with
  | nil => simp
  | cons c l ih =>
    rw [List.foldl_cons, ih, h]
    cases hb : bad c <;> simp [hb, Issues.add]

/-- A fold whose map is filled by `addNotAssociated`. -/
theorem foldl_addNotAssociated {R : Type} (step : R → TopologyComponent → R) (proj : R → IssuesMap Index)
    (kind : ComponentType) (label : String)
    (h : ∀ r c, proj (step r c) = addNotAssociated m kind label (proj r) c)
    (l : List TopologyComponent) (r : R) :
    proj (l.foldl step r) = l.foldl (addNotAssociated m kind label) (proj r) := by
  induction l generalizing r with
  | nil => rfl
  | cons c l ih => rw [List.foldl_cons, ih, h, List.foldl_cons]

theorem addNotAssociated_empty (kind : ComponentType) (label : String) (map : IssuesMap Index)
    (c : TopologyComponent) (h : c.nbVertices = 0) : addNotAssociated m kind label map c = map := by
  unfold addNotAssociated verticesNotAssociated
  rw [h]
  rfl

theorem addCorner_fst (ending : String) (a : Issues Uuid) (b : IssuesMap Index) (c : TopologyComponent) :
    (addCorner m ending a b c).1 =
      if (c.nbVertices == 0) = true then a.add c.id ("Corner " ++ m.label .corner c.id ++ ending) else a := by
  unfold addCorner cornerIsMeshed
  by_cases h : c.nbVertices = 0 <;> simp [h]

theorem addCorner_snd (ending : String) (a : Issues Uuid) (b : IssuesMap Index) (c : TopologyComponent) :
    (addCorner m ending a b c).2 = addNotAssociated m .corner "Corner " b c := by
  unfold addCorner cornerIsMeshed
  by_cases h : c.nbVertices = 0
  · simp only [h]
    exact (addNotAssociated_empty _ _ _ _ h).symm
  · simp [h]

/-- The effect of the section corners criteria at one vertex. -/
def sectionCornersStep (m : TopologyModel) (r : SectionCornersTopologyInspectionResult) (v : Index) :
    SectionCornersTopologyInspectionResult :=
  { r with
    unique_vertices_linked_to_multiple_corners :=
      addOptional r.unique_vertices_linked_to_multiple_corners v
        (okOr (sectionUniqueVertexHasMultipleCorners m v))
    unique_vertices_linked_to_multiple_internals_corner :=
      addOptional r.unique_vertices_linked_to_multiple_internals_corner v
        (okOr (sectionCornerHasMultipleEmbeddings m v))
    unique_vertices_linked_to_not_internal_nor_boundary_corner :=
      addOptional r.unique_vertices_linked_to_not_internal_nor_boundary_corner v
        (okOr (sectionCornerIsNotInternalNorBoundary m v))
    unique_vertices_linked_to_not_boundary_line_corner :=
      addOptional r.unique_vertices_linked_to_not_boundary_line_corner v
        (okOr (sectionCornerIsPartOfLineButNotBoundary m v)) }

include wf hv in
theorem sectionCornersVertex_step (r : SectionCornersTopologyInspectionResult) :
    sectionCornersVertex m r v = .ok (sectionCornersStep m r v) := by
  unfold sectionCornersVertex sectionCornersStep
  conv =>
    lhs
    rw [(sectionMultipleCorners_answers wf hv).eq, (sectionMultipleEmbeddings_answers wf hv).eq,
      (sectionAlone_answers wf hv).eq, (sectionNotBoundary_answers wf hv).eq]
  rfl

include wf in
theorem sectionInspectCorners_spec (hsz : ∀ c ∈ m.components .corner, c.nbVertices < 2 ^ 32) :
    ∃ r, sectionInspectCorners m = .ok r ∧
      r.corners_not_meshed.issues =
        ((m.activeComponents .corner).filter fun c => c.nbVertices == 0).map TopologyComponent.id ∧
      MapReports r.corners_not_linked_to_a_unique_vertex (m.activeComponents .corner) TopologyComponent.id
        (fun c l => Exactly (· < ·) (NotAssociated m .corner c) l) ∧
      Exactly (· < ·) (fun v => v < m.nbUniqueVertices ∧ TwiceActive m v .corner)
        r.unique_vertices_linked_to_multiple_corners.issues ∧
      Exactly (· < ·) (fun v => v < m.nbUniqueVertices ∧ CornerWithSeveralEmbeddings m v)
        r.unique_vertices_linked_to_multiple_internals_corner.issues ∧
      Exactly (· < ·) (fun v => v < m.nbUniqueVertices ∧ CornerAlone m v)
        r.unique_vertices_linked_to_not_internal_nor_boundary_corner.issues ∧
      Exactly (· < ·) (fun v => v < m.nbUniqueVertices ∧ CornerNotBoundaryOfLine m v)
        r.unique_vertices_linked_to_not_boundary_line_corner.issues := by
  refine ⟨_, foldlM_step _ (sectionCornersStep m) _ (fun r x hx =>
    sectionCornersVertex_step wf (List.mem_range.1 hx) r) _, ?_, ?_, ?_, ?_, ?_, ?_⟩
  · rw [foldl_keeps (sectionCornersStep m) (fun r => r.corners_not_meshed) (fun _ _ => rfl)]
    rw [foldl_addUuid _ (fun r : SectionCornersTopologyInspectionResult => r.corners_not_meshed)
      (fun c => c.nbVertices == 0) (fun c => "Corner " ++ m.label .corner c.id ++ " is not meshed")
      (fun r c => addCorner_fst _ _ _ _)]
    rfl
  · rw [foldl_keeps (sectionCornersStep m) (fun r => r.corners_not_linked_to_a_unique_vertex) (fun _ _ => rfl)]
    rw [foldl_addNotAssociated _ (fun r : SectionCornersTopologyInspectionResult =>
      r.corners_not_linked_to_a_unique_vertex) .corner "Corner " (fun r c => addCorner_snd _ _ _ _)]
    exact notAssociated_mapReports m _ _ _ _ (active_nodup wf _)
      (fun c hc => hsz c (List.mem_filter.1 hc).1)
  all_goals have hkeep := fun (β : Type) (p : SectionCornersTopologyInspectionResult → β) h l r =>
    foldl_keeps (fun result corner =>
      let q := addCorner m " is not meshed" result.corners_not_meshed result.corners_not_linked_to_a_unique_vertex corner
      ({ result with corners_not_meshed := q.1, corners_not_linked_to_a_unique_vertex := q.2 } :
        SectionCornersTopologyInspectionResult)) p h l r
  · exact exactly_check _ (fun r : SectionCornersTopologyInspectionResult =>
      r.unique_vertices_linked_to_multiple_corners) _ _ _ (fun _ _ => rfl)
      (fun v hv => sectionMultipleCorners_answers wf hv) _
      (by rw [hkeep _ (fun r => r.unique_vertices_linked_to_multiple_corners) (fun _ _ => rfl)]; rfl)
  · exact exactly_check _ (fun r : SectionCornersTopologyInspectionResult =>
      r.unique_vertices_linked_to_multiple_internals_corner) _ _ _ (fun _ _ => rfl)
      (fun v hv => sectionMultipleEmbeddings_answers wf hv) _
      (by rw [hkeep _ (fun r => r.unique_vertices_linked_to_multiple_internals_corner) (fun _ _ => rfl)]; rfl)
  · exact exactly_check _ (fun r : SectionCornersTopologyInspectionResult =>
      r.unique_vertices_linked_to_not_internal_nor_boundary_corner) _ _ _ (fun _ _ => rfl)
      (fun v hv => sectionAlone_answers wf hv) _
      (by rw [hkeep _ (fun r => r.unique_vertices_linked_to_not_internal_nor_boundary_corner)
        (fun _ _ => rfl)]; rfl)
  · exact exactly_check _ (fun r : SectionCornersTopologyInspectionResult =>
      r.unique_vertices_linked_to_not_boundary_line_corner) _ _ _ (fun _ _ => rfl)
      (fun v hv => sectionNotBoundary_answers wf hv) _
      (by rw [hkeep _ (fun r => r.unique_vertices_linked_to_not_boundary_line_corner) (fun _ _ => rfl)]; rfl)

/-- The effect of the BRep corners criteria at one vertex. -/
def brepCornersStep (m : TopologyModel) (r : BRepCornersTopologyInspectionResult) (v : Index) :
    BRepCornersTopologyInspectionResult :=
  { r with
    unique_vertices_linked_to_multiple_corners :=
      addOptional r.unique_vertices_linked_to_multiple_corners v
        (okOr (brepUniqueVertexHasMultipleCorners m v))
    unique_vertices_linked_to_multiply_embedded_corner :=
      addOptional r.unique_vertices_linked_to_multiply_embedded_corner v
        (okOr (brepCornerIsMultiplyEmbedded m v))
    unique_vertices_linked_to_not_internal_nor_boundary_corner :=
      addOptional r.unique_vertices_linked_to_not_internal_nor_boundary_corner v
        (okOr (brepCornerIsNotInternalNorBoundary m v))
    unique_vertices_linked_to_not_boundary_line_corner :=
      addOptional r.unique_vertices_linked_to_not_boundary_line_corner v
        (okOr (brepCornerIsPartOfLineButNotBoundary m v)) }

include wf hv in
theorem brepCornersVertex_step (r : BRepCornersTopologyInspectionResult) :
    brepCornersVertex m r v = .ok (brepCornersStep m r v) := by
  unfold brepCornersVertex brepCornersStep
  conv =>
    lhs
    rw [(brepMultipleCorners_answers wf hv).eq, (brepMultiplyEmbedded_answers wf hv).eq,
      (brepAlone_answers wf hv).eq, (brepNotOnLine_answers wf hv).eq]
  rfl

include wf in
theorem brepInspectCorners_spec (hsz : ∀ c ∈ m.components .corner, c.nbVertices < 2 ^ 32) :
    ∃ r, brepInspectCorners m = .ok r ∧
      r.corners_not_meshed.issues =
        ((m.activeComponents .corner).filter fun c => c.nbVertices == 0).map TopologyComponent.id ∧
      MapReports r.corners_not_linked_to_a_unique_vertex (m.activeComponents .corner) TopologyComponent.id
        (fun c l => Exactly (· < ·) (NotAssociated m .corner c) l) ∧
      Exactly (· < ·) (fun v => v < m.nbUniqueVertices ∧ TwiceActive m v .corner)
        r.unique_vertices_linked_to_multiple_corners.issues ∧
      Exactly (· < ·) (fun v => v < m.nbUniqueVertices ∧ CornerMultiplyEmbedded m v)
        r.unique_vertices_linked_to_multiply_embedded_corner.issues ∧
      Exactly (· < ·) (fun v => v < m.nbUniqueVertices ∧ CornerAlone m v)
        r.unique_vertices_linked_to_not_internal_nor_boundary_corner.issues ∧
      Exactly (· < ·) (fun v => v < m.nbUniqueVertices ∧ CornerNotOnLine m v)
        r.unique_vertices_linked_to_not_boundary_line_corner.issues := by
  refine ⟨_, foldlM_step _ (brepCornersStep m) _ (fun r x hx =>
    brepCornersVertex_step wf (List.mem_range.1 hx) r) _, ?_, ?_, ?_, ?_, ?_, ?_⟩
  · rw [foldl_keeps (brepCornersStep m) (fun r => r.corners_not_meshed) (fun _ _ => rfl)]
    rw [foldl_addUuid _ (fun r : BRepCornersTopologyInspectionResult => r.corners_not_meshed)
      (fun c => c.nbVertices == 0) (fun c => "Corner " ++ m.label .corner c.id ++ " is not meshed.")
      (fun r c => addCorner_fst _ _ _ _)]
    rfl
  · rw [foldl_keeps (brepCornersStep m) (fun r => r.corners_not_linked_to_a_unique_vertex) (fun _ _ => rfl)]
    rw [foldl_addNotAssociated _ (fun r : BRepCornersTopologyInspectionResult =>
      r.corners_not_linked_to_a_unique_vertex) .corner "Corner " (fun r c => addCorner_snd _ _ _ _)]
    exact notAssociated_mapReports m _ _ _ _ (active_nodup wf _)
      (fun c hc => hsz c (List.mem_filter.1 hc).1)
  all_goals have hkeep := fun (β : Type) (p : BRepCornersTopologyInspectionResult → β) h l r =>
    foldl_keeps (fun result corner =>
      let q := addCorner m " is not meshed." result.corners_not_meshed result.corners_not_linked_to_a_unique_vertex corner
      ({ result with corners_not_meshed := q.1, corners_not_linked_to_a_unique_vertex := q.2 } :
        BRepCornersTopologyInspectionResult)) p h l r
  · exact exactly_check _ (fun r : BRepCornersTopologyInspectionResult =>
      r.unique_vertices_linked_to_multiple_corners) _ _ _ (fun _ _ => rfl)
      (fun v hv => brepMultipleCorners_answers wf hv) _
      (by rw [hkeep _ (fun r => r.unique_vertices_linked_to_multiple_corners) (fun _ _ => rfl)]; rfl)
  · exact exactly_check _ (fun r : BRepCornersTopologyInspectionResult =>
      r.unique_vertices_linked_to_multiply_embedded_corner) _ _ _ (fun _ _ => rfl)
      (fun v hv => brepMultiplyEmbedded_answers wf hv) _
      (by rw [hkeep _ (fun r => r.unique_vertices_linked_to_multiply_embedded_corner) (fun _ _ => rfl)]; rfl)
  · exact exactly_check _ (fun r : BRepCornersTopologyInspectionResult =>
      r.unique_vertices_linked_to_not_internal_nor_boundary_corner) _ _ _ (fun _ _ => rfl)
      (fun v hv => brepAlone_answers wf hv) _
      (by rw [hkeep _ (fun r => r.unique_vertices_linked_to_not_internal_nor_boundary_corner)
        (fun _ _ => rfl)]; rfl)
  · exact exactly_check _ (fun r : BRepCornersTopologyInspectionResult =>
      r.unique_vertices_linked_to_not_boundary_line_corner) _ _ _ (fun _ _ => rfl)
      (fun v hv => brepNotOnLine_answers wf hv) _
      (by rw [hkeep _ (fun r => r.unique_vertices_linked_to_not_boundary_line_corner) (fun _ _ => rfl)]; rfl)

end Inspector
