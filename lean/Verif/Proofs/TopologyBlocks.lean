import Verif.Spec.TopologyBlocks
import Verif.Proofs.TopologySurfaces
import Verif.Proofs.ExpectedCmvs
import Verif.Proofs.FusedSurface
import Verif.Proofs.LinkedSurfaces
import Verif.Proofs.NotBoundarySurfaces
/-! The criteria on the blocks of a BRep. -/
namespace Inspector
open Spec

variable {m : TopologyModel} (wf : WellFormed m)

theorem lineIsBoundaryOfTwo_iff (line : Uuid) : ∀ (l : List Uuid), l.Nodup → ∀ n ≤ 1,
    (lineIsBoundaryOfTwo m line n l = true ↔
      (∃ s ∈ l, m.isBoundary line s = true ∧ m.embeddings s ≠ []) ∨
      2 ≤ n + (l.filter fun s => m.isBoundary line s).length)
  | [], _, n, hn => by
    rw [lineIsBoundaryOfTwo]
    simp
    omega
  | s :: l, hd, n, hn => by
    rw [lineIsBoundaryOfTwo]
    have ih := lineIsBoundaryOfTwo_iff line l (List.nodup_cons.1 hd).2
    have hemb : m.nbEmbeddings s > 0 ↔ m.embeddings s ≠ [] := by
      unfold TopologyModel.nbEmbeddings; exact List.length_pos_iff
    by_cases hb : m.isBoundary line s = true
    · rw [if_pos hb]
      simp only [List.filter_cons, hb, if_true, List.length_cons]
      by_cases he : m.embeddings s ≠ []
      · rw [if_pos (hemb.2 he)]
        simp only [true_iff]
        exact Or.inl ⟨s, by simp, hb, he⟩
      · rw [if_neg (fun h => he (hemb.1 h))]
        by_cases hc : n + 1 > 1
        · rw [if_pos hc]
          simp only [true_iff]
          right; omega
        · rw [if_neg hc, ih (n + 1) (by omega)]
          refine or_congr ?_ (by omega)
          constructor
          · rintro ⟨x, hx, h⟩; exact ⟨x, by simp [hx], h⟩
          · rintro ⟨x, hx, h⟩
            rcases List.mem_cons.1 hx with rfl | hx
            · exact absurd h.2 he
            · exact ⟨x, hx, h⟩
    · rw [if_neg hb, ih n hn]
      have : m.isBoundary line s = false := by simpa using hb
      simp only [List.filter_cons, this, Bool.false_eq_true, if_false]
      refine or_congr_left ?_
      constructor
      · rintro ⟨x, hx, h⟩; exact ⟨x, by simp [hx], h⟩
      · rintro ⟨x, hx, h⟩
        rcases List.mem_cons.1 hx with rfl | hx
        · exact absurd h.1 hb
        · exact ⟨x, hx, h⟩

theorem openBoundary_iff (block s : Uuid) : surfaceBoundariesAreNotLinked m block s = true ↔
    ∃ line, ⟨.line, line⟩ ∈ m.boundaries s ∧
      ¬ ∃ s', ⟨.surface, s'⟩ ∈ m.incidences line ∧ s' ≠ s ∧ m.isBoundary s' block = true := by
  unfold surfaceBoundariesAreNotLinked isLineIncidentToAnother
  rw [loopAny_iff]
  simp only [mem_related, Bool.not_eq_true', ← Bool.not_eq_true, loopAny_iff, Bool.and_eq_true, bne_iff_ne]

/-! ### Two blocks -/

theorem pair_iff {α : Type} {l : List α} (hn : l.Nodup) (a b : α) (hab : a ≠ b) :
    (l = [a, b] ∨ l = [b, a]) ↔ a ∈ l ∧ b ∈ l ∧ ∀ x ∈ l, x = a ∨ x = b := by
  constructor
  · rintro (rfl | rfl)
    · simp
    · simp
  · rintro ⟨ha, hb, hall⟩
    have hlen : l.length = 2 := by
      have h1 : 1 < l.length := (two_iff hn).2 ⟨a, b, hab, ha, hb⟩
      have h2 : ¬ 2 < l.length := by
        rw [three_iff hn]
        rintro ⟨x, y, z, hxy, hxz, hyz, hx, hy, hz⟩
        rcases hall x hx with rfl | rfl <;> rcases hall y hy with rfl | rfl <;> rcases hall z hz with rfl | rfl <;>
          simp_all
      omega
    obtain ⟨x, y, rfl⟩ := List.length_eq_two.1 hlen
    have hxy : x ≠ y := by simpa using hn
    rcases hall x (by simp) with rfl | rfl <;> rcases hall y (by simp) with rfl | rfl
    · exact absurd rfl hxy
    · exact Or.inl rfl
    · exact Or.inr rfl
    · exact absurd rfl hxy

open Classical in
theorem blockInactive_ok (b : Uuid) (h : Has m .block b) (hn : ((m.components .block).map TopologyComponent.id).Nodup) :
    (do let block ← m.component .block b
        return !block.active : Except Failure Bool) = .ok (!decide (Active m .block b)) := by
  obtain ⟨c, hc, _, _, ha⟩ := component_ok hn h
  simp only [bind, Except.bind, hc]
  show Except.ok _ = _
  congr 1
  by_cases hA : Active m .block b
  · simp [hA, ha.2 hA]
  · have : c.active = false := by rw [← Bool.not_eq_true, ha]; exact hA
    simp [hA, this]

include wf in
theorem twoBlocks_answers {v : Index} (hv : v < m.nbUniqueVertices) :
    Answers (twoBlocksAndNoBoundarySurface m v) (TwoBlocksWithoutSurface m v) := by
  classical
  have hn := componentsUuids_nodup m v .block
  unfold twoBlocksAndNoBoundarySurface
  split
  · rename_i b0 b1 heq
    have h0 : At m v .block b0 := mem_componentsUuids.1 (by rw [heq]; simp)
    have h1 : At m v .block b1 := mem_componentsUuids.1 (by rw [heq]; simp)
    have hne : b0 ≠ b1 := by rw [heq] at hn; simpa using hn
    have hloop : loopAnyM (fun block_uuid => do
        let block ← m.component .block block_uuid
        return !block.active) [b0, b1] = (.ok (loopAny (fun b => !decide (Active m .block b)) [b0, b1]) : Except Failure Bool) := by
      refine loopAnyM_ok _ _ _ ?_
      intro b hb
      have hb' : At m v .block b := mem_componentsUuids.1 (by rw [heq]; exact hb)
      exact blockInactive_ok b (has_of_at wf hv hb') (wf.ids .block)
    have hset : ∀ a b, a ≠ b → At m v .block a → At m v .block b →
        (∀ x, At m v .block x → x = a ∨ x = b) → (a = b0 ∧ b = b1) ∨ (a = b1 ∧ b = b0) := by
      intro a b hab ha hb hall
      have := (pair_iff hn a b hab).2 ⟨mem_componentsUuids.2 ha, mem_componentsUuids.2 hb,
        fun x hx => hall x (mem_componentsUuids.1 hx)⟩
      rw [heq] at this
      simp only [List.cons.injEq, and_true] at this
      rcases this with ⟨h1, h2⟩ | ⟨h1, h2⟩
      · exact Or.inl ⟨h1.symm, h2.symm⟩
      · exact Or.inr ⟨h2.symm, h1.symm⟩
    rw [hloop]
    simp only [bind, Except.bind]
    refine answers_iteP (fun hin => answers_none ?_) (fun hin => ?_)
    · rw [loopAny_iff] at hin
      rintro ⟨a, b, hab, ha, hb, hall, _⟩
      obtain ⟨x, hx, hxn⟩ := hin
      have : x = a ∨ x = b := hall x (mem_componentsUuids.1 (by rw [heq]; exact hx))
      rcases this with rfl | rfl
      · simp [ha.2] at hxn
      · simp [hb.2] at hxn
    · have hact : ∀ x ∈ [b0, b1], Active m .block x := by
        intro x hx
        by_contra hc
        exact hin ((loopAny_iff _ _).2 ⟨x, hx, by simp [hc]⟩)
      have ha0 : ActiveAt m v .block b0 := ⟨h0, hact b0 (by simp)⟩
      have ha1 : ActiveAt m v .block b1 := ⟨h1, hact b1 (by simp)⟩
      have hall : ∀ b, At m v .block b → b = b0 ∨ b = b1 := by
        intro b hb
        have := mem_componentsUuids.2 hb
        rw [heq] at this
        simpa using this
      have hcond : ∀ c0 c1, (∃ cmv ∈ m.componentMeshVertices v, cmv.component_id.type = .surface ∧
          ((m.isBoundary cmv.component_id.id c0 = true ∧ m.isBoundary cmv.component_id.id c1 = true) ∨
            ∃ l ∈ m.componentMeshVertices v, l.component_id.type = .line ∧
              (m.isBoundary l.component_id.id cmv.component_id.id = true ∧
              (m.isBoundary cmv.component_id.id c0 = true ∨ m.isBoundary cmv.component_id.id c1 = true)))) ↔
          (∃ s, At m v .surface s ∧ m.isBoundary s c0 = true ∧ m.isBoundary s c1 = true) ∨
          ∃ s line, At m v .surface s ∧ At m v .line line ∧ m.isBoundary line s = true ∧
            (m.isBoundary s c0 = true ∨ m.isBoundary s c1 = true) := by
        intro c0 c1
        rw [at_iff (P := fun s => (m.isBoundary s c0 = true ∧ m.isBoundary s c1 = true) ∨
            ∃ l ∈ m.componentMeshVertices v, l.component_id.type = .line ∧
              (m.isBoundary l.component_id.id s = true ∧
              (m.isBoundary s c0 = true ∨ m.isBoundary s c1 = true)))]
        constructor
        · rintro ⟨s, hs, h | ⟨l, hl, ht, hb, ho⟩⟩
          · exact Or.inl ⟨s, hs, h⟩
          · exact Or.inr ⟨s, l.component_id.id, hs, (at_iff (P := fun x => x = l.component_id.id)).1 ⟨l, hl, ht, rfl⟩ |>.elim
              (fun x hx => hx.2 ▸ hx.1), hb, ho⟩
        · rintro (⟨s, hs, h⟩ | ⟨s, line, hs, hl, hb, ho⟩)
          · exact ⟨s, hs, Or.inl h⟩
          · obtain ⟨cmv, hc, ht, he⟩ := (at_iff (P := fun x => x = line)).2 ⟨line, hl, rfl⟩
            exact ⟨s, hs, Or.inr ⟨cmv, hc, ht, by rw [he]; exact hb, ho⟩⟩
      refine answers_iteP (fun h => answers_none ?_) (fun h => answers_some _ ?_)
      · rw [loopAny_iff] at h
        simp only [Bool.and_eq_true, Bool.or_eq_true, beq_iff_eq, loopAny_iff] at h
        have h := (hcond b0 b1).1 h
        rintro ⟨a, b, hab, ha, hb, hall', hno1, hno2⟩
        rcases hset a b hab ha.1 hb.1 hall' with ⟨rfl, rfl⟩ | ⟨rfl, rfl⟩
        · rcases h with h | h
          · exact hno1 h
          · exact hno2 h
        · rcases h with ⟨s, hs, h1, h2⟩ | ⟨s, line, hs, hl, h1, h2⟩
          · exact hno1 ⟨s, hs, h2, h1⟩
          · exact hno2 ⟨s, line, hs, hl, h1, h2.symm⟩
      · rw [loopAny_iff] at h
        simp only [Bool.and_eq_true, Bool.or_eq_true, beq_iff_eq, loopAny_iff] at h
        have h := (not_congr (hcond b0 b1)).1 h
        push Not at h
        refine ⟨b0, b1, hne, ha0, ha1, hall, ?_, ?_⟩
        · rintro ⟨s, hs, h1, h2⟩; exact h.1 s hs h1 h2
        · rintro ⟨s, line, hs, hl, h1, h2⟩
          have := h.2 s line hs hl h1
          rcases h2 with h2 | h2
          · exact this.1 h2
          · exact this.2 h2
  · rename_i hno
    refine answers_none ?_
    rintro ⟨a, b, hab, ha, hb, hall, _⟩
    rcases (pair_iff hn a b hab).2 ⟨mem_componentsUuids.2 ha.1, mem_componentsUuids.2 hb.1,
        fun x hx => hall x (mem_componentsUuids.1 hx)⟩ with h | h
    · exact hno _ _ h
    · exact hno _ _ h

/-! ### Numbers of block vertices -/

include wf in
theorem count_vertex_answers {v : Index} (hv : v < m.nbUniqueVertices) (hf : ∀ b, At m v .block b → CountsFit m v b) :
    Answers (blockCmvsCountIsIncorrect m v) (BlockCountWrong m v) := by
  unfold blockCmvsCountIsIncorrect
  refine Answers.congr (P := ∃ b ∈ componentsUuids m v .block, Active m .block b ∧ ¬ CountIsRight m v b)
    (findSomeM_answers _ _ _ ?_) ?_
  · intro b hb
    have hat := mem_componentsUuids.1 hb
    refine answers_component wf (has_of_at wf hv hat) _ _ fun c _ _ hact => ?_
    refine answers_iteP (fun h => answers_none fun hp => ?_) (fun h => ?_)
    · rw [hact.2 hp.1] at h; cases h
    · refine Answers.congr (count_answers wf hv hat (hf b hat)) ?_
      have : Active m .block b := hact.1 (by simpa using h)
      simp [this]
  · unfold BlockCountWrong
    constructor
    · rintro ⟨b, hb, ha, hc⟩; exact ⟨b, ⟨mem_componentsUuids.1 hb, ha⟩, hc⟩
    · rintro ⟨b, ⟨hb, ha⟩, hc⟩; exact ⟨b, mem_componentsUuids.2 hb, ha, hc⟩

include wf in
theorem brepBlocks_decides {v : Index} (hv : v < m.nbUniqueVertices) (hf : ∀ b, At m v .block b → CountsFit m v b) :
    Decides (brepBlocksTopologyIsValid m v) (¬ TwoBlocksWithoutSurface m v ∧ ¬ BlockCountWrong m v) := by
  obtain ⟨o1, h1, p1⟩ := twoBlocks_answers wf hv
  obtain ⟨o2, h2, p2⟩ := count_vertex_answers wf hv hf
  unfold brepBlocksTopologyIsValid
  simp only [bind, Except.bind, h1, h2]
  by_cases h : o1.isSome = true
  · rw [if_pos h]; exact ⟨false, rfl, by simp [p1.1 h]⟩
  · rw [if_neg h]
    refine ⟨_, rfl, ?_⟩
    have := (not_congr p1).1 h
    simp only [this, not_false_eq_true, true_and, ← p2]
    simp

/-! ### Wrong relationships -/

variable {NB D : List Uuid} {inside : Uuid → Uuid → Except Failure Bool}

include wf in
theorem wrongRelationships_answers {v : Index} (hv : v < m.nbUniqueVertices) (hNB : ∀ s, s ∈ NB ↔ CannotBound m s)
    (hD : ∀ s, s ∈ D ↔ s ∈ NB ∧ OutsideBlocks m inside s) :
    Answers (wrongRelationshipsToBlock m v NB D) (SurfaceWrongForBlocks m v inside) := by
  unfold wrongRelationshipsToBlock
  refine activeLoop_answers wf hv .surface _ (fun s => (m.incidences s ≠ [] ∧ CannotBound m s) ∨
     (m.incidences s = [] ∧ m.embeddings s = [] ∧ ¬ (CannotBound m s ∧ OutsideBlocks m inside s))) ?_
  intro cmv _ _
  generalize cmv.component_id.id = s
  have hinc : m.nbIncidences s < 1 ↔ m.incidences s = [] := by
    unfold TopologyModel.nbIncidences; rw [Nat.lt_one_iff]; exact List.length_eq_zero_iff
  have hemb : m.nbEmbeddings s < 1 ↔ m.embeddings s = [] := by
    unfold TopologyModel.nbEmbeddings; rw [Nat.lt_one_iff]; exact List.length_eq_zero_iff
  have hinc' : m.nbIncidences s ≥ 1 ↔ m.incidences s ≠ [] := by rw [Ne, ← hinc]; omega
  have hDS : s ∈ D ↔ CannotBound m s ∧ OutsideBlocks m inside s := by rw [hD, hNB]
  refine answers_iteP (fun h => answers_some _ (Or.inl ?_)) (fun h => ?_)
  · simp only [Bool.and_eq_true, decide_eq_true_eq, List.contains_iff_mem, hinc', hNB] at h
    exact h
  have h1 : ¬ (m.incidences s ≠ [] ∧ CannotBound m s) := by
    rwa [Bool.and_eq_true, decide_eq_true_eq, List.contains_iff_mem, hinc', hNB] at h
  refine answers_iteP (fun h2 => ?_) (fun _ => ?_)
  · exfalso
    rw [Bool.and_eq_true, Bool.and_eq_true, Bool.not_eq_true', List.contains_iff_mem, ← Bool.not_eq_true,
      List.contains_iff_mem, hNB, hDS] at h2
    exact h2.1.2 h2.2.1
  refine answers_iteP (fun h3 => answers_some _ (Or.inr ?_)) (fun h3 => answers_none ?_)
  · rw [Bool.and_eq_true, Bool.and_eq_true, Bool.not_eq_true', ← Bool.not_eq_true, List.contains_iff_mem,
      decide_eq_true_eq, decide_eq_true_eq, hinc, hemb, hDS] at h3
    exact ⟨h3.1.1, h3.1.2, h3.2⟩
  · rw [Bool.and_eq_true, Bool.and_eq_true, Bool.not_eq_true', ← Bool.not_eq_true, List.contains_iff_mem,
      decide_eq_true_eq, decide_eq_true_eq, hinc, hemb, hDS] at h3
    rintro (hp | ⟨q1, q2, q3⟩)
    · exact h1 hp
    · exact h3 ⟨⟨q1, q2⟩, q3⟩

/-! ### Single surface -/

include wf in
theorem single_answers {v : Index} (hv : v < m.nbUniqueVertices) (hNB : ∀ s, s ∈ NB ↔ CannotBound m s) :
    Answers (invalidSingleSurface m v NB) (SingleInvalidSurface m v) := by
  unfold invalidSingleSurface
  split
  · rename_i s heq
    obtain ⟨hs1, hs2⟩ := (singleton_iff (componentsUuids_nodup m v .surface) s).1 heq
    have hat := mem_componentsUuids.1 hs1
    have huniq : ∀ s', At m v .surface s' → s' = s := fun s' h => hs2 s' (mem_componentsUuids.2 h)
    obtain ⟨c, hc, _, _, hact⟩ := component_ok (wf.ids .surface) (has_of_at wf hv hat)
    simp only [bind, Except.bind, hc]
    have hspec : SingleInvalidSurface m v ↔ Active m .surface s ∧ ¬ CannotBound m s ∧
        ((∃ a b c, a ≠ b ∧ a ≠ c ∧ b ≠ c ∧ At m v .block a ∧ At m v .block b ∧ At m v .block c) ∨
         (m.embeddings s ≠ [] ∧ AllMeshed m .block ∧
           ¬ ∃ b, At m v .block b ∧ (∀ b', At m v .block b' → b' = b) ∧ m.isInternal s b = true) ∨
         (m.embeddings s = [] ∧ ∃ b, At m v .block b ∧ m.isBoundary s b = false)) := by
      unfold SingleInvalidSurface
      constructor
      · rintro ⟨s', ha, _, h⟩
        have := huniq s' ha.1
        subst this
        exact ⟨ha.2, h⟩
      · rintro ⟨ha, h⟩; exact ⟨s, ⟨hat, ha⟩, huniq, h⟩
    refine Answers.congr (P := _) ?_ hspec.symm
    have hthree := three_iff (componentsUuids_nodup m v .block)
    simp only [mem_componentsUuids] at hthree
    refine answers_iteP (fun h => answers_none fun hp => ?_) (fun h => ?_)
    · rw [hact.2 hp.1] at h; cases h
    have ha : Active m .surface s := hact.1 (by simpa using h)
    refine answers_iteP (fun h2 => answers_none fun hp => ?_) (fun h2 => ?_)
    · exact hp.2.1 ((hNB s).1 (by simpa using h2))
    have hnb : ¬ CannotBound m s := fun hc => h2 (by simpa using (hNB s).2 hc)
    refine answers_iteP (fun h3 => answers_some _ ⟨ha, hnb, Or.inl (hthree.1 h3)⟩) (fun h3 => ?_)
    have hno3 := (not_congr hthree).1 h3
    have hemb : m.nbEmbeddings s > 0 ↔ m.embeddings s ≠ [] := by
      unfold TopologyModel.nbEmbeddings; exact List.length_pos_iff
    refine answers_iteP (fun h4 => ?_) (fun h4 => ?_)
    · have he := hemb.1 h4
      refine answers_iteP (fun h5 => ?_) (fun h5 => answers_none fun hp => ?_)
      · have hmesh := brepBlocksAreMeshed_iff.1 h5
        split
        · rename_i b hbq
          obtain ⟨hb1, hb2⟩ := (singleton_iff (componentsUuids_nodup m v .block) b).1 hbq
          refine answers_iteP (fun h6 => answers_some _ ⟨ha, hnb, Or.inr (Or.inl ⟨he, hmesh, ?_⟩)⟩)
            (fun h6 => answers_none fun hp => ?_)
          · rintro ⟨b', hb', _, hi⟩
            have := hb2 b' (mem_componentsUuids.2 hb')
            subst this
            rw [hi] at h6; cases h6
          · rcases hp.2.2 with hp | hp | hp
            · exact hno3 hp
            · exact hp.2.2 ⟨b, mem_componentsUuids.1 hb1, fun b' hb' => hb2 b' (mem_componentsUuids.2 hb'),
                by simpa using h6⟩
            · exact he hp.1
        · rename_i hbq
          refine answers_some _ ⟨ha, hnb, Or.inr (Or.inl ⟨he, hmesh, ?_⟩)⟩
          rintro ⟨b, hb, hu, _⟩
          exact hbq b ((singleton_iff (componentsUuids_nodup m v .block) b).2
            ⟨mem_componentsUuids.2 hb, fun x hx => hu x (mem_componentsUuids.1 hx)⟩)
      · rcases hp.2.2 with hp | hp | hp
        · exact hno3 hp
        · exact h5 (brepBlocksAreMeshed_iff.2 hp.2.1)
        · exact he hp.1
    · have he : m.embeddings s = [] := by
        by_contra hc; exact h4 (hemb.2 hc)
      refine Answers.congr (findSomeM_answers _ (fun b => m.isBoundary s b = false) _ ?_) ?_
      · intro b hb
        obtain ⟨cb, hcb, _⟩ := component_ok (wf.ids .block) (has_of_at wf hv (mem_componentsUuids.1 hb))
        refine answers_iteP (fun h5 => ?_) (fun h5 => answers_none fun hp => h5 (by simp [hp]))
        rw [hcb]
        exact answers_some _ (by simpa using h5)
      · constructor
        · rintro ⟨b, hb, h5⟩
          exact ⟨ha, hnb, Or.inr (Or.inr ⟨he, b, mem_componentsUuids.1 hb, h5⟩)⟩
        · intro hp
          rcases hp.2.2 with hp | hp | hp
          · exact absurd hp hno3
          · exact absurd he hp.1
          · obtain ⟨b, hb, h5⟩ := hp.2
            exact ⟨b, mem_componentsUuids.2 hb, h5⟩
  · rename_i hno
    refine answers_none ?_
    rintro ⟨s, ha, hu, _⟩
    exact hno s ((singleton_iff (componentsUuids_nodup m v .surface) s).2
      ⟨mem_componentsUuids.2 ha.1, fun x hx => hu x (mem_componentsUuids.1 hx)⟩)

/-! ### Multiple surfaces -/

theorem multiple_answers (wf : WellFormed m) {v : Index} (hv : v < m.nbUniqueVertices) :
    Answers (invalidMultipleSurfaces m v) (MultipleInvalidSurfaces m v) := by
  unfold invalidMultipleSurfaces MultipleInvalidSurfaces
  have hl2 := two_iff (componentsUuids_nodup m v .line)
  have hs2 := two_iff (componentsUuids_nodup m v .surface)
  let nd := (componentsUuids m v .surface).filter fun surface_uuid =>
    !(decide (m.nbIncidences surface_uuid < 1) && decide (m.nbEmbeddings surface_uuid < 1))
  have hndn : nd.Nodup := (componentsUuids_nodup m v .surface).filter _
  have hnd2 := two_iff hndn
  have hmem : ∀ s, s ∈ nd ↔ RelatedSurface m v s := by
    intro s
    have hinc : m.nbIncidences s < 1 ↔ m.incidences s = [] := by
      unfold TopologyModel.nbIncidences; rw [Nat.lt_one_iff]; exact List.length_eq_zero_iff
    have hemb : m.nbEmbeddings s < 1 ↔ m.embeddings s = [] := by
      unfold TopologyModel.nbEmbeddings; rw [Nat.lt_one_iff]; exact List.length_eq_zero_iff
    unfold RelatedSurface
    rw [List.mem_filter, mem_componentsUuids]
    simp only [hinc, hemb, Bool.not_eq_true', Bool.and_eq_false_iff, decide_eq_false_iff_not]
  simp only [mem_componentsUuids] at hl2 hs2
  simp only [hmem] at hnd2
  simp only []
  refine answers_iteP (fun h1 => answers_none fun hp => ?_) (fun h1 => ?_)
  · have := hl2.2 hp.1
    omega
  have hlines := hl2.1 (by omega)
  refine answers_iteP (fun h2 => answers_none fun hp => ?_) (fun h2 => ?_)
  · obtain ⟨_, ⟨a, b, hab, ha, hb⟩, _⟩ := hp
    have := hs2.2 ⟨a, b, hab, ha.1, hb.1⟩
    omega
  refine answers_iteP (fun h3 => answers_none fun hp => ?_) (fun h3 => ?_)
  · have := hnd2.2 hp.2.1
    exact absurd h3 (by show ¬ nd.length < 2; omega)
  have hsurf := hnd2.1 (by have h3' : ¬ nd.length < 2 := h3; omega)
  have hline : ∀ line, ((decide (m.nbEmbeddings line < 1) && !lineIsBoundaryOfTwo m line 0 nd &&
      !loopAny (fun surface_id => !m.isInternal line surface_id && !m.isBoundary line surface_id) nd) = true) ↔
      (m.embeddings line = [] ∧
    (∀ s, RelatedSurface m v s → m.isInternal line s = true ∨ m.isBoundary line s = true) ∧
    (¬ ∃ s, RelatedSurface m v s ∧ m.isBoundary line s = true ∧ m.embeddings s ≠ []) ∧
    (¬ ∃ a b, a ≠ b ∧ RelatedSurface m v a ∧ RelatedSurface m v b ∧ m.isBoundary line a = true ∧
      m.isBoundary line b = true)) := by
    intro line
    have hemb : m.nbEmbeddings line < 1 ↔ m.embeddings line = [] := by
      unfold TopologyModel.nbEmbeddings; rw [Nat.lt_one_iff]; exact List.length_eq_zero_iff
    have hb2 := lineIsBoundaryOfTwo_iff (m := m) line nd hndn 0 (by omega)
    rw [Nat.zero_add] at hb2
    have hf2 := two_iff (hndn.filter fun s => m.isBoundary line s)
    have hb2' : lineIsBoundaryOfTwo m line 0 nd = true ↔
        (∃ s, RelatedSurface m v s ∧ m.isBoundary line s = true ∧ m.embeddings s ≠ []) ∨
        ∃ a b, a ≠ b ∧ RelatedSurface m v a ∧ RelatedSurface m v b ∧ m.isBoundary line a = true ∧
          m.isBoundary line b = true := by
      rw [hb2]
      refine or_congr ?_ ?_
      · simp only [hmem]
      · rw [show 2 ≤ (nd.filter fun s => m.isBoundary line s).length ↔
          1 < (nd.filter fun s => m.isBoundary line s).length from Iff.rfl, hf2]
        simp only [List.mem_filter, hmem]
        constructor
        · rintro ⟨a, b, hab, ⟨h1, h2⟩, h3, h4⟩; exact ⟨a, b, hab, h1, h3, h2, h4⟩
        · rintro ⟨a, b, hab, h1, h3, h2, h4⟩; exact ⟨a, b, hab, ⟨h1, h2⟩, h3, h4⟩
    have hrel : loopAny (fun surface_id => !m.isInternal line surface_id && !m.isBoundary line surface_id) nd = true ↔
        ¬ ∀ s, RelatedSurface m v s → m.isInternal line s = true ∨ m.isBoundary line s = true := by
      rw [loopAny_iff]
      simp only [hmem, Bool.and_eq_true, Bool.not_eq_true']
      push Not
      simp only [Bool.not_eq_true]
    rw [Bool.and_eq_true, Bool.and_eq_true, decide_eq_true_eq, hemb, Bool.not_eq_true', ← Bool.not_eq_true, hb2',
      Bool.not_eq_true', ← Bool.not_eq_true, hrel, not_or, Classical.not_not]
    constructor
    · rintro ⟨⟨q1, q2, q3⟩, q4⟩; exact ⟨q1, q4, q2, q3⟩
    · rintro ⟨q1, q4, q2, q3⟩; exact ⟨⟨q1, q2, q3⟩, q4⟩
  refine Answers.congr (findSomeM_answers _ (fun line => m.embeddings line = [] ∧
    (∀ s, RelatedSurface m v s → m.isInternal line s = true ∨ m.isBoundary line s = true) ∧
    (¬ ∃ s, RelatedSurface m v s ∧ m.isBoundary line s = true ∧ m.embeddings s ≠ []) ∧
    (¬ ∃ a b, a ≠ b ∧ RelatedSurface m v a ∧ RelatedSurface m v b ∧ m.isBoundary line a = true ∧
      m.isBoundary line b = true)) _ (fun line hl => ?_)) ?_
  · obtain ⟨cl, hcl, _⟩ := component_ok (wf.ids .line) (has_of_at wf hv (mem_componentsUuids.1 hl))
    refine answers_iteP (fun h5 => ?_) (fun h5 => answers_none fun hp => h5 ((hline line).2 hp))
    rw [hcl]
    exact answers_some _ ((hline line).1 h5)
  · constructor
    · rintro ⟨line, hl, h⟩
      exact ⟨hlines, hsurf, line, mem_componentsUuids.1 hl, h⟩
    · rintro ⟨_, _, line, hl, h⟩
      exact ⟨line, mem_componentsUuids.2 hl, h⟩

end Inspector
