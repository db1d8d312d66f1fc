import Verif.Proofs.Active
import Verif.Proofs.TopologySurfaces
import Verif.Spec.TopologyMessages
/-
Proofs on the messages of the topology inspection of a Section.
-/
namespace Inspector
open Spec

variable {m : TopologyModel} {v : Index} {t : String}

/-! ### Checks which return a message -/

theorem findSomeM_some {α : Type} {f : α → Except Failure (Option String)} {l : List α}
    (h : findSomeM f l = .ok (some t)) : ∃ x ∈ l, f x = .ok (some t) := by
  induction l with
  | nil => cases h
  | cons x l ih =>
    unfold findSomeM at h
    split at h
    · cases h
    · rename_i text hx
      cases h
      exact ⟨x, by simp, hx⟩
    · obtain ⟨y, hy, hf⟩ := ih h
      exact ⟨y, by simp [hy], hf⟩

theorem component_found {kind : ComponentType} {id : Uuid} {c : TopologyComponent} (h : m.component kind id = .ok c) :
    c ∈ m.components kind ∧ c.id = id := by
  unfold TopologyModel.component at h
  split at h
  · rename_i d hd
    cases h
    exact ⟨List.mem_of_find?_eq_some hd, by simpa using List.find?_some hd⟩
  · cases h

theorem has_found {kind : ComponentType} {id : Uuid} {c : TopologyComponent} (h : m.component kind id = .ok c) :
    Has m kind id := ⟨c, (component_found h).1, (component_found h).2⟩

theorem active_found {kind : ComponentType} {id : Uuid} {c : TopologyComponent} (h : m.component kind id = .ok c)
    (ha : c.active = true) : Active m kind id := ⟨c, (component_found h).1, (component_found h).2, ha⟩

/-- What `ifActive` returns: the skipped value, or the body for an active component. -/
theorem ifActive_cases {β : Type} {kind : ComponentType} {cmv : ComponentMeshVertex} {skip body : Except Failure β} {r : β}
    (h : ifActive m kind cmv skip body = .ok r) : skip = .ok r ∨ (ActiveCmv m kind cmv ∧ body = .ok r) := by
  unfold ifActive at h
  split at h
  · exact .inl h
  · rename_i ht
    split at h
    · cases h
    · rename_i c hc
      split at h
      · exact .inl h
      · rename_i ha
        exact .inr ⟨⟨by simpa using ht, active_found hc (by simpa using ha)⟩, h⟩

theorem ifActive_some {kind : ComponentType} {cmv : ComponentMeshVertex} {body : Except Failure (Option String)}
    (h : ifActive m kind cmv (.ok none) body = .ok (some t)) : ActiveCmv m kind cmv ∧ body = .ok (some t) := by
  rcases ifActive_cases h with h | h
  · cases h
  · exact h

theorem activeAt_of_cmv {kind : ComponentType} {cmv : ComponentMeshVertex} (hm : cmv ∈ m.componentMeshVertices v)
    (h : ActiveCmv m kind cmv) : ActiveAt m v kind cmv.component_id.id :=
  ⟨⟨cmv, hm, by rw [← h.1]⟩, h.2⟩

theorem at_of_cmv {kind : ComponentType} {cmv : ComponentMeshVertex} (hm : cmv ∈ m.componentMeshVertices v)
    (h : cmv.component_id.type = kind) : At m v kind cmv.component_id.id := ⟨cmv, hm, by rw [← h]⟩

theorem length_lt_one {α : Type} {l : List α} (h : l.length < 1) : l = [] := by
  cases l with
  | nil => rfl
  | cons => simp at h

theorem length_pos_ne {α : Type} {l : List α} (h : 0 < l.length) : l ≠ [] := by rintro rfl; simp at h

/-! ### Explained lists -/

theorem explained_new {α : Type} (d : String) (claim : α → String → Prop) : Explained (Issues.new d) claim := .nil

theorem explained_add {α : Type} {s : Issues α} {claim : α → String → Prop} {x : α} (h : Explained s claim)
    (hx : claim x t) : Explained (s.add x t) claim := by
  unfold Explained Issues.add at *
  exact List.rel_append h (.cons hx .nil)

theorem explained_addOptional {s : Issues Index} {claim : Index → String → Prop} {o : Option String}
    (h : Explained s claim) (hx : ∀ t, o = some t → claim v t) : Explained (addOptional s v o) claim := by
  cases o with
  | none => exact h
  | some t => exact explained_add h (hx t rfl)

theorem explained_setDescription {α : Type} {s : Issues α} {claim : α → String → Prop} (d : String)
    (h : Explained s claim) : Explained (s.setDescription d) claim := h

theorem explained_collectFrom {α β : Type} {claim : β → String → Prop} (bad : α → Bool) (issue : α → β)
    (message : α → String) (l : List α) (init : Issues β) (hi : Explained init claim)
    (h : ∀ x ∈ l, bad x = true → claim (issue x) (message x)) : Explained (collectFrom init l bad issue message) claim := by
  unfold collectFrom
  refine foldl_keep (fun s => Explained s claim) _ l ?_ init hi
  intro s x hx hs
  split
  · rename_i hb
    exact explained_add hs (h x hx hb)
  · exact hs

theorem explainedMap_new {α : Type} (d : String) (descr : Uuid → String) (claim : Uuid → α → String → Prop) :
    ExplainedMap (IssuesMap.new d) descr claim := by
  intro e he
  exact absurd he (by simp [IssuesMap.new])

theorem explainedMap_add {α : Type} {map : IssuesMap α} {descr : Uuid → String} {claim : Uuid → α → String → Prop}
    {id : Uuid} {s : Issues α} (h : ExplainedMap map descr claim) (hd : s.description = descr id)
    (hs : Explained s (claim id)) : ExplainedMap (map.addIssues id s) descr claim := by
  unfold IssuesMap.addIssues
  split
  · exact h
  · split
    · exact h
    · intro e he
      simp only [List.mem_append, List.mem_singleton] at he
      rcases he with he | rfl
      · exact h e he
      · exact ⟨hd, hs⟩

/-! ### Components -/

theorem verticesNotAssociated_explained {kind : ComponentType} {c : TopologyComponent} (hc : c ∈ m.components kind)
    (ha : c.active = true) : Explained (verticesNotAssociated m kind c) (NotLinkedSays m kind c.id) := by
  unfold verticesNotAssociated collect
  refine explained_collectFrom _ _ _ _ _ (explained_new _ _) ?_
  intro x hx hb
  exact .notLinked c hc ha rfl ⟨by simpa using hx, by simpa using hb⟩

theorem addNotAssociated_explained {kind : ComponentType} {name : String} {map : IssuesMap Index} {c : TopologyComponent}
    (h : ExplainedMap map (fun id => name ++ named m kind id) (NotLinkedSays m kind)) (hc : c ∈ m.components kind)
    (ha : c.active = true) :
    ExplainedMap (addNotAssociated m kind name map c) (fun id => name ++ named m kind id) (NotLinkedSays m kind) := by
  unfold addNotAssociated
  simp only []
  split
  · exact explainedMap_add h rfl (explained_setDescription _ (verticesNotAssociated_explained hc ha))
  · exact h

theorem addCorner_explained {ending : String} {not_meshed : Issues Uuid} {not_linked : IssuesMap Index}
    {c : TopologyComponent} (h1 : Explained not_meshed (CornerNotMeshedSays m ending))
    (h2 : ExplainedMap not_linked (fun id => "Corner " ++ named m .corner id) (NotLinkedSays m .corner))
    (hc : c ∈ m.components .corner) (ha : c.active = true) :
    Explained (addCorner m ending not_meshed not_linked c).1 (CornerNotMeshedSays m ending) ∧
    ExplainedMap (addCorner m ending not_meshed not_linked c).2 (fun id => "Corner " ++ named m .corner id)
      (NotLinkedSays m .corner) := by
  unfold addCorner
  split
  · rename_i hn
    exact ⟨explained_add h1 (.noVertex c hc ha rfl (by simpa [cornerIsMeshed] using hn)), h2⟩
  · exact ⟨h1, addNotAssociated_explained h2 hc ha⟩

theorem of_mem_activeComponents {kind : ComponentType} {c : TopologyComponent} (h : c ∈ m.activeComponents kind) :
    c ∈ m.components kind ∧ c.active = true := by
  unfold TopologyModel.activeComponents at h
  simpa [List.mem_filter] using h

/-! ### Corners of a Section -/

theorem multipleCornersLoop_some {l : List ComponentMeshVertex} : ∀ {found : Bool},
    multipleCornersLoop m v l found = .ok (some t) →
    t = "unique vertex " ++ toString v ++ " is part of several Corners." ∧
      ((found = true ∧ ∃ b ∈ l, ActiveCmv m .corner b) ∨
        ∃ a b, [a, b].Sublist l ∧ ActiveCmv m .corner a ∧ ActiveCmv m .corner b) := by
  induction l with
  | nil => intro found h; cases h
  | cons x l ih =>
    intro found h
    unfold multipleCornersLoop at h
    rcases ifActive_cases h with h | ⟨hx, h⟩
    · obtain ⟨ht, h⟩ := ih h
      refine ⟨ht, ?_⟩
      rcases h with ⟨hf, b, hb, hab⟩ | ⟨a, b, hs, ha, hb⟩
      · exact .inl ⟨hf, b, by simp [hb], hab⟩
      · exact .inr ⟨a, b, hs.cons x, ha, hb⟩
    · split at h
      · rename_i hf
        cases h
        exact ⟨rfl, .inl ⟨hf, x, by simp, hx⟩⟩
      · obtain ⟨ht, h⟩ := ih h
        refine ⟨ht, .inr ?_⟩
        rcases h with ⟨_, b, hb, hab⟩ | ⟨a, b, hs, ha, hb⟩
        · exact ⟨x, b, (List.singleton_sublist.2 hb).cons_cons x, hx, hab⟩
        · exact ⟨a, b, hs.cons x, ha, hb⟩

theorem severalCorners_says (h : sectionUniqueVertexHasMultipleCorners m v = .ok (some t)) : SeveralCornersSays m v t := by
  obtain ⟨ht, hc⟩ := multipleCornersLoop_some h
  subst ht
  rcases hc with ⟨hf, _⟩ | hc
  · cases hf
  · exact .twice (twiceActive_iff.2 hc)

theorem severalEmbeddings_says (h : sectionCornerHasMultipleEmbeddings m v = .ok (some t)) :
    SeveralEmbeddingsSays m v t := by
  obtain ⟨cmv, hm, h⟩ := findSomeM_some h
  obtain ⟨ha, h⟩ := ifActive_some h
  split at h
  · rename_i hl
    cases h
    exact .several _ (activeAt_of_cmv hm ha) hl
  · cases h

theorem cornerAlone_says (h : sectionCornerIsNotInternalNorBoundary m v = .ok (some t)) : CornerAloneSays m v t := by
  obtain ⟨cmv, hm, h⟩ := findSomeM_some h
  obtain ⟨ha, h⟩ := ifActive_some h
  split at h
  · rename_i hl
    cases h
    simp only [Bool.and_eq_true, decide_eq_true_eq] at hl
    exact .alone _ (activeAt_of_cmv hm ha) (length_lt_one hl.1) (length_lt_one hl.2)
  · cases h

theorem sectionCornerLine_says (h : sectionCornerIsPartOfLineButNotBoundary m v = .ok (some t)) :
    SectionCornerLineSays m v t := by
  obtain ⟨cmv, hm, h⟩ := findSomeM_some h
  obtain ⟨ha, h⟩ := ifActive_some h
  obtain ⟨line, hl, h⟩ := findSomeM_some h
  split at h
  · cases h
  · rename_i hk
    split at h
    · rename_i hb
      split at h
      · cases h
      · cases h
        exact .notBoundary _ _ (activeAt_of_cmv hm ha) (at_of_cmv hl (by simpa using hk)) (by simpa using hb)
    · cases h

theorem sectionCornersVertex_explained {r r' : SectionCornersTopologyInspectionResult}
    (h : SectionCornersExplained m r) (hv : sectionCornersVertex m r v = .ok r') : SectionCornersExplained m r' := by
  simp only [sectionCornersVertex, bind, Except.bind, pure, Except.pure] at hv
  split at hv
  · cases hv
  rename_i o1 h1
  split at hv
  · cases hv
  rename_i o2 h2
  split at hv
  · cases hv
  rename_i o3 h3
  split at hv
  · cases hv
  rename_i o4 h4
  cases hv
  exact ⟨h.notMeshed, h.notLinked,
    explained_addOptional h.several fun t ht => severalCorners_says (ht ▸ h1),
    explained_addOptional h.embeddings fun t ht => severalEmbeddings_says (ht ▸ h2),
    explained_addOptional h.alone fun t ht => cornerAlone_says (ht ▸ h3),
    explained_addOptional h.line fun t ht => sectionCornerLine_says (ht ▸ h4)⟩

theorem sectionCorners_explained {r : SectionCornersTopologyInspectionResult} (h : sectionInspectCorners m = .ok r) :
    SectionCornersExplained m r := by
  unfold sectionInspectCorners at h
  refine foldlM_keep (SectionCornersExplained m) _ _ (fun r v _ r' hr hv => sectionCornersVertex_explained hr hv) _ _ ?_ h
  refine foldl_keep (SectionCornersExplained m) _ _ ?_ _
    ⟨.nil, explainedMap_new _ _ _, .nil, .nil, .nil, .nil⟩
  intro r c hc hr
  obtain ⟨hc, ha⟩ := of_mem_activeComponents hc
  have := addCorner_explained hr.notMeshed hr.notLinked hc ha
  exact ⟨this.1, this.2, hr.several, hr.embeddings, hr.alone, hr.line⟩

/-! ### Lines of a Section -/

theorem lineAlone_says (h : sectionLineWrongRelationships m v = .ok (some t)) : LineAloneSays m v t := by
  obtain ⟨cmv, hm, h⟩ := findSomeM_some h
  obtain ⟨ha, h⟩ := ifActive_some h
  split at h
  · rename_i hl
    cases h
    simp only [Bool.and_eq_true, decide_eq_true_eq] at hl
    exact .alone _ (activeAt_of_cmv hm ha) (length_lt_one hl.1) (length_lt_one hl.2)
  · cases h

theorem sectionEmbeddingLoop_says {line : Uuid} (hl : ActiveAt m v .line line)
    (h : sectionEmbeddingLoop m v line = .ok (some t)) : SectionEmbeddedLineSays m v t := by
  obtain ⟨e, he, h⟩ := findSomeM_some h
  split at h
  · cases h
  rename_i c hc
  split at h
  · cases h
  rename_i ha
  split at h
  · rename_i hb
    cases h
    simp only [Bool.and_eq_true] at hb
    refine .notLinked line e hl he (active_found hc (by simpa using ha)) (allMeshed_iff.1 hb.1) ?_
    intro cmv hcmv heq
    have := hb.2
    simp only [Bool.not_eq_true', List.any_eq_false, beq_iff_eq] at this
    exact this cmv hcmv heq
  · cases h

theorem sectionEmbeddedLineLoop_says {l : List ComponentMeshVertex} (hl : ∀ cmv ∈ l, cmv ∈ m.componentMeshVertices v)
    (h : sectionEmbeddedLineLoop m v l = .ok (some t)) : SectionEmbeddedLineSays m v t := by
  induction l with
  | nil => cases h
  | cons x l ih =>
    have ih := ih fun y hy => hl y (by simp [hy])
    unfold sectionEmbeddedLineLoop at h
    simp only [] at h
    rcases ifActive_cases h with h | ⟨hx, h⟩
    · exact ih h
    · have hat := activeAt_of_cmv (hl x (by simp)) hx
      split at h
      · cases h
      rename_i h0
      split at h
      · rename_i h1
        cases h
        exact .several _ hat h1
      split at h
      · rename_i h2
        cases h
        exact .both _ hat (length_pos_ne (by unfold TopologyModel.nbEmbeddings at h0; omega)) (length_pos_ne h2)
      split at h
      · cases h
      · rename_i text ht
        cases h
        exact sectionEmbeddingLoop_says hat ht
      · exact ih h

/-- A list of uuids with one element. -/
theorem onlyActive_of {kind : ComponentType} {id : Uuid} {c : TopologyComponent} (hl : componentsUuids m v kind = [id])
    (hc : m.component kind id = .ok c) (ha : c.active = true) : OnlyActive m v kind id := by
  refine ⟨⟨mem_componentsUuids.1 (by rw [hl]; simp), active_found hc ha⟩, ?_⟩
  intro other ho
  have := mem_componentsUuids.2 ho
  rw [hl] at this
  simpa using this

theorem sectionSingleLine_says (h : sectionInvalidSingleLine m v = .ok (some t)) : SectionSingleLineSays m v t := by
  unfold sectionInvalidSingleLine at h
  split at h
  · rename_i line hl
    split at h
    · cases h
    rename_i c hc
    split at h
    · cases h
    rename_i ha
    have honly := onlyActive_of hl hc (by simpa using ha)
    simp only [] at h
    split at h
    · rename_i h3
      cases h
      refine .threeSurfaces line honly ?_
      obtain ⟨a, b, c, hab, hac, hbc, h1, h2, h3⟩ := (three_iff (componentsUuids_nodup m v .surface)).1 h3
      exact ⟨a, b, c, hab, hac, hbc, mem_componentsUuids.1 h1, mem_componentsUuids.1 h2, mem_componentsUuids.1 h3⟩
    split at h
    · rename_i he
      split at h
      · rename_i hb
        cases h
        simp only [Bool.and_eq_true] at hb
        refine .notInternal line honly (length_pos_ne he) (allMeshed_iff.1 hb.1) ?_
        rintro ⟨s, hs, hall, hint⟩
        have hsing : componentsUuids m v .surface = [s] :=
          (singleton_iff (componentsUuids_nodup m v .surface) s).2
            ⟨mem_componentsUuids.2 hs, fun x hx => hall x (mem_componentsUuids.1 hx)⟩
        rw [hsing] at hb
        simp [hint] at hb
      · cases h
    · rename_i he
      obtain ⟨s, hs, h⟩ := findSomeM_some h
      split at h
      · rename_i hb
        split at h
        · cases h
        · cases h
          refine .notBoundary line s honly (length_lt_one (by unfold TopologyModel.nbEmbeddings at he; omega))
            (mem_componentsUuids.1 hs) (by simpa using hb)
      · cases h
  · cases h

theorem sectionLinesAndCorner_some {l : List ComponentMeshVertex} : ∀ {n n' : Nat} {found found' : Bool},
    sectionLinesAndCorner m l n found = .ok (n', found') →
    (n + 1 < n' → ∃ a b, [a, b].Sublist l ∧ ActiveCmv m .line a ∧ ActiveCmv m .line b) ∧
    (n < n' → ∃ b ∈ l, ActiveCmv m .line b) ∧
    (found' = false → found = false ∧ ∀ cmv ∈ l, cmv.component_id.type ≠ .corner) := by
  induction l with
  | nil =>
    intro n n' found found' h
    cases h
    refine ⟨fun h => absurd h (by omega), fun h => absurd h (by omega), fun h => ⟨h, by simp⟩⟩
  | cons x l ih =>
    intro n n' found found' h
    unfold sectionLinesAndCorner at h
    have keep : ∀ {n0 : Nat} {f0 : Bool}, sectionLinesAndCorner m l n0 f0 = .ok (n', found') →
        (n0 + 1 < n' → ∃ a b, [a, b].Sublist (x :: l) ∧ ActiveCmv m .line a ∧ ActiveCmv m .line b) ∧
        (n0 < n' → ∃ b ∈ x :: l, ActiveCmv m .line b) := by
      intro n0 f0 h
      obtain ⟨h1, h2, _⟩ := ih h
      refine ⟨fun hn => ?_, fun hn => ?_⟩
      · obtain ⟨a, b, hs, hab⟩ := h1 hn
        exact ⟨a, b, hs.cons x, hab⟩
      · obtain ⟨b, hb, hab⟩ := h2 hn
        exact ⟨b, by simp [hb], hab⟩
    have corner : ∀ {n0 : Nat} {f0 : Bool}, sectionLinesAndCorner m l n0 f0 = .ok (n', found') → found' = false →
        f0 = false ∧ ∀ cmv ∈ l, cmv.component_id.type ≠ .corner := fun h => (ih h).2.2
    rcases ifActive_cases h with h | ⟨hx, h⟩
    · split at h
      · exact ⟨(keep h).1, (keep h).2, fun hf => absurd (corner h hf).1 (by simp)⟩
      · rename_i hk
        refine ⟨(keep h).1, (keep h).2, fun hf => ⟨(corner h hf).1, ?_⟩⟩
        intro cmv hcmv
        rcases List.mem_cons.1 hcmv with rfl | hcmv
        · simpa using hk
        · exact (corner h hf).2 cmv hcmv
    · obtain ⟨h1, h2, h3⟩ := ih h
      refine ⟨fun hn => ?_, fun _ => ⟨x, by simp, hx⟩, fun hf => ⟨(h3 hf).1, ?_⟩⟩
      · obtain ⟨b, hb, hab⟩ := h2 (by omega)
        exact ⟨x, b, (List.singleton_sublist.2 hb).cons_cons x, hx, hab⟩
      · intro cmv hcmv
        rcases List.mem_cons.1 hcmv with rfl | hcmv
        · rw [hx.1]; decide
        · exact (h3 hf).2 cmv hcmv

theorem severalLines_says (h : sectionLinesButNotCorner m v = .ok (some t)) : SeveralLinesSays m v t := by
  simp only [sectionLinesButNotCorner, bind, Except.bind, pure, Except.pure] at h
  split at h
  · cases h
  rename_i p hp
  obtain ⟨n, found⟩ := p
  simp only [] at h
  split at h
  · rename_i hb
    cases h
    simp only [Bool.and_eq_true, decide_eq_true_eq, Bool.not_eq_true'] at hb
    obtain ⟨h1, _, h3⟩ := sectionLinesAndCorner_some hp
    refine .twice (twiceActive_iff.2 (h1 (by omega))) ?_
    rintro corner ⟨cmv, hcmv, hc⟩
    exact (h3 hb.2).2 cmv hcmv (by rw [hc])
  · cases h

theorem sectionLinesComponent_explained {r : SectionLinesTopologyInspectionResult} {c : TopologyComponent}
    (h : SectionLinesExplained m r) (hc : c ∈ m.components .line) (ha : c.active = true) :
    SectionLinesExplained m (sectionLinesComponent m r c) := by
  refine ⟨?_, addNotAssociated_explained h.notLinked hc ha, h.alone, h.embedded, h.single, h.several⟩
  show Explained (if _ then _ else _) _
  split
  · rename_i hn
    refine explained_add h.notMeshed (.noMesh c hc ha rfl ?_)
    simp only [lineIsMeshed, Bool.not_eq_true', Bool.and_eq_false_iff, bne_eq_false_iff_eq] at hn
    exact hn
  · exact h.notMeshed

theorem sectionLinesVertex_explained {r r' : SectionLinesTopologyInspectionResult}
    (h : SectionLinesExplained m r) (hv : sectionLinesVertex m r v = .ok r') : SectionLinesExplained m r' := by
  simp only [sectionLinesVertex, bind, Except.bind, pure, Except.pure] at hv
  split at hv
  · cases hv
  rename_i o1 h1
  split at hv
  · cases hv
  rename_i o2 h2
  split at hv
  · cases hv
  rename_i o3 h3
  split at hv
  · cases hv
  rename_i o4 h4
  cases hv
  exact ⟨h.notMeshed, h.notLinked,
    explained_addOptional h.alone fun t ht => lineAlone_says (ht ▸ h1),
    explained_addOptional h.embedded fun t ht => sectionEmbeddedLineLoop_says (fun _ h => h) (ht ▸ h2),
    explained_addOptional h.single fun t ht => sectionSingleLine_says (ht ▸ h3),
    explained_addOptional h.several fun t ht => severalLines_says (ht ▸ h4)⟩

theorem sectionLines_explained {r : SectionLinesTopologyInspectionResult} (h : sectionInspectLines m = .ok r) :
    SectionLinesExplained m r := by
  unfold sectionInspectLines at h
  refine foldlM_keep (SectionLinesExplained m) _ _ (fun r v _ r' hr hv => sectionLinesVertex_explained hr hv) _ _ ?_ h
  refine foldl_keep (SectionLinesExplained m) _ _ ?_ _ ⟨.nil, explainedMap_new _ _ _, .nil, .nil, .nil, .nil⟩
  intro r c hc hr
  obtain ⟨hc, ha⟩ := of_mem_activeComponents hc
  exact sectionLinesComponent_explained hr hc ha

/-! ### Surfaces of a Section -/

theorem twoSurfaces_says (h : sectionInvalidEmbeddedSurface m v = .ok (some t)) : TwoSurfacesSays m v t := by
  have hp : TwoSurfacesWithoutLine m v := by
    have hans : Answers (sectionInvalidEmbeddedSurface m v) (TwoSurfacesWithoutLine m v) := twoSurfaces_answers
    exact hans.iff.1 (by rw [h]; rfl)
  unfold sectionInvalidEmbeddedSurface at h
  split at h
  · split at h
    · cases h
    · cases h
      exact .noLine hp
  · cases h

theorem sectionBorder_says (h : sectionLineNotOnSurfaceBorder m v = .ok (some t)) : SectionBorderSays m v t := by
  unfold sectionLineNotOnSurfaceBorder at h
  split at h
  · cases h
  obtain ⟨line, hl, h⟩ := findSomeM_some h
  obtain ⟨hal, h⟩ := ifActive_some h
  obtain ⟨cmv, hm, h⟩ := findSomeM_some h
  obtain ⟨ha, h⟩ := ifActive_some h
  split at h
  · rename_i hb
    cases h
    exact .inside _ cmv (activeAt_of_cmv hl hal) hm ha (by simpa using hb)
  · cases h

theorem sectionSurfaces_explained {r : SectionSurfacesTopologyInspectionResult} (h : sectionInspectSurfaces m = .ok r) :
    SectionSurfacesExplained m r := by
  unfold sectionInspectSurfaces at h
  refine foldlM_keep (SectionSurfacesExplained m) _ _ ?_ _ _ ?_ h
  · intro r v _ r' hr hv
    simp only [sectionSurfacesVertex, bind, Except.bind, pure, Except.pure] at hv
    split at hv
    · cases hv
    rename_i o1 h1
    split at hv
    · cases hv
    rename_i o2 h2
    cases hv
    exact ⟨hr.notMeshed, hr.notLinked,
      explained_addOptional hr.two fun t ht => twoSurfaces_says (ht ▸ h1),
      explained_addOptional hr.border fun t ht => sectionBorder_says (ht ▸ h2)⟩
  · refine foldl_keep (SectionSurfacesExplained m) _ _ ?_ _ ⟨.nil, explainedMap_new _ _ _, .nil, .nil⟩
    intro r c hc hr
    obtain ⟨hc, ha⟩ := of_mem_activeComponents hc
    refine ⟨?_, addNotAssociated_explained hr.notLinked hc ha, hr.two, hr.border⟩
    show Explained (if _ then _ else _) _
    split
    · rename_i hn
      refine explained_add hr.notMeshed (.noMesh c hc ha rfl ?_)
      simp only [surfaceIsMeshed, Bool.not_eq_true', Bool.and_eq_false_iff, bne_eq_false_iff_eq] at hn
      exact hn
    · exact hr.notMeshed

end Inspector
