import Verif.Spec.TopologySurfaces
import Verif.Proofs.TopologyIf
/-! Surfaces: each check answers its criterion, the inspections are exact. -/
namespace Inspector
open Spec

variable {m : TopologyModel} (wf : WellFormed m) {v : Index} (hv : v < m.nbUniqueVertices)

/-! ### Section -/

theorem twoSurfaces_answers : Answers (sectionInvalidEmbeddedSurface m v) (TwoSurfacesWithoutLine m v) := by
  unfold sectionInvalidEmbeddedSurface
  have hn := componentsUuids_nodup m v .surface
  have hmem := fun s => mem_componentsUuids (m := m) (v := v) (kind := .surface) (id := s)
  generalize hl : componentsUuids m v .surface = l at hn hmem
  have hlen : ∀ l' : List Uuid, l' = l → l'.length ≠ 2 → ¬ TwoSurfacesWithoutLine m v := by
    rintro l' rfl hne ⟨s1, s2, hs, h1, h2, hall, _⟩
    apply hne
    have hp : List.Perm l' [s1, s2] := by
      rw [List.perm_ext_iff_of_nodup hn (by simp [hs])]
      intro s
      simp only [List.mem_cons, List.not_mem_nil, or_false]
      constructor
      · intro hx; exact hall s ((hmem s).1 hx)
      · rintro (rfl | rfl)
        · exact (hmem _).2 h1
        · exact (hmem _).2 h2
    rw [hp.length_eq]; rfl
  match l, hlen with
  | [], hlen => exact answers_none (hlen _ rfl (by simp))
  | [_], hlen => exact answers_none (hlen _ rfl (by simp))
  | _ :: _ :: _ :: _, hlen => exact answers_none (hlen _ rfl (by simp))
  | [a, b], _ =>
    have hab : a ≠ b := by
      rw [List.nodup_cons] at hn
      intro h; exact hn.1 (by simp [h])
    have ha : At m v .surface a := (hmem a).1 (by simp)
    have hb : At m v .surface b := (hmem b).1 (by simp)
    have hcond : loopAny (fun line_cmv => line_cmv.component_id.type == .line &&
        (m.isBoundary line_cmv.component_id.id a && m.isBoundary line_cmv.component_id.id b))
        (m.componentMeshVertices v) = true ↔
        ∃ line, At m v .line line ∧ m.isBoundary line a = true ∧ m.isBoundary line b = true := by
      rw [loopAny_iff, ← at_iff (P := fun line => m.isBoundary line a = true ∧ m.isBoundary line b = true)]
      simp
    refine answers_iteP (fun h => answers_none ?_) (fun h => answers_some _ ?_)
    · rintro ⟨s1, s2, hs, h1, h2, hall, hnot⟩
      apply hnot
      obtain ⟨line, hat, hla, hlb⟩ := hcond.1 h
      refine ⟨line, hat, ?_⟩
      have e1 := (hmem s1).2 h1
      have e2 := (hmem s2).2 h2
      simp only [List.mem_cons, List.not_mem_nil, or_false] at e1 e2
      rcases e1 with rfl | rfl <;> rcases e2 with rfl | rfl
      · exact absurd rfl hs
      · exact ⟨hla, hlb⟩
      · exact ⟨hlb, hla⟩
      · exact absurd rfl hs
    · refine ⟨a, b, hab, ha, hb, ?_, fun hx => h (hcond.2 hx)⟩
      intro s hs
      simpa using (hmem s).2 hs

include wf hv in
theorem lineNotOnBorder_answers : Answers (sectionLineNotOnSurfaceBorder m v) (LineNotOnBorder m v) := by
  unfold sectionLineNotOnSurfaceBorder LineNotOnBorder
  refine answers_iteP (fun h => answers_none ?_) (fun h => ?_)
  · rintro ⟨ha, _⟩
    rw [sectionSurfacesAreMeshed_iff.2 ha] at h
    exact absurd h (by simp)
  have hm : AllMeshed m .surface := sectionSurfacesAreMeshed_iff.1 (by simpa using h)
  refine Answers.congr (P := ∃ line, ActiveAt m v .line line ∧ ∃ cmv ∈ m.componentMeshVertices v,
    ActiveCmv m .surface cmv ∧ m.isVertexOnBorder cmv.component_id.id cmv.vertex = false) ?_ ?_
  · refine activeLoop_answers wf hv .line _ (fun _ => ∃ cmv ∈ m.componentMeshVertices v,
      ActiveCmv m .surface cmv ∧ m.isVertexOnBorder cmv.component_id.id cmv.vertex = false) ?_
    intro cmv _ _
    refine findSomeM_answers _ _ _ ?_
    intro s hs
    by_cases ha : ActiveCmv m .surface s
    · rw [ifActive_pos (wf.ids .surface) ha]
      exact answers_iteP (fun hb => answers_some _ ⟨ha, by simpa using hb⟩)
        (fun hb => answers_none (fun hp => hb (by simp [hp.2])))
    · rw [ifActive_neg (wf.ids .surface) (wf.vertices v hv s hs) ha]
      exact answers_none (fun hp => ha hp.1)
  · constructor
    · rintro ⟨line, hl, hx⟩; exact ⟨hm, ⟨line, hl⟩, hx⟩
    · rintro ⟨_, ⟨line, hl⟩, hx⟩; exact ⟨line, hl, hx⟩

include wf hv in
theorem sectionSurfaces_decides : Decides (sectionVertexSurfacesTopologyIsValid m v)
    ((∃ id, ActiveAt m v .surface id) → ¬ TwoSurfacesWithoutLine m v ∧ ¬ LineNotOnBorder m v) := by
  have key : ∀ l : List ComponentMeshVertex,
      (∀ cmv ∈ l, Has m cmv.component_id.type cmv.component_id.id) →
      Decides (sectionSurfacesLoop m v l) ((∃ cmv ∈ l, ActiveCmv m .surface cmv) →
        ¬ TwoSurfacesWithoutLine m v ∧ ¬ LineNotOnBorder m v) := by
    intro l
    induction l with
    | nil => intro _; exact ⟨true, rfl, by simp⟩
    | cons cmv l ih =>
      intro hl
      have hrec := ih (fun c hc => hl c (by simp [hc]))
      rw [sectionSurfacesLoop]
      by_cases ha : ActiveCmv m .surface cmv
      · rw [ifActive_pos (wf.ids .surface) ha]
        refine (decides_chain twoSurfaces_answers (decides_chain (lineNotOnBorder_answers wf hv) hrec)).congr ?_
        constructor
        · rintro ⟨h1, h2, _⟩ _; exact ⟨h1, h2⟩
        · intro h
          have := h ⟨cmv, by simp, ha⟩
          exact ⟨this.1, this.2, fun _ => this⟩
      · rw [ifActive_neg (wf.ids .surface) (hl cmv (by simp)) ha]
        refine hrec.congr ?_
        simp [ha]
  refine (key _ (wf.vertices v hv)).congr ?_
  have := @activeAt_iff m v .surface (fun _ => True)
  simp only [and_true] at this
  rw [this]

/-- The effect of the Section surfaces criteria at one vertex. -/
def sectionSurfacesStep (m : TopologyModel) (r : SectionSurfacesTopologyInspectionResult) (v : Index) :
    SectionSurfacesTopologyInspectionResult :=
  { r with
    unique_vertices_linked_to_a_surface_with_invalid_embbedings :=
      addOptional r.unique_vertices_linked_to_a_surface_with_invalid_embbedings v
        (okOr (sectionInvalidEmbeddedSurface m v))
    unique_vertices_linked_to_a_line_but_is_not_on_a_surface_border :=
      addOptional r.unique_vertices_linked_to_a_line_but_is_not_on_a_surface_border v
        (okOr (sectionLineNotOnSurfaceBorder m v)) }

include wf hv in
theorem sectionSurfacesVertex_step (r : SectionSurfacesTopologyInspectionResult) :
    sectionSurfacesVertex m r v = .ok (sectionSurfacesStep m r v) := by
  unfold sectionSurfacesVertex sectionSurfacesStep
  conv =>
    lhs
    rw [(twoSurfaces_answers (m := m) (v := v)).eq, (lineNotOnBorder_answers wf hv).eq]
  rfl

include wf in
theorem sectionInspectSurfaces_spec (hsz : ∀ c ∈ m.components .surface, c.nbVertices < 2 ^ 32) :
    ∃ r, sectionInspectSurfaces m = .ok r ∧
      r.surfaces_not_meshed.issues =
        ((m.activeComponents .surface).filter fun c => c.nbVertices == 0 || c.nbElements == 0).map
          TopologyComponent.id ∧
      MapReports r.surfaces_not_linked_to_a_unique_vertex (m.activeComponents .surface) TopologyComponent.id
        (fun c l => Exactly (· < ·) (NotAssociated m .surface c) l) ∧
      Exactly (· < ·) (fun v => v < m.nbUniqueVertices ∧ TwoSurfacesWithoutLine m v)
        r.unique_vertices_linked_to_a_surface_with_invalid_embbedings.issues ∧
      Exactly (· < ·) (fun v => v < m.nbUniqueVertices ∧ LineNotOnBorder m v)
        r.unique_vertices_linked_to_a_line_but_is_not_on_a_surface_border.issues := by
  refine ⟨_, foldlM_step _ (sectionSurfacesStep m) _ (fun r x hx =>
    sectionSurfacesVertex_step wf (List.mem_range.1 hx) r) _, ?_, ?_, ?_, ?_⟩
  · rw [foldl_keeps (sectionSurfacesStep m) (fun r => r.surfaces_not_meshed) (fun _ _ => rfl)]
    rw [foldl_addUuid (sectionSurfacesComponent m)
      (fun r : SectionSurfacesTopologyInspectionResult => r.surfaces_not_meshed)
      (fun c => c.nbVertices == 0 || c.nbElements == 0)
      (fun c => "Surface " ++ m.label .surface c.id ++ " is not meshed") (fun r c => by
        unfold sectionSurfacesComponent surfaceIsMeshed
        cases h1 : c.nbVertices == 0 <;> cases h2 : c.nbElements == 0 <;> simp [bne, h1, h2])]
    rfl
  · rw [foldl_keeps (sectionSurfacesStep m) (fun r => r.surfaces_not_linked_to_a_unique_vertex) (fun _ _ => rfl)]
    rw [foldl_addNotAssociated (sectionSurfacesComponent m) (fun r : SectionSurfacesTopologyInspectionResult =>
      r.surfaces_not_linked_to_a_unique_vertex) .surface "Surface " (fun r c => rfl)]
    exact notAssociated_mapReports m _ _ _ _ (active_nodup wf _)
      (fun c hc => hsz c (List.mem_filter.1 hc).1)
  all_goals have hkeep := fun (β : Type) (p : SectionSurfacesTopologyInspectionResult → β) h l r =>
    foldl_keeps (sectionSurfacesComponent m) p h l r
  · exact exactly_check _ (fun r : SectionSurfacesTopologyInspectionResult =>
      r.unique_vertices_linked_to_a_surface_with_invalid_embbedings) _ _ _ (fun _ _ => rfl)
      (fun v hv => twoSurfaces_answers) _
      (by rw [hkeep _ (fun r => r.unique_vertices_linked_to_a_surface_with_invalid_embbedings)
        (fun _ _ => rfl)]; rfl)
  · exact exactly_check _ (fun r : SectionSurfacesTopologyInspectionResult =>
      r.unique_vertices_linked_to_a_line_but_is_not_on_a_surface_border) _ _ _ (fun _ _ => rfl)
      (fun v hv => lineNotOnBorder_answers wf hv) _
      (by rw [hkeep _ (fun r => r.unique_vertices_linked_to_a_line_but_is_not_on_a_surface_border)
        (fun _ _ => rfl)]; rfl)

/-! ### BRep -/

variable (hb : ∀ s, Active m .surface s → ∀ e ∈ m.embeddings s, e.type = .block)

include wf hv hb in
theorem embeddedSurface_answers : Answers (brepInvalidEmbeddedSurface m v) (InvalidEmbeddedSurface m v) := by
  unfold brepInvalidEmbeddedSurface
  refine Answers.congr (P := ∃ s ∈ componentsUuids m v .surface, Active m .surface s ∧
    ∃ e ∈ m.embeddings s, Active m .block e.id ∧ (m.isBoundary s e.id = true ∨
      (AllMeshed m .block ∧ ∀ cmv ∈ m.componentMeshVertices v, cmv.component_id.id ≠ e.id))) ?_ ?_
  · refine findSomeM_answers _ _ _ ?_
    intro s hs
    refine answers_component wf (has_of_at wf hv (mem_componentsUuids.1 hs)) _ _ ?_
    intro c _ _ hact
    refine answers_iteP (fun ha => answers_none (fun hp => ?_)) (fun ha => ?_)
    · simp [hact.2 hp.1] at ha
    have ha' : Active m .surface s := hact.1 (by simpa using ha)
    refine Answers.congr (P := ∃ e ∈ m.embeddings s, Active m .block e.id ∧ (m.isBoundary s e.id = true ∨
      (AllMeshed m .block ∧ ∀ cmv ∈ m.componentMeshVertices v, cmv.component_id.id ≠ e.id)))
      (findSomeM_answers _ _ _ ?_) (by simp [ha'])
    intro e he
    have hh : Has m .block e.id := by
      have := wf.embeddings s e he
      rwa [hb s ha' e he] at this
    refine answers_component wf hh _ _ ?_
    intro b _ _ hactb
    refine answers_iteP (fun ha => answers_none (fun hp => ?_)) (fun ha => ?_)
    · simp [hactb.2 hp.1] at ha
    have hab : Active m .block e.id := hactb.1 (by simpa using ha)
    refine answers_iteP (fun hbd => answers_some _ ⟨hab, Or.inl hbd⟩) (fun hbd => ?_)
    have hany : (m.componentMeshVertices v).any (fun cmv => cmv.component_id.id == e.id) = true ↔
        ¬ ∀ cmv ∈ m.componentMeshVertices v, cmv.component_id.id ≠ e.id := by
      rw [List.any_eq_true]; simp
    refine answers_iteP (fun hc => answers_some _ ⟨hab, Or.inr ?_⟩) (fun hc => answers_none (fun hp => hc ?_))
    · rw [Bool.and_eq_true, brepBlocksAreMeshed_iff, Bool.not_eq_true', ← Bool.not_eq_true, hany, not_not] at hc
      exact hc
    · rw [Bool.and_eq_true, brepBlocksAreMeshed_iff, Bool.not_eq_true', ← Bool.not_eq_true, hany, not_not]
      rcases hp.2 with h | h
      · exact absurd h hbd
      · exact h
  · unfold InvalidEmbeddedSurface ActiveAt
    simp only [mem_componentsUuids, and_assoc]

include wf hv in
theorem countActiveSurfaces_ok {l : List Uuid} (hl : ∀ s ∈ l, At m v .surface s) :
    ∃ p : Uuid → Bool, (∀ s ∈ l, p s = true ↔ Active m .surface s) ∧
      countActiveSurfaces m l = .ok (l.filter p).length := by
  classical
  refine ⟨fun s => decide (Active m .surface s), fun s _ => by simp, ?_⟩
  have key : ∀ (l : List Uuid) (n : Nat), (∀ s ∈ l, At m v .surface s) →
      l.foldlM (fun n surface_id =>
        match m.component .surface surface_id with
        | .error f => .error f
        | .ok surface => .ok (if surface.active then n + 1 else n)) n =
      (.ok (n + (l.filter fun s => decide (Active m .surface s)).length) : Except Failure Nat) := by
    intro l
    induction l with
    | nil => intro n _; rfl
    | cons s l ih =>
      intro n h
      rw [List.foldlM_cons]
      obtain ⟨c, hc, _, _, hact⟩ := component_ok (wf.ids .surface) (has_of_at wf hv (h s (by simp)))
      rw [hc]
      show List.foldlM _ _ _ = _
      rw [ih _ (fun x hx => h x (by simp [hx]))]
      by_cases ha : Active m .surface s
      · simp [ha, hact.2 ha]; omega
      · have : c.active = false := by
          rw [← Bool.not_eq_true]; exact fun h => ha (hact.1 h)
        simp [ha, this]
  have := key l 0 hl
  rw [Nat.zero_add] at this
  exact this

include wf hv in
theorem cornersInternalLoop_answers {uuids : List Uuid} (hu : ∀ s ∈ uuids, At m v .surface s) :
    ∀ (l : List ComponentMeshVertex) (found : Bool),
    (∀ cmv ∈ l, Has m cmv.component_id.type cmv.component_id.id) →
    Answers (cornersInternalLoop m v uuids l found)
      ((found = false ∧ ∀ cmv ∈ l, cmv.component_id.type ≠ .corner) ∨
        ∃ cmv ∈ l, cmv.component_id.type = .corner ∧ ∃ s ∈ uuids, Active m .surface s ∧
          m.isInternal cmv.component_id.id s = false)
  | [], found, _ => by
    rw [cornersInternalLoop]
    cases found
    · exact answers_some _ (by simp)
    · exact answers_none (by simp)
  | cmv :: l, found, hl => by
    have hrec := fun f => cornersInternalLoop_answers hu l f (fun c hc => hl c (by simp [hc]))
    rw [cornersInternalLoop]
    refine answers_iteP (fun ht => ?_) (fun ht => ?_)
    · have ht' : cmv.component_id.type ≠ .corner := by simpa using ht
      refine (hrec found).congr ?_
      simp [ht']
    · have ht' : cmv.component_id.type = .corner := by simpa using ht
      have hh := hl cmv (by simp)
      rw [ht'] at hh
      obtain ⟨c, hc, _⟩ := component_ok (wf.ids .corner) hh
      rw [hc]
      obtain ⟨o, ho, hp⟩ : Answers (cornerNotInternal m v cmv uuids)
          (∃ s ∈ uuids, Active m .surface s ∧ m.isInternal cmv.component_id.id s = false) := by
        unfold cornerNotInternal
        refine findSomeM_answers _ _ _ ?_
        intro s hs
        refine answers_component wf (has_of_at wf hv (hu s hs)) _ _ ?_
        intro c _ _ hact
        refine answers_iteP (fun h => answers_some _ ?_) (fun h => answers_none (fun hp => h ?_))
        · rw [Bool.and_eq_true, Bool.not_eq_true'] at h
          exact ⟨hact.1 h.1, h.2⟩
        · rw [Bool.and_eq_true, Bool.not_eq_true']
          exact ⟨hact.2 hp.1, hp.2⟩
      rw [ho]
      cases o with
      | some s =>
        simp only [Option.isSome_some, true_iff] at hp
        exact answers_some _ (Or.inr ⟨cmv, by simp, ht', hp⟩)
      | none =>
        simp only [Option.isSome_none, Bool.false_eq_true, false_iff] at hp
        refine (hrec true).congr ?_
        constructor
        · rintro (⟨h, _⟩ | ⟨c, hc, h1, h2⟩)
          · exact absurd h (by simp)
          · exact Or.inr ⟨c, by simp [hc], h1, h2⟩
        · rintro (⟨_, h⟩ | ⟨c, hc, h1, h2⟩)
          · exact absurd ht' (h cmv (by simp))
          · rcases List.mem_cons.1 hc with rfl | hc
            · exact absurd h2 hp
            · exact Or.inr ⟨c, hc, h1, h2⟩

theorem lineRelationshipsLoop_eq (uuids : List Uuid) : ∀ (l : List ComponentMeshVertex) (n k : Nat),
    lineRelationshipsLoop m uuids l n k =
      (n + (l.filter fun cmv => decide (cmv.component_id.type = .line)).length,
       k + ((l.filter fun cmv => decide (cmv.component_id.type = .line)).map fun cmv =>
        (uuids.filter fun s => m.isBoundary cmv.component_id.id s || m.isInternal cmv.component_id.id s).length).sum)
  | [], n, k => by simp [lineRelationshipsLoop]
  | cmv :: l, n, k => by
    rw [lineRelationshipsLoop]
    by_cases h : cmv.component_id.type = .line
    · simp only [h, bne_self_eq_false, Bool.false_eq_true, if_false]
      rw [lineRelationshipsLoop_eq uuids l]
      simp [h]
      omega
    · have h' : (cmv.component_id.type != .line) = true := by simpa using h
      simp only [h', if_true]
      rw [lineRelationshipsLoop_eq uuids l]
      simp [h]

theorem surfacesAt_eq : surfacesAt m v = (componentsUuids m v .surface).toFinset := by
  ext s
  unfold surfacesAt
  rw [List.mem_toFinset, List.mem_toFinset, mem_componentsUuids, List.mem_map]
  unfold At
  constructor
  · rintro ⟨cmv, hc, rfl⟩
    rw [List.mem_filter, decide_eq_true_eq] at hc
    exact ⟨cmv, hc.1, by rw [← hc.2]⟩
  · rintro ⟨cmv, hc, he⟩
    exact ⟨cmv, List.mem_filter.2 ⟨hc, by simp [he]⟩, by rw [he]⟩

include wf hv in
theorem multipleSurfaces_answers : Answers (brepInvalidMultipleSurfaces m v) (InvalidMultipleSurfaces m v) := by
  unfold brepInvalidMultipleSurfaces
  have hu : ∀ s ∈ componentsUuids m v .surface, At m v .surface s := fun s hs => mem_componentsUuids.1 hs
  obtain ⟨p, hp, hcount⟩ := countActiveSurfaces_ok wf hv hu
  simp only [hcount]
  have htwo : 2 ≤ ((componentsUuids m v .surface).filter p).length ↔
      ∃ s s', s ≠ s' ∧ ActiveAt m v .surface s ∧ ActiveAt m v .surface s' := by
    have hnod : ((componentsUuids m v .surface).filter p).Nodup := (componentsUuids_nodup m v .surface).filter _
    have hmem : ∀ s, s ∈ (componentsUuids m v .surface).filter p ↔ ActiveAt m v .surface s := by
      intro s
      rw [List.mem_filter, mem_componentsUuids]
      constructor
      · rintro ⟨h1, h2⟩; exact ⟨h1, (hp s (mem_componentsUuids.2 h1)).1 h2⟩
      · rintro ⟨h1, h2⟩; exact ⟨h1, (hp s (mem_componentsUuids.2 h1)).2 h2⟩
    rw [show (2 ≤ ((componentsUuids m v .surface).filter p).length) =
      (1 < ((componentsUuids m v .surface).filter p).length) from rfl, two_iff hnod]
    simp only [hmem]
  unfold InvalidMultipleSurfaces
  rw [← htwo]
  show Answers (if _ then _ else _) _
  refine answers_iteP (fun h => answers_none (fun hx => by omega)) (fun h => ?_)
  have h2 : 2 ≤ ((componentsUuids m v .surface).filter p).length := by omega
  simp only [h2, true_and]
  have hline0 : (componentsUuids m v .line).length = 0 ↔ ∀ line, ¬ At m v .line line := by
    rw [List.length_eq_zero_iff, List.eq_nil_iff_forall_not_mem]
    simp only [mem_componentsUuids]
  refine answers_iteP (fun h0 => ?_) (fun h0 => ?_)
  · have h0' := hline0.1 (by simpa using h0)
    refine (cornersInternalLoop_answers wf hv hu _ false (wf.vertices v hv)).congr ?_
    constructor
    · intro hx
      refine Or.inl ⟨h0', ?_⟩
      rcases hx with ⟨_, hx⟩ | ⟨cmv, hc, ht, s, hs, ha, hi⟩
      · refine Or.inl ?_
        rintro corner ⟨cmv, hc, he⟩
        exact hx cmv hc (by rw [he])
      · exact Or.inr ⟨cmv.component_id.id, s, ⟨cmv, hc, by rw [← ht]⟩, ⟨hu s hs, ha⟩, hi⟩
    · rintro (⟨_, hx | ⟨corner, s, ⟨cmv, hc, he⟩, ha, hi⟩⟩ | ⟨line, corner, hx, _⟩)
      · refine Or.inl ⟨rfl, ?_⟩
        intro cmv hc ht
        exact hx cmv.component_id.id ⟨cmv, hc, by rw [← ht]⟩
      · refine Or.inr ⟨cmv, hc, by rw [he], s, mem_componentsUuids.2 ha.1, ha.2, by rw [he]; exact hi⟩
      · exfalso
        have : (⟨.line, line⟩ : ComponentID) ∈ ((m.componentMeshVertices v).filter fun cmv =>
          decide (cmv.component_id.type = .line)).map ComponentMeshVertex.component_id := by rw [hx]; simp
        obtain ⟨cmv, hc, he⟩ := List.mem_map.1 this
        exact h0' line ⟨cmv, (List.mem_filter.1 hc).1, he⟩
  · have h0' : ¬ ∀ line, ¬ At m v .line line := fun hx => h0 (by simp [hline0.2 hx])
    have hfilter_mem : ∀ cmv, cmv ∈ (m.componentMeshVertices v).filter (fun cmv =>
        decide (cmv.component_id.type = .line)) ↔ cmv ∈ m.componentMeshVertices v ∧ cmv.component_id.type = .line := by
      intro cmv; rw [List.mem_filter, decide_eq_true_eq]
    have hcard : (componentsUuids m v .surface).length = (surfacesAt m v).card := by
      rw [surfacesAt_eq, List.toFinset_card_of_nodup (componentsUuids_nodup m v .surface)]
    have hcardf : ∀ line, ((componentsUuids m v .surface).filter fun s =>
        m.isBoundary line s || m.isInternal line s).length =
        ((surfacesAt m v).filter fun s => m.isBoundary line s = true ∨ m.isInternal line s = true).card := by
      intro line
      rw [← List.toFinset_card_of_nodup ((componentsUuids_nodup m v .surface).filter _)]
      congr 1
      rw [surfacesAt_eq]
      ext s
      rw [List.mem_toFinset, List.mem_filter, Finset.mem_filter, List.mem_toFinset, Bool.or_eq_true]
    refine answers_iteP (fun h1 => ?_) (fun h1 => answers_none ?_)
    · unfold oneLineSurfaces
      rw [lineRelationshipsLoop_eq]
      simp only [Nat.zero_add]
      refine answers_iteP (fun hge => answers_none ?_) (fun hlt => ?_)
      · rintro (⟨hx, _⟩ | ⟨line, corner, hx, _⟩)
        · exact h0' hx
        · have := congrArg List.length hx
          rw [List.length_map] at this
          simp only [List.length_singleton] at this
          omega
      · obtain ⟨cmvL, hL⟩ : ∃ c, (m.componentMeshVertices v).filter (fun cmv =>
            decide (cmv.component_id.type = .line)) = [c] := by
          rw [← List.length_eq_one_iff]
          have : (m.componentMeshVertices v).filter (fun cmv => decide (cmv.component_id.type = .line)) ≠ [] := by
            intro hx
            apply h0'
            rintro line ⟨cmv, hc, he⟩
            have := (hfilter_mem cmv).2 ⟨hc, by rw [he]⟩
            rw [hx] at this
            exact absurd this (by simp)
          have := List.length_pos_iff.2 this
          omega
        rw [hL]
        simp only [List.map_cons, List.map_nil, List.sum_cons, List.sum_nil, Nat.add_zero]
        rw [hcardf, hcard]
        have htL : cmvL.component_id.type = .line := ((hfilter_mem cmvL).1 (by rw [hL]; simp)).2
        have hidL : cmvL.component_id = ⟨.line, cmvL.component_id.id⟩ := by rw [← htL]
        refine Answers.congr (P := ∃ cmv ∈ m.componentMeshVertices v, cmv.component_id.type = .corner ∧
          (m.embeddings cmv.component_id.id).length + ((surfacesAt m v).filter fun s =>
            m.isBoundary cmvL.component_id.id s = true ∨ m.isInternal cmvL.component_id.id s = true).card ≠
            (surfacesAt m v).card) (findSomeM_answers _ _ _ ?_) ?_
        · intro cmv hc
          refine answers_iteP (fun ht => answers_none (fun hx => ?_)) (fun ht => ?_)
          · simp [hx.1] at ht
          have ht' : cmv.component_id.type = .corner := by simpa using ht
          refine answers_iteP (fun hlt' => answers_some _ ⟨ht', Nat.ne_of_lt hlt'⟩) (fun hlt' => ?_)
          refine answers_iteP (fun hgt => answers_some _ ⟨ht', Nat.ne_of_gt hgt⟩) (fun hgt => answers_none ?_)
          rintro ⟨_, hne⟩
          unfold TopologyModel.nbEmbeddings at hlt' hgt
          omega
        · constructor
          · rintro ⟨cmv, hc, ht, hne⟩
            exact Or.inr ⟨cmvL.component_id.id, cmv.component_id.id, by simp [← hidL],
              ⟨cmv, hc, by rw [← ht]⟩, hne⟩
          · rintro (⟨hx, _⟩ | ⟨line, corner, hx, ⟨cmv, hc, he⟩, hne⟩)
            · exact absurd hx h0'
            · have hline : cmvL.component_id.id = line := by
                simp only [List.map_cons, List.map_nil, List.cons.injEq, and_true] at hx
                rw [hx]
              refine ⟨cmv, hc, by rw [he], ?_⟩
              rw [hline, he]
              exact hne
    · rintro (⟨hx, _⟩ | ⟨line, corner, hx, _⟩)
      · exact h0' hx
      · apply h1
        have : componentsUuids m v .line = [line] := by
          rw [singleton_iff (componentsUuids_nodup m v .line)]
          simp only [mem_componentsUuids]
          have hall : ∀ l, At m v .line l ↔ l = line := by
            intro l
            constructor
            · rintro ⟨cmv, hc, he⟩
              have := List.mem_map_of_mem (f := ComponentMeshVertex.component_id) ((hfilter_mem cmv).2 ⟨hc, by rw [he]⟩)
              rw [hx] at this
              simp only [List.mem_cons, List.not_mem_nil, or_false] at this
              rw [he] at this
              exact (ComponentID.mk.inj this).2
            · rintro rfl
              have : (⟨.line, l⟩ : ComponentID) ∈ ((m.componentMeshVertices v).filter fun cmv =>
                decide (cmv.component_id.type = .line)).map ComponentMeshVertex.component_id := by rw [hx]; simp
              obtain ⟨cmv, hc, he⟩ := List.mem_map.1 this
              exact ⟨cmv, (List.mem_filter.1 hc).1, he⟩
          exact ⟨(hall line).2 rfl, fun l hl => (hall l).1 hl⟩
        rw [this]; rfl

include wf hv in
theorem relatedLine_answers : Answers (brepLineNotOnSurfaceBorder m v) (RelatedLineNotOnBorder m v) := by
  unfold brepLineNotOnSurfaceBorder RelatedLineNotOnBorder
  refine answers_iteP (fun h0 => answers_none ?_) (fun _ => ?_)
  · rintro ⟨_, _, _, _, line, hl, _⟩
    have : line ∈ componentsUuids m v .line := mem_componentsUuids.2 hl.1
    have h0' : componentsUuids m v .line = [] := by simpa using h0
    rw [h0'] at this
    exact absurd this (by simp)
  refine findSomeM_answers _ _ _ ?_
  intro cmv hc
  refine answers_iteP (fun ht => answers_none (fun hp => ?_)) (fun ht => ?_)
  · simp [hp.1] at ht
  have ht' : cmv.component_id.type = .surface := by simpa using ht
  have hh := wf.vertices v hv cmv hc
  rw [ht'] at hh
  refine answers_component wf hh _ _ ?_
  intro c _ _ _
  refine answers_iteP (fun hbd => answers_none (fun hp => ?_)) (fun hbd => ?_)
  · rw [hp.2.1] at hbd; exact absurd hbd (by simp)
  have hbd' : m.isVertexOnBorder cmv.component_id.id cmv.vertex = false := by simpa using hbd
  refine Answers.congr (P := ∃ line ∈ componentsUuids m v .line, Active m .line line ∧
    (m.isBoundary line cmv.component_id.id = true ∨ m.isInternal line cmv.component_id.id = true))
    (findSomeM_answers _ _ _ ?_) ?_
  · intro line hl
    refine answers_component wf (has_of_at wf hv (mem_componentsUuids.1 hl)) _ _ ?_
    intro c _ _ hact
    refine answers_iteP (fun h => answers_some _ ?_) (fun h => answers_none (fun hp => h ?_))
    · rw [Bool.and_eq_true, Bool.or_eq_true] at h
      exact ⟨hact.1 h.1, h.2⟩
    · rw [Bool.and_eq_true, Bool.or_eq_true]
      exact ⟨hact.2 hp.1, hp.2⟩
  · simp only [ht', hbd', true_and, mem_componentsUuids, ActiveAt, and_assoc]

end Inspector
