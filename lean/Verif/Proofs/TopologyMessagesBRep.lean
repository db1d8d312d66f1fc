import Verif.Proofs.TopologyMessages
/-
Proofs on the messages of the inspection of the corners, lines and surfaces of a BRep.
-/
namespace Inspector
open Spec

variable {m : TopologyModel} {v : Index} {t : String}

/-! ### Corners -/

theorem multiplyEmbedded_says (h : brepCornerIsMultiplyEmbedded m v = .ok (some t)) : MultiplyEmbeddedSays m v t := by
  obtain ⟨cmv, hm, h⟩ := findSomeM_some h
  obtain ⟨ha, h⟩ := ifActive_some h
  split at h
  · rename_i hl
    obtain ⟨e, he, h⟩ := findSomeM_some h
    split at h
    · cases h
    rename_i hk
    split at h
    · cases h
    rename_i c hc
    split at h
    · rename_i hact
      cases h
      have hk : e.type = .block := by simpa using hk
      refine .several _ e.id (activeAt_of_cmv hm ha) hl (by rw [← hk]; exact he) (active_found hc hact)
    · cases h
  · cases h

theorem brepCornerAlone_says (h : brepCornerIsNotInternalNorBoundary m v = .ok (some t)) : CornerAloneSays m v t :=
  cornerAlone_says h

theorem brepCornerLine_says (h : brepCornerIsPartOfLineButNotBoundary m v = .ok (some t)) : BRepCornerLineSays m v t := by
  obtain ⟨cmv, hm, h⟩ := findSomeM_some h
  obtain ⟨ha, h⟩ := ifActive_some h
  obtain ⟨line, hl, h⟩ := findSomeM_some h
  obtain ⟨hal, h⟩ := ifActive_some h
  split at h
  · cases h
  rename_i hb
  have hcount : ((m.componentMeshVertices v).filter fun cmv2 =>
      cmv2.component_id.id == cmv.component_id.id).length = nbVerticesAt m v cmv.component_id.id := by
    unfold nbVerticesAt
    congr 2
  split at h
  · rename_i hi
    simp only [hcount] at h
    split at h
    · rename_i hn
      cases h
      exact .notClosed _ _ (activeAt_of_cmv hm ha) (activeAt_of_cmv hl hal) (by simpa using hb) hi (by simpa using hn)
    · cases h
  · rename_i hi
    cases h
    exact .neither _ _ (activeAt_of_cmv hm ha) (activeAt_of_cmv hl hal) (by simpa using hb) (by simpa using hi)

theorem brepCorners_explained {r : BRepCornersTopologyInspectionResult} (h : brepInspectCorners m = .ok r) :
    BRepCornersExplained m r := by
  unfold brepInspectCorners at h
  refine foldlM_keep (BRepCornersExplained m) _ _ ?_ _ _ ?_ h
  · intro r v _ r' hr hv
    simp only [brepCornersVertex, bind, Except.bind, pure, Except.pure] at hv
    split at hv
    · cases hv
    rename_i o1 h1
    split at hv
    · cases hv
    rename_i o2 h2
    split at hv
    · cases hv
    rename_i o3 h3
    split at hv
    · cases hv
    rename_i o4 h4
    cases hv
    exact ⟨hr.notMeshed, hr.notLinked,
      explained_addOptional hr.several fun t ht => severalCorners_says (ht ▸ h1),
      explained_addOptional hr.embedded fun t ht => multiplyEmbedded_says (ht ▸ h2),
      explained_addOptional hr.alone fun t ht => brepCornerAlone_says (ht ▸ h3),
      explained_addOptional hr.line fun t ht => brepCornerLine_says (ht ▸ h4)⟩
  · refine foldl_keep (BRepCornersExplained m) _ _ ?_ _
      ⟨.nil, explainedMap_new _ _ _, .nil, .nil, .nil, .nil⟩
    intro r c hc hr
    obtain ⟨hc, ha⟩ := of_mem_activeComponents hc
    have := addCorner_explained hr.notMeshed hr.notLinked hc ha
    exact ⟨this.1, this.2, hr.several, hr.embedded, hr.alone, hr.line⟩

/-! ### Lines -/

theorem brepEmbeddedLine_says (h : brepInvalidEmbeddedLine m v = .ok (some t)) : BRepEmbeddedLineSays m v t := by
  obtain ⟨cmv, hm, h⟩ := findSomeM_some h
  obtain ⟨ha, h⟩ := ifActive_some h
  obtain ⟨e, he, h⟩ := findSomeM_some h
  split at h
  · rename_i hb
    split at h
    · cases h
    rename_i c hc
    cases h
    exact .both _ e (activeAt_of_cmv hm ha) he (has_found hc) hb
  split at h
  · cases h
  split at h
  · rename_i hn
    split at h
    · cases h
    rename_i c hc
    cases h
    refine .notLinked _ e (activeAt_of_cmv hm ha) he (has_found hc) ?_
    rintro ⟨cmv', hm', he'⟩
    simp only [Bool.not_eq_true', List.any_eq_false, beq_iff_eq] at hn
    exact hn cmv' hm' he'
  · cases h

theorem componentsAt_eq {kind : ComponentType} : componentsAt m v kind = (componentsUuids m v kind).toFinset := by
  ext s
  unfold componentsAt
  rw [List.mem_toFinset, List.mem_toFinset, mem_componentsUuids, List.mem_map]
  unfold At
  constructor
  · rintro ⟨cmv, hc, rfl⟩
    rw [List.mem_filter, decide_eq_true_eq] at hc
    exact ⟨cmv, hc.1, by rw [← hc.2]⟩
  · rintro ⟨cmv, hc, he⟩
    exact ⟨cmv, List.mem_filter.2 ⟨hc, by simp [he]⟩, by rw [he]⟩

theorem componentsAt_card {kind : ComponentType} : (componentsAt m v kind).card = (componentsUuids m v kind).length := by
  rw [componentsAt_eq, List.toFinset_card_of_nodup (componentsUuids_nodup m v kind)]

theorem brepSingleLine_says (h : brepInvalidSingleLine m v = .ok (some t)) : BRepSingleLineSays m v t := by
  unfold brepInvalidSingleLine at h
  split at h
  · rename_i line hl
    split at h
    · cases h
    rename_i c hc
    split at h
    · cases h
    rename_i ha
    have honly := onlyActive_of hl hc (by simpa using ha)
    simp only [] at h
    split at h
    · cases h
    split at h
    · rename_i surface hs
      split at h
      · rename_i hb
        split at h
        · cases h
        cases h
        simp only [Bool.and_eq_true, Bool.not_eq_true', Bool.or_eq_false_iff, decide_eq_false_iff_not] at hb
        refine .oneSurface line surface honly (by rw [componentsAt_eq, hs]; rfl) hb.1 hb.2.2
          (length_lt_one (by have := hb.2.1; unfold TopologyModel.nbEmbeddings at this; omega))
      · cases h
    · rename_i hs
      split at h
      · cases h
      rename_i hmesh
      have hmesh : AllMeshed m .block := allMeshed_iff.1 (by simpa [brepBlocksAreMeshed] using hmesh)
      have hempty : componentsAt m v .surface = ∅ := by rw [componentsAt_eq, hs]; rfl
      split at h
      · rename_i hn
        cases h
        rw [← componentsAt_card]
        refine .blocks line honly hempty hmesh ?_
        rw [componentsAt_card]
        simpa using hn
      · rename_i hn
        split at h
        · rename_i hi
          cases h
          obtain ⟨b, hb⟩ := List.length_eq_one_iff.1 (show (componentsUuids m v .block).length = 1 by simpa using hn)
          rw [hb] at hi
          exact .notInternal line b honly hempty hmesh (by rw [componentsAt_eq, hb]; rfl) (by simpa using hi)
        · cases h
    · rename_i hs1 hs0
      obtain ⟨s, hs, h⟩ := findSomeM_some h
      split at h
      · cases h
      split at h
      · rename_i hb
        cases h
        simp only [Bool.and_eq_true, Bool.not_eq_true'] at hb
        refine .severalSurfaces line s honly ?_ (mem_componentsUuids.1 hs) hb.1 hb.2
        rw [componentsAt_card]
        match hx : componentsUuids m v .surface, hs0, hs1 with
        | [], h0, _ => exact absurd rfl h0
        | [a], _, h1 => exact absurd rfl (h1 a)
        | _ :: _ :: _, _, _ => simp
      · cases h
  · cases h

theorem notMem_of_find?_none {map : HMap Uuid Nat} {k : Uuid} (h : map.find? k = none) (n : Nat) : (k, n) ∉ map := by
  intro hm
  exact (HMap.find?_none_iff map k).1 h (List.mem_map.2 ⟨(k, n), hm, rfl⟩)

theorem mem_of_find?_some {map : HMap Uuid Nat} {k : Uuid} {n : Nat} (h : map.find? k = some n) : (k, n) ∈ map := by
  induction map with
  | nil => cases h
  | cons e map ih =>
    rw [HMap.find?_cons] at h
    split at h
    · rename_i hk
      cases h
      simp [hk]
    · exact List.mem_cons_of_mem _ (ih h)

theorem brepLineRelationships_says (hit : ∀ map, (m.iterate map).Perm map) {line : TopologyComponent}
    (hl : ActiveAt m v .line line.id) (h : brepLineRelationships m v line = .ok (some t)) : BRepLineSurfacesSays m v t := by
  simp only [brepLineRelationships, bind, Except.bind, pure, Except.pure] at h
  split at h
  · cases h
  split at h
  · cases h
  rename_i p hp
  obtain ⟨se, be⟩ := p
  have hse : se = m.surfaceEdges line.id 0 := by
    unfold TopologyModel.componentMeshEdges at hp
    split at hp
    · cases hp
    · cases hp; rfl
  subst hse
  simp only [] at h
  split at h
  · cases h
  rename_i o1 h1
  split at h
  · cases h
    obtain ⟨s, hs, h1⟩ := findSomeM_some h1
    rw [mem_related] at hs
    split at h1
    · cases h1
    rename_i c hc
    split at h1
    · cases h1
    rename_i hact
    have hact := active_found hc (by simpa using hact)
    split at h1
    · rename_i hf
      cases h1
      exact .boundaryWithoutEdge _ s hl hs hact (notMem_of_find?_none hf)
    · rename_i nb hf
      split at h1
      · rename_i hn
        cases h1
        exact .boundaryWithEdges _ s nb hl hs hact (mem_of_find?_some hf) (by simpa using hn)
      · cases h1
  split at h
  · cases h
  rename_i o2 h2
  split at h
  · cases h
    obtain ⟨s, hs, h2⟩ := findSomeM_some h2
    rw [mem_related] at hs
    split at h2
    · cases h2
    rename_i c hc
    split at h2
    · cases h2
    rename_i hact
    have hact := active_found hc (by simpa using hact)
    split at h2
    · rename_i hf
      cases h2
      exact .embeddedWithoutEdge _ s hl hs hact (notMem_of_find?_none hf)
    · rename_i nb hf
      split at h2
      · rename_i hn
        cases h2
        exact .embeddedUncut _ s nb hl hs hact (mem_of_find?_some hf) hn
      · cases h2
  split at h
  · rename_i hnone
    simp only [Bool.and_eq_true, beq_iff_eq] at hnone
    obtain ⟨s, hs, h⟩ := findSomeM_some h
    obtain ⟨⟨s', n⟩, hmem, rfl⟩ := List.mem_map.1 hs
    split at h
    · cases h
    rename_i c hc
    split at h
    · rename_i hact
      cases h
      refine .unrelated _ _ n hl (List.length_eq_zero_iff.1 hnone.1) ?_ (active_found hc hact) ((hit _).mem_iff.1 hmem)
      intro s hs
      have := (mem_related (m := m)).2 hs
      rw [List.length_eq_zero_iff.1 hnone.2] at this
      cases this
    · cases h
  · cases h

theorem brepLineSurfaces_says (hit : ∀ map, (m.iterate map).Perm map)
    (h : brepLineWrongRelationships m v = .ok (some t)) : BRepLineSurfacesSays m v t := by
  obtain ⟨cmv, hm, h⟩ := findSomeM_some h
  split at h
  · cases h
  rename_i hk
  split at h
  · cases h
  rename_i c hc
  split at h
  · cases h
  rename_i ha
  have hid := (component_found hc).2
  refine brepLineRelationships_says hit ?_ h
  rw [hid]
  exact ⟨at_of_cmv hm (by simpa using hk), active_found hc (by simpa using ha)⟩

theorem brepLinesAndCorner_some {l : List ComponentMeshVertex} : ∀ {n n' : Nat} {found found' : Bool},
    brepLinesAndCorner m l n found = .ok (n', found') →
    (n + 1 < n' → ∃ a b, [a, b].Sublist l ∧ ActiveCmv m .line a ∧ ActiveCmv m .line b) ∧
    (n < n' → ∃ b ∈ l, ActiveCmv m .line b) ∧
    (found' = false → found = false ∧ ∀ cmv ∈ l, cmv.component_id.type ≠ .corner) := by
  induction l with
  | nil =>
    intro n n' found found' h
    cases h
    refine ⟨fun h => absurd h (by omega), fun h => absurd h (by omega), fun h => ⟨h, by simp⟩⟩
  | cons x l ih =>
    intro n n' found found' h
    unfold brepLinesAndCorner at h
    have keep : ∀ {n0 : Nat} {f0 : Bool}, brepLinesAndCorner m l n0 f0 = .ok (n', found') →
        (n0 + 1 < n' → ∃ a b, [a, b].Sublist (x :: l) ∧ ActiveCmv m .line a ∧ ActiveCmv m .line b) ∧
        (n0 < n' → ∃ b ∈ x :: l, ActiveCmv m .line b) := by
      intro n0 f0 h
      obtain ⟨h1, h2, _⟩ := ih h
      refine ⟨fun hn => ?_, fun hn => ?_⟩
      · obtain ⟨a, b, hs, hab⟩ := h1 hn
        exact ⟨a, b, hs.cons x, hab⟩
      · obtain ⟨b, hb, hab⟩ := h2 hn
        exact ⟨b, by simp [hb], hab⟩
    have corner : ∀ {n0 : Nat} {f0 : Bool}, brepLinesAndCorner m l n0 f0 = .ok (n', found') → found' = false →
        f0 = false ∧ ∀ cmv ∈ l, cmv.component_id.type ≠ .corner := fun h => (ih h).2.2
    split at h
    · exact ⟨(keep h).1, (keep h).2, fun hf => absurd (corner h hf).1 (by simp)⟩
    · rename_i hk
      have hk' : x.component_id.type ≠ .corner := by simpa using hk
      have tail : ∀ {f0 : Bool}, (f0 = false ∧ ∀ cmv ∈ l, cmv.component_id.type ≠ .corner) →
          f0 = false ∧ ∀ cmv ∈ x :: l, cmv.component_id.type ≠ .corner := by
        intro f0 hc
        refine ⟨hc.1, fun cmv hcmv => ?_⟩
        rcases List.mem_cons.1 hcmv with rfl | hcmv
        · exact hk'
        · exact hc.2 cmv hcmv
      rcases ifActive_cases h with h | ⟨hx, h⟩
      · exact ⟨(keep h).1, (keep h).2, fun hf => tail (corner h hf)⟩
      · obtain ⟨h1, h2, h3⟩ := ih h
        refine ⟨fun hn => ?_, fun _ => ⟨x, by simp, hx⟩, fun hf => tail (h3 hf)⟩
        obtain ⟨b, hb, hab⟩ := h2 (by omega)
        exact ⟨x, b, (List.singleton_sublist.2 hb).cons_cons x, hx, hab⟩

theorem brepSeveralLines_says (h : brepLinesButNotCorner m v = .ok (some t)) : SeveralLinesSays m v t := by
  simp only [brepLinesButNotCorner, bind, Except.bind, pure, Except.pure] at h
  split at h
  · cases h
  rename_i p hp
  obtain ⟨n, found⟩ := p
  simp only [] at h
  split at h
  · rename_i hb
    cases h
    simp only [Bool.and_eq_true, decide_eq_true_eq, Bool.not_eq_true'] at hb
    obtain ⟨h1, _, h3⟩ := brepLinesAndCorner_some hp
    refine .twice (twiceActive_iff.2 (h1 (by omega))) ?_
    rintro corner ⟨cmv, hcmv, hc⟩
    exact (h3 hb.2).2 cmv hcmv (by rw [hc])
  · cases h

theorem edge_says (hit : ∀ map, (m.iterate map).Perm map) {line : TopologyComponent} {edge : Index}
    (h : lineEdgeHasWrongComponentEdgesAround m line edge = .ok (some t)) : EdgeSays m line.id edge t := by
  simp only [lineEdgeHasWrongComponentEdgesAround, bind, Except.bind, pure, Except.pure] at h
  split at h
  · cases h
  rename_i p hp
  obtain ⟨se, be⟩ := p
  have hse : se = m.surfaceEdges line.id edge ∧ be = m.blockEdges line.id edge := by
    unfold TopologyModel.componentMeshEdges at hp
    split at hp
    · cases hp
    · cases hp; exact ⟨rfl, rfl⟩
  obtain ⟨rfl, rfl⟩ := hse
  simp only [] at h
  split at h
  · cases h
  rename_i o1 h1
  split at h
  · cases h
    obtain ⟨⟨s, n⟩, hs, h1⟩ := findSomeM_some h1
    have hs := (hit _).mem_iff.1 hs
    split at h1
    · cases h1
    rename_i c hc
    split at h1
    · cases h1
    rename_i hact
    have hact := active_found hc (by simpa using hact)
    split at h1
    · rename_i hb
      split at h1
      · rename_i hn
        cases h1
        exact .boundary s n hact hs hb (by simpa using hn)
      · cases h1
    rename_i hb
    split at h1
    · rename_i hi
      split at h1
      · rename_i hn
        cases h1
        exact .internal s n hact hs hi (by simpa using hn)
      · cases h1
    · rename_i hi
      cases h1
      exact .unrelated s n hact hs (by simpa using hb) (by simpa using hi)
  split at h
  · cases h
  rename_i o2 h2
  split at h
  · cases h
    obtain ⟨s, hs, h2⟩ := findSomeM_some h2
    rw [mem_related] at hs
    split at h2
    · cases h2
    rename_i c hc
    split at h2
    · cases h2
    rename_i hact
    split at h2
    · rename_i hf
      cases h2
      exact .embeddedWithoutEdge s (active_found hc (by simpa using hact)) hs (notMem_of_find?_none (by simpa using hf))
    · cases h2
  split at h
  · cases h
  rename_i o3 h3
  split at h
  · cases h
    obtain ⟨s, hs, h3⟩ := findSomeM_some h3
    rw [mem_related] at hs
    split at h3
    · cases h3
    rename_i c hc
    split at h3
    · cases h3
    rename_i hact
    split at h3
    · rename_i hf
      cases h3
      exact .incidentWithoutEdge s (active_found hc (by simpa using hact)) hs (notMem_of_find?_none (by simpa using hf))
    · cases h3
  split at h
  · cases h
  rename_i o4 h4
  split at h
  · cases h
    obtain ⟨⟨b, n⟩, hb, h4⟩ := findSomeM_some h4
    have hb := (hit _).mem_iff.1 hb
    split at h4
    · cases h4
    rename_i c hc
    split at h4
    · rename_i hact
      simp only [Bool.and_eq_true] at hact
      split at h4
      · rename_i hn
        cases h4
        exact .block b n (active_found hc hact.1) hb hact.2 (by simpa using hn)
      · cases h4
    · cases h4
  obtain ⟨b, hb, h⟩ := findSomeM_some h
  rw [mem_related] at hb
  split at h
  · cases h
  rename_i c hc
  split at h
  · cases h
  rename_i hact
  split at h
  · rename_i hf
    cases h
    simp only [Bool.or_eq_true, Bool.not_eq_true', not_or, Bool.not_eq_false] at hact
    exact .blockWithoutEdge b (active_found hc hact.1) hb (notMem_of_find?_none (by simpa using hf))
  · cases h

theorem inspectElements_explained {check : Index → Except Failure (Option String)} {d : String} {n : Nat} {s : Issues Index}
    {claim : Index → String → Prop} (hc : ∀ e t, check e = .ok (some t) → claim e t)
    (h : inspectElements check d n = .ok s) : s.description = d ∧ Explained s claim := by
  unfold inspectElements at h
  refine foldlM_keep (fun s : Issues Index => s.description = d ∧ Explained s claim) _ _ ?_ _ _ ⟨rfl, explained_new _ _⟩ h
  intro s e _ s' hs h
  simp only [bind, Except.bind, pure, Except.pure] at h
  split at h
  · cases h
  rename_i o ho
  cases h
  refine ⟨?_, explained_addOptional hs.2 fun t ht => hc e t (ht ▸ ho)⟩
  cases o <;> exact hs.1

theorem brepLines_explained (hit : ∀ map, (m.iterate map).Perm map) {r : BRepLinesTopologyInspectionResult}
    (h : brepInspectLines m = .ok r) : BRepLinesExplained m r := by
  simp only [brepInspectLines, bind, Except.bind] at h
  split at h
  · cases h
  rename_i r0 h0
  refine foldlM_keep (BRepLinesExplained m) _ _ ?_ _ _ ?_ h
  · intro r v _ r' hr hv
    simp only [brepLinesVertex, bind, Except.bind, pure, Except.pure] at hv
    split at hv
    · cases hv
    rename_i o1 h1
    split at hv
    · cases hv
    rename_i o2 h2
    split at hv
    · cases hv
    rename_i o3 h3
    split at hv
    · cases hv
    rename_i o4 h4
    cases hv
    exact ⟨hr.notMeshed, hr.notLinked, hr.edges,
      explained_addOptional hr.embedded fun t ht => brepEmbeddedLine_says (ht ▸ h1),
      explained_addOptional hr.surfaces fun t ht => brepLineSurfaces_says hit (ht ▸ h2),
      explained_addOptional hr.single fun t ht => brepSingleLine_says (ht ▸ h3),
      explained_addOptional hr.several fun t ht => brepSeveralLines_says (ht ▸ h4)⟩
  · refine foldlM_keep (BRepLinesExplained m) _ _ ?_ _ _
      ⟨explained_new _ _, explainedMap_new _ _ _, explainedMap_new _ _ _, explained_new _ _, explained_new _ _, explained_new _ _,
        explained_new _ _⟩ h0
    intro r c hc r' hr hr'
    obtain ⟨hc, ha⟩ := of_mem_activeComponents hc
    simp only [brepLinesComponent, bind, Except.bind, pure, Except.pure] at hr'
    have hmesh : Explained (if !lineIsMeshed c then
        r.lines_not_meshed.add c.id ("Line " ++ m.label .line c.id ++ " is not meshed") else r.lines_not_meshed)
        (NotMeshedSays m .line "Line " " is not meshed") := by
      split
      · rename_i hn
        refine explained_add hr.notMeshed (.noMesh c hc ha rfl ?_)
        simp only [lineIsMeshed, Bool.not_eq_true', Bool.and_eq_false_iff, bne_eq_false_iff_eq] at hn
        exact hn
      · exact hr.notMeshed
    split at hr'
    · cases hr'
      exact ⟨hmesh, explainedMap_add hr.notLinked rfl (explained_setDescription _ (verticesNotAssociated_explained hc ha)),
        hr.edges, hr.embedded, hr.surfaces, hr.single, hr.several⟩
    split at hr'
    · cases hr'
    rename_i edges he
    have hedges := inspectElements_explained (claim := EdgeSays m c.id) (fun e t h => edge_says hit h) he
    split at hr'
    · cases hr'
      exact ⟨hmesh, hr.notLinked, explainedMap_add hr.edges hedges.1 hedges.2, hr.embedded, hr.surfaces, hr.single,
        hr.several⟩
    · cases hr'
      exact ⟨hmesh, hr.notLinked, hr.edges, hr.embedded, hr.surfaces, hr.single, hr.several⟩

/-! ### Surfaces -/

theorem brepEmbeddedSurface_says (h : brepInvalidEmbeddedSurface m v = .ok (some t)) : BRepEmbeddedSurfaceSays m v t := by
  obtain ⟨s, hs, h⟩ := findSomeM_some h
  split at h
  · cases h
  rename_i c hc
  split at h
  · cases h
  rename_i ha
  have hat : ActiveAt m v .surface s := ⟨mem_componentsUuids.1 hs, active_found hc (by simpa using ha)⟩
  obtain ⟨e, he, h⟩ := findSomeM_some h
  split at h
  · cases h
  rename_i b hb
  split at h
  · cases h
  rename_i hact
  have hact := active_found hb (by simpa using hact)
  split at h
  · rename_i hbd
    cases h
    exact .both s e hat he hact hbd
  split at h
  · rename_i hn
    cases h
    simp only [Bool.and_eq_true] at hn
    refine .notLinked s e hat he hact (allMeshed_iff.1 hn.1) ?_
    intro cmv hcmv heq
    have := hn.2
    simp only [Bool.not_eq_true', List.any_eq_false, beq_iff_eq] at this
    exact this cmv hcmv heq
  · cases h

theorem countActive_some {l : List Uuid} : ∀ {n n' : Nat},
    l.foldlM (fun n surface_id =>
      match m.component .surface surface_id with
      | .error f => .error f
      | .ok surface => .ok (if surface.active then n + 1 else n)) n = (.ok n' : Except Failure Nat) →
    ∃ l' : List Uuid, l'.Sublist l ∧ (∀ s ∈ l', Active m .surface s) ∧ n' = n + l'.length := by
  induction l with
  | nil =>
    intro n n' h
    cases h
    exact ⟨[], List.Sublist.refl _, by simp, rfl⟩
  | cons x l ih =>
    intro n n' h
    rw [List.foldlM_cons] at h
    simp only [bind, Except.bind] at h
    split at h
    · cases h
    rename_i k hk
    split at hk
    · cases hk
    rename_i c hc
    cases hk
    obtain ⟨l', hs, ha, hn⟩ := ih h
    split at hn
    · rename_i hact
      refine ⟨x :: l', hs.cons_cons x, ?_, by simp; omega⟩
      intro s hs'
      rcases List.mem_cons.1 hs' with rfl | hs'
      · exact active_found hc hact
      · exact ha s hs'
    · exact ⟨l', hs.cons x, ha, hn⟩

theorem severalActive_of {n : Nat} (h : countActiveSurfaces m (componentsUuids m v .surface) = .ok n) (hn : 2 ≤ n) :
    SeveralActiveSurfaces m v := by
  obtain ⟨l', hs, ha, hl⟩ := countActive_some h
  obtain ⟨a, b, hab, h1, h2⟩ := (two_iff ((componentsUuids_nodup m v .surface).sublist hs)).1 (by omega)
  exact ⟨a, b, hab, ⟨mem_componentsUuids.1 (hs.subset h1), ha a h1⟩, ⟨mem_componentsUuids.1 (hs.subset h2), ha b h2⟩⟩

theorem cornersInternalLoop_says (hsev : SeveralActiveSurfaces m v) (hline : ∀ line, ¬ At m v .line line)
    {l : List ComponentMeshVertex} (hl : ∀ cmv ∈ l, cmv ∈ m.componentMeshVertices v) : ∀ {found : Bool},
    (found = false → ∀ cmv ∈ m.componentMeshVertices v, cmv ∈ l ∨ cmv.component_id.type ≠ .corner) →
    cornersInternalLoop m v (componentsUuids m v .surface) l found = .ok (some t) → BRepSeveralSurfacesSays m v t := by
  induction l with
  | nil =>
    intro found hf h
    unfold cornersInternalLoop at h
    split at h
    · rename_i hfound
      cases h
      refine .noCorner hsev hline ?_
      rintro corner ⟨cmv, hcmv, hc⟩
      rcases hf (by simpa using hfound) cmv hcmv with hx | hx
      · cases hx
      · exact hx (by rw [hc])
    · cases h
  | cons x l ih =>
    intro found hf h
    have ih := @ih (fun y hy => hl y (by simp [hy]))
    unfold cornersInternalLoop at h
    split at h
    · rename_i hk
      refine ih (fun hfound cmv hcmv => ?_) h
      rcases hf hfound cmv hcmv with hx | hx
      · rcases List.mem_cons.1 hx with rfl | hx
        · exact .inr (by simpa using hk)
        · exact .inl hx
      · exact .inr hx
    · rename_i hk
      split at h
      · cases h
      split at h
      · cases h
      · rename_i text ht
        cases h
        obtain ⟨s, hs, ht⟩ := findSomeM_some ht
        split at ht
        · cases ht
        rename_i c hc
        split at ht
        · rename_i hb
          cases ht
          simp only [Bool.and_eq_true, Bool.not_eq_true'] at hb
          exact .cornerNotInternal x s hsev hline (hl x (by simp)) (by simpa using hk)
            ⟨mem_componentsUuids.1 hs, active_found hc hb.1⟩ hb.2
        · cases ht
      · exact ih (fun hx => by cases hx) h

theorem oneLineSurfaces_says (hsev : SeveralActiveSurfaces m v) (hline : (componentsUuids m v .line).length = 1)
    (h : oneLineSurfaces m v (componentsUuids m v .surface) = .ok (some t)) : BRepSeveralSurfacesSays m v t := by
  unfold oneLineSurfaces at h
  rw [lineRelationshipsLoop_eq] at h
  simp only [Nat.zero_add] at h
  split at h
  · cases h
  rename_i hlt
  obtain ⟨line, hL⟩ := List.length_eq_one_iff.1 hline
  obtain ⟨cmvL, hmL, hcL⟩ : At m v .line line := mem_componentsUuids.1 (by rw [hL]; simp)
  have hmem : cmvL ∈ (m.componentMeshVertices v).filter (fun cmv => decide (cmv.component_id.type = .line)) :=
    List.mem_filter.2 ⟨hmL, by simp [hcL]⟩
  have hone : (m.componentMeshVertices v).filter (fun cmv => decide (cmv.component_id.type = .line)) = [cmvL] := by
    have h1 : ((m.componentMeshVertices v).filter (fun cmv => decide (cmv.component_id.type = .line))).length = 1 := by
      have := List.length_pos_of_mem hmem
      omega
    obtain ⟨x, hx⟩ := List.length_eq_one_iff.1 h1
    rw [hx] at hmem ⊢
    simp only [List.mem_singleton] at hmem
    rw [hmem]
  have hov : OneLineVertex m v line := by
    unfold OneLineVertex
    rw [hone]
    simp [hcL]
  have hrel : ((componentsUuids m v .surface).filter fun s => m.isBoundary line s || m.isInternal line s).length =
      nbRelatedSurfaces m v line := by
    unfold nbRelatedSurfaces
    rw [componentsAt_eq, ← List.toFinset_card_of_nodup ((componentsUuids_nodup m v .surface).filter _)]
    congr 1
    ext s
    rw [List.mem_toFinset, List.mem_filter, Finset.mem_filter, List.mem_toFinset, Bool.or_eq_true]
  rw [hone] at h
  simp only [List.map_cons, List.map_nil, List.sum_cons, List.sum_nil, Nat.add_zero, hcL] at h
  rw [hrel, ← componentsAt_card] at h
  obtain ⟨cmv, hm, h⟩ := findSomeM_some h
  split at h
  · cases h
  rename_i hk
  have hat : At m v .corner cmv.component_id.id := at_of_cmv hm (by simpa using hk)
  split at h
  · rename_i hn
    cases h
    exact .fewEmbeddings line _ hsev hov hat hn
  split at h
  · rename_i hn
    cases h
    exact .manyEmbeddings line _ hsev hov hat hn
  · cases h

theorem severalSurfaces_says (h : brepInvalidMultipleSurfaces m v = .ok (some t)) : BRepSeveralSurfacesSays m v t := by
  simp only [brepInvalidMultipleSurfaces, bind, Except.bind, pure, Except.pure] at h
  split at h
  · cases h
  rename_i n hn
  split at h
  · cases h
  rename_i hlt
  have hsev := severalActive_of hn (by omega)
  split at h
  · rename_i h0
    refine cornersInternalLoop_says hsev ?_ (fun _ h => h) (fun _ _ h => .inl h) h
    intro line hl
    have := mem_componentsUuids.2 hl
    rw [List.length_eq_zero_iff.1 (show (componentsUuids m v .line).length = 0 by simpa using h0)] at this
    cases this
  split at h
  · rename_i h1
    exact oneLineSurfaces_says hsev (by simpa using h1) h
  · cases h

theorem brepBorder_says (h : brepLineNotOnSurfaceBorder m v = .ok (some t)) : BRepBorderSays m v t := by
  simp only [brepLineNotOnSurfaceBorder] at h
  split at h
  · cases h
  obtain ⟨cmv, hm, h⟩ := findSomeM_some h
  split at h
  · cases h
  rename_i hk
  split at h
  · cases h
  split at h
  · cases h
  rename_i hb
  obtain ⟨line, hl, h⟩ := findSomeM_some h
  split at h
  · cases h
  rename_i c hc
  split at h
  · rename_i hx
    cases h
    simp only [Bool.and_eq_true, Bool.or_eq_true] at hx
    exact .inside line cmv ⟨mem_componentsUuids.1 hl, active_found hc hx.1⟩ hm (by simpa using hk) (by simpa using hb) hx.2
  · cases h

theorem facet_says (hit : ∀ map, (m.iterate map).Perm map) {surface : TopologyComponent} {facet : Index}
    (h : surfaceFacetHasWrongComponentFacetsAround m surface facet = .ok (some t)) : FacetSays m surface.id facet t := by
  simp only [surfaceFacetHasWrongComponentFacetsAround, bind, Except.bind] at h
  split at h
  · cases h
  rename_i p hp
  have hse : p = m.blockPolygons surface.id facet := by
    unfold TopologyModel.componentMeshPolygons at hp
    split at hp
    · cases hp
    · cases hp; rfl
  subst hse
  obtain ⟨⟨b, n⟩, hs, h⟩ := findSomeM_some h
  have hs := (hit _).mem_iff.1 hs
  split at h
  · cases h
  rename_i c hc
  split at h
  · cases h
  rename_i hact
  have hact := active_found hc (by simpa using hact)
  split at h
  · rename_i hb
    split at h
    · rename_i hn
      cases h
      exact .boundary b n hact hs hb (by simpa using hn)
    · cases h
  rename_i hb
  split at h
  · rename_i hi
    split at h
    · rename_i hn
      cases h
      exact .internal b n hact hs hi (by simpa using hn)
    · cases h
  · rename_i hi
    cases h
    exact .unrelated b n hact hs (by simpa using hb) (by simpa using hi)

theorem brepSurfaces_explained (hit : ∀ map, (m.iterate map).Perm map) {r : BRepSurfacesTopologyInspectionResult}
    (h : brepInspectSurfaces m = .ok r) : BRepSurfacesExplained m r := by
  simp only [brepInspectSurfaces, bind, Except.bind] at h
  split at h
  · cases h
  rename_i r0 h0
  refine foldlM_keep (BRepSurfacesExplained m) _ _ ?_ _ _ ?_ h
  · intro r v _ r' hr hv
    simp only [brepSurfacesVertex, bind, Except.bind, pure, Except.pure] at hv
    split at hv
    · cases hv
    rename_i o1 h1
    split at hv
    · cases hv
    rename_i o2 h2
    split at hv
    · cases hv
    rename_i o3 h3
    cases hv
    exact ⟨hr.notMeshed, hr.notLinked, hr.facets,
      explained_addOptional hr.embedded fun t ht => brepEmbeddedSurface_says (ht ▸ h1),
      explained_addOptional hr.several fun t ht => severalSurfaces_says (ht ▸ h2),
      explained_addOptional hr.border fun t ht => brepBorder_says (ht ▸ h3)⟩
  · refine foldlM_keep (BRepSurfacesExplained m) _ _ ?_ _ _
      ⟨explained_new _ _, explainedMap_new _ _ _, explainedMap_new _ _ _, explained_new _ _, explained_new _ _, explained_new _ _⟩ h0
    intro r c hc r' hr hr'
    obtain ⟨hc, ha⟩ := of_mem_activeComponents hc
    simp only [brepSurfacesComponent, bind, Except.bind, pure, Except.pure] at hr'
    have hmesh : Explained (if !surfaceIsMeshed c then
        r.surfaces_not_meshed.add c.id ("Surface " ++ m.label .surface c.id ++ " is not meshed") else r.surfaces_not_meshed)
        (NotMeshedSays m .surface "Surface " " is not meshed") := by
      split
      · rename_i hn
        refine explained_add hr.notMeshed (.noMesh c hc ha rfl ?_)
        simp only [surfaceIsMeshed, Bool.not_eq_true', Bool.and_eq_false_iff, bne_eq_false_iff_eq] at hn
        exact hn
      · exact hr.notMeshed
    split at hr'
    · cases hr'
      exact ⟨hmesh, explainedMap_add hr.notLinked rfl (explained_setDescription _ (verticesNotAssociated_explained hc ha)),
        hr.facets, hr.embedded, hr.several, hr.border⟩
    split at hr'
    · cases hr'
      exact ⟨hmesh, hr.notLinked, hr.facets, hr.embedded, hr.several, hr.border⟩
    split at hr'
    · cases hr'
    rename_i facets he
    have hfacets := inspectElements_explained (claim := FacetSays m c.id) (fun e t h => facet_says hit h) he
    split at hr'
    · cases hr'
      exact ⟨hmesh, hr.notLinked, explainedMap_add hr.facets hfacets.1 hfacets.2, hr.embedded, hr.several, hr.border⟩
    · cases hr'
      exact ⟨hmesh, hr.notLinked, hr.facets, hr.embedded, hr.several, hr.border⟩

end Inspector
