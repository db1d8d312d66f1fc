import Verif.Spec.Rounds
import Verif.Proofs.LinkedSurfaces
import Verif.Proofs.NotBoundarySurfaces
import Verif.Proofs.TopologyInspector
/-
Proofs for C130: the loops of the inspection of the Blocks end, whatever the model, after a bounded number of rounds.
-/
namespace Inspector.Rounds
open Inspector Spec
variable {m : TopologyModel}

/-! ### linked surfaces -/

theorem closedLinkedLoop_ends : ∀ (fuel : Nat) (processed queue : List Uuid) (skip : Nat), skip ≤ queue.length →
    linkedSteps queue.length skip < fuel →
    ∃ P Q', closedLinkedLoop m fuel processed queue skip = .ok (P, Q') ∧ Q'.length ≤ queue.length
  | 0, _, _, _, _, h => absurd h (Nat.not_lt_zero _)
  | fuel + 1, processed, [], skip, _, _ => ⟨processed, [], rfl, by simp⟩
  | fuel + 1, processed, s :: rest, skip, hs, hfuel => by
    rw [closedLinkedLoop]
    unfold linkedSteps at hfuel
    rw [List.length_cons] at hs hfuel
    have h2 : rest.length * (rest.length + 1) + (rest.length + 1) ≤ (rest.length + 1) * (rest.length + 1 + 1) := by
      rw [← Nat.succ_mul]
      exact Nat.mul_le_mul (by omega) (by omega)
    by_cases hskip : skip = rest.length + 1
    · rw [if_pos (by simpa using hskip)]
      exact ⟨_, _, rfl, le_rfl⟩
    · rw [if_neg (by simpa using hskip)]
      split_ifs with hc hl
      · obtain ⟨P, Q', he, hp⟩ := closedLinkedLoop_ends fuel processed rest skip (by omega) (by unfold linkedSteps; omega)
        exact ⟨P, Q', he, by rw [List.length_cons]; omega⟩
      · obtain ⟨P, Q', he, hp⟩ := closedLinkedLoop_ends fuel (processed ++ [s]) rest 0 (by omega)
          (by unfold linkedSteps; omega)
        exact ⟨P, Q', he, by rw [List.length_cons]; omega⟩
      · have hlen : (rest ++ [s]).length = rest.length + 1 := by simp
        obtain ⟨P, Q', he, hp⟩ := closedLinkedLoop_ends fuel processed (rest ++ [s]) (skip + 1) (by omega)
          (by unfold linkedSteps; rw [hlen]; omega)
        exact ⟨P, Q', he, by rw [List.length_cons]; omega⟩

theorem closedLinkedSurfaces_ends (fuel : Nat) (first : Uuid) (rest : List Uuid)
    (hf : (rest.length + 1) ^ 2 ≤ fuel) :
    ∃ P Q', closedLinkedSurfaces m fuel (first :: rest) = .ok (P, Q') ∧ Q'.length ≤ rest.length := by
  refine closedLinkedLoop_ends fuel [first] rest 0 (by omega) ?_
  unfold linkedSteps
  have : (rest.length + 1) ^ 2 = rest.length * (rest.length + 1) + (rest.length + 1) := by rw [Nat.pow_two, Nat.succ_mul]
  omega

theorem linkedBoundaryParts_ends (fuel : Nat) : ∀ (n : Nat) (Q : List Uuid), Q.length < n → Q.length ^ 2 ≤ fuel →
    ∃ parts, linkedBoundaryParts m fuel n Q = .ok parts
  | 0, _, h, _ => absurd h (Nat.not_lt_zero _)
  | n + 1, [], _, _ => ⟨[], rfl⟩
  | n + 1, first :: rest, hn, hf => by
    rw [List.length_cons] at hn hf
    obtain ⟨P, Q', he, hl⟩ := closedLinkedSurfaces_ends (m := m) fuel first rest hf
    obtain ⟨parts, he'⟩ := linkedBoundaryParts_ends fuel n Q' (by omega)
      (le_trans (Nat.pow_le_pow_left (by omega) 2) hf)
    refine ⟨P :: parts, ?_⟩
    rw [linkedBoundaryParts, he]
    simp only [bind, Except.bind]
    rw [he']
    rfl

/-! ### peeling -/

/-- The edges which are marked are those of some surfaces. -/
theorem peelVertex_marks {E : List GraphEdge} {state : List Uuid × List Bool} {L : List Uuid}
    (h : state.2 = E.map fun e => L.contains e.surface) (l : Uuid) :
    ∃ L' : List Uuid, (peelVertex E state l).2 = E.map fun e => L'.contains e.surface := by
  unfold peelVertex
  split
  · exact ⟨L, h⟩
  · simp only []
    split_ifs
    · exact ⟨L, h⟩
    · exact ⟨L, h⟩
    · rename_i first _ _ _ _
      exact ⟨L ++ [first.surface], by rw [h]; exact zip_map_marks E L _⟩

theorem peelRound_marks {E : List GraphEdge} : ∀ (vertices : List Uuid) (state : List Uuid × List Bool) (L : List Uuid),
    (state.2 = E.map fun e => L.contains e.surface) →
    ∃ L' : List Uuid, (vertices.foldl (peelVertex E) state).2 = E.map fun e => L'.contains e.surface
  | [], _, L, h => ⟨L, h⟩
  | l :: rest, state, L, h => by
    obtain ⟨L', h'⟩ := peelVertex_marks h l
    exact peelRound_marks rest _ L' h'

theorem zip_filter (E : List GraphEdge) (f : GraphEdge → Bool) :
    ((E.zip (E.map f)).filter fun edge => !edge.2).map Prod.fst = E.filter fun e => !f e := by
  induction E with
  | nil => rfl
  | cons e E ih =>
    rw [List.map_cons, List.zip_cons_cons, List.filter_cons, List.filter_cons]
    cases h : f e <;> simp [ih]

/-- The surfaces of the edges. -/
def surfacesOf (E : List GraphEdge) : Finset Uuid := (E.map GraphEdge.surface).toFinset

theorem peelLoop_ends : ∀ (fuel : Nat) (vertices : List Uuid) (E : List GraphEdge) (N : List Uuid),
    (surfacesOf E).card < fuel → ∃ result, peelLoop fuel vertices E N = .ok result
  | 0, _, _, _, h => absurd h (Nat.not_lt_zero _)
  | fuel + 1, vertices, E, N, h => by
    rw [peelLoop]
    obtain ⟨L, hL⟩ := peelRound_marks (E := E) vertices (N, List.replicate E.length false) [] (by
      symm
      rw [List.eq_replicate_iff]
      refine ⟨by simp, ?_⟩
      intro b hb
      obtain ⟨e, he, rfl⟩ := List.mem_map.1 hb
      rfl)
    simp only []
    split_ifs with h1
    · exact ⟨_, rfl⟩
    · refine peelLoop_ends fuel _ _ _ (lt_of_lt_of_le (Finset.card_lt_card ?_) (Nat.le_of_lt_succ h))
      rw [hL, zip_filter]
      have h1 : true ∈ E.map fun e => L.contains e.surface := by
        rw [hL] at h1; simpa using h1
      obtain ⟨e, he, hc⟩ := List.mem_map.1 h1
      rw [Finset.ssubset_iff_of_subset]
      · refine ⟨e.surface, ?_, ?_⟩
        · unfold surfacesOf; rw [List.mem_toFinset]; exact List.mem_map_of_mem he
        · unfold surfacesOf; rw [List.mem_toFinset]
          intro hm
          obtain ⟨e', he', hs⟩ := List.mem_map.1 hm
          have := (List.mem_filter.1 he').2
          rw [hs, hc] at this
          cases this
      · intro s hs
        unfold surfacesOf at hs ⊢
        rw [List.mem_toFinset] at hs ⊢
        obtain ⟨e', he', hs⟩ := List.mem_map.1 hs
        exact List.mem_map.2 ⟨e', (List.mem_filter.1 he').1, hs⟩

theorem addGraphEdge_surfaces {find : List GraphEdge → Uuid → Uuid → Option Nat} {line s bl : Uuid} {E : List GraphEdge}
    {e : GraphEdge} (he : e ∈ addGraphEdge find line s E bl) : e ∈ E ∨ e.surface = s := by
  unfold addGraphEdge at he
  split at he
  · split_ifs at he
    · exact .inl he
    · rcases List.mem_append.1 he with he | he
      · exact .inl he
      · rw [List.mem_singleton.1 he]; exact .inr rfl
  · rcases List.mem_append.1 he with he | he
    · exact .inl he
    · rw [List.mem_singleton.1 he]; exact .inr rfl

theorem fold_mem {α β : Type} (step : List β → α → List β) (P : α → β → Prop)
    (h : ∀ E a e, e ∈ step E a → e ∈ E ∨ P a e) : ∀ (l : List α) (E : List β) (e : β), e ∈ l.foldl step E →
    e ∈ E ∨ ∃ a ∈ l, P a e
  | [], _, _, he => .inl he
  | a :: l, E, e, he => by
    rcases fold_mem step P h l _ e he with he | ⟨b, hb, hp⟩
    · exact (h E a e he).imp id fun hp => ⟨a, by simp, hp⟩
    · exact .inr ⟨b, by simp [hb], hp⟩

theorem createGraph_surfaces (find : List GraphEdge → Uuid → Uuid → Option Nat) :
    surfacesOf (createGraph m find) ⊆ surfacesOnLines m := by
  intro s hs
  unfold surfacesOf at hs
  rw [List.mem_toFinset] at hs
  obtain ⟨e, he, rfl⟩ := List.mem_map.1 hs
  unfold createGraph at he
  have := fold_mem _ (fun (line : TopologyComponent) (e : GraphEdge) => e.surface ∈ m.related (m.incidences line.id) .surface)
    (fun E line e he => by
      refine (fold_mem _ (fun (s : Uuid) (e : GraphEdge) => e.surface = s) (fun E s e he => ?_) _ E e he).imp id
        fun ⟨s, hs, he⟩ => he ▸ hs
      refine (fold_mem _ (fun (_ : Uuid) (e : GraphEdge) => e.surface = s)
        (fun E bl e he => addGraphEdge_surfaces he) _ E e he).imp id fun ⟨_, _, h⟩ => h) _ [] e he
  rcases this with h | ⟨line, hl, h⟩
  · exact absurd h List.not_mem_nil
  · unfold surfacesOnLines
    rw [List.mem_toFinset]
    refine List.mem_flatMap.2 ⟨line, hl, ?_⟩
    simpa [TopologyModel.related] using h

theorem findNotBoundarySurfaces_ends (find : List GraphEdge → Uuid → Uuid → Option Nat) (fuel : Nat)
    (h : (surfacesOnLines m).card < fuel) : ∃ result, findNotBoundarySurfaces m find fuel = .ok result :=
  peelLoop_ends fuel _ _ _ (lt_of_le_of_lt (Finset.card_le_card (createGraph_surfaces find)) h)

/-! ### the inspection -/

theorem square_le {a n : Nat} (h : a < n) : a < n ^ 2 := lt_of_lt_of_le h (Nat.le_self_pow (by decide) n)

theorem findNotBoundarySurfaces_same (find : List GraphEdge → Uuid → Uuid → Option Nat) {fuel fuel' : Nat}
    (h : (surfacesOnLines m).card < fuel) (hle : fuel ≤ fuel') :
    findNotBoundarySurfaces m find fuel' = findNotBoundarySurfaces m find fuel := by
  obtain ⟨r, hr⟩ := findNotBoundarySurfaces_ends find fuel h
  rw [hr]
  exact peelLoop_more _ _ _ _ hle hr

theorem closedLinked_same {fuel fuel' : Nat} {Q : List Uuid} (h : Q.length ^ 2 ≤ fuel) (hle : fuel ≤ fuel') :
    closedLinkedSurfaces m fuel' Q = closedLinkedSurfaces m fuel Q := by
  cases Q with
  | nil => rfl
  | cons first rest =>
    obtain ⟨P, Q', he, _⟩ := closedLinkedSurfaces_ends (m := m) fuel first rest h
    rw [he]
    exact closedLinkedLoop_more _ _ _ _ hle he

theorem linkedParts_same {fuel fuel' : Nat} {Q : List Uuid} (h : Q.length ^ 2 ≤ fuel) (h' : Q.length < fuel)
    (hle : fuel ≤ fuel') : linkedBoundaryParts m fuel' fuel' Q = linkedBoundaryParts m fuel fuel Q := by
  obtain ⟨parts, he⟩ := linkedBoundaryParts_ends (m := m) fuel fuel Q h' h
  rw [he]
  exact linkedBoundaryParts_more hle _ _ hle he

theorem queue_eq (block : Uuid) : queueWithBlockBoundaries m block = boundarySurfaces m block := by
  rw [queueWithBlockBoundaries_eq]
  simp [TopologyModel.related, boundarySurfaces, beq_eq_decide]

theorem foldlM_congr {α β : Type} {f g : β → α → Except Failure β} : ∀ (l : List α), (∀ a ∈ l, ∀ b, f b a = g b a) → ∀ b,
    l.foldlM f b = l.foldlM g b
  | [], _, _ => rfl
  | a :: l, h, b => by
    rw [List.foldlM_cons, List.foldlM_cons, h a (by simp)]
    cases g b a with
    | error f => rfl
    | ok b' => exact foldlM_congr l (fun a ha => h a (by simp [ha])) b'

theorem blocks_same (o : BlocksOracle) {n fuel : Nat} (h : LargerThanSurfaces m o n) (hf : n ^ 2 ≤ fuel) :
    brepInspectBlocks m o fuel = brepInspectBlocks m o (n ^ 2) := by
  have h1 := findNotBoundarySurfaces_same o.edgeFromVertices (square_le h.onLines) hf
  have h2 : ∀ result, blocksModelBoundaries m o fuel result = blocksModelBoundaries m o (n ^ 2) result := by
    intro result
    unfold blocksModelBoundaries brepBoundariesAreClosed
    rw [closedLinked_same (fuel := n ^ 2) (fuel' := fuel) (by
      rw [queueWithModelBoundaries_eq]
      exact Nat.pow_le_pow_left h.modelBoundaries.le 2) hf]
  have h3 : ∀ b ∈ m.activeComponents .block, ∀ result,
      blocksBoundaries m o fuel result b = blocksBoundaries m o (n ^ 2) result b := by
    intro b hb result
    have hb' := h.blocks b (mem_activeComponents.1 hb).1 (mem_activeComponents.1 hb).2
    unfold blocksBoundaries blockBoundariesAreClosed
    rw [linkedParts_same (fuel := n ^ 2) (fuel' := fuel) (by
      rw [queue_eq]
      exact Nat.pow_le_pow_left hb'.le 2) (by rw [queue_eq]; exact square_le hb') hf]
  unfold brepInspectBlocks
  rw [h1]
  simp only [h2]
  have h4 : ∀ result, (m.activeComponents .block).foldlM (blocksBoundaries m o fuel) result =
      (m.activeComponents .block).foldlM (blocksBoundaries m o (n ^ 2)) result := foldlM_congr _ h3
  simp only [h4]

end Inspector.Rounds
