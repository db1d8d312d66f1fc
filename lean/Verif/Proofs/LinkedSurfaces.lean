import Verif.Spec.LinkedSurfaces
import Verif.Proofs.Topology
/-! `closed_linked_surfaces` terminates and computes a connected component. -/
namespace Inspector
open Spec

variable {m : TopologyModel} (coh : CoherentLines m)

theorem sharesLine_symm {a b : Uuid} (h : SharesLine m a b) : SharesLine m b a := by
  obtain ⟨l, h1, h2⟩ := h; exact ⟨l, h2, h1⟩

include coh in
theorem findLinked_iff {x : Uuid} {P : List Uuid} :
    findLinkedProcessedSurface m x P = true ↔ ∃ p ∈ P, SharesLine m x p := by
  unfold findLinkedProcessedSurface
  rw [loopAny_iff]
  simp only [loopAny_iff, mem_related, List.contains_iff_mem]
  constructor
  · rintro ⟨line, hl, p, hp, hmem⟩; exact ⟨p, hmem, line, hl, (coh line p).1 hp⟩
  · rintro ⟨p, hmem, line, hl, hp⟩; exact ⟨line, hl, p, (coh line p).2 hp, hmem⟩

/-- Bound on the number of iterations. -/
def linkedSteps (n skip : Nat) : Nat := n * (n + 1) + (n - skip)

/-- What the loop returns. -/
structure LoopPost (m : TopologyModel) (processed queue P Q' : List Uuid) : Prop where
  nodup : P.Nodup
  keeps : ∀ x ∈ processed, x ∈ P
  sound : ∀ C : Uuid → Prop, (∀ x ∈ processed, C x) → (∀ x ∈ queue, ∀ p, C p → SharesLine m x p → C x) →
    ∀ x ∈ P, C x
  incl : ∀ x ∈ P, x ∈ processed ∨ x ∈ queue
  rest : ∀ x ∈ Q', x ∈ queue ∧ x ∉ P ∧ ∀ p ∈ P, ¬ SharesLine m x p
  all : ∀ x ∈ queue, x ∈ P ∨ x ∈ Q'
  length : Q'.length ≤ queue.length

include coh in
theorem closedLinkedLoop_spec : ∀ (fuel : Nat) (processed queue : List Uuid) (skip : Nat),
    processed.Nodup →
    (∃ a b, queue = a ++ b ∧ b.length = skip ∧ ∀ x ∈ b, x ∉ processed ∧ ∀ p ∈ processed, ¬ SharesLine m x p) →
    linkedSteps queue.length skip < fuel →
    ∃ P Q', closedLinkedLoop m fuel processed queue skip = .ok (P, Q') ∧ LoopPost m processed queue P Q'
  | 0, _, _, _, _, _, h => absurd h (Nat.not_lt_zero _)
  | fuel + 1, processed, [], skip, hn, _, _ =>
    ⟨processed, [], rfl, ⟨hn, fun _ h => h, fun C h _ => h, fun _ h => Or.inl h, by simp, by simp, by simp⟩⟩
  | fuel + 1, processed, s :: rest, skip, hn, ⟨a, b, hq, hb, hskipped⟩, hfuel => by
    rw [closedLinkedLoop]
    have hlen := congrArg List.length hq
    rw [List.length_append, List.length_cons] at hlen
    unfold linkedSteps at hfuel
    by_cases hskip : skip = (s :: rest).length
    · rw [if_pos (by simpa using hskip)]
      have ha : a = [] := by
        rw [List.length_cons] at hskip
        exact List.length_eq_zero_iff.1 (by omega)
      have hqb : s :: rest = b := by rw [hq, ha]; rfl
      refine ⟨_, _, rfl, ⟨hn, fun _ h => h, fun C h _ => h, fun _ h => Or.inl h, ?_, fun x hx => Or.inr hx, le_rfl⟩⟩
      intro x hx
      exact ⟨hx, (hskipped x (hqb ▸ hx)).1, (hskipped x (hqb ▸ hx)).2⟩
    · rw [if_neg (by simpa using hskip)]
      rw [List.length_cons] at hskip hfuel
      -- the front is not among the skipped ones
      obtain ⟨a', ha'⟩ : ∃ a', a = s :: a' := by
        cases a with
        | nil => exfalso; simp at hlen; omega
        | cons x a' =>
          rw [List.cons_append, List.cons.injEq] at hq
          exact ⟨a', by rw [hq.1]⟩
      have hrest : rest = a' ++ b := by
        rw [ha', List.cons_append, List.cons.injEq] at hq; exact hq.2
      by_cases hc : s ∈ processed
      · rw [if_pos (by simpa using hc)]
        have hμ : rest.length * (rest.length + 1) + (rest.length - skip) < fuel := by
          have : rest.length * (rest.length + 1) ≤ (rest.length + 1) * (rest.length + 1 + 1) :=
            Nat.mul_le_mul (by omega) (by omega)
          have h2 : rest.length * (rest.length + 1) + (rest.length + 1) ≤ (rest.length + 1) * (rest.length + 1 + 1) := by
            rw [← Nat.succ_mul]
            exact Nat.mul_le_mul (by omega) (by omega)
          omega
        obtain ⟨P, Q', he, hp⟩ := closedLinkedLoop_spec fuel processed rest skip hn ⟨a', b, hrest, hb, hskipped⟩ hμ
        refine ⟨P, Q', he, ⟨hp.nodup, hp.keeps, ?_, ?_, ?_, ?_, ?_⟩⟩
        · intro C h1 h2; exact hp.sound C h1 (fun x hx => h2 x (by simp [hx]))
        · intro x hx
          rcases hp.incl x hx with h | h
          · exact Or.inl h
          · exact Or.inr (by simp [h])
        · intro x hx
          obtain ⟨h1, h2⟩ := hp.rest x hx
          exact ⟨by simp [h1], h2⟩
        · intro x hx
          rcases List.mem_cons.1 hx with rfl | hx
          · exact Or.inl (hp.keeps _ hc)
          · exact hp.all x hx
        · have := hp.length; rw [List.length_cons]; omega
      · rw [if_neg (by simpa using hc)]
        by_cases hl : findLinkedProcessedSurface m s processed = true
        · rw [if_pos hl]
          obtain ⟨p, hpm, hshare⟩ := (findLinked_iff coh).1 hl
          have hμ : rest.length * (rest.length + 1) + (rest.length - 0) < fuel := by
            have h2 : rest.length * (rest.length + 1) + (rest.length + 1) ≤ (rest.length + 1) * (rest.length + 1 + 1) := by
              rw [← Nat.succ_mul]
              exact Nat.mul_le_mul (by omega) (by omega)
            omega
          obtain ⟨P, Q', he, hp⟩ := closedLinkedLoop_spec fuel (processed ++ [s]) rest 0
            (by
              rw [List.nodup_append]
              refine ⟨hn, by simp, ?_⟩
              intro x hx y hy
              rw [List.mem_singleton] at hy
              rintro rfl
              exact hc (hy ▸ hx))
            ⟨rest, [], by simp, rfl, by simp⟩ hμ
          refine ⟨P, Q', he, ⟨hp.nodup, fun x hx => hp.keeps x (by simp [hx]), ?_, ?_, ?_, ?_, ?_⟩⟩
          · intro C h1 h2
            refine hp.sound C ?_ (fun x hx => h2 x (by simp [hx]))
            intro x hx
            rcases List.mem_append.1 hx with h | h
            · exact h1 x h
            · rw [List.mem_singleton.1 h]
              exact h2 s (by simp) p (h1 p hpm) hshare
          · intro x hx
            rcases hp.incl x hx with h | h
            · rcases List.mem_append.1 h with h | h
              · exact Or.inl h
              · exact Or.inr (by rw [List.mem_singleton.1 h]; simp)
            · exact Or.inr (by simp [h])
          · intro x hx
            obtain ⟨h1, h2⟩ := hp.rest x hx
            exact ⟨by simp [h1], h2⟩
          · intro x hx
            rcases List.mem_cons.1 hx with rfl | hx
            · exact Or.inl (hp.keeps _ (by simp))
            · exact hp.all x hx
          · have := hp.length; rw [List.length_cons]; omega
        · rw [if_neg hl]
          have hno : ∀ p ∈ processed, ¬ SharesLine m s p := fun p hp hs => hl ((findLinked_iff coh).2 ⟨p, hp, hs⟩)
          obtain ⟨P, Q', he, hp⟩ := closedLinkedLoop_spec fuel processed (rest ++ [s]) (skip + 1) hn
            ⟨a', b ++ [s], by rw [hrest, List.append_assoc], by simp [hb], by
              intro x hx
              rcases List.mem_append.1 hx with h | h
              · exact hskipped x h
              · rw [List.mem_singleton.1 h]; exact ⟨hc, hno⟩⟩
            (by
              unfold linkedSteps
              rw [List.length_append, List.length_singleton]
              have := ha' ▸ hlen
              rw [List.length_cons] at this
              omega)
          have hmem : ∀ x, x ∈ rest ++ [s] ↔ x ∈ s :: rest := by intro x; simp; tauto
          refine ⟨P, Q', he, ⟨hp.nodup, hp.keeps, ?_, ?_, ?_, ?_, ?_⟩⟩
          · intro C h1 h2; exact hp.sound C h1 (fun x hx => h2 x ((hmem x).1 hx))
          · intro x hx
            rcases hp.incl x hx with h | h
            · exact Or.inl h
            · exact Or.inr ((hmem x).1 h)
          · intro x hx
            obtain ⟨h1, h2⟩ := hp.rest x hx
            exact ⟨(hmem x).1 h1, h2⟩
          · intro x hx; exact hp.all x ((hmem x).2 hx)
          · have := hp.length; rw [List.length_append, List.length_singleton] at this; rw [List.length_cons]; omega

theorem linkedIn_symm {Q : List Uuid} {a b : Uuid} (ha : a ∈ Q) (h : LinkedIn m Q a b) :
    LinkedIn m Q b a := by
  unfold LinkedIn at h
  induction h with
  | refl => exact Relation.ReflTransGen.refl
  | @tail x y hxy hstep ih =>
    have hx : x ∈ Q := by
      rcases Relation.ReflTransGen.cases_tail hxy with h | ⟨_, _, h⟩
      · rw [h]; exact ha
      · exact h.2
    exact Relation.ReflTransGen.head ⟨sharesLine_symm hstep.1, hx⟩ ih

theorem linkedIn_trans {Q : List Uuid} {a b c : Uuid} (h : LinkedIn m Q a b) (h' : LinkedIn m Q b c) :
    LinkedIn m Q a c := Relation.ReflTransGen.trans h h'

/-- What `closed_linked_surfaces` returns for a queue. -/
structure ClosedPost (m : TopologyModel) (Q P Q' : List Uuid) : Prop where
  nodup : P.Nodup
  head : ∀ x, Q.head? = some x → x ∈ P
  component : ∀ a ∈ P, ∀ b, b ∈ P ↔ b ∈ Q ∧ LinkedIn m Q a b
  rest : ∀ x, x ∈ Q' ↔ x ∈ Q ∧ x ∉ P
  closed : ∀ x ∈ Q', ∀ p ∈ P, ¬ SharesLine m x p
  length : Q'.length < Q.length

include coh in
theorem closedLinkedSurfaces_spec (fuel : Nat) (first : Uuid) (rest : List Uuid)
    (hf : linkedSteps rest.length 0 < fuel) :
    ∃ P Q', closedLinkedSurfaces m fuel (first :: rest) = .ok (P, Q') ∧ ClosedPost m (first :: rest) P Q' := by
  obtain ⟨P, Q', he, hp⟩ := closedLinkedLoop_spec coh fuel [first] rest 0 (by simp) ⟨rest, [], by simp, rfl, by simp⟩ hf
  have hsound : ∀ x ∈ P, LinkedIn m (first :: rest) first x := by
    refine hp.sound (LinkedIn m (first :: rest) first) ?_ ?_
    · intro x hx; rw [List.mem_singleton.1 hx]; exact Relation.ReflTransGen.refl
    · intro x hx p hpl hs
      exact Relation.ReflTransGen.tail hpl ⟨sharesLine_symm hs, by simp [hx]⟩
  have hfirst : first ∈ P := hp.keeps _ (by simp)
  have hall : ∀ x ∈ first :: rest, x ∈ P ∨ x ∈ Q' := by
    intro x hx
    rcases List.mem_cons.1 hx with rfl | hx
    · exact Or.inl hfirst
    · exact hp.all x hx
  have hincl : ∀ x ∈ P, x ∈ first :: rest := by
    intro x hx
    rcases hp.incl x hx with h | h
    · rw [List.mem_singleton.1 h]; simp
    · simp [h]
  have hclosed : ∀ a ∈ P, ∀ b, LinkedIn m (first :: rest) a b → b ∈ P := by
    intro a ha b hl
    unfold LinkedIn at hl
    induction hl with
    | refl => exact ha
    | @tail x y hxy hstep ih =>
      rcases hall y hstep.2 with h | h
      · exact h
      · exact absurd (sharesLine_symm hstep.1) ((hp.rest y h).2.2 x ih)
  refine ⟨P, Q', he, ⟨hp.nodup, ?_, ?_, ?_, fun x hx => (hp.rest x hx).2.2, ?_⟩⟩
  · intro x hx; simp at hx; rw [← hx]; exact hfirst
  · intro a ha b
    constructor
    · intro hb
      exact ⟨hincl b hb, linkedIn_trans (linkedIn_symm (by simp) (hsound a ha)) (hsound b hb)⟩
    · rintro ⟨_, h⟩; exact hclosed a ha b h
  · intro x
    constructor
    · intro hx; exact ⟨by simp [(hp.rest x hx).1], (hp.rest x hx).2.1⟩
    · rintro ⟨h1, h2⟩; exact (hall x h1).resolve_left h2
  · have := hp.length; rw [List.length_cons]; omega

include coh in
theorem linkedBoundaryParts_spec (fuel : Nat) : ∀ (n : Nat) (Q : List Uuid), Q.length < n →
    linkedSteps Q.length 0 < fuel →
    ∃ parts, linkedBoundaryParts m fuel n Q = .ok parts ∧ IsPartition m Q parts
  | 0, _, h, _ => absurd h (Nat.not_lt_zero _)
  | n + 1, [], _, _ => ⟨[], rfl, ⟨by simp, by simp, by simp, by simp⟩⟩
  | n + 1, first :: rest, hn, hf => by
    have hmono : ∀ a b : Nat, a ≤ b → linkedSteps a 0 ≤ linkedSteps b 0 := by
      intro a b h
      unfold linkedSteps
      have : a * (a + 1) ≤ b * (b + 1) := Nat.mul_le_mul h (by omega)
      omega
    obtain ⟨P, Q', he, hp⟩ := closedLinkedSurfaces_spec coh fuel first rest
      (lt_of_le_of_lt (hmono _ _ (by simp)) hf)
    have hlt := hp.length
    obtain ⟨parts, he', hpart⟩ := linkedBoundaryParts_spec fuel n Q' (by omega)
      (lt_of_le_of_lt (hmono _ _ (by omega)) hf)
    rw [linkedBoundaryParts, he]
    simp only [bind, Except.bind, he']
    refine ⟨P :: parts, rfl, ⟨?_, ?_, ?_, ?_⟩⟩
    · intro p hpm
      rcases List.mem_cons.1 hpm with rfl | h
      · exact List.ne_nil_of_mem (hp.head first rfl)
      · exact hpart.nonempty p h
    · rw [List.flatten_cons, List.nodup_append]
      refine ⟨hp.nodup, hpart.nodup, ?_⟩
      intro x hx y hy hxy
      obtain ⟨p, hpm, hyp⟩ := List.mem_flatten.1 hy
      have := (hpart.cover y).2 ⟨p, hpm, hyp⟩
      exact ((hp.rest y).1 this).2 (hxy ▸ hx)
    · intro s
      constructor
      · intro hs
        by_cases hsP : s ∈ P
        · exact ⟨P, by simp, hsP⟩
        · obtain ⟨p, hpm, hsp⟩ := (hpart.cover s).1 ((hp.rest s).2 ⟨hs, hsP⟩)
          exact ⟨p, by simp [hpm], hsp⟩
      · rintro ⟨p, hpm, hsp⟩
        rcases List.mem_cons.1 hpm with rfl | h
        · exact ((hp.component s hsp s).1 hsp).1
        · exact ((hp.rest s).1 ((hpart.cover s).2 ⟨p, h, hsp⟩)).1
    · intro p hpm a ha b
      rcases List.mem_cons.1 hpm with rfl | h
      · exact hp.component a ha b
      · have haQ : a ∈ Q' := (hpart.cover a).2 ⟨p, h, ha⟩
        rw [hpart.component p h a ha b]
        constructor
        · rintro ⟨h1, h2⟩
          refine ⟨((hp.rest b).1 h1).1, ?_⟩
          clear h1
          unfold LinkedIn at h2 ⊢
          induction h2 with
          | refl => exact Relation.ReflTransGen.refl
          | @tail x y _ hxy ih => exact Relation.ReflTransGen.tail ih ⟨hxy.1, ((hp.rest y).1 hxy.2).1⟩
        · rintro ⟨h1, h2⟩
          have key : b ∈ Q' ∧ LinkedIn m Q' a b := by
            clear h1
            unfold LinkedIn at h2
            induction h2 with
            | refl => exact ⟨haQ, Relation.ReflTransGen.refl⟩
            | @tail x y hxy hstep ih =>
              have hy : y ∈ Q' := by
                rw [hp.rest]
                refine ⟨hstep.2, fun hyP => ?_⟩
                exact hp.closed x ih.1 y hyP hstep.1
              exact ⟨hy, Relation.ReflTransGen.tail ih.2 ⟨hstep.1, hy⟩⟩
          exact key

/-! ### More fuel gives the same result -/

theorem closedLinkedLoop_more : ∀ (fuel : Nat) {fuel' : Nat} (processed queue : List Uuid) (skip : Nat)
    {r : List Uuid × List Uuid}, fuel ≤ fuel' → closedLinkedLoop m fuel processed queue skip = .ok r →
    closedLinkedLoop m fuel' processed queue skip = .ok r
  | 0, _, _, _, _, _, _, h => by rw [closedLinkedLoop] at h; cases h
  | fuel + 1, 0, _, _, _, _, hle, _ => absurd hle (by omega)
  | fuel + 1, fuel' + 1, processed, [], skip, r, _, h => by rw [closedLinkedLoop] at h ⊢; exact h
  | fuel + 1, fuel' + 1, processed, s :: rest, skip, r, hle, h => by
    rw [closedLinkedLoop] at h ⊢
    have hle : fuel ≤ fuel' := by omega
    split_ifs at h ⊢ with h1 h2 h3
    · exact h
    · exact closedLinkedLoop_more fuel _ _ _ hle h
    · exact closedLinkedLoop_more fuel _ _ _ hle h
    · exact closedLinkedLoop_more fuel _ _ _ hle h

theorem linkedBoundaryParts_more {fuel fuel' : Nat} (hle : fuel ≤ fuel') : ∀ (n : Nat) {n' : Nat} (Q : List Uuid)
    {parts : List (List Uuid)}, n ≤ n' → linkedBoundaryParts m fuel n Q = .ok parts →
    linkedBoundaryParts m fuel' n' Q = .ok parts
  | 0, _, _, _, _, h => by rw [linkedBoundaryParts] at h; cases h
  | n + 1, 0, _, _, hn, _ => absurd hn (by omega)
  | n + 1, n' + 1, [], _, _, h => by rw [linkedBoundaryParts] at h ⊢; exact h
  | n + 1, n' + 1, s :: rest, parts, hn, h => by
    rw [linkedBoundaryParts] at h ⊢
    simp only [bind, Except.bind] at h ⊢
    cases h1 : closedLinkedSurfaces m fuel (s :: rest) with
    | error f => rw [h1] at h; cases h
    | ok r =>
      have : closedLinkedSurfaces m fuel' (s :: rest) = .ok r := closedLinkedLoop_more fuel _ _ _ hle h1
      rw [h1] at h
      rw [this]
      simp only [] at h ⊢
      cases h2 : linkedBoundaryParts m fuel n r.2 with
      | error f => rw [h2] at h; cases h
      | ok ps =>
        rw [h2] at h
        rw [linkedBoundaryParts_more hle n r.2 (by omega) h2]
        exact h

include coh in
theorem linkedBoundaryParts_terminates (Q : List Uuid) :
    ∃ parts N, IsPartition m Q parts ∧ ∀ fuel ≥ N, linkedBoundaryParts m fuel fuel Q = .ok parts := by
  let N := max (Q.length + 1) (linkedSteps Q.length 0 + 1)
  obtain ⟨parts, he, hp⟩ := linkedBoundaryParts_spec coh N N Q (by omega) (by omega)
  exact ⟨parts, N, hp, fun fuel hf => linkedBoundaryParts_more hf N Q hf he⟩

theorem foldl_queue (l acc : List Uuid) : l.foldl (fun queue surface => queue ++ [surface]) acc = acc ++ l := by
  induction l generalizing acc with
  | nil => simp
  | cons x l ih => rw [List.foldl_cons, ih]; simp

theorem queueWithBlockBoundaries_eq (block : Uuid) :
    queueWithBlockBoundaries m block = m.related (m.boundaries block) .surface := by
  unfold queueWithBlockBoundaries; rw [foldl_queue]; simp

theorem queueWithModelBoundaries_eq (l : List (List Uuid)) : queueWithModelBoundaries l = l.flatten := by
  have : ∀ (l : List (List Uuid)) (acc : List Uuid), l.foldl (fun queue items =>
      items.foldl (fun queue surface => queue ++ [surface]) queue) acc = acc ++ l.flatten := by
    intro l
    induction l with
    | nil => simp
    | cons x l ih => intro acc; rw [List.foldl_cons, foldl_queue, ih]; simp
  unfold queueWithModelBoundaries
  rw [this]; simp

include coh in
theorem closedLinkedSurfaces_terminates (first : Uuid) (rest : List Uuid) :
    ∃ P Q' N, ClosedPost m (first :: rest) P Q' ∧
      ∀ fuel ≥ N, closedLinkedSurfaces m fuel (first :: rest) = .ok (P, Q') := by
  obtain ⟨P, Q', he, hp⟩ := closedLinkedSurfaces_spec coh (linkedSteps rest.length 0 + 1) first rest (by omega)
  exact ⟨P, Q', _, hp, fun fuel hf => closedLinkedLoop_more _ _ _ _ hf he⟩

end Inspector
