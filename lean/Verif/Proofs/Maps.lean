import Verif.Proofs.Information
/-! Helper lemmas about per-component maps. -/
namespace Inspector
open Spec

/-- A history of `add_issues_to_map` calls. -/
def IssuesMap.addAll {α : Type} (m : IssuesMap α) (cs : List (Uuid × Issues α)) : IssuesMap α :=
  cs.foldl (fun m c => m.addIssues c.1 c.2) m

theorem lookup_append_single {β : Type} (l : List (Uuid × β)) (k id : Uuid) (v : β) :
    (l ++ [(k, v)]).lookup id = (l.lookup id).or (if k = id then some v else none) := by
  induction l with
  | nil =>
    by_cases h : k = id
    · subst h; simp [List.lookup]
    · have : (id == k) = false := by simpa using fun e => h e.symm
      simp [List.lookup, this, h]
  | cons p l ih =>
    obtain ⟨a, b⟩ := p
    by_cases h : id = a
    · subst h; simp [List.lookup]
    · have : (id == a) = false := by simpa using h
      simp only [List.cons_append, List.lookup, this]
      exact ih

theorem lookup_isSome_iff {β : Type} (l : List (Uuid × β)) (id : Uuid) :
    (l.lookup id).isSome = true ↔ id ∈ l.map Prod.fst := by
  induction l with
  | nil => simp
  | cons p l ih =>
    obtain ⟨a, b⟩ := p
    by_cases h : id = a
    · subst h; simp [List.lookup]
    · have h' : (id == a) = false := by simpa using h
      simp only [List.lookup, h', ih, List.map_cons, List.mem_cons, h, false_or]

theorem lookup_none_iff {β : Type} (l : List (Uuid × β)) (id : Uuid) :
    l.lookup id = none ↔ id ∉ l.map Prod.fst := by
  rw [← lookup_isSome_iff]; cases l.lookup id <;> simp

theorem IssuesMap.addIssues_find? {α : Type} (m : IssuesMap α) (k id : Uuid) (s : Issues α)
    (h : s.issues.length < 2 ^ 32) :
    (m.addIssues k s).find? id
      = (m.find? id).or (if k = id ∧ s.issues ≠ [] then some s else none) := by
  unfold IssuesMap.addIssues
  by_cases h0 : s.issues = []
  · have : s.nbIssues = 0 := (nbIssues_eq_zero_iff s h).2 h0
    simp [this, h0]
  · have : ¬ s.nbIssues = 0 := fun e => h0 ((nbIssues_eq_zero_iff s h).1 e)
    simp only [beq_iff_eq, this, if_false]
    cases hf : m.find? k with
    | some v =>
      by_cases hk : k = id
      · subst hk; simp [hf]
      · simp [hk]
    | none =>
      simp only [IssuesMap.find?, lookup_append_single]
      by_cases hk : k = id <;> simp [hk, h0]

theorem IssuesMap.addIssues_keys {α : Type} (m : IssuesMap α) (k : Uuid) (s : Issues α)
    (hn : (m.entries.map Prod.fst).Nodup) (he : ∀ e ∈ m.entries, e.2.issues ≠ []) :
    ((m.addIssues k s).entries.map Prod.fst).Nodup ∧
    (∀ e ∈ (m.addIssues k s).entries, e.2.issues ≠ []) := by
  unfold IssuesMap.addIssues
  split
  · exact ⟨hn, he⟩
  · rename_i h0
    split
    · exact ⟨hn, he⟩
    · rename_i hf
      have hk : k ∉ m.entries.map Prod.fst := (lookup_none_iff _ _).1 hf
      constructor
      · simp only [List.map_append, List.map_cons, List.map_nil]
        rw [List.nodup_append]
        refine ⟨hn, by simp, ?_⟩
        intro a ha b hb e
        simp only [List.mem_singleton] at hb
        subst hb; subst e; exact hk ha
      · intro e he'
        rw [List.mem_append, List.mem_singleton] at he'
        rcases he' with h | h
        · exact he e h
        · subst h
          intro e0
          apply h0
          simp only at e0
          rw [beq_iff_eq, Issues.nbIssues, e0]; rfl

theorem firstNonEmpty_isSome_iff {α : Type} (id : Uuid) (cs : List (Uuid × Issues α)) :
    (firstNonEmpty id cs).isSome = true ↔ ∃ s, (id, s) ∈ cs ∧ s.issues ≠ [] := by
  induction cs with
  | nil => simp [firstNonEmpty]
  | cons c cs ih =>
    obtain ⟨k, s⟩ := c
    simp only [firstNonEmpty]
    by_cases hc : k = id ∧ s.issues ≠ []
    · rw [if_pos hc]
      exact ⟨fun _ => ⟨s, by rw [hc.1]; simp, hc.2⟩, fun _ => rfl⟩
    · rw [if_neg hc, ih]
      constructor
      · rintro ⟨s', hm, hs'⟩; exact ⟨s', by simp [hm], hs'⟩
      · rintro ⟨s', hm, hs'⟩
        rw [List.mem_cons] at hm
        rcases hm with h | h
        · simp only [Prod.mk.injEq] at h
          exact absurd ⟨h.1.symm, by rw [← h.2]; exact hs'⟩ hc
        · exact ⟨s', h, hs'⟩

/-- Adding lists for components that are all different just appends the non-empty ones. -/
theorem IssuesMap.addAll_entries {α : Type} (m : IssuesMap α) (cs : List (Uuid × Issues α))
    (hsz : ∀ c ∈ cs, c.2.issues.length < 2 ^ 32) (hn : (cs.map Prod.fst).Nodup)
    (hd : ∀ c ∈ cs, c.1 ∉ m.entries.map Prod.fst) :
    (m.addAll cs).entries = m.entries ++ cs.filter (fun c => !c.2.issues.isEmpty) := by
  induction cs generalizing m with
  | nil => simp [IssuesMap.addAll]
  | cons c cs ih =>
    obtain ⟨k, s⟩ := c
    have hstep : m.addAll ((k, s) :: cs) = (m.addIssues k s).addAll cs := rfl
    have hs0 : s.issues.length < 2 ^ 32 := hsz (k, s) (by simp)
    have hk : m.find? k = none := (lookup_none_iff _ _).2 (hd (k, s) (by simp))
    rw [List.map_cons, List.nodup_cons] at hn
    have hentries : (m.addIssues k s).entries
        = m.entries ++ [(k, s)].filter (fun c => !c.2.issues.isEmpty) := by
      unfold IssuesMap.addIssues
      by_cases h0 : s.issues = []
      · have : s.nbIssues = 0 := (nbIssues_eq_zero_iff s hs0).2 h0
        simp [this, h0]
      · have : ¬ s.nbIssues = 0 := fun e => h0 ((nbIssues_eq_zero_iff s hs0).1 e)
        simp [this, h0, hk]
    rw [hstep, ih _ (fun c hc => hsz c (by simp [hc])) hn.2, hentries]
    · rw [List.append_assoc, ← List.filter_append]; rfl
    · intro c hc
      rw [hentries, List.map_append, List.mem_append, not_or]
      refine ⟨hd c (by simp [hc]), ?_⟩
      intro hmem
      obtain ⟨e, he, hce⟩ := List.mem_map.1 hmem
      have := (List.mem_filter.1 he).1
      rw [List.mem_singleton] at this
      subst this
      exact hn.1 (hce ▸ List.mem_map.2 ⟨c, hc, rfl⟩)

theorem IssuesMap.addAll_description {α : Type} (m : IssuesMap α) (cs : List (Uuid × Issues α)) :
    (m.addAll cs).description = m.description := by
  induction cs generalizing m with
  | nil => rfl
  | cons c cs ih =>
    have hstep : m.addAll (c :: cs) = (m.addIssues c.1 c.2).addAll cs := rfl
    rw [hstep, ih]
    unfold IssuesMap.addIssues
    split
    · rfl
    · split <;> rfl

theorem foldl_addIssues_eq_addAll {α γ : Type} (l : List γ) (key : γ → Uuid) (val : γ → Issues α)
    (m : IssuesMap α) :
    l.foldl (fun m c => m.addIssues (key c) (val c)) m
      = m.addAll (l.map fun c => (key c, val c)) := by
  induction l generalizing m with
  | nil => rfl
  | cons c l ih => rw [List.foldl_cons, ih]; rfl

theorem IssuesMap.addAll_append {α : Type} (m : IssuesMap α) (a b : List (Uuid × Issues α)) :
    (m.addAll a).addAll b = m.addAll (a ++ b) := by
  simp [IssuesMap.addAll, List.foldl_append]

end Inspector
