import Mathlib.Data.List.Nodup
import Verif.Spec.Common
import Verif.Proofs.Maps
/-! Lemmas on the shared specification notions. -/
namespace Inspector
open Spec

theorem pairLt_eq : pairLt = LexLt := rfl

theorem exactly_filter {α : Type} {lt : α → α → Prop} {l : List α} (hl : l.Pairwise lt)
    (f : α → Bool) (p : α → Prop) (h : ∀ x, (x ∈ l ∧ f x = true) ↔ p x) :
    Exactly lt p (l.filter f) :=
  ⟨hl.filter _, fun x => by rw [List.mem_filter]; exact h x⟩

theorem exactly_unique {α : Type} {lt : α → α → Prop} (hirr : ∀ a, ¬ lt a a)
    (hasymm : ∀ a b, lt a b → ¬ lt b a) {p : α → Prop} {l l' : List α}
    (h : Exactly lt p l) (h' : Exactly lt p l') : l = l' := by
  have hnd : ∀ l : List α, l.Pairwise lt → l.Nodup := by
    intro l hl
    refine List.Pairwise.imp ?_ hl
    rintro a b hab rfl
    exact hirr _ hab
  have hn := hnd _ h.1
  have hn' := hnd _ h'.1
  have hp : l.Perm l' := (List.perm_ext_iff_of_nodup hn hn').2 (fun x => by rw [h.2, h'.2])
  exact hp.eq_of_pairwise (fun a b _ _ hab hba => absurd hba (hasymm a b hab)) h.1 h'.1

theorem exactly_nil_iff {α : Type} {lt : α → α → Prop} {p : α → Prop} {l : List α}
    (h : Exactly lt p l) : l ≠ [] ↔ ∃ x, p x := by
  constructor
  · intro hne
    obtain ⟨x, hx⟩ := List.exists_mem_of_ne_nil _ hne
    exact ⟨x, (h.2 x).1 hx⟩
  · rintro ⟨x, hx⟩ hn
    have := (h.2 x).2 hx
    rw [hn] at this
    simp at this

theorem filter_append_length {α : Type} (l : List α) (p q : α → Bool)
    (h : ∀ x ∈ l, p x = true → q x = false) :
    (l.filter p).length + (l.filter q).length ≤ l.length := by
  induction l with
  | nil => simp
  | cons x l ih =>
    have := ih (fun y hy => h y (by simp [hy]))
    have hx := h x (by simp)
    simp only [List.filter_cons, List.length_cons]
    cases hp : p x
    · cases hq : q x <;> simp <;> omega
    · simp [hx hp]; omega

/-- entries after adding one list per component -/
theorem mapReports_of_adds {C α : Type} (d : String) (comps : List C) (id : C → Uuid)
    (val : C → Issues α) (expected : C → List α → Prop)
    (hn : (comps.map id).Nodup) (hsz : ∀ c ∈ comps, (val c).issues.length < 2 ^ 32)
    (he : ∀ c ∈ comps, expected c (val c).issues) :
    MapReports (comps.foldl (fun m c => m.addIssues (id c) (val c)) (IssuesMap.new d)) comps id expected := by
  rw [foldl_addIssues_eq_addAll]
  have hentries : ((IssuesMap.new d).addAll (comps.map fun c => (id c, val c))).entries
      = (comps.map fun c => (id c, val c)).filter (fun c => !c.2.issues.isEmpty) := by
    rw [IssuesMap.addAll_entries]
    · simp [IssuesMap.new]
    · intro c hc
      obtain ⟨c', hc', rfl⟩ := List.mem_map.1 hc
      exact hsz c' hc'
    · rw [List.map_map]; exact hn
    · simp [IssuesMap.new]
  have hmem : ∀ c ∈ comps, ∀ s, (id c, s) ∈ ((IssuesMap.new d).addAll
      (comps.map fun c => (id c, val c))).entries ↔ s = val c ∧ (val c).issues ≠ [] := by
    intro c hc s
    rw [hentries, List.mem_filter, List.mem_map]
    constructor
    · rintro ⟨⟨c', hc', heq⟩, hne⟩
      simp only [Prod.mk.injEq] at heq
      have hcc : c' = c := List.inj_on_of_nodup_map hn hc' hc heq.1
      subst hcc
      refine ⟨heq.2.symm, ?_⟩
      rw [← heq.2] at hne
      simpa using hne
    · rintro ⟨rfl, hne⟩
      exact ⟨⟨c, hc, rfl⟩, by simpa using hne⟩
  refine ⟨?_, ?_⟩
  · rw [hentries]
    have : comps.map id = (comps.map fun c => (id c, val c)).map Prod.fst := by
      simp [Function.comp_def]
    rw [this]
    exact List.filter_sublist.map _
  · intro c hc
    refine ⟨(val c).issues, he c hc, ?_, ?_⟩
    · intro hnil s hs
      exact ((hmem c hc s).1 hs).2 hnil
    · intro hne
      exact ⟨val c, (hmem c hc (val c)).2 ⟨rfl, hne⟩, rfl⟩

end Inspector
