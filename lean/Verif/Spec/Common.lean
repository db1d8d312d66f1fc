import Verif.Model.Information
/-
Specification notions shared by several properties.
-/
namespace Inspector.Spec

/-- `l` is exactly the elements satisfying `p`, each once, in the order `lt`. -/
def Exactly {α : Type} (lt : α → α → Prop) (p : α → Prop) (l : List α) : Prop :=
  l.Pairwise lt ∧ ∀ x, x ∈ l ↔ p x

/-- Order of (element, local index) pairs: by element, then by local index. -/
def LexLt (a b : Nat × Nat) : Prop := a.1 < b.1 ∨ (a.1 = b.1 ∧ a.2 < b.2)

/-- A map of issues reports on the components `comps`: one entry per component whose expected list
is not empty, holding this list; no other entry. -/
def MapReports {C α : Type} (map : IssuesMap α) (comps : List C) (id : C → Uuid)
    (expected : C → List α → Prop) : Prop :=
  (map.entries.map Prod.fst).Sublist (comps.map id) ∧
  ∀ c ∈ comps, ∃ l, expected c l ∧
    (l = [] → ∀ s, (id c, s) ∉ map.entries) ∧
    (l ≠ [] → ∃ s, (id c, s) ∈ map.entries ∧ s.issues = l)

end Inspector.Spec
