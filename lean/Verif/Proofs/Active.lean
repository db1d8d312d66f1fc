import Verif.Proofs.Maps
import Verif.Proofs.Intersections
import Verif.Model.TopologyInspector
import Verif.Model.Colocation
import Verif.Model.Manifold
import Verif.Model.Negative
/-
Proofs on the uuids of the reported components.
-/
namespace Inspector

/-- The keys of a map satisfy `S`. -/
def KeysIn {α : Type} (S : Uuid → Prop) (map : IssuesMap α) : Prop := ∀ e ∈ map.entries, S e.1

variable {α : Type} {S : Uuid → Prop}

theorem keysIn_new (d : String) : KeysIn S (IssuesMap.new d : IssuesMap α) := by
  intro e he
  exact absurd he (by simp [IssuesMap.new])

theorem keysIn_add {map : IssuesMap α} {id : Uuid} {s : Issues α} (h : KeysIn S map) (hid : S id) :
    KeysIn S (map.addIssues id s) := by
  unfold IssuesMap.addIssues
  split
  · exact h
  · split
    · exact h
    · intro e he
      simp only [List.mem_append, List.mem_singleton] at he
      rcases he with he | rfl
      · exact h e he
      · exact hid

theorem foldl_keep {R β : Type} (P : R → Prop) (f : R → β → R) (l : List β)
    (h : ∀ r, ∀ x ∈ l, P r → P (f r x)) (r : R) (hr : P r) : P (l.foldl f r) := by
  induction l generalizing r with
  | nil => exact hr
  | cons x l ih => exact ih (fun r y hy => h r y (by simp [hy])) _ (h r x (by simp) hr)

theorem foldlM_keep {R β : Type} (P : R → Prop) (f : R → β → Except Failure R) (l : List β)
    (h : ∀ r, ∀ x ∈ l, ∀ r', P r → f r x = .ok r' → P r') (r r' : R) (hr : P r) (he : l.foldlM f r = .ok r') :
    P r' := by
  induction l generalizing r with
  | nil => cases he; exact hr
  | cons x l ih =>
    rw [List.foldlM_cons] at he
    cases hx : f r x with
    | error e => rw [hx] at he; cases he
    | ok r1 =>
      rw [hx] at he
      exact ih (fun r y hy => h r y (by simp [hy])) r1 (h r x (by simp) r1 hr hx) he

theorem keysIn_foldl {β : Type} (l : List β) (key : β → Uuid) (val : β → Issues α) (map : IssuesMap α)
    (h : KeysIn S map) (hl : ∀ x ∈ l, S (key x)) : KeysIn S (l.foldl (fun map x => map.addIssues (key x) (val x)) map) :=
  foldl_keep (KeysIn S) _ l (fun _ x hx hr => keysIn_add hr (hl x hx)) map h

end Inspector
