import Verif.Model.Information
import Verif.Spec.Information
/-! Helper lemmas about issue lists, maps and loops. -/
namespace Inspector

/-! ### loops -/

theorem loopAny_eq_any {α : Type} (cond : α → Bool) (l : List α) : loopAny cond l = l.any cond := by
  induction l with
  | nil => rfl
  | cons x xs ih => simp [loopAny, ih]

theorem loopAny_iff {α : Type} (cond : α → Bool) (l : List α) :
    loopAny cond l = true ↔ ∃ x ∈ l, cond x = true := by
  simp [loopAny_eq_any]

theorem collectFrom_issues {α β : Type} (init : Issues β) (l : List α) (bad : α → Bool)
    (f : α → β) (msg : α → String) :
    (collectFrom init l bad f msg).issues = init.issues ++ (l.filter bad).map f := by
  induction l generalizing init with
  | nil => simp [collectFrom]
  | cons x xs ih =>
    have h := ih (if bad x then init.add (f x) (msg x) else init)
    simp only [collectFrom, List.foldl_cons] at h ⊢
    rw [h]
    by_cases hb : bad x = true <;> simp [hb, Issues.add]

theorem collectFrom_messages {α β : Type} (init : Issues β) (l : List α) (bad : α → Bool)
    (f : α → β) (msg : α → String) :
    (collectFrom init l bad f msg).messages = init.messages ++ (l.filter bad).map msg := by
  induction l generalizing init with
  | nil => simp [collectFrom]
  | cons x xs ih =>
    have h := ih (if bad x then init.add (f x) (msg x) else init)
    simp only [collectFrom, List.foldl_cons] at h ⊢
    rw [h]
    by_cases hb : bad x = true <;> simp [hb, Issues.add]

theorem collectFrom_description {α β : Type} (init : Issues β) (l : List α) (bad : α → Bool)
    (f : α → β) (msg : α → String) :
    (collectFrom init l bad f msg).description = init.description := by
  induction l generalizing init with
  | nil => simp [collectFrom]
  | cons x xs ih =>
    have h := ih (if bad x then init.add (f x) (msg x) else init)
    simp only [collectFrom, List.foldl_cons] at h ⊢
    rw [h]
    by_cases hb : bad x = true <;> simp [hb, Issues.add]

@[simp] theorem collect_issues {α : Type} (d : String) (l : List α) (bad : α → Bool)
    (msg : α → String) : (collect d l bad msg).issues = l.filter bad := by
  simp [collect, collectFrom_issues, Issues.new]

@[simp] theorem collect_messages {α : Type} (d : String) (l : List α) (bad : α → Bool)
    (msg : α → String) : (collect d l bad msg).messages = (l.filter bad).map msg := by
  simp [collect, collectFrom_messages, Issues.new]

@[simp] theorem collect_description {α : Type} (d : String) (l : List α) (bad : α → Bool)
    (msg : α → String) : (collect d l bad msg).description = d := by
  simp [collect, collectFrom_description, Issues.new]

@[simp] theorem mem_pairs (n : Nat) (m : Nat → Nat) (p : Nat × Nat) :
    p ∈ pairs n m ↔ p.1 < n ∧ p.2 < m p.1 := by
  obtain ⟨i, j⟩ := p
  simp only [pairs, List.mem_flatMap, List.mem_range, List.mem_map, Prod.mk.injEq]
  constructor
  · rintro ⟨a, ha, b, hb, rfl, rfl⟩; exact ⟨ha, hb⟩
  · rintro ⟨h1, h2⟩; exact ⟨i, h1, j, h2, rfl, rfl⟩

/-- Lexicographic strict order on pairs of indices. -/
def pairLt (p q : Nat × Nat) : Prop := p.1 < q.1 ∨ (p.1 = q.1 ∧ p.2 < q.2)

theorem pairwise_flatMap_range (n : Nat) (f : Nat → List (Nat × Nat))
    (hf : ∀ i, (f i).Pairwise pairLt) (hi : ∀ i, ∀ p ∈ f i, p.1 = i) :
    ((List.range n).flatMap f).Pairwise pairLt := by
  induction n with
  | zero => simp
  | succ n ih =>
    rw [List.range_succ, List.flatMap_append, List.pairwise_append]
    refine ⟨ih, by simpa using hf n, ?_⟩
    intro a ha b hb
    simp only [List.mem_flatMap, List.mem_range, List.mem_singleton, exists_eq_left] at ha hb
    obtain ⟨i, hlt, ha⟩ := ha
    left
    rw [hi _ _ ha, hi _ _ hb]; exact hlt

theorem pairs_pairwise (n : Nat) (m : Nat → Nat) : (pairs n m).Pairwise pairLt := by
  apply pairwise_flatMap_range
  · intro i
    rw [List.pairwise_map]
    exact (List.pairwise_lt_range).imp (fun h => Or.inr ⟨rfl, h⟩)
  · intro i p hp
    simp only [List.mem_map] at hp
    obtain ⟨_, _, rfl⟩ := hp; rfl

theorem pairs_nodup (n : Nat) (m : Nat → Nat) : (pairs n m).Nodup := by
  refine (pairs_pairwise n m).imp ?_
  rintro ⟨a, b⟩ ⟨c, d⟩ h heq
  simp only [Prod.mk.injEq] at heq
  simp only [pairLt] at h
  omega

/-! ### counters -/

theorem ofNat_eq_zero_iff {n : Nat} (h : n < 2 ^ 32) : UInt32.ofNat n = 0 ↔ n = 0 := by
  constructor
  · intro e
    have := congrArg UInt32.toNat e
    rw [UInt32.toNat_ofNat_of_lt' (by simpa using h)] at this
    simpa using this
  · rintro rfl; rfl

theorem nbIssues_toNat {α : Type} (s : Issues α) (h : s.issues.length < 2 ^ 32) :
    s.nbIssues.toNat = s.issues.length := by
  rw [Issues.nbIssues, UInt32.toNat_ofNat_of_lt' (by simpa using h)]

theorem nbIssues_eq_zero_iff {α : Type} (s : Issues α) (h : s.issues.length < 2 ^ 32) :
    s.nbIssues = 0 ↔ s.issues = [] := by
  rw [Issues.nbIssues, ofNat_eq_zero_iff h, List.length_eq_zero_iff]

theorem nbIssues_map_toNat {α : Type} (m : IssuesMap α) (h : m.entries.length < 2 ^ 32) :
    m.nbIssues.toNat = m.entries.length := by
  rw [IssuesMap.nbIssues, UInt32.toNat_ofNat_of_lt' (by simpa using h)]

theorem nbIssues_map_eq_zero_iff {α : Type} (m : IssuesMap α) (h : m.entries.length < 2 ^ 32) :
    m.nbIssues = 0 ↔ m.entries = [] := by
  rw [IssuesMap.nbIssues, ofNat_eq_zero_iff h, List.length_eq_zero_iff]

/-! ### text -/

theorem foldl_text (l : List String) (acc : String) :
    l.foldl (fun message issue => message ++ "\n\t" ++ issue) acc
      = acc ++ String.join (l.map fun m => "\n\t" ++ m) := by
  induction l generalizing acc with
  | nil => simp [String.join_nil]
  | cons x xs ih => rw [List.foldl_cons, ih]; simp [String.join_cons, String.append_assoc]

theorem repr_head (n : Nat) : ∃ c cs, (toString n : String).toList = c :: cs ∧ c.isDigit = true := by
  have h : (toString n : String).toList = Nat.toDigits 10 n := by
    show (Nat.repr n).toList = _
    simp [Nat.repr]
  cases hd : Nat.toDigits 10 n with
  | nil =>
    exact absurd hd (by simp)
  | cons c cs =>
    refine ⟨c, cs, by rw [h, hd], ?_⟩
    exact Nat.isDigit_of_mem_toDigits (b := 10) (n := n) (by omega) (by omega) (by rw [hd]; simp)

end Inspector
