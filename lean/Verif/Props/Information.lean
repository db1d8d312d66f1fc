import Verif.Model.Information
import Verif.Spec.Information
import Verif.Proofs.Information
import Verif.Proofs.Maps
/-! C01, C02: the issue containers. -/
namespace Inspector
open Spec

/-- Apply one public call to an `InspectionIssues`. -/
def Issues.call {α : Type} (s : Issues α) : IssuesCall α → Issues α
  | .add i m => s.add i m
  | .setDescription d => s.setDescription d

/-- Apply a history of public calls. -/
def Issues.run {α : Type} (s : Issues α) (cs : List (IssuesCall α)) : Issues α :=
  cs.foldl Issues.call s

theorem Issues.run_fields {α : Type} (s : Issues α) (cs : List (IssuesCall α)) :
    (s.run cs).issues = s.issues ++ addedIssues cs ∧
    (s.run cs).messages = s.messages ++ addedMessages cs ∧
    (s.run cs).description = lastDescription s.description cs := by
  induction cs generalizing s with
  | nil => simp [Issues.run, addedIssues, addedMessages, lastDescription]
  | cons c cs ih =>
    have h := ih (s.call c)
    simp only [Issues.run, List.foldl_cons] at h ⊢
    obtain ⟨h1, h2, h3⟩ := h
    rw [h1, h2, h3]
    cases c <;> simp [Issues.call, Issues.add, Issues.setDescription, addedIssues, addedMessages,
      lastDescription]

theorem addedMessages_length {α : Type} (cs : List (IssuesCall α)) :
    (addedMessages cs).length = (addedIssues cs).length := by
  induction cs with
  | nil => rfl
  | cons c cs ih => cases c <;> simp [addedIssues, addedMessages, ih]

/-- **C01.** After any history of calls on a fresh `InspectionIssues`, `issues()` is the sequence of
added issues, `nb_issues()` its length and `string()` the documented text for the last description
and the added messages. -/
theorem C01_issues_history {α : Type} (d : String) (cs : List (IssuesCall α)) :
    ((Issues.new d).run cs : Issues α).issues = addedIssues cs ∧
    ((Issues.new d).run cs : Issues α).nbIssues = UInt32.ofNat (addedIssues cs).length ∧
    ((Issues.new d).run cs : Issues α).string
      = expectedText (lastDescription d cs) (addedMessages cs) := by
  obtain ⟨h1, h2, h3⟩ := Issues.run_fields (Issues.new d : Issues α) cs
  have hi : ((Issues.new d).run cs : Issues α).issues = addedIssues cs := by rw [h1]; simp [Issues.new]
  have hm : ((Issues.new d).run cs : Issues α).messages = addedMessages cs := by
    rw [h2]; simp [Issues.new]
  have hd : ((Issues.new d).run cs : Issues α).description = lastDescription d cs := h3
  refine ⟨hi, by rw [Issues.nbIssues, hi], ?_⟩
  have hl := addedMessages_length cs
  rw [Issues.string, hi, hm, hd, foldl_text]
  cases hc : addedMessages cs with
  | nil =>
    rw [hc] at hl
    have : addedIssues cs = [] := by simpa using hl.symm
    simp [this, expectedText]
  | cons m ms =>
    have hne : addedIssues cs ≠ [] := by
      intro e; rw [hc, e] at hl; simp at hl
    simp only [List.isEmpty_iff, hne, if_false, expectedText]
    rw [← hc, hl]

/-- **C01.** The "no issues with …" text is produced only when nothing was added: a reader of the
text can rely on it, whatever the descriptions and messages are. -/
theorem C01_no_issue_text_is_reliable {α : Type} (d d' : String) (cs : List (IssuesCall α)) :
    ((Issues.new d).run cs : Issues α).string = "no issues with " ++ d' ++ "\n"
      → addedIssues cs = [] := by
  intro h
  by_cases hne : addedIssues cs = []
  · exact hne
  exfalso
  rw [(C01_issues_history d cs).2.2] at h
  have hl := addedMessages_length cs
  cases hc : addedMessages cs with
  | nil => rw [hc] at hl; exact hne (by simpa using hl.symm)
  | cons m ms =>
    rw [hc] at h
    simp only [expectedText] at h
    obtain ⟨c, cs', hr, hdig⟩ := repr_head (m :: ms).length
    have h' := congrArg String.toList h
    simp only [String.toList_append, hr] at h'
    have : c = 'n' := by
      have := congrArg List.head? h'
      simpa using this
    subst this
    simp [Char.isDigit] at hdig

/-- Non-vacuity: a history with two issues and a change of description. -/
example : ((Issues.new "d").run
      [.add 3 "a", .setDescription "e", .add 5 "b"] : Issues Nat).string
    = "2 issues with e\n\ta\n\tb\n" := by decide
example : ((Issues.new "d").run [.setDescription "e"] : Issues Nat).string = "no issues with e\n" := by
  decide

/-! ### C02 -/

/-- **C02.** After any history of `add_issues_to_map` on a fresh map (with lists of fewer than 2^32
issues), the entry of each component is the first non-empty list added for it (no entry if there is
none), no stored list is empty, no component has two entries, and `nb_issues()` is the number of
entries, i.e. of distinct components with issues. -/
theorem C02_map_history {α : Type} (d : String) (cs : List (Uuid × Issues α))
    (hsz : ∀ c ∈ cs, c.2.issues.length < 2 ^ 32) :
    let m := (IssuesMap.new d).addAll cs
    (∀ id, m.find? id = firstNonEmpty id cs) ∧
    (∀ id, id ∈ m.entries.map Prod.fst ↔ ∃ s, (id, s) ∈ cs ∧ s.issues ≠ []) ∧
    (m.entries.map Prod.fst).Nodup ∧
    (∀ e ∈ m.entries, e.2.issues ≠ []) ∧
    m.nbIssues = UInt32.ofNat (m.entries.map Prod.fst).length := by
  have key : ∀ (cs : List (Uuid × Issues α)) (m : IssuesMap α),
      (∀ c ∈ cs, c.2.issues.length < 2 ^ 32) → (m.entries.map Prod.fst).Nodup →
      (∀ e ∈ m.entries, e.2.issues ≠ []) →
      (∀ id, (m.addAll cs).find? id = (m.find? id).or (firstNonEmpty id cs)) ∧
      ((m.addAll cs).entries.map Prod.fst).Nodup ∧
      (∀ e ∈ (m.addAll cs).entries, e.2.issues ≠ []) := by
    intro cs
    induction cs with
    | nil => intro m _ hn he; exact ⟨by simp [IssuesMap.addAll, firstNonEmpty], hn, he⟩
    | cons c cs ih =>
      intro m hs hn he
      obtain ⟨k, s⟩ := c
      have hs0 : s.issues.length < 2 ^ 32 := hs (k, s) (by simp)
      obtain ⟨hn', he'⟩ := IssuesMap.addIssues_keys m k s hn he
      obtain ⟨h1, h2, h3⟩ := ih (m.addIssues k s) (fun c hc => hs c (by simp [hc])) hn' he'
      refine ⟨?_, h2, h3⟩
      intro id
      have : (m.addAll ((k, s) :: cs)) = (m.addIssues k s).addAll cs := rfl
      rw [this, h1 id, IssuesMap.addIssues_find? m k id s hs0, firstNonEmpty]
      by_cases hc : k = id ∧ s.issues ≠ []
      · simp [hc]
      · simp [hc]
  intro m
  obtain ⟨h1, h2, h3⟩ := key cs (IssuesMap.new d) hsz (by simp [IssuesMap.new]) (by simp [IssuesMap.new])
  have hfind : ∀ id, m.find? id = firstNonEmpty id cs := by
    intro id; rw [h1 id]; simp [IssuesMap.new, IssuesMap.find?]
  refine ⟨hfind, ?_, h2, h3, by simp [IssuesMap.nbIssues]⟩
  intro id
  rw [← lookup_isSome_iff]
  show (m.find? id).isSome = true ↔ _
  rw [hfind id]
  exact firstNonEmpty_isSome_iff id cs

/-- **C02.** The text of a map, for every iteration order of its hash table: "no issues" exactly
for an empty map, otherwise a header with the number of components and the text of each component
list, in the iteration order. -/
theorem C02_map_text {α : Type} (m : IssuesMap α) (order : List (Uuid × Issues α)) :
    m.stringIn order = if m.entries = [] then "no issues with " ++ m.description ++ "\n"
      else toString m.entries.length ++ " issues with " ++ m.description
            ++ String.join (order.map fun e => "\n\t" ++ e.2.string) ++ "\n" := by
  unfold IssuesMap.stringIn
  by_cases h : m.entries = []
  · simp [h]
  · have hfold : ∀ (l : List (Uuid × Issues α)) (acc : String),
        l.foldl (fun message e => message ++ "\n\t" ++ e.2.string) acc
          = acc ++ String.join (l.map fun e => "\n\t" ++ e.2.string) := by
      intro l
      induction l with
      | nil => simp [String.join_nil]
      | cons x xs ih =>
        intro acc; rw [List.foldl_cons, ih]; simp [String.join_cons, String.append_assoc]
    simp only [List.isEmpty_iff, h, if_false, hfold]

/-- Non-vacuity: component 7 given twice, component 8 given an empty list. -/
example : ((IssuesMap.new "d").addAll
      [(8, Issues.new "x"), (7, (Issues.new "y").add 1 "m"), (7, (Issues.new "z").add 2 "n")]
        : IssuesMap Nat).entries.map (fun e => (e.1, e.2.issues)) = [(7, [1])] := by decide

end Inspector
