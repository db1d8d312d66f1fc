import Verif.Model.Results
import Verif.Spec.Results
import Verif.Proofs.Information
/-! Helper lemmas about result counts and texts. -/
namespace Inspector
open Spec

@[simp] theorem total_nil : total [] = 0 := rfl
@[simp] theorem total_cons (l : Report) (ls : List Report) : total (l :: ls) = l.count + total ls := by
  simp [total]
@[simp] theorem total_append (a b : List Report) : total (a ++ b) = total a + total b := by
  simp [total]

theorem total_eq_zero (ls : List Report) : total ls = 0 ↔ ∀ l ∈ ls, l.count = 0 := by
  induction ls with
  | nil => simp
  | cons x xs ih => simp [ih]

theorem count_le_total {ls : List Report} {l : Report} (h : l ∈ ls) : l.count ≤ total ls := by
  induction ls with
  | nil => simp at h
  | cons x xs ih =>
    rw [total_cons]
    rcases List.mem_cons.1 h with rfl | h
    · omega
    · have := ih h; omega

theorem countsAll_of_eq {nb : UInt32} {ls : List Report} (h : nb = UInt32.ofNat (total ls)) :
    CountsAll nb ls := by
  intro hlt
  subst h
  exact ⟨UInt32.toNat_ofNat_of_lt' (by simpa using hlt),
    (ofNat_eq_zero_iff hlt).trans (total_eq_zero ls)⟩

/-- the text starts with a decimal digit -/
def StartsDigit (s : String) : Prop := ∃ c cs, s.toList = c :: cs ∧ c.isDigit = true

theorem StartsDigit.append {a : String} (h : StartsDigit a) (b : String) : StartsDigit (a ++ b) := by
  obtain ⟨c, cs, h, hc⟩ := h
  exact ⟨c, cs ++ b.toList, by simp [h], hc⟩

theorem Issues.string_startsDigit {α : Type} (s : Issues α) (h : s.issues.length ≠ 0) :
    StartsDigit s.string := by
  have he : s.issues.isEmpty = false := by
    cases hs : s.issues <;> simp_all
  unfold Issues.string
  rw [he, foldl_text]
  simp only [Bool.false_eq_true, if_false, String.append_assoc]
  exact StartsDigit.append (repr_head _) _

theorem foldl_map_text {α : Type} (l : List (Uuid × Issues α)) (acc : String) :
    l.foldl (fun message e => message ++ "\n\t" ++ e.2.string) acc
      = acc ++ String.join (l.map fun e => "\n\t" ++ e.2.string) := by
  induction l generalizing acc with
  | nil => simp [String.join_nil]
  | cons x xs ih => rw [List.foldl_cons, ih]; simp [String.join_cons, String.append_assoc]

theorem IssuesMap.string_startsDigit {α : Type} (m : IssuesMap α) (h : m.entries.length ≠ 0) :
    StartsDigit m.string := by
  have he : m.entries.isEmpty = false := by
    cases hs : m.entries <;> simp_all
  unfold IssuesMap.string IssuesMap.stringIn
  rw [he, foldl_map_text]
  simp only [Bool.false_eq_true, if_false, String.append_assoc]
  exact StartsDigit.append (repr_head _) _

/-- a report whose text starts with a digit when it has issues -/
def GoodReport (l : Report) : Prop := l.count ≠ 0 → StartsDigit l.text

theorem goodReport {α : Type} (s : Issues α) : GoodReport (report s) := s.string_startsDigit
theorem goodReportMap {α : Type} (s : IssuesMap α) : GoodReport (reportMap s) :=
  s.string_startsDigit

/-- the message built by the `if( x.nb_issues() != 0 ) message += x.string() + sep` lines -/
def buildMessage (ls : List (Report × String)) : String :=
  ls.foldl (fun message p =>
    if UInt32.ofNat p.1.count != 0 then message ++ p.1.text ++ p.2 else message) ""

def buildText (noIssue : String) (ls : List (Report × String)) : String :=
  if (buildMessage ls).isEmpty then noIssue else buildMessage ls

theorem buildMessage_foldl (ls : List (Report × String)) (acc : String) :
    ls.foldl (fun message p =>
      if UInt32.ofNat p.1.count != 0 then message ++ p.1.text ++ p.2 else message) acc
    = acc ++ String.join ((ls.filter fun p => UInt32.ofNat p.1.count != 0).map
        fun p => p.1.text ++ p.2) := by
  induction ls generalizing acc with
  | nil => simp [String.join_nil]
  | cons x xs ih =>
    rw [List.foldl_cons, ih]
    by_cases h : (UInt32.ofNat x.1.count != 0) = true
    · simp [h, String.join_cons, String.append_assoc]
    · simp [h]

theorem join_contains (ls : List String) (s : String) (h : s ∈ ls) :
    ∃ pre post, String.join ls = pre ++ s ++ post := by
  induction ls with
  | nil => simp at h
  | cons x xs ih =>
    rcases List.mem_cons.1 h with rfl | h
    · exact ⟨"", String.join xs, by simp [String.join_cons]⟩
    · obtain ⟨a, b, e⟩ := ih h
      exact ⟨x ++ a, b, by rw [String.join_cons, e]; simp [String.append_assoc]⟩

theorem startsDigit_ne_empty {s : String} (h : StartsDigit s) : s.isEmpty = false := by
  obtain ⟨c, cs, h, _⟩ := h
  cases he : s.isEmpty
  · rfl
  · rw [String.isEmpty_iff] at he
    subst he; simp at h

/-- texts of the C++ pattern `message` / `no issue` tell about every list -/
theorem tells_of_build {text noIssue : String} {ls : List Report} (ps : List (Report × String))
    (hps : ∀ l, l ∈ ls ↔ l ∈ ps.map (·.1))
    (ht : text = buildText noIssue ps)
    (hno : ∃ c cs, noIssue.toList = c :: cs ∧ c.isDigit = false)
    (hg : ∀ l ∈ ps.map (·.1), GoodReport l) : Tells text noIssue ls := by
  intro hlt
  replace hlt : ∀ p ∈ ps, p.1.count < 2 ^ 32 := fun p hp =>
    hlt p.1 ((hps _).2 (List.mem_map.2 ⟨p, hp, rfl⟩))
  subst ht
  have hm : buildMessage ps = String.join ((ps.filter fun p => UInt32.ofNat p.1.count != 0).map
        fun p => p.1.text ++ p.2) := by
    rw [buildMessage, buildMessage_foldl]; simp
  by_cases hall : ∀ p ∈ ps, p.1.count = 0
  · have : ps.filter (fun p => UInt32.ofNat p.1.count != 0) = [] := by
      simp only [List.filter_eq_nil_iff]
      intro p hp; simp [hall p hp]
    have hb : buildText noIssue ps = noIssue := by
      unfold buildText
      rw [hm, this]; simp [String.join_nil]
    have h0 : ∀ l ∈ ls, l.count = 0 := by
      intro l hl
      obtain ⟨p, hp, rfl⟩ := List.mem_map.1 ((hps l).1 hl)
      exact hall p hp
    refine ⟨⟨fun _ => h0, fun _ => hb⟩, ?_⟩
    intro l hl hc
    exact absurd (h0 l hl) hc
  · have hex : ∃ p ∈ ps, p.1.count ≠ 0 := by
      simpa using hall
    have hsd : StartsDigit (buildMessage ps) := by
      rw [hm]
      cases hf : (ps.filter fun p => UInt32.ofNat p.1.count != 0) with
      | nil =>
        obtain ⟨p, hp, hc⟩ := hex
        rw [List.filter_eq_nil_iff] at hf
        have := hf p hp
        simp only [bne_iff_ne, ne_eq, Decidable.not_not] at this
        rw [ofNat_eq_zero_iff (hlt p hp)] at this
        exact absurd this hc
      | cons q qs =>
        have hq : q ∈ ps.filter fun p => UInt32.ofNat p.1.count != 0 := by rw [hf]; simp
        rw [List.mem_filter] at hq
        simp only [bne_iff_ne, ne_eq, ofNat_eq_zero_iff (hlt q hq.1)] at hq
        rw [List.map_cons, String.join_cons, String.append_assoc]
        exact StartsDigit.append (hg q.1 (List.mem_map.2 ⟨q, hq.1, rfl⟩) hq.2) _
    have hb : buildText noIssue ps = buildMessage ps := by
      unfold buildText
      rw [startsDigit_ne_empty hsd]; simp
    rw [hb]
    refine ⟨⟨?_, ?_⟩, ?_⟩
    · intro e
      obtain ⟨c, cs, h, hc⟩ := hsd
      obtain ⟨c', cs', h', hc'⟩ := hno
      rw [e, h'] at h
      simp only [List.cons.injEq] at h
      rw [h.1, hc] at hc'
      simp at hc'
    · intro h0
      obtain ⟨p, hp, hc⟩ := hex
      exact absurd (h0 p.1 ((hps _).2 (List.mem_map.2 ⟨p, hp, rfl⟩))) hc
    · intro l hl hc
      obtain ⟨p, hp, rfl⟩ := List.mem_map.1 ((hps l).1 hl)
      rw [hm]
      obtain ⟨a, b, e⟩ := join_contains ((ps.filter fun p => UInt32.ofNat p.1.count != 0).map
        fun p => p.1.text ++ p.2) (p.1.text ++ p.2) (by
          refine List.mem_map.2 ⟨p, List.mem_filter.2 ⟨hp, ?_⟩, rfl⟩
          simp only [bne_iff_ne, ne_eq, ofNat_eq_zero_iff (hlt p hp)]
          exact hc)
      exact ⟨a, p.2 ++ b, by rw [e]; simp [String.append_assoc]⟩

theorem contains_join {ls : List String} {s t : String} (ht : t ∈ ls) (hs : Contains t s)  :
    Contains (String.join ls) s := by
  obtain ⟨a, b, e⟩ := join_contains ls t ht
  obtain ⟨c, d, rfl⟩ := hs
  exact ⟨a ++ c, d ++ b, by rw [e]; simp [String.append_assoc]⟩

theorem contains_self (s : String) : Contains s s := ⟨"", "", by simp⟩

end Inspector
