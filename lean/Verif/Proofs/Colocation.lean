import Verif.Model.Colocation
import Verif.Spec.Colocation
import Verif.Proofs.Maps
/-! Helper lemmas about colocation. -/
namespace Inspector
open Spec

/-- indices (from `start`) of the elements of `m` equal to `u` -/
def occ : (m : List Nat) → (start : Nat) → (u : Nat) → List Nat
  | [], _, _ => []
  | x :: r, s, u => if x = u then s :: occ r (s + 1) u else occ r (s + 1) u

theorem mem_occ (m : List Nat) (s u k : Nat) : k ∈ occ m s u ↔ s ≤ k ∧ m[k - s]? = some u := by
  induction m generalizing s with
  | nil => simp [occ]
  | cons x r ih =>
    have hcons : (s ≤ k ∧ (x :: r)[k - s]? = some u)
        ↔ (k = s ∧ x = u) ∨ (s + 1 ≤ k ∧ r[k - (s + 1)]? = some u) := by
      by_cases hk : k = s
      · subst hk; simp; omega
      · by_cases hlt : s + 1 ≤ k
        · have : k - s = (k - (s + 1)) + 1 := by omega
          rw [this, List.getElem?_cons_succ]
          constructor
          · rintro ⟨_, h⟩; exact Or.inr ⟨hlt, h⟩
          · rintro (⟨h, _⟩ | ⟨_, h⟩)
            · exact absurd h hk
            · exact ⟨by omega, h⟩
        · constructor
          · rintro ⟨h, _⟩; omega
          · rintro (⟨h, _⟩ | ⟨h, _⟩)
            · exact absurd h hk
            · omega
    rw [hcons]
    unfold occ
    split
    · rename_i h
      rw [List.mem_cons, ih]
      simp [h]
    · rename_i h
      rw [ih]
      simp [h]

theorem occ_sorted (m : List Nat) (s u : Nat) : (occ m s u).Pairwise (· < ·) := by
  induction m generalizing s with
  | nil => simp [occ]
  | cons x r ih =>
    unfold occ
    split
    · refine List.pairwise_cons.2 ⟨?_, ih _⟩
      intro k hk
      have := (mem_occ r (s + 1) u k).1 hk
      omega
    · exact ih _

theorem occ_length (m : List Nat) (s u : Nat) : (occ m s u).length = m.count u := by
  induction m generalizing s with
  | nil => simp [occ]
  | cons x r ih =>
    unfold occ
    by_cases h : x = u
    · subst h; simp [ih]
    · simp [h, ih, List.count_cons]

theorem fillBuckets_eq (m : List Nat) (s : Nat) (b : List (List Nat)) (h : ∀ u ∈ m, u < b.length) :
    fillBuckets m s b
      = some ((List.range b.length).map fun u => (b[u]?).getD [] ++ occ m s u) := by
  induction m generalizing s b with
  | nil =>
    simp only [fillBuckets, occ, List.append_nil]
    congr 1
    apply List.ext_getElem
    · simp
    · intro i h1 h2
      simp at h2
      simp [h1]
  | cons x r ih =>
    have hx : x < b.length := h x (by simp)
    simp only [fillBuckets, pushAt, hx, if_true]
    rw [ih]
    · congr 1
      simp only [List.length_modify]
      apply List.map_congr_left
      intro u hu
      rw [List.mem_range] at hu
      rw [show occ (x :: r) s u = if x = u then s :: occ r (s + 1) u else occ r (s + 1) u from rfl]
      by_cases hxu : x = u
      · subst hxu
        simp [List.getElem?_modify, hu, List.append_assoc]
      · simp [List.getElem?_modify, hxu]
    · intro u hu
      rw [List.length_modify]
      exact h u (by simp [hu])

/-- all the classes of a mapping, and those with at least two elements -/
def classes (m : List Nat) (nb : Nat) : List (List Nat) := (List.range nb).map fun u => occ m 0 u
def bigClasses (m : List Nat) (nb : Nat) : List (List Nat) :=
  (classes m nb).filter fun g => !(g.length < 2)

theorem foldl_add_issues {α β : Type} (l : List α) (f : α → β) (msg : α → String) (s : Issues β) :
    (l.foldl (fun issues x => issues.add (f x) (msg x)) s).issues = s.issues ++ l.map f := by
  induction l generalizing s with
  | nil => simp
  | cons x l ih => rw [List.foldl_cons, ih]; simp [Issues.add]

theorem foldl_add_messages {α β : Type} (l : List α) (f : α → β) (msg : α → String) (s : Issues β) :
    (l.foldl (fun issues x => issues.add (f x) (msg x)) s).messages = s.messages ++ l.map msg := by
  induction l generalizing s with
  | nil => simp
  | cons x l ih => rw [List.foldl_cons, ih]; simp [Issues.add]

theorem colocatedPointsGroups_eq {P : Type} (search : List P → ColocatedInfo P) (ps : P → String)
    (mesh : PointMesh P)
    (h : ∀ u ∈ (search mesh.points).colocated_mapping, u < (search mesh.points).unique_points.length) :
    ∃ s, colocatedPointsGroups search ps mesh = some s ∧
      s.issues = bigClasses (search mesh.points).colocated_mapping
        (search mesh.points).unique_points.length := by
  unfold colocatedPointsGroups
  simp only [meshPointsColocatedInfo, ColocatedInfo.nbUniquePoints]
  rw [fillBuckets_eq _ _ _ (by simpa using h)]
  refine ⟨_, rfl, ?_⟩
  rw [foldl_add_issues _ (fun x => x), List.map_id']
  simp only [Issues.new, List.nil_append, bigClasses, classes, List.length_replicate]
  congr 1
  apply List.map_congr_left
  intro u hu
  rw [List.mem_range] at hu
  simp [hu]

theorem mem_bigClasses (m : List Nat) (nb : Nat) (g : List Nat) :
    g ∈ bigClasses m nb ↔ (∃ u, u < nb ∧ occ m 0 u = g) ∧ 2 ≤ g.length := by
  simp only [bigClasses, classes, List.mem_filter, List.mem_map, List.mem_range]
  simp

theorem bigClasses_areClasses (m : List Nat) (nb n : Nat) (hlen : m.length = n)
    (h : ∀ u ∈ m, u < nb) :
    AreClasses (bigClasses m nb) n (fun i j => ∃ u, m[i]? = some u ∧ m[j]? = some u) := by
  refine ⟨?_, ?_, ?_⟩
  · intro g hg
    obtain ⟨⟨u, hu, rfl⟩, hl⟩ := (mem_bigClasses m nb g).1 hg
    refine ⟨hl, occ_sorted _ _ _, ?_⟩
    intro i hi
    have := ((mem_occ m 0 u i).1 hi).2
    have := (List.getElem?_eq_some_iff.1 this).1
    simpa [hlen] using this
  · unfold bigClasses classes
    apply List.Pairwise.filter
    rw [List.pairwise_map]
    refine List.Pairwise.imp ?_ (List.nodup_range (n := nb))
    intro a b hab i hi hj
    have h1 := ((mem_occ m 0 a i).1 hi).2
    have h2 := ((mem_occ m 0 b i).1 hj).2
    rw [h1] at h2
    exact hab (Option.some.inj h2)
  · intro i j hi hj hij
    constructor
    · rintro ⟨g, hg, h1, h2⟩
      obtain ⟨⟨u, hu, rfl⟩, hl⟩ := (mem_bigClasses m nb g).1 hg
      exact ⟨u, by simpa using ((mem_occ m 0 u i).1 h1).2, by simpa using ((mem_occ m 0 u j).1 h2).2⟩
    · rintro ⟨u, h1, h2⟩
      have m1 : i ∈ occ m 0 u := (mem_occ m 0 u i).2 ⟨by omega, by simpa using h1⟩
      have m2 : j ∈ occ m 0 u := (mem_occ m 0 u j).2 ⟨by omega, by simpa using h2⟩
      refine ⟨occ m 0 u, (mem_bigClasses m nb _).2 ⟨⟨u, h u (List.mem_of_getElem? h1), rfl⟩, ?_⟩, m1, m2⟩
      match ho : occ m 0 u with
      | [] => rw [ho] at m1; simp at m1
      | [a] =>
        rw [ho] at m1 m2
        simp at m1 m2
        omega
      | a :: b :: c => simp

/-! counting -/

theorem sum_map_add (l : List Nat) (f g : Nat → Nat) :
    (l.map fun u => f u + g u).sum = (l.map f).sum + (l.map g).sum := by
  induction l with
  | nil => rfl
  | cons x l ih => simp only [List.map_cons, List.sum_cons, ih]; omega

theorem sum_indicator (nb x : Nat) :
    ((List.range nb).map fun u => if x = u then 1 else 0).sum = if x < nb then 1 else 0 := by
  induction nb with
  | zero => simp
  | succ n ih =>
    rw [List.range_succ, List.map_append, List.sum_append, ih]
    simp only [List.map_cons, List.map_nil, List.sum_cons, List.sum_nil]
    by_cases h1 : x < n
    · have : ¬ x = n := by omega
      have : x < n + 1 := by omega
      simp [*]
    · by_cases h2 : x = n
      · subst h2; simp
      · have : ¬ x < n + 1 := by omega
        simp [*]

theorem sum_count (m : List Nat) (nb : Nat) (h : ∀ u ∈ m, u < nb) :
    ((List.range nb).map fun u => m.count u).sum = m.length := by
  induction m with
  | nil =>
    simp only [List.count_nil, List.length_nil]
    induction nb with
    | zero => rfl
    | succ n ih => rw [List.range_succ, List.map_append, List.sum_append, ih (by simp)]; rfl
  | cons x m ih =>
    have : (fun u => (x :: m).count u) = fun u => m.count u + (if x = u then 1 else 0) := by
      funext u
      rw [List.count_cons]
      simp
    rw [this, sum_map_add, ih (fun u hu => h u (by simp [hu])), sum_indicator]
    simp [h x (by simp)]

theorem lt_sum_iff (l : List Nat) (h : ∀ a ∈ l, 1 ≤ a) :
    l.length ≤ l.sum ∧ (l.length < l.sum ↔ ∃ a ∈ l, 2 ≤ a) := by
  induction l with
  | nil => simp
  | cons x l ih =>
    obtain ⟨h1, h2⟩ := ih (fun a ha => h a (by simp [ha]))
    have hx := h x (by simp)
    simp only [List.length_cons, List.sum_cons, List.mem_cons, exists_eq_or_imp]
    refine ⟨by omega, ?_⟩
    by_cases hx2 : 2 ≤ x
    · simp only [hx2, true_or, iff_true]; omega
    · simp only [hx2, false_or]; rw [← h2]; omega

theorem bigClasses_ne_nil_iff (m : List Nat) (nb : Nat) (h : ∀ u ∈ m, u < nb)
    (hs : ∀ u, u < nb → u ∈ m) : nb ≤ m.length ∧ (nb < m.length ↔ bigClasses m nb ≠ []) := by
  have hsum := sum_count m nb h
  have hk := lt_sum_iff ((List.range nb).map fun u => m.count u) (by
    intro a ha
    obtain ⟨u, hu, rfl⟩ := List.mem_map.1 ha
    exact List.count_pos_iff.2 (hs u (List.mem_range.1 hu)))
  rw [hsum, List.length_map, List.length_range] at hk
  refine ⟨hk.1, hk.2.trans ?_⟩
  constructor
  · rintro ⟨a, ha, h2⟩ hnil
    obtain ⟨u, hu, rfl⟩ := List.mem_map.1 ha
    have : occ m 0 u ∈ bigClasses m nb :=
      (mem_bigClasses m nb _).2 ⟨⟨u, List.mem_range.1 hu, rfl⟩, by rw [occ_length]; exact h2⟩
    rw [hnil] at this
    simp at this
  · intro hne
    obtain ⟨g, hg⟩ := List.exists_mem_of_ne_nil _ hne
    obtain ⟨⟨u, hu, rfl⟩, hl⟩ := (mem_bigClasses m nb g).1 hg
    exact ⟨m.count u, List.mem_map.2 ⟨u, List.mem_range.2 hu, rfl⟩, by rw [← occ_length m 0]; exact hl⟩

/-! ### the filter -/

theorem markSame_length (uv : Index → Index) (g : List Index) (f : Nat) (flags : List Bool) :
    (markSame uv g f flags).length = flags.length := by
  unfold markSame
  generalize List.range' (f + 1) (g.length - (f + 1)) = l
  induction l generalizing flags with
  | nil => rfl
  | cons x l ih =>
    rw [List.foldl_cons, ih]
    split <;> simp

theorem foldl_set_get (p : Nat → Bool) (l : List Nat) (hl : ∀ x ∈ l, 1 ≤ x) (flags : List Bool) (k : Nat)
    (hk : k < flags.length) :
    (l.foldl (fun flags s => if p s then flags.set (s - 1) false else flags) flags).getD k true
      = if (k + 1 ∈ l ∧ p (k + 1) = true) then false else flags.getD k true := by
  induction l generalizing flags with
  | nil => simp
  | cons x l ih =>
    rw [List.foldl_cons, ih (fun y hy => hl y (by simp [hy])) _ (by split <;> simpa using hk)]
    have hx := hl x (by simp)
    by_cases hmem : k + 1 ∈ l ∧ p (k + 1) = true
    · simp [hmem]
    · rw [if_neg hmem]
      by_cases hp : p x = true
      · by_cases hkx : k + 1 = x
        · subst hkx
          simp [hp, hk]
        · have : ¬ (x - 1 = k) := by omega
          have h2 : ¬ (k + 1 ∈ x :: l ∧ p (k + 1) = true) := by
            rintro ⟨h, h'⟩
            rcases List.mem_cons.1 h with h | h
            · exact hkx h
            · exact hmem ⟨h, h'⟩
          rw [if_neg h2]
          simp [hp, List.getElem?_set_ne this]
      · have h2 : ¬ (k + 1 ∈ x :: l ∧ p (k + 1) = true) := by
            rintro ⟨h, h'⟩
            rcases List.mem_cons.1 h with h | h
            · rw [h] at h'; exact hp h'
            · exact hmem ⟨h, h'⟩
        rw [if_neg h2]; simp [hp]

theorem markSame_get (uv : Index → Index) (g : List Index) (f : Nat) (flags : List Bool) (k : Nat)
    (hk : k < flags.length) (hfl : flags.length = g.length - 1) :
    (markSame uv g f flags).getD k true
      = if f ≤ k ∧ uv (g.getD f 0) = uv (g.getD (k + 1) 0) then false else flags.getD k true := by
  unfold markSame
  rw [foldl_set_get (fun s => uv (g.getD f 0) == uv (g.getD s 0)) _ (by
    intro x hx; rw [List.mem_range'_1] at hx; omega) _ _ hk]
  have h : (k + 1 ∈ List.range' (f + 1) (g.length - (f + 1))) ↔ f ≤ k := by
    rw [List.mem_range'_1]; omega
  simp only [h, beq_iff_eq]

/-- flags after the first `m` values of `first_id` -/
def flagsAt (uv : Index → Index) (g : List Index) : Nat → List Bool
  | 0 => List.replicate (g.length - 1) true
  | m + 1 =>
    if !((flagsAt uv g m).getD m true) then flagsAt uv g m else markSame uv g m (flagsAt uv g m)

theorem flagsAt_length (uv : Index → Index) (g : List Index) (m : Nat) :
    (flagsAt uv g m).length = g.length - 1 := by
  induction m with
  | zero => simp [flagsAt]
  | succ m ih =>
    unfold flagsAt
    split
    · exact ih
    · rw [markSame_length, ih]

theorem filterFlags_eq (uv : Index → Index) (g : List Index) :
    filterFlags uv g = flagsAt uv g (g.length - 1) := by
  have key : ∀ n, (List.range n).foldl (fun flags first_id =>
      if !(flags.getD first_id true) then flags else markSame uv g first_id flags)
      (List.replicate (g.length - 1) true) = flagsAt uv g n := by
    intro n
    induction n with
    | zero => simp [flagsAt]
    | succ n ih =>
      rw [List.range_succ, List.foldl_append, ih]
      rfl
  exact key _

/-- a flag is only lowered because of an earlier vertex with the same unique vertex -/
theorem flagsAt_sound (uv : Index → Index) (g : List Index) (m k : Nat) (hk : k < g.length - 1)
    (h : (flagsAt uv g m).getD k true = false) :
    ∃ i, i < m ∧ i ≤ k ∧ uv (g.getD i 0) = uv (g.getD (k + 1) 0) := by
  induction m with
  | zero => simp [flagsAt, hk] at h
  | succ m ih =>
    unfold flagsAt at h
    split at h
    · obtain ⟨i, h1, h2⟩ := ih h
      exact ⟨i, by omega, h2⟩
    · rw [markSame_get _ _ _ _ _ (by rw [flagsAt_length]; exact hk) (flagsAt_length ..)] at h
      split at h
      · rename_i hc
        exact ⟨m, by omega, hc⟩
      · obtain ⟨i, h1, h2⟩ := ih h
        exact ⟨i, by omega, h2⟩

theorem flagsAt_mono (uv : Index → Index) (g : List Index) (m m' k : Nat) (hm : m ≤ m')
    (hk : k < g.length - 1) (h : (flagsAt uv g m).getD k true = false) :
    (flagsAt uv g m').getD k true = false := by
  induction m' with
  | zero =>
    have : m = 0 := by omega
    subst this; exact h
  | succ n ih =>
    by_cases hmn : m = n + 1
    · subst hmn; exact h
    · have hn := ih (by omega)
      unfold flagsAt
      split
      · exact hn
      · rw [markSame_get _ _ _ _ _ (by rw [flagsAt_length]; exact hk) (flagsAt_length ..)]
        split
        · rfl
        · exact hn

/-- a processed vertex lowers the flag of the later vertices with the same unique vertex -/
theorem flagsAt_complete (uv : Index → Index) (g : List Index) (i k m : Nat)
    (hk : k < g.length - 1) (hik : i ≤ k) (him : i < m)
    (hu : uv (g.getD i 0) = uv (g.getD (k + 1) 0))
    (hpat : i < k → ∀ i' < i, uv (g.getD i' 0) ≠ uv (g.getD (i + 1) 0)) :
    (flagsAt uv g m).getD k true = false := by
  refine flagsAt_mono uv g (i + 1) m k him hk ?_
  unfold flagsAt
  split
  · rename_i hf
    have hf' : (flagsAt uv g i).getD i true = false := by simpa using hf
    by_cases hlt : i < k
    · obtain ⟨i', h1, h2, h3⟩ := flagsAt_sound uv g i i (by omega) hf'
      exact absurd h3 (hpat hlt i' h1)
    · have : i = k := by omega
      subst this; exact hf'
  · rw [markSame_get _ _ _ _ _ (by rw [flagsAt_length]; exact hk) (flagsAt_length ..)]
    simp [hik]
    exact fun h => absurd hu h

/-- the kept positions: indices `k + 1` of the group whose flag is still up -/
def kept (uv : Index → Index) (g : List Index) : List Nat :=
  (List.range (g.length - 1)).filter fun k => (filterFlags uv g).getD k true

theorem filterGroup_eq (uv : Index → Index) (g : List Index) :
    filterGroup uv g = if kept uv g = [] then none
      else some ((kept uv g).map (fun k => g.getD (k + 1) 0) ++ [g.getD 0 0]) := by
  unfold filterGroup
  have hl : (filterFlags uv g).length = g.length - 1 := by
    rw [filterFlags_eq, flagsAt_length]
  have : (List.range (filterFlags uv g).length).filter (fun k => (filterFlags uv g).getD k false)
      = kept uv g := by
    rw [hl]
    unfold kept
    apply List.filter_congr
    intro k hk
    rw [List.mem_range] at hk
    simp [hl, hk]
  simp only [this]
  by_cases h : kept uv g = [] <;> simp [h]

theorem mem_kept (uv : Index → Index) (g : List Index) (k : Nat) :
    k ∈ kept uv g ↔ k < g.length - 1 ∧ (flagsAt uv g (g.length - 1)).getD k true = true := by
  simp [kept, filterFlags_eq]


/-- exactly which flags are still up -/
theorem flagsAt_iff (uv : Index → Index) (g : List Index) (m k : Nat) (hm : m ≤ g.length - 1)
    (hk : k < g.length - 1) :
    (flagsAt uv g m).getD k true = true ↔ ∀ i, i < m → i ≤ k →
      Spec.Compared (fun p => uv (g.getD p 0)) i → uv (g.getD i 0) ≠ uv (g.getD (k + 1) 0) := by
  induction m generalizing k with
  | zero =>
    have : (flagsAt uv g 0).getD k true = true := by simp [flagsAt, hk]
    exact ⟨fun _ i hi => absurd hi (Nat.not_lt_zero i), fun _ => this⟩
  | succ m ih =>
    have hc : (flagsAt uv g m).getD m true = true ↔ Spec.Compared (fun p => uv (g.getD p 0)) m := by
      rw [ih m (by omega) (by omega), Spec.Compared]
      exact ⟨fun h i hi he hcmp => h i hi (by omega) hcmp he, fun h i hi _ hcmp he => h i hi he hcmp⟩
    unfold flagsAt
    split
    · rename_i hf
      have hn : ¬ Spec.Compared (fun p => uv (g.getD p 0)) m := by
        rw [← hc]
        simpa using hf
      rw [ih k (by omega) hk]
      constructor
      · intro h i hi hik hcmp
        by_cases him : i = m
        · subst him; exact absurd hcmp hn
        · exact h i (by omega) hik hcmp
      · exact fun h i hi => h i (by omega)
    · rename_i hf
      have hy : Spec.Compared (fun p => uv (g.getD p 0)) m := by
        rw [← hc]
        simpa using hf
      rw [markSame_get _ _ _ _ _ (by rw [flagsAt_length]; exact hk) (flagsAt_length ..)]
      split
      · rename_i h
        constructor
        · intro h'; simp at h'
        · intro h'; exact absurd h.2 (h' m (by omega) h.1 hy)
      · rename_i h
        rw [ih k (by omega) hk]
        constructor
        · intro h' i hi hik hcmp
          by_cases him : i = m
          · subst him; exact fun he => h ⟨hik, he⟩
          · exact h' i (by omega) hik hcmp
        · exact fun h' i hi => h' i (by omega)

/-- the kept vertices -/
theorem mem_filterGroup {uv : Index → Index} {g r : List Index} (h : filterGroup uv g = some r)
    (x : Index) : x ∈ r ↔ x = g.getD 0 0 ∨ ∃ k ∈ kept uv g, g.getD (k + 1) 0 = x := by
  rw [filterGroup_eq] at h
  split at h
  · simp at h
  · obtain rfl := Option.some.inj h
    simp only [List.mem_append, List.mem_map, List.mem_singleton]
    exact or_comm

/-- the first vertex linked to a given unique vertex is the first of the group or is kept -/
theorem first_kept (uv : Index → Index) (g : List Index) (p : Nat) (hp : p < g.length) :
    uv (g.getD 0 0) = uv (g.getD p 0) ∨ ∃ k ∈ kept uv g, uv (g.getD (k + 1) 0) = uv (g.getD p 0) := by
  induction p using Nat.strongRecOn with
  | ind p ih =>
    match p, ih, hp with
    | 0, _, _ => exact Or.inl rfl
    | k + 1, ih, hp =>
      by_cases hk : k ∈ kept uv g
      · exact Or.inr ⟨k, hk, rfl⟩
      · have hk1 : k < g.length - 1 := by omega
        have hfl : (flagsAt uv g (g.length - 1)).getD k true = false := by
          rw [mem_kept] at hk
          cases hh : (flagsAt uv g (g.length - 1)).getD k true
          · rfl
          · exact absurd ⟨hk1, hh⟩ hk
        obtain ⟨i, _, hi, he⟩ := flagsAt_sound uv g _ k hk1 hfl
        have := ih i (by omega) (by omega)
        rw [he] at this
        exact this

theorem mem_getD_iff (g : List Index) (x : Index) : x ∈ g ↔ ∃ p, p < g.length ∧ g.getD p 0 = x := by
  rw [List.mem_iff_getElem]
  constructor
  · rintro ⟨p, hp, h⟩
    exact ⟨p, hp, by simpa [hp] using h⟩
  · rintro ⟨p, hp, h⟩
    exact ⟨p, hp, by simpa [hp] using h⟩

theorem filterGroup_isSome_iff (uv : Index → Index) (g : List Index) :
    (∃ r, filterGroup uv g = some r) ↔ SplitGroup uv g := by
  rw [filterGroup_eq]
  constructor
  · rintro ⟨r, h⟩
    split at h
    · simp at h
    · rename_i hne
      obtain ⟨k, hk⟩ := List.exists_mem_of_ne_nil _ hne
      have hk' := (mem_kept uv g k).1 hk
      refine ⟨g.getD 0 0, (mem_getD_iff g _).2 ⟨0, by omega, rfl⟩, g.getD (k + 1) 0,
        (mem_getD_iff g _).2 ⟨k + 1, by omega, rfl⟩, ?_⟩
      intro he
      have := flagsAt_complete uv g 0 k (g.length - 1) hk'.1 (by omega) (by omega) he
        (fun _ i' hi' => by omega)
      rw [this] at hk'
      simp at hk'
  · rintro ⟨i, hi, j, hj, hne⟩
    have : kept uv g ≠ [] := by
      intro hnil
      obtain ⟨p, hp, rfl⟩ := (mem_getD_iff g i).1 hi
      obtain ⟨q, hq, rfl⟩ := (mem_getD_iff g j).1 hj
      have h1 := first_kept uv g p hp
      have h2 := first_kept uv g q hq
      simp only [hnil, List.not_mem_nil, false_and, exists_false, or_false] at h1 h2
      exact hne (h1.symm.trans h2)
    rw [if_neg this]
    exact ⟨_, rfl⟩

theorem filterGroup_represents {uv : Index → Index} {g r : List Index}
    (h : filterGroup uv g = some r) : Represents uv g r := by
  have hs : SplitGroup uv g := (filterGroup_isSome_iff uv g).1 ⟨r, h⟩
  obtain ⟨i, hi, _⟩ := hs
  have hpos : 0 < g.length := List.length_pos_of_mem hi
  refine ⟨?_, ?_, ?_⟩
  · intro x hx
    rcases (mem_filterGroup h x).1 hx with rfl | ⟨k, hk, rfl⟩
    · exact (mem_getD_iff g _).2 ⟨0, hpos, rfl⟩
    · have := ((mem_kept uv g k).1 hk).1
      exact (mem_getD_iff g _).2 ⟨k + 1, by omega, rfl⟩
  · intro first hf
    refine (mem_filterGroup h first).2 (Or.inl ?_)
    cases g with
    | nil => simp at hf
    | cons a g => simpa using hf.symm
  · intro x hx
    obtain ⟨p, hp, rfl⟩ := (mem_getD_iff g x).1 hx
    rcases first_kept uv g p hp with he | ⟨k, hk, he⟩
    · exact ⟨_, (mem_filterGroup h _).2 (Or.inl rfl), he⟩
    · exact ⟨_, (mem_filterGroup h _).2 (Or.inr ⟨k, hk, rfl⟩), he⟩

theorem filterColocatedPoints_eq (uv : Index → Index) (groups : List (List Index)) :
    filterColocatedPoints uv groups = groups.filterMap (filterGroup uv) := by
  have key : ∀ acc, groups.foldl (fun acc point_group =>
      match filterGroup uv point_group with
      | none => acc
      | some g => acc ++ [g]) acc = acc ++ groups.filterMap (filterGroup uv) := by
    induction groups with
    | nil => simp
    | cons g gs ih =>
      intro acc
      rw [List.foldl_cons, ih, List.filterMap_cons]
      cases filterGroup uv g <;> simp
  exact (key []).trans (by simp)

theorem filterColocatedPoints_reports (uv : Index → Index) (groups : List (List Index)) :
    ReportsSplitGroups uv groups (filterColocatedPoints uv groups) := by
  rw [filterColocatedPoints_eq]
  refine ⟨groups.filter fun g => (filterGroup uv g).isSome, List.filter_sublist, ?_, ?_⟩
  · intro g hg
    rw [List.mem_filter, ← filterGroup_isSome_iff, Option.isSome_iff_exists]
    exact ⟨fun h => h.2, fun h => ⟨hg, h⟩⟩
  · induction groups with
    | nil => simp
    | cons g gs ih =>
      cases h : filterGroup uv g with
      | none => simpa [List.filterMap_cons, h] using ih
      | some r =>
        simp only [List.filter_cons, h, Option.isSome_some, if_true, List.filterMap_cons]
        exact List.Forall₂.cons (filterGroup_represents h) ih

theorem filterColocatedPoints_length (uv : Index → Index) (groups : List (List Index)) :
    (filterColocatedPoints uv groups).length ≤ groups.length := by
  rw [filterColocatedPoints_eq]; exact List.length_filterMap_le ..

theorem bigClasses_length (m : List Nat) (nb : Nat) : (bigClasses m nb).length ≤ nb := by
  unfold bigClasses classes
  exact Nat.le_trans (List.length_filter_le ..) (by simp)

/-! ### unique vertices -/

theorem modelUniqueVertexPoint_eq {P : Type} (brep : Bool) (m : UVModel P)
    (cmvs : List ComponentMeshVertex)
    (hk : ∀ cmv ∈ cmvs, cmv.component_id.type ≠ .other ∧ (cmv.component_id.type = .block → brep = true)) :
    modelUniqueVertexPoint brep m cmvs
      = (cmvs.filter fun cmv => m.isActive cmv.component_id.id).head?.map (position m) := by
  induction cmvs with
  | nil => rfl
  | cons cmv cmvs ih =>
    unfold modelUniqueVertexPoint
    by_cases ha : m.isActive cmv.component_id.id = true
    · have h1 := hk cmv (by simp)
      simp only [ha, List.filter_cons, if_true, List.head?_cons, Option.map_some, Bool.not_true]
      simp only [position, modelCmvPoint]
      cases ht : cmv.component_id.type <;> simp_all
    · have ha' : m.isActive cmv.component_id.id = false := by simpa using ha
      simp only [ha', List.filter_cons, Bool.not_false, if_true]
      simpa using ih (fun c hc => hk c (by simp [hc]))

theorem cmvsAreColocated_eq {P : Type} (brep : Bool) (ie : P → P → Bool) (m : UVModel P)
    (cmvs : List ComponentMeshVertex) (p : P)
    (hk : ∀ cmv ∈ cmvs, cmv.component_id.type ≠ .other ∧ (cmv.component_id.type = .block → brep = true)) :
    cmvsAreColocated brep ie m cmvs p
      = (cmvs.filter fun cmv => m.isActive cmv.component_id.id).all fun cmv => ie p (position m cmv) := by
  induction cmvs with
  | nil => rfl
  | cons cmv cmvs ih =>
    unfold cmvsAreColocated
    rw [ih (fun c hc => hk c (by simp [hc]))]
    by_cases ha : m.isActive cmv.component_id.id = true
    · have h1 := hk cmv (by simp)
      have hc : cmvIsColocated brep ie m cmv p = ie p (position m cmv) := by
        simp only [cmvIsColocated, cmvIsColocatedBase, position]
        cases ht : cmv.component_id.type <;> simp_all
      simp only [ha, List.filter_cons, if_true, Bool.not_true, hc, List.all_cons]
      cases ie p (position m cmv) <;> simp
    · have ha' : m.isActive cmv.component_id.id = false := by simpa using ha
      simp [ha', List.filter_cons]

/-- indices (from `s`) of the vertices that are not deleted -/
def actsFrom {P : Type} : List (Bool × P) → Nat → List Nat
  | [], _ => []
  | (true, _) :: r, s => actsFrom r (s + 1)
  | (false, _) :: r, s => s :: actsFrom r (s + 1)

theorem deleteVertices_length {P : Type} (l : List (Bool × P)) (next : Nat) :
    (deleteVertices l next).2.length = l.length := by
  induction l generalizing next with
  | nil => rfl
  | cons x l ih => obtain ⟨b, p⟩ := x; cases b <;> simp [deleteVertices, ih]

theorem deleteVertices_points {P : Type} (l : List (Bool × P)) (next : Nat) :
    (deleteVertices l next).1 = (l.filter fun x => !x.1).map Prod.snd := by
  induction l generalizing next with
  | nil => rfl
  | cons x l ih => obtain ⟨b, p⟩ := x; cases b <;> simp [deleteVertices, ih]

theorem actsFrom_ge {P : Type} (l : List (Bool × P)) (s a i : Nat) (h : (actsFrom l s)[a]? = some i) :
    s ≤ i := by
  induction l generalizing s a with
  | nil => simp [actsFrom] at h
  | cons x l ih =>
    obtain ⟨b, p⟩ := x
    cases b
    · cases a with
      | zero => simp [actsFrom] at h; omega
      | succ a => simp [actsFrom] at h; have := ih _ _ h; omega
    · simp [actsFrom] at h; have := ih _ _ h; omega

theorem deleteVertices_map {P : Type} (l : List (Bool × P)) (next s i b : Nat) :
    (deleteVertices l next).2[i]? = some (some b)
      ↔ next ≤ b ∧ (actsFrom l s)[b - next]? = some (s + i) := by
  induction l generalizing next s i with
  | nil => simp [deleteVertices, actsFrom]
  | cons x l ih =>
    obtain ⟨d, p⟩ := x
    cases d
    · cases i with
      | zero =>
        simp only [deleteVertices, actsFrom, List.getElem?_cons_zero, Option.some.injEq, Nat.add_zero]
        constructor
        · rintro rfl; simp
        · rintro ⟨h1, h2⟩
          by_cases hb : b = next
          · exact hb.symm
          · have : b - next = (b - (next + 1)) + 1 := by omega
            rw [this, List.getElem?_cons_succ] at h2
            have := actsFrom_ge _ _ _ _ h2
            omega
      | succ i =>
        simp only [deleteVertices, actsFrom, List.getElem?_cons_succ]
        rw [ih (next + 1) (s + 1) i]
        constructor
        · rintro ⟨h1, h2⟩
          have : b - next = (b - (next + 1)) + 1 := by omega
          rw [this, List.getElem?_cons_succ, h2]
          exact ⟨by omega, by congr 1; omega⟩
        · rintro ⟨h1, h2⟩
          by_cases hb : b = next
          · subst hb; simp at h2
          · have : b - next = (b - (next + 1)) + 1 := by omega
            rw [this, List.getElem?_cons_succ] at h2
            exact ⟨by omega, by rw [h2]; congr 1; omega⟩
    · cases i with
      | zero =>
        simp only [deleteVertices, actsFrom, List.getElem?_cons_zero]
        constructor
        · intro h; simp at h
        · rintro ⟨_, h⟩
          have := actsFrom_ge _ _ _ _ h
          omega
      | succ i =>
        simp only [deleteVertices, actsFrom, List.getElem?_cons_succ]
        rw [ih next (s + 1) i, show s + 1 + i = s + (i + 1) by omega]

theorem actsFrom_range {P : Type} (f : Nat → Bool × P) (n s : Nat) :
    actsFrom ((List.range' s n).map f) s = (List.range' s n).filter fun i => !(f i).1 := by
  induction n generalizing s with
  | zero => rfl
  | succ n ih =>
    rw [List.range'_succ, List.map_cons, List.filter_cons]
    rcases hf : f s with ⟨b, p⟩
    cases b <;> simp [actsFrom, ih]


/-- vertices of the point set of the constructor, before deletion -/
def uvVertices {P : Type} (brep : Bool) (origin : P) (m : UVModel P) (uv : Index) : Bool × P :=
  match modelUniqueVertexPoint brep m (m.componentMeshVertices uv) with
  | some point => (false, point)
  | none => (true, origin)

theorem uvVertices_known {P : Type} (brep : Bool) (origin : P) (m : UVModel P) (uv : Index)
    (hk : KnownTypes brep m) :
    uvVertices brep origin m uv = match (activeCmvs m uv).head?.map (position m) with
      | some point => (false, point)
      | none => (true, origin) := by
  unfold uvVertices
  rw [modelUniqueVertexPoint_eq brep m _ (hk uv)]
  rfl

theorem create_points {P : Type} (brep : Bool) (origin : P) (m : UVModel P)
    (hk : KnownTypes brep m) :
    (UVColocation.create brep origin m).activeUvPointset = activePositions m := by
  show (deleteVertices ((List.range m.nbUniqueVertices).map (uvVertices brep origin m)) 0).1 = _
  rw [deleteVertices_points]
  unfold activePositions
  generalize List.range m.nbUniqueVertices = l
  induction l with
  | nil => rfl
  | cons x l ih =>
    rw [List.map_cons, List.filter_cons, uvVertices_known _ _ _ _ hk, List.filterMap_cons]
    cases (activeCmvs m x).head?.map (position m) <;> simpa using ih

theorem actsFrom_uv {P : Type} (brep : Bool) (origin : P) (m : UVModel P) (hk : KnownTypes brep m) :
    actsFrom ((List.range m.nbUniqueVertices).map (uvVertices brep origin m)) 0 = activeUvs m := by
  rw [List.range_eq_range', actsFrom_range]
  unfold activeUvs
  rw [List.range_eq_range']
  apply List.filter_congr
  intro i _
  rw [uvVertices_known _ _ _ _ hk]
  cases activeCmvs m i <;> rfl

theorem create_map {P : Type} (brep : Bool) (origin : P) (m : UVModel P) :
    (UVColocation.create brep origin m).uvToActiveUv
      = (List.range m.nbUniqueVertices).map fun i =>
        (i, ((deleteVertices ((List.range m.nbUniqueVertices).map (uvVertices brep origin m)) 0).2[i]?).getD none) := by
  show (List.range (deleteVertices ((List.range m.nbUniqueVertices).map
    (uvVertices brep origin m)) 0).2.length).map _ = _
  rw [deleteVertices_length]
  simp
  intro a ha
  rfl

theorem find?_map_range {β : Type} (f : Nat → β) (n uv : Nat) :
    ((List.range n).map fun i => (i, f i)).find? (fun p => p.1 == uv)
      = if uv < n then some (uv, f uv) else none := by
  induction n with
  | zero => simp
  | succ n ih =>
    rw [List.range_succ, List.map_append, List.find?_append, ih]
    by_cases h : uv < n
    · simp [h, show uv < n + 1 by omega]
    · by_cases h2 : uv = n
      · subst h2; simp
      · have : ¬ uv < n + 1 := by omega
        have h3 : ¬ n = uv := fun e => h2 e.symm
        simp [h, this, h3]

/-- `in2out`: the active index of a unique vertex is its rank among the active ones -/
theorem in2out_eq {P : Type} (brep : Bool) (origin : P) (m : UVModel P) (hk : KnownTypes brep m)
    (uv : Index) (h : uv < m.nbUniqueVertices) :
    (∃ a, (UVColocation.create brep origin m).in2out uv = some (some a) ∧ (activeUvs m)[a]? = some uv)
    ∨ ((UVColocation.create brep origin m).in2out uv = some none ∧ uv ∉ activeUvs m) := by
  have hin : (UVColocation.create brep origin m).in2out uv
      = some (((deleteVertices ((List.range m.nbUniqueVertices).map (uvVertices brep origin m)) 0).2[uv]?).getD none) := by
    unfold UVColocation.in2out
    rw [create_map, find?_map_range]
    simp [h]
  have hlt : uv < (deleteVertices ((List.range m.nbUniqueVertices).map (uvVertices brep origin m)) 0).2.length := by
    rw [deleteVertices_length]; simpa using h
  have hd := fun b => deleteVertices_map ((List.range m.nbUniqueVertices).map (uvVertices brep origin m)) 0 0 uv b
  rw [actsFrom_uv _ _ _ hk] at hd
  simp only [Nat.zero_le, true_and, Nat.sub_zero, Nat.zero_add] at hd
  rw [hin]
  rw [List.getElem?_eq_getElem hlt] at hd ⊢
  cases hv : (deleteVertices ((List.range m.nbUniqueVertices).map (uvVertices brep origin m)) 0).2[uv] with
  | some a =>
    refine Or.inl ⟨a, rfl, (hd a).1 (by rw [hv])⟩
  | none =>
    refine Or.inr ⟨rfl, ?_⟩
    intro hmem
    obtain ⟨a, ha⟩ := List.getElem?_of_mem hmem
    have := (hd a).2 ha
    rw [hv] at this
    simp at this

theorem activePositions_get {P : Type} (m : UVModel P) (a : Nat) (uv : Index)
    (h : (activeUvs m)[a]? = some uv) :
    ∃ first rest, activeCmvs m uv = first :: rest ∧ (activePositions m)[a]? = some (position m first) := by
  unfold activeUvs at h
  unfold activePositions
  generalize List.range m.nbUniqueVertices = l at *
  induction l generalizing a with
  | nil => simp at h
  | cons x l ih =>
    rw [List.filter_cons] at h
    rw [List.filterMap_cons]
    cases hx : activeCmvs m x with
    | nil =>
      rw [hx] at h
      simp only [List.isEmpty_nil, Bool.not_true, Bool.false_eq_true, if_false] at h
      simpa using ih a h
    | cons c cs =>
      rw [hx] at h
      simp only [List.isEmpty_cons, Bool.not_false, if_true] at h
      cases a with
      | zero =>
        simp at h
        subst h
        exact ⟨c, cs, hx, by simp⟩
      | succ a =>
        simpa using ih a (by simpa using h)

theorem activePositions_length {P : Type} (m : UVModel P) :
    (activePositions m).length = (activeUvs m).length := by
  unfold activeUvs activePositions
  generalize List.range m.nbUniqueVertices = l
  induction l with
  | nil => rfl
  | cons x l ih =>
    rw [List.filterMap_cons, List.filter_cons]
    cases activeCmvs m x <;> simpa using ih

theorem uvTest_eq {P : Type} (brep : Bool) (origin : P) (ie : P → P → Bool) (m : UVModel P)
    (hk : KnownTypes brep m) (uv : Index) (h : uv < m.nbUniqueVertices) :
    ∃ b, uvTest brep ie m (UVColocation.create brep origin m) uv = some b ∧
      (b = true ↔ DifferentPoints ie m uv) := by
  unfold uvTest
  rcases in2out_eq brep origin m hk uv h with ⟨a, ha, hact⟩ | ⟨hn, hact⟩
  · rw [ha]
    obtain ⟨first, rest, hc, hp⟩ := activePositions_get m a uv hact
    simp only [create_points _ _ _ hk, hp]
    refine ⟨_, rfl, ?_⟩
    rw [cmvsAreColocated_eq _ _ _ _ _ (hk uv)]
    change (!(activeCmvs m uv).all _) = true ↔ _
    unfold DifferentPoints
    constructor
    · intro hb
      refine ⟨first, rest, hc, ?_⟩
      simpa using hb
    · rintro ⟨f', r', he, hex⟩
      rw [hc] at he
      obtain ⟨rfl, rfl⟩ := List.cons.inj he
      simpa using hex
  · rw [hn]
    refine ⟨false, rfl, ?_⟩
    simp only [Bool.false_eq_true, false_iff]
    rintro ⟨first, rest, hc, _⟩
    apply hact
    unfold activeUvs
    simp [List.mem_filter, h, hc]

theorem hasUvs_eq {P : Type} (brep : Bool) (origin : P) (ie : P → P → Bool) (m : UVModel P)
    (hk : KnownTypes brep m) (l : List Index) (hl : ∀ uv ∈ l, uv < m.nbUniqueVertices) :
    ∃ b, hasUvsLinkedToDifferentPoints brep ie m (UVColocation.create brep origin m) l = some b ∧
      (b = true ↔ ∃ uv ∈ l, DifferentPoints ie m uv) := by
  induction l with
  | nil => exact ⟨false, rfl, by simp⟩
  | cons x l ih =>
    obtain ⟨b, hb, hiff⟩ := uvTest_eq brep origin ie m hk x (hl x (by simp))
    obtain ⟨b', hb', hiff'⟩ := ih (fun u hu => hl u (by simp [hu]))
    unfold hasUvsLinkedToDifferentPoints
    rw [hb]
    cases b
    · refine ⟨b', hb', ?_⟩
      have : ¬ DifferentPoints ie m x := fun h => by simpa using hiff.2 h
      simp [hiff', this]
    · exact ⟨true, rfl, by simp [hiff.1 rfl]⟩

theorem addUvs_eq {P : Type} (brep : Bool) (origin : P) (ie : P → P → Bool) (m : UVModel P)
    (hk : KnownTypes brep m) (l : List Index) (hl : ∀ uv ∈ l, uv < m.nbUniqueVertices)
    (issues : Issues Index) :
    ∃ out reported, addUvsLinkedToDifferentPoints brep ie m (UVColocation.create brep origin m) l issues
        = some out ∧ out.issues = issues.issues ++ reported ∧ reported.Sublist l ∧
      ∀ uv, uv ∈ reported ↔ uv ∈ l ∧ DifferentPoints ie m uv := by
  induction l generalizing issues with
  | nil => exact ⟨issues, [], rfl, by simp, by simp, by simp⟩
  | cons x l ih =>
    obtain ⟨b, hb, hiff⟩ := uvTest_eq brep origin ie m hk x (hl x (by simp))
    unfold addUvsLinkedToDifferentPoints
    rw [hb]
    cases b
    · obtain ⟨out, rep, h1, h2, h3, h4⟩ := ih (fun u hu => hl u (by simp [hu])) issues
      refine ⟨out, rep, h1, h2, h3.cons x, ?_⟩
      have : ¬ DifferentPoints ie m x := fun h => by simpa using hiff.2 h
      intro uv
      rw [h4]
      simp only [List.mem_cons]
      constructor
      · rintro ⟨a, b⟩; exact ⟨Or.inr a, b⟩
      · rintro ⟨rfl | a, b⟩
        · exact absurd b this
        · exact ⟨a, b⟩
    · obtain ⟨out, rep, h1, h2, h3, h4⟩ := ih (fun u hu => hl u (by simp [hu])) (issues.add x
        ("unique vertex " ++ toString x ++ " is linked to several mesh vertices on different positions"))
      refine ⟨out, x :: rep, h1, ?_, h3.cons_cons x, ?_⟩
      · rw [h2]; simp [Issues.add]
      · have hx := hiff.1 rfl
        intro uv
        rw [List.mem_cons, h4]
        simp only [List.mem_cons]
        constructor
        · rintro (rfl | ⟨a, b⟩)
          · exact ⟨Or.inl rfl, hx⟩
          · exact ⟨Or.inr a, b⟩
        · rintro ⟨rfl | a, b⟩
          · exact Or.inl rfl
          · exact Or.inr ⟨a, b⟩

/-- `out2in` gives back the unique vertex -/
theorem out2in_eq {P : Type} (brep : Bool) (origin : P) (m : UVModel P) (hk : KnownTypes brep m)
    (a : Index) : (UVColocation.create brep origin m).out2in a = (activeUvs m)[a]? := by
  have hd := fun uv => deleteVertices_map ((List.range m.nbUniqueVertices).map (uvVertices brep origin m)) 0 0 uv a
  rw [actsFrom_uv _ _ _ hk] at hd
  simp only [Nat.zero_le, true_and, Nat.sub_zero, Nat.zero_add] at hd
  have hlen : ∀ uv, (activeUvs m)[a]? = some uv → uv < m.nbUniqueVertices := by
    intro uv h
    have := List.mem_of_getElem? h
    unfold activeUvs at this
    simpa using (List.mem_filter.1 this).1
  have hg : ∀ uv, (((deleteVertices ((List.range m.nbUniqueVertices).map (uvVertices brep origin m)) 0).2[uv]?).getD none
      == some a) = true ↔ (activeUvs m)[a]? = some uv := by
    intro uv
    rw [← hd uv]
    cases h : (deleteVertices ((List.range m.nbUniqueVertices).map (uvVertices brep origin m)) 0).2[uv]? <;> simp
  unfold UVColocation.out2in
  rw [create_map, List.find?_map]
  simp only [Option.map_map]
  cases h : (activeUvs m)[a]? with
  | none =>
    rw [List.find?_eq_none.2]
    · rfl
    · intro x _ hx
      have := (hg x).1 hx
      rw [h] at this; simp at this
  | some uv =>
    have hf : (List.range m.nbUniqueVertices).find? ((fun p : Index × Option Index => p.2 == some a) ∘ fun i =>
        (i, ((deleteVertices ((List.range m.nbUniqueVertices).map (uvVertices brep origin m)) 0).2[i]?).getD none))
        = some uv := by
      cases hfind : (List.range m.nbUniqueVertices).find? ((fun p : Index × Option Index => p.2 == some a) ∘ fun i =>
        (i, ((deleteVertices ((List.range m.nbUniqueVertices).map (uvVertices brep origin m)) 0).2[i]?).getD none)) with
      | none =>
        have := List.find?_eq_none.1 hfind uv (List.mem_range.2 (hlen uv h))
        exact absurd ((hg uv).2 h) this
      | some v =>
        have hv := List.find?_some hfind
        have := (hg v).1 hv
        rw [h] at this
        exact this.symm
    rw [hf]; rfl

theorem fixPointGroup_eq {P : Type} (brep : Bool) (origin : P) (m : UVModel P) (hk : KnownTypes brep m)
    (g : List Index) (hg : ∀ i ∈ g, i < (activeUvs m).length) :
    ∃ f, fixPointGroup (UVColocation.create brep origin m) g = some f ∧
      f = g.map fun a => ((activeUvs m)[a]?).getD 0 := by
  induction g with
  | nil => exact ⟨[], rfl, rfl⟩
  | cons a g ih =>
    obtain ⟨f, h1, h2⟩ := ih (fun i hi => hg i (by simp [hi]))
    have ha := hg a (by simp)
    unfold fixPointGroup
    rw [h1, out2in_eq _ _ _ hk, List.getElem?_eq_getElem ha]
    exact ⟨_, rfl, by rw [h2, List.map_cons, List.getElem?_eq_getElem ha]; rfl⟩

theorem addFixedGroups_eq {P : Type} (brep : Bool) (origin : P) (ps : P → String) (m : UVModel P)
    (hk : KnownTypes brep m) (gs : List (List Index))
    (hg : ∀ g ∈ gs, ∀ i ∈ g, i < (activeUvs m).length) (issues : Issues (List Index)) :
    ∃ out, addFixedGroups ps (UVColocation.create brep origin m) gs issues = some out ∧
      out.issues = issues.issues ++ gs.map fun g => g.map fun a => ((activeUvs m)[a]?).getD 0 := by
  induction gs generalizing issues with
  | nil => exact ⟨issues, rfl, by simp⟩
  | cons g gs ih =>
    obtain ⟨f, h1, h2⟩ := fixPointGroup_eq brep origin m hk g (hg g (by simp))
    unfold addFixedGroups
    rw [h1]
    obtain ⟨out, h3, h4⟩ := ih (fun g' hg' => hg g' (by simp [hg'])) (issues.add f
        ("unique vertices " ++ groupString f ++ " are colocated at the position ["
          ++ (((UVColocation.create brep origin m).activeUvPointset[g.headD 0]?).elim "" ps) ++ "]"))
    refine ⟨out, h3, ?_⟩
    rw [h4, h2]
    simp [Issues.add]

theorem activeUvs_nodup {P : Type} (m : UVModel P) : (activeUvs m).Nodup :=
  (List.nodup_range).filter _


/-! ### components -/

/-- what is reported for a component -/
def componentGroups {P : Type} (search : List P → ColocatedInfo P) (c : PointComponent P) :
    List (List Index) :=
  filterColocatedPoints c.uniqueVertex (bigClasses (search c.mesh.points).colocated_mapping
    (search c.mesh.points).unique_points.length)

theorem addComponentColocation_eq {P : Type} (search : List P → ColocatedInfo P) (ps : P → String)
    (kind : String) (c : PointComponent P) (map : IssuesMap (List Index))
    (h : SearchOk (search c.mesh.points) c.mesh.points.length) :
    ∃ s : Issues (List Index), s.issues = componentGroups search c ∧
      addComponentColocation search ps kind c map = some (map.addIssues c.id s) := by
  obtain ⟨groups, h1, h2⟩ := colocatedPointsGroups_eq search ps c.mesh h.2.2.1
  unfold addComponentColocation
  rw [h1]
  simp only [h2]
  by_cases hn : (componentGroups search c).isEmpty = true
  · refine ⟨Issues.new "", ?_, ?_⟩
    · simpa [Issues.new] using (List.isEmpty_iff.1 hn).symm
    · have hn' := hn
      unfold componentGroups at hn'
      rw [if_pos hn']
      simp [IssuesMap.addIssues, Issues.nbIssues, Issues.new]
  · have hn' := hn
    unfold componentGroups at hn'
    rw [if_neg hn']
    exact ⟨_, (foldl_add_issues _ (fun x => x) _ _).trans (by
      rw [List.map_id']; simp [Issues.new, componentGroups]), rfl⟩

theorem addComponentsColocation_eq {P : Type} (search : List P → ColocatedInfo P) (ps : P → String)
    (kind : String) (cs : List (PointComponent P)) (map : IssuesMap (List Index))
    (h : ∀ c ∈ cs, c.active = true → SearchOk (search c.mesh.points) c.mesh.points.length) :
    ∃ adds : List (Uuid × Issues (List Index)),
      adds.map (fun a => (a.1, a.2.issues))
        = (cs.filter fun c => c.active).map (fun c => (c.id, componentGroups search c)) ∧
      addComponentsColocation search ps kind cs (some map) = some (map.addAll adds) := by
  unfold addComponentsColocation
  have h' : ∀ c ∈ cs.filter (fun c => c.active),
      SearchOk (search c.mesh.points) c.mesh.points.length := by
    intro c hc
    exact h c (List.mem_filter.1 hc).1 (List.mem_filter.1 hc).2
  generalize cs.filter (fun c => c.active) = l at h' ⊢
  induction l generalizing map with
  | nil => exact ⟨[], rfl, rfl⟩
  | cons c l ih =>
    obtain ⟨s, hs, he⟩ := addComponentColocation_eq search ps kind c map (h' c (by simp))
    obtain ⟨adds, ha, hb⟩ := ih (map.addIssues c.id s) (fun c hc => h' c (by simp [hc]))
    refine ⟨(c.id, s) :: adds, by simp [ha, hs], ?_⟩
    rw [List.foldl_cons, Option.bind_some, he, hb]
    rfl

theorem componentGroups_length {P : Type} (search : List P → ColocatedInfo P) (c : PointComponent P)
    (h : SearchOk (search c.mesh.points) c.mesh.points.length) :
    (componentGroups search c).length < 2 ^ 32 := by
  have h1 := bigClasses_length (search c.mesh.points).colocated_mapping (search c.mesh.points).unique_points.length
  have h2 := (bigClasses_ne_nil_iff _ _ h.2.2.1 h.2.2.2).1
  have h3 := filterColocatedPoints_length c.uniqueVertex (bigClasses (search c.mesh.points).colocated_mapping
    (search c.mesh.points).unique_points.length)
  rw [h.1] at h2
  have := h.2.1
  unfold componentGroups
  omega

/-- the entries after adding all the components -/
theorem entries_of_adds {P : Type} (search : List P → ColocatedInfo P) (d : String)
    (comps : List (PointComponent P)) (adds : List (Uuid × Issues (List Index)))
    (h : ∀ c ∈ comps, SearchOk (search c.mesh.points) c.mesh.points.length)
    (hn : (comps.map PointComponent.id).Nodup)
    (ha : adds.map (fun a => (a.1, a.2.issues)) = comps.map (fun c => (c.id, componentGroups search c))) :
    ((IssuesMap.new d).addAll adds).entries.map (fun e => (e.1, e.2.issues))
      = (comps.map (fun c => (c.id, componentGroups search c))).filter (fun p => !p.2.isEmpty) := by
  have hk : adds.map Prod.fst = comps.map PointComponent.id := by
    have := congrArg (List.map Prod.fst) ha
    simpa [Function.comp_def] using this
  rw [IssuesMap.addAll_entries _ _ _ (by rw [hk]; exact hn) (by simp [IssuesMap.new])]
  · rw [← ha, List.filter_map]
    simp [IssuesMap.new, Function.comp_def]
  · intro a haa
    have hm : (a.1, a.2.issues) ∈ adds.map (fun a => (a.1, a.2.issues)) := List.mem_map.2 ⟨a, haa, rfl⟩
    rw [ha] at hm
    obtain ⟨c, hc, he⟩ := List.mem_map.1 hm
    have := componentGroups_length search c (h c hc)
    have he2 : componentGroups search c = a.2.issues := congrArg Prod.snd he
    rwa [he2] at this

end Inspector
