import Verif.Model.HashMap
import Verif.Proofs.Common
/-! Lemmas on the hash maps and on the failing loops. -/
namespace Inspector
open Spec

namespace HMap
variable {K V α : Type} [DecidableEq K]

/-- insertion or modification -/
def upsert (m : HMap K V) (k : K) (g : Option V → V) : HMap K V :=
  match m.find? k with
  | none => m ++ [(k, g none)]
  | some _ => m.update k (fun v => g (some v))

theorem find?_append (m m' : HMap K V) (k : K) : find? (m ++ m') k = (m.find? k).or (m'.find? k) :=
  List.lookup_append

theorem find?_cons (e : K × V) (m : HMap K V) (k : K) :
    find? (e :: m) k = if k = e.1 then some e.2 else m.find? k := by
  obtain ⟨a, b⟩ := e
  unfold find?
  rw [List.lookup_cons]
  by_cases h : k = a
  · subst h; simp
  · have : (k == a) = false := by simpa using h
    rw [this, if_neg h]

theorem find?_update (m : HMap K V) (k k' : K) (f : V → V) :
    find? (m.update k f) k' = if k' = k then (m.find? k).map f else m.find? k' := by
  induction m with
  | nil => unfold update find?; simp
  | cons e m ih =>
    have hu : update (e :: m) k f = (if e.1 = k then (e.1, f e.2) else e) :: update m k f := rfl
    rw [hu, find?_cons, find?_cons, find?_cons, ih]
    by_cases he : e.1 = k
    · rw [if_pos he]
      simp only [he, if_true]
      by_cases h : k' = k
      · simp [h]
      · simp [h]
    · rw [if_neg he]
      by_cases h : k' = k
      · subst h; simp [Ne.symm he]
      · simp [h]

theorem keys_update (m : HMap K V) (k : K) (f : V → V) :
    (m.update k f).map Prod.fst = m.map Prod.fst := by
  induction m with
  | nil => rfl
  | cons e m ih =>
    have hu : update (e :: m) k f = (if e.1 = k then (e.1, f e.2) else e) :: update m k f := rfl
    rw [hu, List.map_cons, List.map_cons, ih]
    by_cases he : e.1 = k <;> simp [he]

theorem find?_none_iff (m : HMap K V) (k : K) : m.find? k = none ↔ k ∉ m.map Prod.fst := by
  induction m with
  | nil => simp [find?]
  | cons e m ih =>
    rw [find?_cons, List.map_cons, List.mem_cons, not_or]
    by_cases h : k = e.1
    · simp [h]
    · simp [h, ih]

theorem find?_upsert (m : HMap K V) (k k' : K) (g : Option V → V) :
    (m.upsert k g).find? k' = if k' = k then some (g (m.find? k)) else m.find? k' := by
  unfold upsert
  cases h : m.find? k with
  | none =>
    simp only []
    rw [find?_append, find?_cons]
    by_cases hk : k' = k
    · subst hk; rw [h]; simp
    · simp [hk, find?]
  | some v =>
    simp only []
    rw [find?_update]
    by_cases hk : k' = k
    · simp [hk, h]
    · simp [hk]

theorem nodup_upsert (m : HMap K V) (k : K) (g : Option V → V) (h : (m.map Prod.fst).Nodup) :
    ((m.upsert k g).map Prod.fst).Nodup := by
  unfold upsert
  cases hk : m.find? k with
  | none =>
    simp only [List.map_append, List.map_cons, List.map_nil]
    rw [find?_none_iff] at hk
    refine List.nodup_append.2 ⟨h, by simp, ?_⟩
    intro a ha b hb
    rw [List.mem_singleton] at hb
    subst hb
    rintro rfl
    exact hk ha
  | some v =>
    simp only []
    rw [keys_update]; exact h

theorem mem_iff_find? (m : HMap K V) (h : (m.map Prod.fst).Nodup) (k : K) (v : V) :
    (k, v) ∈ m ↔ m.find? k = some v := by
  induction m with
  | nil => simp [find?]
  | cons e m ih =>
    rw [List.map_cons, List.nodup_cons] at h
    rw [find?_cons, List.mem_cons, ih h.2]
    by_cases hk : k = e.1
    · rw [if_pos hk]
      constructor
      · rintro (rfl | hm)
        · rfl
        · have : k ∈ m.map Prod.fst := by
            by_contra hc
            rw [← find?_none_iff, hm] at hc
            simp at hc
          rw [hk] at this
          exact absurd this h.1
      · intro hv
        left
        rw [Option.some.injEq] at hv
        rw [hk, ← hv]
    · rw [if_neg hk]
      constructor
      · rintro (rfl | hm)
        · exact absurd rfl hk
        · exact hm
      · exact Or.inr

/-- a map built by insertions / modifications -/
def build (key : α → K) (g : α → Option V → V) (l : List α) (m : HMap K V) : HMap K V :=
  l.foldl (fun m x => m.upsert (key x) (g x)) m

/-- value of a key: fold over the elements of this key -/
def valueFrom (g : α → Option V → V) (l : List α) (o : Option V) : Option V :=
  l.foldl (fun o x => some (g x o)) o

theorem find?_build (key : α → K) (g : α → Option V → V) (l : List α) (m : HMap K V) (k : K) :
    (build key g l m).find? k = valueFrom g (l.filter fun x => decide (key x = k)) (m.find? k) := by
  induction l generalizing m with
  | nil => rfl
  | cons x l ih =>
    have : build key g (x :: l) m = build key g l (m.upsert (key x) (g x)) := rfl
    rw [this, ih, find?_upsert]
    by_cases hk : k = key x
    · subst hk
      simp [valueFrom]
    · rw [if_neg hk]
      simp [Ne.symm hk]

theorem nodup_build (key : α → K) (g : α → Option V → V) (l : List α) (m : HMap K V)
    (h : (m.map Prod.fst).Nodup) : ((build key g l m).map Prod.fst).Nodup := by
  induction l generalizing m with
  | nil => exact h
  | cons x l ih => exact ih _ (nodup_upsert _ _ _ h)

theorem mem_build (key : α → K) (g : α → Option V → V) (l : List α) (k : K) (v : V) :
    (k, v) ∈ build key g l [] ↔ valueFrom g (l.filter fun x => decide (key x = k)) none = some v := by
  rw [mem_iff_find? _ (nodup_build key g l [] (by simp)), find?_build]
  rfl

end HMap

/-- filtering a permutation of a map with unique keys -/
theorem exactly_map_filter {K V : Type} (m m' : HMap K V) (hp : m'.Perm m)
    (hn : (m.map Prod.fst).Nodup) (bad : K × V → Bool) :
    Exactly (· ≠ ·) (fun k => ∃ v, (k, v) ∈ m ∧ bad (k, v) = true) ((m'.filter bad).map Prod.fst) := by
  refine ⟨?_, ?_⟩
  · have h' : (m'.map Prod.fst).Nodup := (hp.map _).nodup_iff.2 hn
    exact h'.sublist (List.filter_sublist.map _)
  · intro k
    simp only [List.mem_map, List.mem_filter, hp.mem_iff]
    constructor
    · rintro ⟨⟨k', v⟩, ⟨h1, h2⟩, rfl⟩; exact ⟨v, h1, h2⟩
    · rintro ⟨v, h1, h2⟩; exact ⟨(k, v), ⟨h1, h2⟩, rfl⟩

theorem loopAnyM_ok {α : Type} (cond : α → Except Failure Bool) (b : α → Bool) (l : List α)
    (h : ∀ x ∈ l, cond x = .ok (b x)) : loopAnyM cond l = .ok (loopAny b l) := by
  induction l with
  | nil => rfl
  | cons x l ih =>
    unfold loopAnyM loopAny
    rw [h x (by simp), ih (fun y hy => h y (by simp [hy]))]
    cases b x <;> rfl

theorem collectFromM_ok {α β : Type} (init : Issues β) (bad : α → Except Failure Bool) (b : α → Bool)
    (issue : α → β) (message : α → String) (l : List α) (h : ∀ x ∈ l, bad x = .ok (b x)) :
    collectFromM init bad issue message l = .ok (collectFrom init l b issue message) := by
  induction l generalizing init with
  | nil => rfl
  | cons x l ih =>
    have ih' := ih (h := fun y hy => h y (by simp [hy]))
    unfold collectFromM
    rw [h x (by simp)]
    cases hb : b x
    · simp only [ih', collectFrom, List.foldl_cons, hb]; simp
    · simp only [ih', collectFrom, List.foldl_cons, hb]; simp

theorem loopAnyM_error {α : Type} (cond : α → Except Failure Bool) (l : List α) (f : Failure)
    (h : loopAnyM cond l = .error f) : ∃ x ∈ l, cond x = .error f := by
  induction l with
  | nil => simp [loopAnyM] at h
  | cons x l ih =>
    unfold loopAnyM at h
    cases hx : cond x with
    | error f' =>
      rw [hx] at h
      simp only [Except.error.injEq] at h
      subst h
      exact ⟨x, by simp, hx⟩
    | ok b =>
      rw [hx] at h
      cases b
      · obtain ⟨y, hy, hc⟩ := ih h
        exact ⟨y, by simp [hy], hc⟩
      · simp at h

theorem collectFromM_error {α β : Type} (init : Issues β) (bad : α → Except Failure Bool)
    (issue : α → β) (message : α → String) (l : List α) (x : α) (hx : x ∈ l) (f : Failure)
    (h : bad x = .error f) : ∃ f', collectFromM init bad issue message l = .error f' := by
  induction l generalizing init with
  | nil => simp at hx
  | cons y l ih =>
    unfold collectFromM
    cases hy : bad y with
    | error f' => exact ⟨f', rfl⟩
    | ok b =>
      rcases List.mem_cons.1 hx with rfl | hx
      · rw [h] at hy; simp at hy
      · cases b
        · exact ih init hx
        · exact ih _ hx

/-- the vector of vectors filled by `pushBackAt` -/
theorem pushAll {α : Type} (n : Nat) (l : List α) (at' : α → Nat) (h : ∀ x ∈ l, at' x < n)
    (acc : List (List α)) (hacc : acc.length = n) :
    ∃ r, l.foldlM (fun acc x => pushBackAt acc (at' x) x) acc = .ok r ∧ r.length = n ∧
      ∀ i, i < n → r.getD i [] = acc.getD i [] ++ l.filter (fun x => decide (at' x = i)) := by
  induction l generalizing acc with
  | nil => exact ⟨acc, rfl, hacc, fun i _ => by simp⟩
  | cons x l ih =>
    have hx := h x (by simp)
    obtain ⟨r, h1, h2, h3⟩ := ih (fun y hy => h y (by simp [hy]))
      (acc.modify (at' x) (fun v => v ++ [x])) (by simp [hacc])
    refine ⟨r, ?_, h2, ?_⟩
    · rw [List.foldlM_cons]
      unfold pushBackAt
      rw [if_pos (by rw [hacc]; exact hx)]
      exact h1
    · intro i hi
      rw [h3 i hi]
      simp only [List.getD_eq_getElem?_getD, List.getElem?_modify]
      by_cases hxi : at' x = i
      · subst hxi
        have : acc[at' x]? = some (acc[at' x]'(by omega)) := List.getElem?_eq_getElem (by omega)
        simp [this]
      · simp [hxi]

theorem pushAll_error {α : Type} (n : Nat) (l : List α) (at' : α → Nat) (x : α) (hx : x ∈ l)
    (h : n ≤ at' x) (acc : List (List α)) (hacc : acc.length = n) :
    l.foldlM (fun acc x => pushBackAt acc (at' x) x) acc = .error .undefinedBehaviour := by
  induction l generalizing acc with
  | nil => simp at hx
  | cons y l ih =>
    rw [List.foldlM_cons]
    by_cases hy : at' y < n
    · unfold pushBackAt
      rw [if_pos (by rw [hacc]; exact hy)]
      rcases List.mem_cons.1 hx with rfl | hx
      · omega
      · exact ih hx _ (by simp [hacc])
    · unfold pushBackAt
      rw [if_neg (by rw [hacc]; exact hy)]
      rfl

end Inspector
