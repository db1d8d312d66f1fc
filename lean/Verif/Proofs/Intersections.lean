import Verif.Spec.Intersections
import Verif.Proofs.HashMap
import Verif.Proofs.Common
import Mathlib.Data.List.Nodup
import Mathlib.Data.List.Perm.Subperm
import Mathlib.Tactic.Ring
/-
Proofs for the intersection criteria.
-/
namespace Inspector
open Spec

/-! ### traversals -/

theorem emplace_fold (e : ElementPair → Bool) (st : ElementPair → Bool)
    (action : ElementPair → Except Failure (Bool × Bool)) (l acc : List ElementPair)
    (h : ∀ x ∈ l, action x = .ok (e x, st x)) :
    l.foldlM (fun intersecting x =>
      match action x with
      | .error f => .error f
      | .ok r => .ok (if r.1 then intersecting ++ [x] else intersecting)) acc
      = (.ok (acc ++ l.filter e) : Except Failure (List ElementPair)) := by
  induction l generalizing acc with
  | nil => simp; rfl
  | cons x l ih =>
    rw [List.foldlM_cons, h x (by simp)]
    show List.foldlM _ (if e x = true then acc ++ [x] else acc) l = _
    rw [ih _ (fun y hy => h y (by simp [hy]))]
    cases hx : e x <;> simp [hx]

theorem traversal_mem {traverse : Traversal} {candidates : List ElementPair} (ht : IsTraversal traverse candidates)
    (stop : ElementPair → Bool) (x : ElementPair) (hx : x ∈ traverse stop) : x ∈ candidates := by
  obtain ⟨⟨l, hp, hs⟩, _⟩ := ht stop
  exact hs.subset (hp.mem_iff.2 hx)

theorem runTraversal_ok {traverse : Traversal} {candidates : List ElementPair}
    (ht : IsTraversal traverse candidates) (e st : ElementPair → Bool)
    (action : ElementPair → Except Failure (Bool × Bool))
    (h : ∀ x ∈ candidates, action x = .ok (e x, st x)) (hst : ∀ x, st x = true → e x = true) :
    ∃ l, runTraversal traverse action = .ok l ∧ (l = [] ↔ ∀ x ∈ candidates, e x = false) ∧
      ((∀ x ∈ candidates, st x = false) → l.Perm (candidates.filter e)) := by
  let stop : ElementPair → Bool := fun x => match action x with
    | .ok r => r.2
    | .error _ => true
  have hmem := traversal_mem ht stop
  have hstop : ∀ x ∈ traverse stop, stop x = st x := by
    intro x hx
    simp only [stop, h x (hmem x hx)]
  refine ⟨(traverse stop).filter e, ?_, ?_, ?_⟩
  · have := emplace_fold e st action (traverse stop) [] (fun x hx => h x (hmem x hx))
    rw [List.nil_append] at this
    exact this
  · rw [List.filter_eq_nil_iff]
    constructor
    · intro hnil x hx
      have hall : ∀ y ∈ traverse stop, stop y = false := by
        intro y hy
        rw [hstop y hy]
        cases hs : st y with
        | false => rfl
        | true => exact absurd (hst y hs) (hnil y hy)
      have hperm := (ht stop).2 hall
      have := hnil x (hperm.mem_iff.2 hx)
      simpa using this
    · intro hall x hx
      rw [hall x (hmem x hx)]
      simp
  · intro hall
    have hperm := (ht stop).2 (fun y hy => by rw [hstop y hy]; exact hall y (hmem y hy))
    exact hperm.filter e

theorem foldl_add_pairs {α : Type} (l : List α) (msg : α → String) (issues : Issues α) :
    (l.foldl (fun issues p => issues.add p (msg p)) issues).issues = issues.issues ++ l := by
  induction l generalizing issues with
  | nil => simp
  | cons x l ih => rw [List.foldl_cons, ih]; simp [Issues.add]

/-! ### fans -/

theorem getD_mem (l : List Index) (i : Nat) (h : i < l.length) : l.getD i 0 ∈ l := by
  rw [List.getD_eq_getElem?_getD, List.getElem?_eq_getElem h]
  exact List.getElem_mem h

theorem fan_eq (polygon : List Index) (apex : Nat) (h3 : 3 ≤ polygon.length) (h256 : polygon.length ≤ 256) :
    polygonFanTriangles polygon apex = (List.range' 1 (polygon.length - 2)).map fun edge =>
      [polygon.getD apex 0, polygon.getD ((apex + edge) % polygon.length) 0,
        polygon.getD ((apex + edge + 1) % polygon.length) 0] := by
  unfold polygonFanTriangles
  have hmod : (polygon.length - 1) % 256 - 1 = polygon.length - 2 := by
    rw [Nat.mod_eq_of_lt (by omega)]; omega
  rw [hmod]
  apply List.map_congr_left
  intro edge _
  have hlt : (apex + edge) % polygon.length < polygon.length := Nat.mod_lt _ (by omega)
  have : (if ((apex + edge) % polygon.length + 1 == polygon.length) = true then 0
      else (apex + edge) % polygon.length + 1) = (apex + edge + 1) % polygon.length := by
    rw [Nat.add_mod (apex + edge) 1]
    generalize (apex + edge) % polygon.length = r at *
    by_cases h : r + 1 = polygon.length
    · rw [if_pos (by simpa using h), Nat.mod_eq_of_lt (show 1 < polygon.length by omega), h, Nat.mod_self]
    · rw [if_neg (by simpa using h), Nat.mod_eq_of_lt (show 1 < polygon.length by omega),
        Nat.mod_eq_of_lt (by omega)]
  simp only [this]

theorem fan_edges (polygon : List Index) (apex : Nat) (h3 : 3 ≤ polygon.length) (h256 : polygon.length ≤ 256)
    (ha : apex < polygon.length) (i : Nat) (hi : i < polygon.length) :
    ∃ t ∈ polygonFanTriangles polygon apex,
      EdgeOf (polygon.getD i 0) (polygon.getD ((i + 1) % polygon.length) 0) t := by
  rw [fan_eq polygon apex h3 h256]
  generalize hn : polygon.length = n at *
  by_cases h1 : i = apex
  · subst h1
    exact ⟨_, List.mem_map.2 ⟨1, by simp [List.mem_range'_1]; omega, rfl⟩, Or.inl rfl⟩
  · by_cases h2 : i = (apex + (n - 1)) % n
    · refine ⟨_, List.mem_map.2 ⟨n - 2, by simp [List.mem_range'_1]; omega, rfl⟩, Or.inr (Or.inr ?_)⟩
      simp only [List.getD_cons_succ, List.getD_cons_zero, Prod.mk.injEq]
      rw [show apex + (n - 2) + 1 = apex + (n - 1) by omega, ← h2]
      refine ⟨rfl, ?_⟩
      rw [h2, Nat.mod_add_mod, show apex + (n - 1) + 1 = apex + n by omega, Nat.add_mod_right,
        Nat.mod_eq_of_lt ha]
    · -- edge number of i counted from the apex
      obtain ⟨k, hk1, hk2, hk⟩ : ∃ k, 1 ≤ k ∧ k ≤ n - 2 ∧ (apex + k) % n = i := by
        by_cases hlt : apex < i
        · refine ⟨i - apex, by omega, ?_, ?_⟩
          · by_contra hc
            apply h2
            have : apex = 0 ∧ i = n - 1 := by omega
            rw [this.1, this.2, Nat.zero_add, Nat.mod_eq_of_lt (by omega)]
          · rw [show apex + (i - apex) = i by omega, Nat.mod_eq_of_lt hi]
        · refine ⟨i + n - apex, by omega, ?_, ?_⟩
          · by_contra hc
            apply h2
            have : apex = i + 1 := by omega
            rw [this, show i + 1 + (n - 1) = i + n by omega, Nat.add_mod_right, Nat.mod_eq_of_lt hi]
          · rw [show apex + (i + n - apex) = i + n by omega, Nat.add_mod_right, Nat.mod_eq_of_lt hi]
      refine ⟨_, List.mem_map.2 ⟨k, by simp [List.mem_range'_1]; omega, rfl⟩, Or.inr (Or.inl ?_)⟩
      simp only [List.getD_cons_succ, List.getD_cons_zero, Prod.mk.injEq]
      rw [hk]
      refine ⟨rfl, ?_⟩
      rw [← hk, Nat.mod_add_mod]

theorem fan_three (p : List Index) (h : p.length = 3) : polygonFanTriangles p 0 = [p] := by
  match p, h with
  | [a, b, c], _ => rfl

theorem range'_one_eq (n : Nat) : List.range' 1 n = (List.range n).map (· + 1) := by
  rw [List.range'_eq_map_range]
  exact List.map_congr_left fun a _ => Nat.add_comm ..

theorem fan_spec (polygon : List Index) (h256 : polygon.length ≤ 256) :
    polygonFanTriangles polygon 0 = fan polygon := by
  by_cases h3 : 3 ≤ polygon.length
  · rw [fan_eq polygon 0 h3 h256, range'_one_eq]
    unfold fan
    rw [List.map_map]
    apply List.map_congr_left
    intro k hk
    have hk := List.mem_range.1 hk
    have h1 : (0 + (k + 1)) % polygon.length = k + 1 := by rw [Nat.mod_eq_of_lt] <;> omega
    have h2 : (0 + (k + 1) + 1) % polygon.length = k + 2 := by rw [Nat.mod_eq_of_lt] <;> omega
    simp only [Function.comp_apply, h1, h2]
  · unfold polygonFanTriangles fan
    have h1 : (polygon.length - 1) % 256 - 1 = 0 := by omega
    have h2 : polygon.length - 2 = 0 := by omega
    rw [h1, h2]
    rfl

/-- telescoping sum of the fan -/
theorem fan_area_sum (p : Nat → Int × Int) (k : Nat) :
    ((List.range k).map fun e => cross (p 0) (p (e + 1)) + cross (p (e + 1)) (p (e + 2)) + cross (p (e + 2)) (p 0)).sum
      = cross (p 0) (p 1) + ((List.range k).map fun e => cross (p (e + 1)) (p (e + 2))).sum
        + cross (p (k + 1)) (p 0) := by
  induction k with
  | zero => simp [cross]; ring
  | succ k ih =>
    rw [List.range_succ, List.map_append, List.sum_append, ih, List.map_append, List.sum_append]
    simp only [List.map_cons, List.map_nil, List.sum_cons, List.sum_nil]
    have : cross (p 0) (p (k + 1)) = - cross (p (k + 1)) (p 0) := by simp [cross]; ring
    rw [this]
    ring

theorem fan_area (at' : Index → Int × Int) (polygon : List Index) (h3 : 3 ≤ polygon.length)
    (h256 : polygon.length ≤ 256) :
    ((polygonFanTriangles polygon 0).map (triangleArea at')).sum = polygonArea at' polygon := by
  rw [fan_eq polygon 0 h3 h256, List.map_map, range'_one_eq, List.map_map]
  let p : Nat → Int × Int := fun i => at' (polygon.getD (i % polygon.length) 0)
  have h1 : (((List.range (polygon.length - 2)).map
      ((triangleArea at' ∘ fun edge => [polygon.getD 0 0, polygon.getD ((0 + edge) % polygon.length) 0,
        polygon.getD ((0 + edge + 1) % polygon.length) 0]) ∘ (· + 1)))) =
      (List.range (polygon.length - 2)).map fun e =>
        cross (p 0) (p (e + 1)) + cross (p (e + 1)) (p (e + 2)) + cross (p (e + 2)) (p 0) := by
    apply List.map_congr_left
    intro e _
    simp only [Function.comp, triangleArea, List.getD_cons_succ, List.getD_cons_zero, Nat.zero_add, p,
      Nat.zero_mod, Nat.add_assoc]
  rw [h1, fan_area_sum]
  unfold polygonArea
  obtain ⟨k, hk⟩ : ∃ k, polygon.length = k + 2 := ⟨polygon.length - 2, by omega⟩
  have h2 : (List.range polygon.length).map (fun i =>
      cross (at' (polygon.getD i 0)) (at' (polygon.getD ((i + 1) % polygon.length) 0)))
      = (List.range (k + 2)).map fun i => cross (p i) (p (i + 1)) := by
    rw [hk]
    apply List.map_congr_left
    intro i hi
    have hi := List.mem_range.1 hi
    simp only [p]
    rw [hk, Nat.mod_eq_of_lt hi]
  rw [h2, List.range_succ, List.map_append, List.sum_append, List.range_succ_eq_map, List.map_cons, List.sum_cons,
    List.map_map]
  have hz : p (k + 1 + 1) = p 0 := by
    simp only [p]
    rw [show k + 1 + 1 = polygon.length by omega, Nat.mod_self, Nat.zero_mod]
  simp only [List.map_cons, List.map_nil, List.sum_cons, List.sum_nil, hz, Function.comp_def, hk,
    Nat.add_sub_cancel, Nat.succ_eq_add_one]
  ring

theorem polygonsIntersect_iff (detect : List Index → List Index → Except Failure Bool)
    (d : List Index → List Index → Bool) (p1 p2 : List Index)
    (hd : ∀ t1 ∈ polygonFanTriangles p1 0, ∀ t2 ∈ polygonFanTriangles p2 0, detect t1 t2 = .ok (d t1 t2)) :
    ∃ b, polygonsIntersect detect p1 p2 = .ok b ∧ (b = true ↔ 3 ≤ p1.length ∧ 3 ≤ p2.length ∧
      ∃ t1 ∈ polygonFanTriangles p1 0, ∃ t2 ∈ polygonFanTriangles p2 0, d t1 t2 = true) := by
  unfold polygonsIntersect
  by_cases h : p1.length < 3 ∨ p2.length < 3
  · refine ⟨false, by simp [h], ?_⟩
    simp only [Bool.false_eq_true, false_iff]
    rintro ⟨h1, h2, _⟩
    omega
  · have hf : (decide (p1.length < 3) || decide (p2.length < 3)) = false := by simpa using h
    rw [hf]
    simp only [Bool.false_eq_true, if_false]
    have h1 : 3 ≤ p1.length := by omega
    have h2 : 3 ≤ p2.length := by omega
    by_cases h33 : p1.length = 3 ∧ p2.length = 3
    · have e1 := fan_three p1 h33.1
      have e2 := fan_three p2 h33.2
      rw [if_pos (by simp [h33.1, h33.2])]
      refine ⟨d p1 p2, hd p1 (by simp [e1]) p2 (by simp [e2]), ?_⟩
      simp [e1, e2, h1, h2]
    · rw [if_neg (by simpa using h33)]
      have hinner : ∀ t1 ∈ polygonFanTriangles p1 0,
          loopAnyM (fun t2 => detect t1 t2) (polygonFanTriangles p2 0)
            = .ok (loopAny (fun t2 => d t1 t2) (polygonFanTriangles p2 0)) :=
        fun t1 ht1 => loopAnyM_ok _ _ _ (fun t2 ht2 => hd t1 ht1 t2 ht2)
      refine ⟨_, loopAnyM_ok _ _ _ hinner, ?_⟩
      rw [loopAny_iff]
      simp only [loopAny_iff, h1, h2, true_and]

/-! ### models -/

theorem flatten_fold {α β : Type} (f : α → Except Failure (List β)) (l : List α) (acc : List β)
    (g : α → List β) (h : ∀ x ∈ l, f x = .ok (g x)) :
    l.foldlM (fun acc x =>
      match f x with
      | .error e => .error e
      | .ok r => .ok (acc ++ r)) acc = (.ok (acc ++ l.flatMap g) : Except Failure (List β)) := by
  induction l generalizing acc with
  | nil => simp; rfl
  | cons x l ih =>
    rw [List.foldlM_cons, h x (by simp)]
    show List.foldlM _ (acc ++ g x) l = _
    rw [ih _ (fun y hy => h y (by simp [hy]))]
    simp

/-- the candidates of a task -/
theorem tasks_candidates {P : Type} (m : IntersectionModel P) (c : Candidates P) (ht : TreesOk m c) :
    List.Forall₂ (fun (task : (ModelSurface P × ModelSurface P) × Traversal)
        (x : (ModelSurface P × ModelSurface P) × List ElementPair) =>
      task.1 = x.1 ∧ IsTraversal task.2 x.2) (intersectionTasks m) (comparisons m c) := by
  unfold intersectionTasks comparisons
  apply List.rel_append
  · generalize (m.surfaces.filter fun s => s.active) = l
    induction l with
    | nil => exact .nil
    | cons s l ih => exact .cons ⟨rfl, ht.self s⟩ ih
  · generalize m.overlappingSurfaces = l
    induction l with
    | nil => exact .nil
    | cons s l ih => exact .cons ⟨rfl, ht.other s.1 s.2⟩ ih

/-- all the tasks, when each of them runs without failure and is related to its comparison -/
theorem modelFold {P : Type} (m : IntersectionModel P) (action : PolygonsAction)
    (tasks : List ((ModelSurface P × ModelSurface P) × Traversal))
    (comps : List ((ModelSurface P × ModelSurface P) × List ElementPair))
    (R : List (ComponentMeshElement × ComponentMeshElement) →
      ((ModelSurface P × ModelSurface P) × List ElementPair) → Prop)
    (h : List.Forall₂ (fun task x => ∃ r, runIntersectionTask m action task = .ok r ∧ R r x) tasks comps)
    (acc : List (ComponentMeshElement × ComponentMeshElement)) :
    ∃ rs, tasks.foldlM (fun component_intersections task =>
        match runIntersectionTask m action task with
        | .error f => .error f
        | .ok result => .ok (component_intersections ++ result)) acc
          = (.ok (acc ++ rs.flatten) : Except Failure (List (ComponentMeshElement × ComponentMeshElement)))
      ∧ List.Forall₂ R rs comps := by
  induction h generalizing acc with
  | nil => exact ⟨[], by simp; rfl, .nil⟩
  | cons h _ ih =>
    obtain ⟨r, hr, hR⟩ := h
    obtain ⟨rs, h1, h2⟩ := ih (acc ++ r)
    refine ⟨r :: rs, ?_, .cons hR h2⟩
    rw [List.foldlM_cons, hr]
    show List.foldlM _ (acc ++ r) _ = _
    rw [h1]
    simp

theorem runTask_ok {P : Type} (m : IntersectionModel P) (action : PolygonsAction)
    (task : (ModelSurface P × ModelSurface P) × Traversal)
    (x : (ModelSurface P × ModelSurface P) × List ElementPair)
    (h1 : task.1 = x.1) (h2 : IsTraversal task.2 x.2) (e st : ElementPair → Bool)
    (ha : ∀ p ∈ x.2, action (m.intersect x.1.1 x.1.2) (x.1.1.id == x.1.2.id) p = .ok (e p, st p))
    (hst : ∀ p, st p = true → e p = true) :
    ∃ r, runIntersectionTask m action task = .ok r ∧
      (r = [] ↔ (x.2.filter e).map (polygonsOf x.1.1 x.1.2) = []) ∧
      ((∀ p ∈ x.2, st p = false) → r.Perm ((x.2.filter e).map (polygonsOf x.1.1 x.1.2))) := by
  obtain ⟨l, hl, hnil, hperm⟩ := runTraversal_ok h2 e st
    (action (m.intersect x.1.1 x.1.2) (x.1.1.id == x.1.2.id)) ha hst
  refine ⟨l.map (polygonsOf x.1.1 x.1.2), ?_, ?_, fun hs => (hperm hs).map _⟩
  · unfold runIntersectionTask
    rw [h1, hl]
    rfl
  · rw [List.map_eq_nil_iff, hnil, List.map_eq_nil_iff, List.filter_eq_nil_iff]
    simp

theorem noEmpty_loop {P : Type} (m : IntersectionModel P) :
    loopAny (fun surface : ModelSurface P => surface.nbPolygons == 0) (m.surfaces.filter fun s => s.active) = false
      ↔ NoEmptySurface m := by
  rw [← Bool.not_eq_true, loopAny_iff]
  unfold NoEmptySurface
  constructor
  · intro h s hs ha hz
    exact h ⟨s, List.mem_filter.2 ⟨hs, ha⟩, by simpa using hz⟩
  · rintro h ⟨s, hs, hz⟩
    rw [List.mem_filter] at hs
    exact h s hs.1 hs.2 (by simpa using hz)

theorem forall₂_imp_mem {α β : Type} {R S : α → β → Prop} {l : List α} {l' : List β}
    (h : List.Forall₂ R l l') (hi : ∀ a b, b ∈ l' → R a b → S a b) : List.Forall₂ S l l' := by
  induction h with
  | nil => exact .nil
  | cons h _ ih =>
    exact .cons (hi _ _ (by simp) h) (ih (fun a b hb hr => hi a b (by simp [hb]) hr))

/-- running an action on all the comparisons -/
theorem modelPolygons_ok {P : Type} (m : IntersectionModel P) (c : Candidates P) (ht : TreesOk m c)
    (hne : NoEmptySurface m) (action : PolygonsAction)
    (e st : (ModelSurface P × ModelSurface P) → ElementPair → Bool)
    (ha : ∀ x ∈ comparisons m c, ∀ p ∈ x.2,
      action (m.intersect x.1.1 x.1.2) (x.1.1.id == x.1.2.id) p = .ok (e x.1 p, st x.1 p))
    (hst : ∀ x p, st x p = true → e x p = true) :
    ∃ l, intersectingModelPolygons m action = .ok l ∧
      (l = [] ↔ (comparisons m c).flatMap (fun x => (x.2.filter (e x.1)).map (polygonsOf x.1.1 x.1.2)) = []) ∧
      ((∀ x p, st x p = false) →
        l.Perm ((comparisons m c).flatMap (fun x => (x.2.filter (e x.1)).map (polygonsOf x.1.1 x.1.2)))) := by
  have hf := forall₂_imp_mem (tasks_candidates m c ht) (fun task x hx hr =>
    runTask_ok m action task x hr.1 hr.2 (e x.1) (st x.1) (ha x hx) (hst x.1))
  obtain ⟨rs, h1, h2⟩ := modelFold m action _ _ _ hf []
  refine ⟨rs.flatten, ?_, ?_, ?_⟩
  · unfold intersectingModelPolygons
    rw [(noEmpty_loop m).2 hne]
    rw [List.nil_append] at h1
    exact h1
  · clear h1 hf
    generalize comparisons m c = comps at h2
    induction h2 with
    | nil => simp
    | cons h _ ih =>
      rw [List.flatten_cons, List.flatMap_cons, List.append_eq_nil_iff, List.append_eq_nil_iff, h.1, ih]
  · intro hs
    clear h1 hf
    generalize comparisons m c = comps at h2
    induction h2 with
    | nil => simp
    | cons h _ ih =>
      rw [List.flatten_cons, List.flatMap_cons]
      exact (h.2 (fun p _ => hs _ p)).append ih

theorem emptySurface_none {P : Type} (m : IntersectionModel P) (h : ¬ NoEmptySurface m) (action : PolygonsAction) :
    intersectingModelPolygons m action = .ok [] := by
  unfold intersectingModelPolygons
  have : loopAny (fun surface : ModelSurface P => surface.nbPolygons == 0)
      (m.surfaces.filter fun s => s.active) = true := by
    cases hl : loopAny (fun surface : ModelSurface P => surface.nbPolygons == 0)
      (m.surfaces.filter fun s => s.active) with
    | true => rfl
    | false => exact absurd ((noEmpty_loop m).1 hl) h
  rw [this]
  rfl

/-! ### third points -/

theorem thirdPoint_ok (t : List Index) (a b : Index) (h : ∃ v ∈ t, v ≠ a ∧ v ≠ b) :
    ∃ v, thirdPointIndex t a b = .ok v ∧ v ∈ t ∧ v ≠ a ∧ v ≠ b := by
  unfold thirdPointIndex
  cases hf : t.find? fun vertex_id => !(vertex_id == a || vertex_id == b) with
  | none =>
    obtain ⟨v, hv, h1, h2⟩ := h
    have := List.find?_eq_none.1 hf v hv
    simp [h1, h2] at this
  | some v =>
    have h1 := List.find?_some hf
    simp only [Bool.not_eq_true', Bool.or_eq_false_iff, beq_eq_false_iff_ne] at h1
    exact ⟨v, rfl, List.mem_of_find?_eq_some hf, h1⟩

/-- every triangle that shares exactly two vertices has a third point on the first side -/
theorem third_first {P : Type} (s1 s2 : ModelSurface P) (t1 t2 : List Index) (h3 : t1.length = 3)
    (hc : (trianglesCommonVertices s1 s2 t1 t2).length = 2) :
    ∃ v ∈ t1, v ≠ ((trianglesCommonVertices s1 s2 t1 t2).getD 0 (0, 0)).1 ∧
      v ≠ ((trianglesCommonVertices s1 s2 t1 t2).getD 1 (0, 0)).1 := by
  -- a vertex without match
  have hex : ∃ v ∈ t1, t2.find? (fun v2_id => s1.uniqueVertex v == s2.uniqueVertex v2_id) = none := by
    by_contra hno
    have hall : ∀ v ∈ t1, ∃ w, t2.find? (fun v2_id => s1.uniqueVertex v == s2.uniqueVertex v2_id) = some w := by
      intro v hv
      cases hf : t2.find? (fun v2_id => s1.uniqueVertex v == s2.uniqueVertex v2_id) with
      | none => exact absurd ⟨v, hv, hf⟩ hno
      | some w => exact ⟨w, rfl⟩
    have : (trianglesCommonVertices s1 s2 t1 t2).length = t1.length := by
      unfold trianglesCommonVertices
      clear h3 hc hno
      induction t1 with
      | nil => rfl
      | cons v t ih =>
        obtain ⟨w, hw⟩ := hall v (by simp)
        rw [List.filterMap_cons, hw]
        simp [ih (fun x hx => hall x (by simp [hx]))]
    omega
  obtain ⟨v, hv, hn⟩ := hex
  have hmatched : ∀ i, i < 2 →
      ∃ w, t2.find? (fun v2_id => s1.uniqueVertex ((trianglesCommonVertices s1 s2 t1 t2).getD i (0, 0)).1
        == s2.uniqueVertex v2_id) = some w := by
    intro i hi
    have hmem : (trianglesCommonVertices s1 s2 t1 t2).getD i (0, 0) ∈ trianglesCommonVertices s1 s2 t1 t2 := by
      rw [List.getD_eq_getElem?_getD, List.getElem?_eq_getElem (by omega)]
      exact List.getElem_mem _
    generalize (trianglesCommonVertices s1 s2 t1 t2).getD i (0, 0) = c at hmem ⊢
    unfold trianglesCommonVertices at hmem
    rw [List.mem_filterMap] at hmem
    obtain ⟨v1, _, h⟩ := hmem
    rw [Option.map_eq_some_iff] at h
    obtain ⟨w, hw, rfl⟩ := h
    exact ⟨w, hw⟩
  refine ⟨v, hv, ?_, ?_⟩
  · rintro rfl
    obtain ⟨w, hw⟩ := hmatched 0 (by omega)
    rw [hn] at hw
    cases hw
  · rintro rfl
    obtain ⟨w, hw⟩ := hmatched 1 (by omega)
    rw [hn] at hw
    cases hw

theorem fan_length3 (polygon : List Index) (t : List Index) (ht : t ∈ polygonFanTriangles polygon 0) :
    t.length = 3 := by
  unfold polygonFanTriangles at ht
  obtain ⟨e, _, rfl⟩ := List.mem_map.1 ht
  rfl

theorem fan_nodup (polygon : List Index) (h3 : 3 ≤ polygon.length) (h256 : polygon.length ≤ 256)
    (hn : polygon.Nodup) (t : List Index) (ht : t ∈ polygonFanTriangles polygon 0) : t.Nodup := by
  rw [fan_eq polygon 0 h3 h256] at ht
  obtain ⟨e, he, rfl⟩ := List.mem_map.1 ht
  rw [List.mem_range'_1] at he
  have h1 : (0 + e) % polygon.length = e := by rw [Nat.zero_add, Nat.mod_eq_of_lt (by omega)]
  have h2 : (0 + e + 1) % polygon.length = e + 1 := by rw [Nat.zero_add, Nat.mod_eq_of_lt (by omega)]
  rw [h1, h2]
  have hinj : ∀ i j, i < polygon.length → j < polygon.length → i ≠ j → polygon.getD i 0 ≠ polygon.getD j 0 := by
    intro i j hi hj hij heq
    rw [List.getD_eq_getElem?_getD, List.getElem?_eq_getElem hi, List.getD_eq_getElem?_getD,
      List.getElem?_eq_getElem hj] at heq
    exact hij ((hn.getElem_inj_iff).1 heq)
  simp only [List.nodup_cons, List.mem_cons, List.not_mem_nil, or_false, not_or, not_false_eq_true,
    List.nodup_nil, and_true]
  exact ⟨⟨hinj _ _ (by omega) (by omega) (by omega), hinj _ _ (by omega) (by omega) (by omega)⟩,
    hinj _ _ (by omega) (by omega) (by omega)⟩

theorem brepTest_ok {P : Type} (g : Geometry P) (s1 s2 : ModelSurface P) (t1 t2 : List Index) (h3 : t1.length = 3) :
    ∃ b, trianglesIntersectionDetection (brepTrianglesIntersect g) s1 s2 t1 t2 = .ok b := by
  unfold trianglesIntersectionDetection
  simp only
  by_cases hc3 : (trianglesCommonVertices s1 s2 t1 t2).length = 3
  · rw [if_pos (by simpa using hc3)]; exact ⟨true, rfl⟩
  · rw [if_neg (by simpa using hc3)]
    unfold brepTrianglesIntersect
    simp only
    by_cases hc : (trianglesCommonVertices s1 s2 t1 t2).length = 2
    · rw [if_pos (by simpa using hc)]
      obtain ⟨v, hv, _⟩ := thirdPoint_ok _ _ _ (third_first s1 s2 t1 t2 h3 hc)
      rw [hv]
      exact ⟨_, rfl⟩
    · rw [if_neg (by simpa using hc)]
      exact ⟨_, rfl⟩

theorem three_distinct (t : List Index) (h3 : t.length = 3) (hn : t.Nodup) (a b : Index) :
    ∃ v ∈ t, v ≠ a ∧ v ≠ b := by
  by_contra hno
  have hs : t ⊆ [a, b] := by
    intro v hv
    by_contra hc
    simp only [List.mem_cons, List.not_mem_nil, or_false, not_or] at hc
    exact hno ⟨v, hv, hc⟩
  have := (hn.subperm hs).length_le
  simp at this
  omega

theorem common_mem {P : Type} (s1 s2 : ModelSurface P) (t1 t2 : List Index) (c : Index × Index)
    (h : c ∈ trianglesCommonVertices s1 s2 t1 t2) :
    c.1 ∈ t1 ∧ c.2 ∈ t2 ∧ s1.uniqueVertex c.1 = s2.uniqueVertex c.2 := by
  unfold trianglesCommonVertices at h
  obtain ⟨v, hv, he⟩ := List.mem_filterMap.1 h
  cases hf : t2.find? (fun v2_id => s1.uniqueVertex v == s2.uniqueVertex v2_id) with
  | none => rw [hf] at he; cases he
  | some w =>
    rw [hf] at he
    injection he with he
    subst he
    have := List.find?_some hf
    exact ⟨hv, List.mem_of_find?_eq_some hf, by simpa using this⟩

theorem getD_mem_pair (l : List (Index × Index)) (i : Nat) (h : i < l.length) : l.getD i (0, 0) ∈ l := by
  rw [List.getD_eq_getElem?_getD, List.getElem?_eq_getElem h]
  exact List.getElem_mem h

theorem sectionTest_ok {P : Type} (g : Geometry P) (s1 s2 : ModelSurface P) (t1 t2 : List Index) (h3 : t1.length = 3)
    (h3' : t2.length = 3) (hn : t2.Nodup) (hv : ∀ v ∈ t2, v < s1.nbVertices) :
    ∃ b, trianglesIntersectionDetection (sectionTrianglesIntersect g) s1 s2 t1 t2 = .ok b := by
  unfold trianglesIntersectionDetection
  simp only
  by_cases hc3 : (trianglesCommonVertices s1 s2 t1 t2).length = 3
  · rw [if_pos (by simpa using hc3)]; exact ⟨true, rfl⟩
  · rw [if_neg (by simpa using hc3)]
    unfold sectionTrianglesIntersect
    simp only
    by_cases hc : (trianglesCommonVertices s1 s2 t1 t2).length = 2
    · rw [if_pos (by simpa using hc)]
      have hb := hv _ (common_mem s1 s2 t1 t2 _ (getD_mem_pair _ 1 (by rw [hc]; decide))).2.1
      rw [if_neg (by simpa using hb)]
      obtain ⟨v, hv, _⟩ := thirdPoint_ok _ _ _ (third_first s1 s2 t1 t2 h3 hc)
      obtain ⟨w, hw, _⟩ := thirdPoint_ok _ _ _ (three_distinct t2 h3' hn
        ((trianglesCommonVertices s1 s2 t1 t2).getD 0 (0, 0)).2 ((trianglesCommonVertices s1 s2 t1 t2).getD 1 (0, 0)).2)
      rw [hv, hw]
      simp only
      split
      · exact ⟨_, rfl⟩
      · exact ⟨_, rfl⟩
    · rw [if_neg (by simpa using hc)]
      exact ⟨_, rfl⟩

theorem loopAnyM_pairs {α β : Type} (f : α → β → Except Failure Bool) (l : List α) (l' : List β) :
    loopAnyM (fun a => loopAnyM (fun b => f a b) l') l =
      loopAnyM (fun t : α × β => f t.1 t.2) (l.flatMap fun a => l'.map fun b => (a, b)) := by
  induction l with
  | nil => rfl
  | cons a l ih =>
    rw [List.flatMap_cons, loopAnyM, ih]
    generalize (l.flatMap fun a => l'.map fun b => (a, b)) = rest
    clear ih
    induction l' with
    | nil => rfl
    | cons b l' ih' =>
      rw [List.map_cons, List.cons_append]
      conv_rhs => rw [loopAnyM]
      conv_lhs => rw [loopAnyM]
      rcases h : f a b with e | (_ | _)
      · rfl
      · simpa using ih'
      · rfl

/-- the test of two polygons tests their triangles until one of the tests says yes or raises -/
theorem intersect_eq {P : Type} (m : IntersectionModel P) (s1 s2 : ModelSurface P) (p : ElementPair)
    (hs1 : SmallPolygons s1) (hs2 : SmallPolygons s2) :
    m.intersect s1 s2 p = loopAnyM (fun t => triangleTest m s1 s2 t.1 t.2) (trianglePairs s1 s2 p) := by
  unfold IntersectionModel.intersect polygonsIntersect trianglePairs
  rw [← loopAnyM_pairs, fan_spec _ (hs1 p.1), fan_spec _ (hs2 p.2)]
  generalize h1 : s1.polygonVertices p.1 = v1
  generalize h2 : s2.polygonVertices p.2 = v2
  have hnil : ∀ v : List Index, v.length < 3 → fan v = [] := by
    intro v hv
    unfold fan
    rw [show v.length - 2 = 0 by omega]
    rfl
  by_cases h : v1.length < 3 ∨ v2.length < 3
  · rw [if_pos (by simpa using h)]
    rcases h with h | h
    · rw [hnil _ h]; rfl
    · rw [hnil _ h]
      induction fan v1 with
      | nil => rfl
      | cons t l ih => rw [loopAnyM]; exact ih
  · rw [if_neg (by simpa using h)]
    split
    · rename_i h33
      rw [Bool.and_eq_true, beq_iff_eq, beq_iff_eq] at h33
      have e1 := fan_three v1 h33.1
      have e2 := fan_three v2 h33.2
      rw [fan_spec _ (by omega)] at e1 e2
      rw [e1, e2]
      simp only [loopAnyM, triangleTest]
      rcases ht : trianglesIntersectionDetection m.trianglesIntersect s1 s2 v1 v2 with e | (_ | _) <;> rfl
    · rfl

theorem loopAnyM_false {α : Type} (cond : α → Except Failure Bool) (l : List α)
    (h : loopAnyM cond l = .ok false) : ∀ x ∈ l, cond x = .ok false := by
  induction l with
  | nil => simp
  | cons y l ih =>
    rw [loopAnyM] at h
    rcases hy : cond y with e | (_ | _)
    · rw [hy] at h; cases h
    · rw [hy] at h
      intro x hx
      rcases List.mem_cons.1 hx with rfl | hx
      · exact hy
      · exact ih h x hx
    · rw [hy] at h; cases h

theorem loopAnyM_true {α : Type} (cond : α → Except Failure Bool) (l : List α)
    (h : loopAnyM cond l = .ok true) : ∃ x ∈ l, cond x = .ok true := by
  induction l with
  | nil => cases h
  | cons y l ih =>
    rw [loopAnyM] at h
    rcases hy : cond y with e | (_ | _)
    · rw [hy] at h; cases h
    · rw [hy] at h
      obtain ⟨x, hx, h'⟩ := ih h
      exact ⟨x, by simp [hx], h'⟩
    · exact ⟨y, by simp, hy⟩

theorem loopAnyM_raises {α : Type} (cond : α → Except Failure Bool) (l : List α) (f : Failure) :
    loopAnyM cond l = .error f ↔
      ∃ before x after, l = before ++ x :: after ∧ (∀ y ∈ before, cond y = .ok false) ∧ cond x = .error f := by
  induction l with
  | nil =>
    simp only [loopAnyM, reduceCtorEq, false_iff]
    rintro ⟨pre, x, post, h, _⟩
    cases pre <;> cases h
  | cons y l ih =>
    rw [loopAnyM]
    rcases hy : cond y with e | (_ | _)
    · constructor
      · intro h
        have h : e = f := Except.error.inj h
        exact ⟨[], y, l, rfl, by simp, by rw [hy, h]⟩
      · rintro ⟨pre, x, post, h, hp, hx⟩
        cases pre with
        | nil => injection h with h1 h2; subst h1; rw [hy] at hx; exact hx
        | cons z pre => injection h with h1 h2; subst h1; rw [hp y (by simp)] at hy; cases hy
    · simp only
      rw [ih]
      constructor
      · rintro ⟨pre, x, post, h, hp, hx⟩
        refine ⟨y :: pre, x, post, by rw [h]; rfl, ?_, hx⟩
        intro z hz
        rcases List.mem_cons.1 hz with rfl | hz
        · exact hy
        · exact hp z hz
      · rintro ⟨pre, x, post, h, hp, hx⟩
        cases pre with
        | nil => injection h with h1 h2; subst h1; rw [hy] at hx; cases hx
        | cons z pre =>
          injection h with h1 h2
          exact ⟨pre, x, post, h2, fun w hw => hp w (by simp [hw]), hx⟩
    · simp only [reduceCtorEq, false_iff]
      rintro ⟨pre, x, post, h, hp, hx⟩
      cases pre with
      | nil => injection h with h1 h2; subst h1; rw [hy] at hx; cases hx
      | cons z pre => injection h with h1 h2; subst h1; rw [hp y (by simp)] at hy; cases hy

theorem mem_trianglePairs {P : Type} (s1 s2 : ModelSurface P) (p : ElementPair) (t : List Index × List Index) :
    t ∈ trianglePairs s1 s2 p ↔ t.1 ∈ fan (s1.polygonVertices p.1) ∧ t.2 ∈ fan (s2.polygonVertices p.2) := by
  unfold trianglePairs
  rw [List.mem_flatMap]
  constructor
  · rintro ⟨t1, h1, h2⟩
    obtain ⟨t2, h3, rfl⟩ := List.mem_map.1 h2
    exact ⟨h1, h3⟩
  · rintro ⟨h1, h2⟩
    exact ⟨t.1, h1, List.mem_map.2 ⟨t.2, h2, rfl⟩⟩

/-- the test of two distinct polygons raises exactly as said, and otherwise it answers rightly -/
theorem intersect_raises {P : Type} (m : IntersectionModel P) (s1 s2 : ModelSurface P) (p : ElementPair)
    (hs1 : SmallPolygons s1) (hs2 : SmallPolygons s2) (hd : ¬ (s1.id = s2.id ∧ p.1 = p.2)) (f : Failure) :
    m.intersect s1 s2 p = .error f ↔ PolygonsRaise m s1 s2 p f := by
  rw [intersect_eq m s1 s2 p hs1 hs2, loopAnyM_raises]
  exact ⟨fun h => ⟨hd, h⟩, fun h => h.2⟩

theorem intersect_ok {P : Type} (m : IntersectionModel P) (s1 s2 : ModelSurface P) (p : ElementPair)
    (hs1 : SmallPolygons s1) (hs2 : SmallPolygons s2) (hd : ¬ (s1.id = s2.id ∧ p.1 = p.2))
    (h : ∀ f, ¬ PolygonsRaise m s1 s2 p f) :
    m.intersect s1 s2 p = .ok (decide (PolygonsMeet m s1 s2 p)) := by
  cases hi : m.intersect s1 s2 p with
  | error f => exact absurd ((intersect_raises m s1 s2 p hs1 hs2 hd f).1 hi) (h f)
  | ok b =>
    rw [intersect_eq m s1 s2 p hs1 hs2] at hi
    congr 1
    cases b with
    | true =>
      obtain ⟨t, ht, hb⟩ := loopAnyM_true _ _ hi
      rw [mem_trianglePairs] at ht
      exact (decide_eq_true ⟨hd, t.1, ht.1, t.2, ht.2, hb⟩).symm
    | false =>
      refine (decide_eq_false ?_).symm
      rintro ⟨_, t1, h1, t2, h2, ht⟩
      have := loopAnyM_false _ _ hi (t1, t2) ((mem_trianglePairs s1 s2 p _).2 ⟨h1, h2⟩)
      rw [show triangleTest m s1 s2 t1 t2 = .ok false from this] at ht
      cases ht

/-- no test of triangles raises: that of polygons neither -/
theorem testsOk_of_triangles {P : Type} (m : IntersectionModel P) (c : Candidates P)
    (h : ∀ x ∈ comparisons m c, ∀ p ∈ x.2, ∀ t1 ∈ fan (x.1.1.polygonVertices p.1),
      ∀ t2 ∈ fan (x.1.2.polygonVertices p.2), ∃ b, triangleTest m x.1.1 x.1.2 t1 t2 = .ok b) : TestsOk m c := by
  rintro x hx p hp f ⟨_, before, t, after, h1, _, h2⟩
  have ht := (mem_trianglePairs x.1.1 x.1.2 p t).1 (by rw [h1]; simp)
  obtain ⟨b, hb⟩ := h x hx p hp t.1 ht.1 t.2 ht.2
  rw [h2] at hb
  cases hb

theorem comparisons_small {P : Type} (m : IntersectionModel P) (c : Candidates P) (h : AllSmall m)
    (x : (ModelSurface P × ModelSurface P) × List ElementPair) (hx : x ∈ comparisons m c) :
    SmallPolygons x.1.1 ∧ SmallPolygons x.1.2 := by
  unfold comparisons at hx
  rcases List.mem_append.1 hx with hx | hx
  · obtain ⟨s, hs, rfl⟩ := List.mem_map.1 hx
    exact ⟨h.1 s (List.mem_filter.1 hs).1, h.1 s (List.mem_filter.1 hs).1⟩
  · obtain ⟨ss, hs, rfl⟩ := List.mem_map.1 hx
    exact h.2 ss hs

theorem decide_meet {P : Type} (m : IntersectionModel P) (s1 s2 : ModelSurface P) (p : ElementPair)
    (h : ¬ (s1.id = s2.id ∧ p.1 = p.2) → m.intersect s1 s2 p = .ok (decide (PolygonsMeet m s1 s2 p))) :
    oneModelAction (m.intersect s1 s2) (s1.id == s2.id) p
      = .ok (decide (PolygonsMeet m s1 s2 p), decide (PolygonsMeet m s1 s2 p)) ∧
    allModelAction (m.intersect s1 s2) (s1.id == s2.id) p = .ok (decide (PolygonsMeet m s1 s2 p), false) ∧
    autoModelAction (m.intersect s1 s2) (s1.id == s2.id) p
      = .ok (decide (s1.id = s2.id ∧ PolygonsMeet m s1 s2 p), false) := by
  by_cases hd : s1.id = s2.id ∧ p.1 = p.2
  · have hno : ¬ PolygonsMeet m s1 s2 p := fun hm => hm.1 hd
    have e1 : decide (PolygonsMeet m s1 s2 p) = false := decide_eq_false hno
    have e2 : decide (s1.id = s2.id ∧ PolygonsMeet m s1 s2 p) = false := decide_eq_false fun hm => hno hm.2
    rw [e1, e2]
    unfold oneModelAction allModelAction autoModelAction
    simp [hd.1, hd.2]
  · have e2 : decide (s1.id = s2.id ∧ PolygonsMeet m s1 s2 p)
        = ((s1.id == s2.id) && decide (PolygonsMeet m s1 s2 p)) := by
      rw [Bool.eq_iff_iff]; simp
    have hc : (s1.id == s2.id && p.1 == p.2) = false := by
      rw [Bool.eq_false_iff, ne_eq, Bool.and_eq_true, beq_iff_eq, beq_iff_eq]; exact hd
    rw [e2]
    unfold oneModelAction allModelAction autoModelAction
    rw [hc, h hd]
    cases (s1.id == s2.id) <;> cases decide (PolygonsMeet m s1 s2 p) <;> simp

/-! ### actions -/

theorem loopAny_two {α : Type} (f : α → Bool) (a b : α) :
    loopAny f [a, b] = true ↔ ∃ v, (v = a ∨ v = b) ∧ f v = true := by
  rw [loopAny_iff]; simp

theorem edge2D_iff {P : Type} (m : SurfaceCurve P) (t e : Index) :
    edgeIntersectsTriangle2D m (t, e) = true ↔ SegmentMeetsTriangle2D m t e := by
  unfold edgeIntersectsTriangle2D SegmentMeetsTriangle2D
  simp only
  split
  · rename_i h
    rw [loopAny_two] at h
    simp only [beq_iff_eq] at h
    exact iff_of_true rfl (Or.inl h)
  · rename_i h
    rw [loopAny_two] at h
    simp only [beq_iff_eq] at h
    rw [loopAny_iff]
    simp only [or_iff_right h, List.mem_range, beq_iff_eq]
    apply exists_congr
    intro k
    apply and_congr_right
    intro _
    split
    · simp_all
    · split
      · simp_all
      · simp_all

theorem edge3D_iff {P : Type} (m : SurfaceCurve P) (t e : Index) :
    edgeIntersectsTriangle3D m (t, e) = true ↔ SegmentMeetsTriangle3D m t e := by
  unfold edgeIntersectsTriangle3D SegmentMeetsTriangle3D
  simp only
  generalize m.segmentTriangle (m.segment e) (m.triangle t) = r
  split
  · rename_i h
    rw [loopAny_two] at h
    simp only [beq_iff_eq] at h
    exact iff_of_true rfl (Or.inl h)
  · rename_i h
    rw [loopAny_two] at h
    simp only [beq_iff_eq] at h
    rw [or_iff_right h]
    split
    · rename_i h1
      simp only [Bool.or_eq_true, beq_iff_eq] at h1
      constructor
      · intro h; cases h
      · rintro ⟨h2, h3, _⟩; rcases h1 with h1 | h1 <;> contradiction
    · rename_i h1
      simp only [Bool.or_eq_true, beq_iff_eq, not_or] at h1
      split
      · rename_i h2
        simp only [beq_iff_eq] at h2
        exact iff_of_true rfl ⟨h1.1, h1.2, Or.inl h2⟩
      · rename_i h2
        simp only [beq_iff_eq] at h2
        split
        · rename_i h3
          refine iff_of_true rfl ⟨h1.1, h1.2, Or.inr (Or.inl ?_)⟩
          simpa [or_assoc] using h3
        · rename_i h3
          have h3' : r.2 ∉ [Position.inside, .edge0, .edge1, .edge2] := by
            simpa [or_assoc] using h3
          simp only [h1.1, h1.2, h2, h3', ne_eq, not_false_eq_true, true_and, false_or]
          split
          · rename_i h4
            simp only [beq_iff_eq] at h4
            rw [loopAny_two]
            simp [h4, and_assoc]
          · rename_i h4
            simp only [beq_iff_eq] at h4
            simp [h4]

theorem polygonEdge_iff {P : Type} (m : IntersectionModel P) (s : ModelSurface P) (l : ModelLine P)
    (p : ElementPair) (hs : SmallPolygons s) : polygonEdgeIntersect m.geometry s l p = true ↔ EdgeMeetsPolygon m s l p := by
  unfold polygonEdgeIntersect EdgeMeetsPolygon meshTriangle
  rw [loopAny_iff, fan_spec _ (hs _)]
  apply exists_congr
  intro t
  apply and_congr_right
  intro _
  simp only [Bool.or_eq_true, beq_iff_eq, List.mem_cons, List.not_mem_nil, or_false]
  constructor
  · rintro (((((((h | h) | h) | h) | h) | h) | h) | h)
    · exact ⟨_, Or.inl rfl, Or.inl h⟩
    · exact ⟨_, Or.inl rfl, Or.inr h⟩
    · exact ⟨_, Or.inr (Or.inl rfl), Or.inl h⟩
    · exact ⟨_, Or.inr (Or.inr (Or.inl rfl)), Or.inl h⟩
    · exact ⟨_, Or.inr (Or.inl rfl), Or.inr h⟩
    · exact ⟨_, Or.inr (Or.inr (Or.inl rfl)), Or.inr h⟩
    · exact ⟨_, Or.inr (Or.inr (Or.inr rfl)), Or.inr h⟩
    · exact ⟨_, Or.inr (Or.inr (Or.inr rfl)), Or.inl h⟩
  · rintro ⟨x, hx, h⟩
    rcases hx with rfl | rfl | rfl | rfl <;> rcases h with h | h <;> simp only [h, true_or, or_true]

/-! ### lines and surfaces -/

theorem noEmptyLine_loop {P : Type} (m : IntersectionModel P) :
    loopAny (fun line : ModelLine P => line.nbEdges == 0) (m.lines.filter fun l => l.active) = false
      ↔ NoEmptyLine m := by
  rw [← Bool.not_eq_true, loopAny_iff]
  unfold NoEmptyLine
  constructor
  · intro h l hl ha hz
    exact h ⟨l, List.mem_filter.2 ⟨hl, ha⟩, by simpa using hz⟩
  · rintro h ⟨l, hl, hz⟩
    exact h l (List.mem_filter.1 hl).1 (List.mem_filter.1 hl).2 (by simpa using hz)

theorem perm_foldlM {α β : Type} (f : List β → α → Except Failure (List β)) (g : α → List β) (l : List α)
    (h : ∀ x ∈ l, ∀ acc, ∃ r, f acc x = .ok (acc ++ r) ∧ r.Perm (g x)) (acc : List β) :
    ∃ r, l.foldlM f acc = .ok (acc ++ r) ∧ r.Perm (l.flatMap g) := by
  induction l generalizing acc with
  | nil => exact ⟨[], by simp [pure, Except.pure], List.Perm.refl _⟩
  | cons x l ih =>
    obtain ⟨r1, h1, h2⟩ := h x (by simp) acc
    obtain ⟨r2, h3, h4⟩ := ih (fun y hy => h y (List.mem_cons_of_mem _ hy)) (acc ++ r1)
    refine ⟨r1 ++ r2, ?_, ?_⟩
    · rw [List.foldlM_cons, h1]
      show List.foldlM f (acc ++ r1) l = _
      rw [h3, List.append_assoc]
    · rw [List.flatMap_cons]
      exact h2.append h4

theorem linesSurfaces_ok {P : Type} (m : IntersectionModel P) (c : Candidates P) (ht : TreesOk m c)
    (hsmall : AllSmall m) (hs : NoEmptySurface m) (hl : NoEmptyLine m) :
    ∃ l, intersectingLinesSurfaces m = .ok l ∧ l.Perm (meetingEdges m c) := by
  unfold intersectingLinesSurfaces
  rw [(noEmpty_loop m).2 hs, (noEmptyLine_loop m).2 hl]
  simp only [Bool.false_eq_true, if_false]
  have := perm_foldlM (fun found surface =>
    (m.lines.filter fun l => l.active).foldlM (fun found line =>
      if line.nbEmbeddingBlocks == 0 then .ok found
      else
        match runTraversal (m.lineTraversal surface line)
            (lineSurfaceAction (polygonEdgeIntersect m.geometry surface line)) with
        | .error f => .error f
        | .ok pairs => .ok (found ++ pairs.map fun p =>
            (⟨⟨.surface, surface.id⟩, p.1⟩, ⟨⟨.line, line.id⟩, p.2⟩))) found)
    (fun s : ModelSurface P => (m.lines.filter fun l => l.active).flatMap fun l =>
      if l.nbEmbeddingBlocks == 0 then [] else
      ((c.line s l).filter fun p => decide (EdgeMeetsPolygon m s l p)).map fun p =>
        ((⟨⟨.surface, s.id⟩, p.1⟩ : ComponentMeshElement), (⟨⟨.line, l.id⟩, p.2⟩ : ComponentMeshElement)))
    (m.surfaces.filter fun s => s.active) (fun s hsm acc => by
      apply perm_foldlM
      intro l _ acc
      by_cases hz : l.nbEmbeddingBlocks = 0
      · exact ⟨[], by simp [hz], by simp [hz]⟩
      · obtain ⟨r, hr, _, hp⟩ := runTraversal_ok (ht.line s l)
          (fun p => polygonEdgeIntersect m.geometry s l p) (fun _ => false)
          (lineSurfaceAction (polygonEdgeIntersect m.geometry s l))
          (fun x _ => by
            unfold lineSurfaceAction
            cases polygonEdgeIntersect m.geometry s l x <;> rfl) (fun _ h => by cases h)
        refine ⟨_, by rw [if_neg (by simpa using hz), hr], ?_⟩
        rw [if_neg (by simpa using hz)]
        have := hp (fun _ _ => rfl)
        refine (this.map _).trans ?_
        apply List.Perm.of_eq
        congr 1
        apply List.filter_congr
        intro p _
        rw [Bool.eq_iff_iff, polygonEdge_iff m s l p (hsmall.1 s (List.mem_filter.1 hsm).1)]
        simp) []
  obtain ⟨r, h1, h2⟩ := this
  rw [List.nil_append] at h1
  refine ⟨r, h1, h2.trans (List.Perm.of_eq ?_)⟩
  unfold meetingEdges
  congr 1
  funext s
  generalize m.lines = lines
  induction lines with
  | nil => rfl
  | cons l lines ih =>
    by_cases ha : l.active = true
    · by_cases hz : l.nbEmbeddingBlocks = 0
      · simp [ha, hz] at ih ⊢; exact ih
      · simp [ha, hz] at ih ⊢; exact ih
    · simp [ha] at ih ⊢; exact ih

end Inspector
