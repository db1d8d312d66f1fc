import Verif.Spec.Triangles
import Verif.Proofs.Intersections
/-
Proofs for C83 and C84.
-/
namespace Inspector
open Spec
variable {P : Type}

theorem common_none (s1 s2 : ModelSurface P) (t1 t2 : List Index)
    (h : ∀ v ∈ t1, ∀ w ∈ t2, ¬ Shared s1 s2 v w) : trianglesCommonVertices s1 s2 t1 t2 = [] := by
  rw [List.eq_nil_iff_forall_not_mem]
  intro c hc
  obtain ⟨h1, h2, h3⟩ := common_mem s1 s2 t1 t2 c hc
  exact h _ h1 _ h2 h3

theorem find_shared (s1 s2 : ModelSurface P) (t2 : List Index) (v w : Index) (hw : w ∈ t2)
    (hs : Shared s1 s2 v w) (h : ∀ x ∈ t2, Shared s1 s2 v x → x = w) :
    t2.find? (fun v2_id => s1.uniqueVertex v == s2.uniqueVertex v2_id) = some w := by
  cases hf : t2.find? (fun v2_id => s1.uniqueVertex v == s2.uniqueVertex v2_id) with
  | none =>
    have := List.find?_eq_none.1 hf w hw
    exact absurd hs (by simpa [Shared] using this)
  | some x =>
    have h1 := List.mem_of_find?_eq_some hf
    have h2 := List.find?_some hf
    rw [h x h1 (by simpa [Shared] using h2)]

theorem find_notShared (s1 s2 : ModelSurface P) (t2 : List Index) (v : Index)
    (h : ∀ x ∈ t2, ¬ Shared s1 s2 v x) :
    t2.find? (fun v2_id => s1.uniqueVertex v == s2.uniqueVertex v2_id) = none := by
  rw [List.find?_eq_none]
  intro x hx
  simpa [Shared] using h x hx

theorem common_one (s1 s2 : ModelSurface P) (t1 t2 : List Index) (hn : t1.Nodup) (c : Index × Index)
    (h : OneShared s1 s2 t1 t2 c) : trianglesCommonVertices s1 s2 t1 t2 = [c] := by
  obtain ⟨h1, h2, h3, h4⟩ := h
  unfold trianglesCommonVertices
  induction t1 with
  | nil => cases h1
  | cons v t1 ih =>
    rw [List.nodup_cons] at hn
    by_cases hv : v = c.1
    · have hrest : t1.filterMap (fun v1_id => (t2.find? fun v2_id => s1.uniqueVertex v1_id == s2.uniqueVertex v2_id).map
          fun v2_id => (v1_id, v2_id)) = [] := by
        rw [List.filterMap_eq_nil_iff]
        intro x hx
        rw [find_notShared s1 s2 t2 x, Option.map_none]
        intro w hw hs
        have := (h4 x (List.mem_cons_of_mem _ hx) w hw hs).1
        rw [this, ← hv] at hx
        exact hn.1 hx
      rw [List.filterMap_cons_some (b := c), hrest]
      rw [hv, find_shared s1 s2 t2 c.1 c.2 h2 h3 (fun x hx hs => (h4 c.1 h1 x hx hs).2)]
      rfl
    · rw [List.filterMap_cons_none]
      · exact ih hn.2 ((List.mem_cons.1 h1).resolve_left (fun e => hv e.symm))
          (fun x hx => h4 x (List.mem_cons_of_mem _ hx))
      · rw [find_notShared s1 s2 t2 v, Option.map_none]
        intro w hw hs
        exact hv (h4 v (by simp) w hw hs).1

theorem range3 (p : Nat → Prop) : (∃ x ∈ List.range 3, p x) ↔ p 0 ∨ p 1 ∨ p 2 := by
  simp only [List.mem_range]
  constructor
  · rintro ⟨x, hx, hp⟩
    obtain rfl | rfl | rfl : x = 0 ∨ x = 1 ∨ x = 2 := by omega
    · exact .inl hp
    · exact .inr (.inl hp)
    · exact .inr (.inr hp)
  · rintro (h | h | h)
    · exact ⟨0, by decide, h⟩
    · exact ⟨1, by decide, h⟩
    · exact ⟨2, by decide, h⟩

theorem edgesOf3 (a b c : Index) (p : Index × Index → Prop) :
    (∃ e ∈ edgesOf [a, b, c], p e) ↔ p (a, b) ∨ p (b, c) ∨ p (c, a) := by
  simp [edgesOf]

/-- the body of the loops of a Section -/
theorem sectionEdges_apart (g : Geometry P) (s1 s2 : ModelSurface P) (e1 e2 : Index × Index) :
    ((if (g.segmentSegment (segmentOf s1 e1) (segmentOf s2 e2)).1 == .outside ||
        (g.segmentSegment (segmentOf s1 e1) (segmentOf s2 e2)).1 == .parallel then false else true) = true) ↔
      EdgesCross g s1 s2 e1 e2 := by
  unfold EdgesCross
  simp

theorem getD_two (l : List Index) (a b : Index) (i : Nat) (x : Index) (hl : l = [a, b]) (hi : i < 2) :
    (l.getD i 0 != x) = false ↔ [a, b][i]? = some x := by
  subst hl
  obtain rfl | rfl : i = 0 ∨ i = 1 := by omega
  · simp
  · simp

theorem getD_three (a b c : Index) (i : Nat) (x : Index) (hi : i < 3) :
    ([a, b, c].getD i 0 != x) = false ↔ [a, b, c][i]? = some x := by
  obtain rfl | rfl | rfl : i = 0 ∨ i = 1 ∨ i = 2 := by omega
  all_goals simp

theorem found_iff (g : Geometry P) (a b : Index) (t : List Index) (found : Position × Position) (c : Index × Index)
    (l1 : Nat → Index) (l2 : Nat → Index)
    (h1 : ∀ i, g.positionToIndex found.1 = some i → ((l1 i != c.1) = false ↔ [a, b][i]? = some c.1))
    (h2 : ∀ i, g.positionToIndex found.2 = some i → ((l2 i != c.2) = false ↔ t[i]? = some c.2)) :
    (match g.positionToIndex found.1, g.positionToIndex found.2 with
      | some i1, some i2 => l1 i1 != c.1 || l2 i2 != c.2
      | _, _ => true) = true ↔ ¬ FoundAt g [a, b] t found c := by
  unfold FoundAt
  cases e1 : g.positionToIndex found.1 with
  | none => simp
  | some i =>
    cases e2 : g.positionToIndex found.2 with
    | none => simp
    | some j =>
      have k1 := h1 i e1
      have k2 := h2 j e2
      simp only
      constructor
      · rintro hb ⟨i', j', hi, hj, x, y⟩
        injection hi with hi; injection hj with hj
        subst hi; subst hj
        rw [k1.2 x, k2.2 y] at hb
        cases hb
      · intro hn
        by_contra hb
        simp only [Bool.not_eq_true, Bool.or_eq_false_iff] at hb
        exact hn ⟨i, j, rfl, rfl, k1.1 hb.1, k2.1 hb.2⟩

/-- a Section, no common vertex -/
theorem section_none (g : Geometry P) (s1 s2 : ModelSurface P) (a b c d e f : Index) :
    ∃ r, sectionTrianglesIntersect g s1 s2 [a, b, c] [d, e, f] [] = .ok r ∧
      (r = true ↔ ∃ e1 ∈ edgesOf [a, b, c], ∃ e2 ∈ edgesOf [d, e, f], EdgesCross g s1 s2 e1 e2) := by
  refine ⟨_, rfl, ?_⟩
  rw [loopAny_iff, range3, edgesOf3]
  simp only [loopAny_iff, range3, edgesOf3]
  have key : ∀ i j, sectionEdgesIntersect g s1 s2 [a, b, c] [d, e, f] [] i j = true ↔
      EdgesCross g s1 s2 ([a, b, c].getD i 0, [a, b, c].getD (if i == 2 then 0 else i + 1) 0)
        ([d, e, f].getD j 0, [d, e, f].getD (if j == 2 then 0 else j + 1) 0) := by
    intro i j
    rw [← sectionEdges_apart]
    rfl
  rw [key, key, key, key, key, key, key, key, key]
  rfl

theorem section_apart (g : Geometry P) (s1 s2 : ModelSurface P) (a b c d e f : Index)
    (h : ∀ v ∈ [a, b, c], ∀ w ∈ [d, e, f], ¬ Shared s1 s2 v w) :
    ∃ r, trianglesIntersectionDetection (sectionTrianglesIntersect g) s1 s2 [a, b, c] [d, e, f] = .ok r ∧
      (r = true ↔ ∃ e1 ∈ edgesOf [a, b, c], ∃ e2 ∈ edgesOf [d, e, f], EdgesCross g s1 s2 e1 e2) := by
  unfold trianglesIntersectionDetection
  rw [common_none s1 s2 _ _ h]
  exact section_none g s1 s2 a b c d e f

/-- a Section, one common vertex -/
theorem section_single (g : Geometry P) (hg : PositionsOk g) (s1 s2 : ModelSurface P) (a b c d e f : Index)
    (x : Index × Index) :
    ∃ r, sectionTrianglesIntersect g s1 s2 [a, b, c] [d, e, f] [x] = .ok r ∧
      (r = true ↔ ∃ e1 ∈ edgesOf [a, b, c], ∃ e2 ∈ edgesOf [d, e, f], EdgesCross g s1 s2 e1 e2 ∧
        ¬ FoundAt g [e1.1, e1.2] [e2.1, e2.2] (g.segmentSegment (segmentOf s1 e1) (segmentOf s2 e2)) x) := by
  refine ⟨_, rfl, ?_⟩
  rw [loopAny_iff, range3, edgesOf3]
  simp only [loopAny_iff, range3, edgesOf3]
  have key : ∀ i j, sectionEdgesIntersect g s1 s2 [a, b, c] [d, e, f] [x] i j = true ↔
      EdgesCross g s1 s2 ([a, b, c].getD i 0, [a, b, c].getD (if i == 2 then 0 else i + 1) 0)
        ([d, e, f].getD j 0, [d, e, f].getD (if j == 2 then 0 else j + 1) 0) ∧
      ¬ FoundAt g [[a, b, c].getD i 0, [a, b, c].getD (if i == 2 then 0 else i + 1) 0]
        [[d, e, f].getD j 0, [d, e, f].getD (if j == 2 then 0 else j + 1) 0]
        (g.segmentSegment (segmentOf s1 ([a, b, c].getD i 0, [a, b, c].getD (if i == 2 then 0 else i + 1) 0))
          (segmentOf s2 ([d, e, f].getD j 0, [d, e, f].getD (if j == 2 then 0 else j + 1) 0))) x := by
    intro i j
    generalize h1 : [a, b, c].getD i 0 = p1
    generalize h2 : [a, b, c].getD (if i == 2 then 0 else i + 1) 0 = p2
    generalize h3 : [d, e, f].getD j 0 = q1
    generalize h4 : [d, e, f].getD (if j == 2 then 0 else j + 1) 0 = q2
    unfold sectionEdgesIntersect
    simp only [h1, h2, h3, h4]
    have hc : EdgesCross g s1 s2 (p1, p2) (q1, q2) ↔
        ¬ (((g.segmentSegment (s1.point p1, s1.point p2) (s2.point q1, s2.point q2)).1 == .outside ||
          (g.segmentSegment (s1.point p1, s1.point p2) (s2.point q1, s2.point q2)).1 == .parallel) = true) := by
      unfold EdgesCross segmentOf
      simp
    rw [hc]
    simp only [List.getD_cons_zero, List.getD_cons_succ]
    split
    · next hx => simp [hx]
    · next hx =>
      rw [if_neg (by simp), and_iff_right hx]
      exact found_iff g p1 p2 [q1, q2] _ x (fun i => [p1, p2].getD i 0) (fun i => [q1, q2].getD i 0)
        (fun i hi => getD_two [p1, p2] p1 p2 i x.1 rfl (hg.segment _ _ i hi))
        (fun i hi => getD_two [q1, q2] q1 q2 i x.2 rfl (hg.otherSegment _ _ i hi))
  rw [key, key, key, key, key, key, key, key, key]
  rfl

theorem section_one (g : Geometry P) (hg : PositionsOk g) (s1 s2 : ModelSurface P) (a b c d e f : Index)
    (hn : [a, b, c].Nodup) (x : Index × Index) (h : OneShared s1 s2 [a, b, c] [d, e, f] x) :
    ∃ r, trianglesIntersectionDetection (sectionTrianglesIntersect g) s1 s2 [a, b, c] [d, e, f] = .ok r ∧
      (r = true ↔ ∃ e1 ∈ edgesOf [a, b, c], ∃ e2 ∈ edgesOf [d, e, f], EdgesCross g s1 s2 e1 e2 ∧
        ¬ FoundAt g [e1.1, e1.2] [e2.1, e2.2] (g.segmentSegment (segmentOf s1 e1) (segmentOf s2 e2)) x) := by
  unfold trianglesIntersectionDetection
  rw [common_one s1 s2 _ _ hn x h]
  exact section_single g hg s1 s2 a b c d e f x

theorem triangleOf_iff (s : ModelSurface P) (a b c : Index) (p : P × P × P → Prop) :
    (∃ x, TriangleOf s [a, b, c] x ∧ p x) ↔ p (meshTriangle s [a, b, c]) := by
  constructor
  · rintro ⟨x, ⟨a', b', c', h, rfl⟩, hp⟩
    injection h with h1 h; injection h with h2 h; injection h with h3 _
    subst h1; subst h2; subst h3
    exact hp
  · intro hp
    exact ⟨_, ⟨a, b, c, rfl, rfl⟩, hp⟩

/-- the edges of a triangle against another one, no common vertex -/
theorem other_apart (g : Geometry P) (s1 s2 : ModelSurface P) (a b c d e f : Index) (own theirs : Index × Index → Index) :
    triangleIntersectsOther g (meshTriangle s1 [a, b, c]) (meshTriangle s2 [d, e, f]) [a, b, c] [d, e, f] [] own theirs
      = true ↔ ∃ e1 ∈ edgesOf [a, b, c], EdgeMeets g s1 s2 e1 [d, e, f] := by
  unfold triangleIntersectsOther EdgeMeets
  rw [loopAny_iff, range3, edgesOf3]
  simp only [triangleOf_iff]
  simp [meshTriangle, segmentOf]

/-- the edges of a triangle against another one, one common vertex -/
theorem other_one (g : Geometry P) (hg : PositionsOk g) (s1 s2 : ModelSurface P) (a b c d e f : Index)
    (x : Index × Index) (own theirs : Index × Index → Index) :
    triangleIntersectsOther g (meshTriangle s1 [a, b, c]) (meshTriangle s2 [d, e, f]) [a, b, c] [d, e, f] [x] own theirs
      = true ↔ ∃ e1 ∈ edgesOf [a, b, c], EdgeMeetsElsewhere g s1 s2 e1 [d, e, f] (own x, theirs x) := by
  have key : ∀ (p1 p2 : Index) (l1 : Nat → Index), (∀ i, i < 2 → l1 i = [p1, p2].getD i 0) →
      ((if (g.segmentTriangle (s1.point p1, s1.point p2) (meshTriangle s2 [d, e, f])).1 != .outside then
        (match g.positionToIndex (g.segmentTriangle (s1.point p1, s1.point p2) (meshTriangle s2 [d, e, f])).1,
            g.positionToIndex (g.segmentTriangle (s1.point p1, s1.point p2) (meshTriangle s2 [d, e, f])).2 with
          | some i1, some i2 => l1 i1 != own x || [d, e, f].getD i2 0 != theirs x
          | _, _ => true)
        else false) = true ↔ EdgeMeetsElsewhere g s1 s2 (p1, p2) [d, e, f] (own x, theirs x)) := by
    intro p1 p2 l1 hl
    unfold EdgeMeetsElsewhere
    rw [triangleOf_iff s2 d e f]
    have hf := found_iff g p1 p2 [d, e, f] (g.segmentTriangle (s1.point p1, s1.point p2) (meshTriangle s2 [d, e, f]))
      (own x, theirs x) l1 (fun i => [d, e, f].getD i 0)
      (fun i hi => by rw [hl i (hg.edge _ _ i hi)]; exact getD_two [p1, p2] p1 p2 i (own x) rfl (hg.edge _ _ i hi))
      (fun i hi => getD_three d e f i (theirs x) (hg.triangle _ _ i hi))
    split
    · next hx =>
      rw [hf]
      simp only [bne_iff_ne] at hx
      exact ⟨fun h => ⟨hx, h⟩, fun h => h.2⟩
    · next hx =>
      simp only [bne_iff_ne, ne_eq, not_not] at hx
      constructor
      · intro h; cases h
      · intro h; exact absurd hx h.1
  unfold triangleIntersectsOther
  rw [loopAny_iff, range3, edgesOf3]
  rw [← key a b (fun i => [a, b, c].getD (if i == 0 then 0 else 1) 0) (by
      intro i hi; obtain rfl | rfl : i = 0 ∨ i = 1 := by omega
      all_goals rfl),
    ← key b c (fun i => [a, b, c].getD (if i == 0 then 1 else 2) 0) (by
      intro i hi; obtain rfl | rfl : i = 0 ∨ i = 1 := by omega
      all_goals rfl),
    ← key c a (fun i => [a, b, c].getD (if i == 0 then 2 else 0) 0) (by
      intro i hi; obtain rfl | rfl : i = 0 ∨ i = 1 := by omega
      all_goals rfl)]
  rfl

/-- a BRep, no common vertex -/
theorem brep_apart (g : Geometry P) (s1 s2 : ModelSurface P) (a b c d e f : Index)
    (h : ∀ v ∈ [a, b, c], ∀ w ∈ [d, e, f], ¬ Shared s1 s2 v w) :
    ∃ r, trianglesIntersectionDetection (brepTrianglesIntersect g) s1 s2 [a, b, c] [d, e, f] = .ok r ∧
      (r = true ↔ (∃ e1 ∈ edgesOf [a, b, c], EdgeMeets g s1 s2 e1 [d, e, f]) ∨
        ∃ e2 ∈ edgesOf [d, e, f], EdgeMeets g s2 s1 e2 [a, b, c]) := by
  unfold trianglesIntersectionDetection
  rw [common_none s1 s2 _ _ h]
  refine ⟨_, rfl, ?_⟩
  rw [Bool.or_eq_true, other_apart, other_apart]

/-- a BRep, one common vertex -/
theorem brep_one (g : Geometry P) (hg : PositionsOk g) (s1 s2 : ModelSurface P) (a b c d e f : Index)
    (hn : [a, b, c].Nodup) (x : Index × Index) (h : OneShared s1 s2 [a, b, c] [d, e, f] x) :
    ∃ r, trianglesIntersectionDetection (brepTrianglesIntersect g) s1 s2 [a, b, c] [d, e, f] = .ok r ∧
      (r = true ↔ (∃ e1 ∈ edgesOf [a, b, c], EdgeMeetsElsewhere g s1 s2 e1 [d, e, f] x) ∨
        ∃ e2 ∈ edgesOf [d, e, f], EdgeMeetsElsewhere g s2 s1 e2 [a, b, c] (x.2, x.1)) := by
  unfold trianglesIntersectionDetection
  rw [common_one s1 s2 _ _ hn x h]
  refine ⟨_, rfl, ?_⟩
  rw [Bool.or_eq_true, other_one g hg, other_one g hg]

theorem common_fst (s1 s2 : ModelSurface P) (t1 t2 : List Index) :
    (trianglesCommonVertices s1 s2 t1 t2).map Prod.fst =
      t1.filter fun v => t2.any fun w => s1.uniqueVertex v == s2.uniqueVertex w := by
  unfold trianglesCommonVertices
  induction t1 with
  | nil => rfl
  | cons v t1 ih =>
    rw [List.filterMap_cons, List.filter_cons]
    cases hf : t2.find? (fun v2_id => s1.uniqueVertex v == s2.uniqueVertex v2_id) with
    | none =>
      have : (t2.any fun w => s1.uniqueVertex v == s2.uniqueVertex w) = false := by
        rw [List.any_eq_false]
        exact fun w hw => List.find?_eq_none.1 hf w hw
      rw [this]
      simpa using ih
    | some w =>
      have : (t2.any fun w => s1.uniqueVertex v == s2.uniqueVertex w) = true := by
        rw [List.any_eq_true]
        exact ⟨w, List.mem_of_find?_eq_some hf, by have := List.find?_some hf; exact this⟩
      rw [this]
      simpa using ih

/-- a BRep, two common vertices -/
theorem brep_two (g : Geometry P) (s1 s2 : ModelSurface P) (t1 : List Index) (d e f : Index) (v0 v1 x : Index)
    (h : TwoShared s1 s2 t1 [d, e, f] v0 v1 x) :
    ∃ r, trianglesIntersectionDetection (brepTrianglesIntersect g) s1 s2 t1 [d, e, f] = .ok r ∧
      (r = true ↔ ∃ y, TriangleOf s2 [d, e, f] y ∧
        ((g.segmentTriangle (segmentOf s1 (v0, x)) y).1 = .parallel ∨
          (g.segmentTriangle (segmentOf s1 (v1, x)) y).1 = .parallel)) := by
  obtain ⟨hp, hn, h0, h1, hx⟩ := h
  have hn' := hp.nodup_iff.1 hn
  simp only [List.nodup_cons, List.mem_cons, List.not_mem_nil, or_false, not_or, List.nodup_nil, not_false_eq_true,
    and_true] at hn'
  obtain ⟨⟨n01, n0x⟩, n1x⟩ := hn'
  have hfst := common_fst s1 s2 t1 [d, e, f]
  generalize htr : [d, e, f] = t2 at *
  have a0 : (t2.any fun w => s1.uniqueVertex v0 == s2.uniqueVertex w) = true := by
    obtain ⟨w, hw, hs⟩ := h0
    exact List.any_eq_true.2 ⟨w, hw, by simpa [Shared] using hs⟩
  have a1 : (t2.any fun w => s1.uniqueVertex v1 == s2.uniqueVertex w) = true := by
    obtain ⟨w, hw, hs⟩ := h1
    exact List.any_eq_true.2 ⟨w, hw, by simpa [Shared] using hs⟩
  have ax : (t2.any fun w => s1.uniqueVertex x == s2.uniqueVertex w) = false := by
    rw [List.any_eq_false]
    intro w hw
    simpa [Shared] using hx w hw
  have hpf := hp.filter fun v => t2.any fun w => s1.uniqueVertex v == s2.uniqueVertex w
  rw [← hfst] at hpf
  simp only [List.filter_cons, a0, a1, ax, if_true, List.filter_nil, Bool.false_eq_true, if_false] at hpf
  -- the common vertices
  obtain ⟨c0, c1, hc, hcc⟩ : ∃ c0 c1, trianglesCommonVertices s1 s2 t1 t2 = [c0, c1] ∧
      ((c0.1 = v0 ∧ c1.1 = v1) ∨ (c0.1 = v1 ∧ c1.1 = v0)) := by
    have hl := hpf.length_eq
    rw [List.length_map] at hl
    obtain ⟨c0, c1, hc⟩ := List.length_eq_two.1 hl
    refine ⟨c0, c1, hc, ?_⟩
    rw [hc] at hpf
    simp only [List.map_cons, List.map_nil] at hpf
    have m0 : c0.1 ∈ [v0, v1] := hpf.subset (by simp)
    have m1 : c1.1 ∈ [v0, v1] := hpf.subset (by simp)
    have hnn : [c0.1, c1.1].Nodup := hpf.nodup_iff.2 (by simp [n01])
    simp only [List.nodup_cons, List.mem_cons, List.not_mem_nil, or_false, List.nodup_nil, not_false_eq_true, and_true]
      at hnn m0 m1
    rcases m0 with m0 | m0 <;> rcases m1 with m1 | m1
    · exact absurd (m0.trans m1.symm) hnn
    · exact .inl ⟨m0, m1⟩
    · exact .inr ⟨m0, m1⟩
    · exact absurd (m0.trans m1.symm) hnn
  have hthird : thirdPointIndex t1 c0.1 c1.1 = .ok x := by
    have hex : ∃ v ∈ t1, v ≠ c0.1 ∧ v ≠ c1.1 := by
      refine ⟨x, hp.mem_iff.2 (by simp), ?_⟩
      rcases hcc with ⟨e0, e1⟩ | ⟨e0, e1⟩ <;> rw [e0, e1]
      · exact ⟨fun h => n0x h.symm, fun h => n1x h.symm⟩
      · exact ⟨fun h => n1x h.symm, fun h => n0x h.symm⟩
    obtain ⟨v, hv, hm, hv0, hv1⟩ := thirdPoint_ok t1 c0.1 c1.1 hex
    rw [hv]
    have hm := hp.mem_iff.1 hm
    simp only [List.mem_cons, List.not_mem_nil, or_false] at hm
    rcases hcc with ⟨e0, e1⟩ | ⟨e0, e1⟩ <;> rw [e0] at hv0 <;> rw [e1] at hv1
    · rw [(hm.resolve_left hv0).resolve_left hv1]
    · rw [(hm.resolve_left hv1).resolve_left hv0]
  unfold trianglesIntersectionDetection
  simp only
  rw [hc, if_neg (by simp)]
  unfold brepTrianglesIntersect
  simp only
  rw [if_pos (by simp)]
  simp only [List.getD_cons_zero, List.getD_cons_succ]
  rw [hthird]
  refine ⟨_, rfl, ?_⟩
  subst htr
  rw [triangleOf_iff, Bool.or_eq_true, beq_iff_eq, beq_iff_eq]
  unfold segmentOf
  rcases hcc with ⟨e0, e1⟩ | ⟨e0, e1⟩ <;> rw [e0, e1]
  exact or_comm

end Inspector
