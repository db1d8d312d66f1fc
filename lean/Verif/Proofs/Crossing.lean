import Mathlib.Tactic.Ring
import Mathlib.Tactic.Linarith
import Verif.Spec.Crossing
import Verif.Proofs.Plane
import Verif.Proofs.Space
/-
Proofs for C114 and C115: segments crossing triangles.
-/
namespace Inspector.Crossing
open Spec
variable {K : Type} [Field K] [LinearOrder K] [IsStrictOrderedRing K]

/-- what the 2D test of a segment and a triangle looks at -/
def Seen (ss : (K × K) × (K × K) → (K × K) × (K × K) → Position × Position) (s : (K × K) × (K × K))
    (T : (K × K) × (K × K) × (K × K)) : Prop :=
  (InsideTriangle T s.1 ∨ InsideTriangle T s.2) ∨
  ∃ e ∈ sides T, (ss s e).1 = .inside ∨ (ss s e).2 = .inside

theorem side_ends {T : (K × K) × (K × K) × (K × K)} {e : (K × K) × (K × K)} (he : e ∈ sides T) {x : K × K}
    (hx : x = e.1 ∨ x = e.2) : x = T.1 ∨ x = T.2.1 ∨ x = T.2.2 := by
  simp only [sides, List.mem_cons, List.not_mem_nil, or_false] at he
  rcases he with rfl | rfl | rfl <;> rcases hx with h | h <;> simp only at h <;> simp [h]

theorem vertex_end {T : (K × K) × (K × K) × (K × K)} (hT : ¬ Flat T) {e : (K × K) × (K × K)} (he : e ∈ sides T) {x : K × K}
    (hx : OnSegment e x) (hv : x = T.1 ∨ x = T.2.1 ∨ x = T.2.2) : x = e.1 ∨ x = e.2 :=
  (Plane.side_vertices hT (a := e.1) (b := e.2) (Or.inl he)).2.2.2 x hx hv

variable {pt : K × K → (K × K) × (K × K) × (K × K) → Position}
  {ss : (K × K) × (K × K) → (K × K) × (K × K) → Position × Position}

/-- a point of the segment and of an edge which is not an end of both is seen -/
theorem seen_border (hg : ExactCrossing pt ss) {T : (K × K) × (K × K) × (K × K)} (hT : ¬ Flat T) {s : (K × K) × (K × K)}
    {e : (K × K) × (K × K)} (he : e ∈ sides T) (hl : ¬ OnLine s e) {x : K × K} (h1 : OnSegment s x) (h2 : OnSegment e x)
    (hne : ¬ ((x = s.1 ∨ x = s.2) ∧ (x = T.1 ∨ x = T.2.1 ∨ x = T.2.2))) : Seen ss s T := by
  refine Or.inr ⟨e, he, ?_⟩
  rw [hg.first s e x hl h1 h2, hg.second s e x hl h1 h2]
  by_cases h : x = s.1 ∨ x = s.2
  · exact Or.inr fun h' => hne ⟨h, side_ends he h'⟩
  · exact Or.inl h

theorem seen_exit (hg : ExactCrossing pt ss) {T : (K × K) × (K × K) × (K × K)} (hT : ¬ Flat T) {a b : K × K}
    (hab : a ≠ b) (hl : ∀ e ∈ sides T, ¬ OnLine (a, b) e) {x : K × K} (h1 : OnSegment (a, b) x) (h2 : InTriangle T x)
    (ha : x ≠ a) (hb : x ≠ b) (hout : ¬ InTriangle T a) : Seen ss (a, b) T := by
  obtain ⟨y, hy, hyT, e, he, hye⟩ := Plane.exit hT x a h2 hout
  obtain ⟨t, t0, t1, hx, hx'⟩ := h1
  obtain ⟨u, u0, u1, ux, uy⟩ := hy
  have ht1 : t ≠ 1 := by
    rintro rfl
    exact hb (by ext <;> simp only at * <;> linarith)
  have htu : t * (1 - u) ≤ t := by nlinarith
  have hys : y.1 = a.1 + (t * (1 - u)) * (b.1 - a.1) ∧ y.2 = a.2 + (t * (1 - u)) * (b.2 - a.2) := by
    simp only at hx hx' ux uy
    exact ⟨by rw [ux, hx]; ring, by rw [uy, hx']; ring⟩
  have hon : OnSegment (a, b) y := ⟨t * (1 - u), mul_nonneg t0 (by linarith), by linarith, hys.1, hys.2⟩
  refine seen_border hg hT he (hl e he) hon hye fun h => ?_
  rcases h.1 with h | h
  · simp only at h
    exact hout (h ▸ hyT)
  · simp only at h
    have hlt : 1 - t * (1 - u) ≠ 0 := by
      have : t < 1 := lt_of_le_of_ne t1 ht1
      intro h0
      linarith
    apply hab
    rw [h] at hys
    ext
    · exact (sub_eq_zero.1 ((mul_eq_zero.1 (by linear_combination hys.1 :
        (1 - t * (1 - u)) * (b.1 - a.1) = 0)).resolve_left hlt)).symm
    · exact (sub_eq_zero.1 ((mul_eq_zero.1 (by linear_combination hys.2 :
        (1 - t * (1 - u)) * (b.2 - a.2) = 0)).resolve_left hlt)).symm

theorem seen_swap (hg : ExactCrossing pt ss) {T : (K × K) × (K × K) × (K × K)} {a b : K × K}
    (hl : ∀ e ∈ sides T, ¬ OnLine (a, b) e) (hl' : ∀ e ∈ sides T, ¬ OnLine (b, a) e) (h : Seen ss (b, a) T) :
    Seen ss (a, b) T := by
  rcases h with h | ⟨e, he, h⟩
  · exact Or.inl h.symm
  · refine Or.inr ⟨e, he, ?_⟩
    by_cases hex : ∃ x, OnSegment (b, a) x ∧ OnSegment e x
    · obtain ⟨x, h1, h2⟩ := hex
      have h1' := Plane.segment_swap _ _ _ h1
      rw [hg.first _ e x (hl' e he) h1 h2, hg.second _ e x (hl' e he) h1 h2] at h
      rw [hg.first _ e x (hl e he) h1' h2, hg.second _ e x (hl e he) h1' h2]
      exact h.imp (fun h h' => h h'.symm) id
    · rw [hg.apart _ e (hl' e he) hex] at h
      rcases h with h | h <;> cases h

theorem online_reverse {a b : K × K} {e : (K × K) × (K × K)} (h : OnLine (b, a) e) : OnLine (a, b) e := by
  unfold OnLine orientation at *
  simp only at *
  exact ⟨by linear_combination -h.1, by linear_combination -h.2⟩

/-- the test in the plane, when the segment is not along an edge -/
theorem seen_iff (hg : ExactCrossing pt ss) {T : (K × K) × (K × K) × (K × K)} (hT : ¬ Flat T) {s : (K × K) × (K × K)}
    (hs : s.1 ≠ s.2) (hl : ¬ AlongEdge s T) : Seen ss s T ↔ CrossesTriangle s T := by
  have hl : ∀ e ∈ sides T, ¬ OnLine s e := fun e he h => hl ⟨e, he, h⟩
  obtain ⟨a, b⟩ := s
  have hinside : ∀ p, InsideTriangle T p → ¬ (p = T.1 ∨ p = T.2.1 ∨ p = T.2.2) := fun p hp hv =>
    Plane.inside_not_border hT p hp (Plane.vertex_border T p hv)
  constructor
  · rintro ((h | h) | ⟨e, he, h⟩)
    · exact ⟨a, Plane.segment_left a b, Plane.inside_in _ h, fun hv => hinside _ h hv.2⟩
    · exact ⟨b, Plane.segment_right a b, Plane.inside_in _ h, fun hv => hinside _ h hv.2⟩
    · by_cases hex : ∃ x, OnSegment (a, b) x ∧ OnSegment e x
      · obtain ⟨x, h1, h2⟩ := hex
        rw [hg.first _ e x (hl e he) h1 h2, hg.second _ e x (hl e he) h1 h2] at h
        refine ⟨x, h1, (Plane.side_in hT x ⟨e, he, h2⟩).1, fun hv => ?_⟩
        rcases h with h | h
        · exact h hv.1
        · exact h (vertex_end hT he h2 hv.2)
      · rw [hg.apart _ e (hl e he) hex] at h
        rcases h with h | h <;> cases h
  · rintro ⟨x, h1, h2, hne⟩
    by_cases hb : ∃ e ∈ sides T, OnSegment e x
    · obtain ⟨e, he, h⟩ := hb
      exact seen_border hg hT he (hl e he) h1 h hne
    have hin := Plane.inside_of_not_border hT x h2 hb
    by_cases hxa : x = a
    · exact Or.inl (Or.inl (hxa ▸ hin))
    by_cases hxb : x = b
    · exact Or.inl (Or.inr (hxb ▸ hin))
    have hl' : ∀ e ∈ sides T, ¬ OnLine (b, a) e := fun e he h => hl e he (online_reverse h)
    by_cases ha : InTriangle T a
    swap
    · exact seen_exit hg hT hs hl h1 h2 hxa hxb ha
    by_cases hb' : InTriangle T b
    swap
    · exact seen_swap hg hl hl' (seen_exit hg hT (Ne.symm hs) hl' (Plane.segment_swap _ _ _ h1) h2 hxb hxa hb')
    have hend : ∀ p, (p = a ∨ p = b) → InTriangle T p → ¬ (p = T.1 ∨ p = T.2.1 ∨ p = T.2.2) → Seen ss (a, b) T := by
      intro p hp hpT hv
      have hon : OnSegment (a, b) p := by
        rcases hp with rfl | rfl
        · exact Plane.segment_left _ _
        · exact Plane.segment_right _ _
      by_cases hb : ∃ e ∈ sides T, OnSegment e p
      · obtain ⟨e, he, h⟩ := hb
        exact seen_border hg hT he (hl e he) hon h fun h => hv h.2
      · have := Plane.inside_of_not_border hT p hpT hb
        rcases hp with rfl | rfl
        · exact Or.inl (Or.inl this)
        · exact Or.inl (Or.inr this)
    by_cases hva : a = T.1 ∨ a = T.2.1 ∨ a = T.2.2
    swap
    · exact hend a (Or.inl rfl) ha hva
    by_cases hvb : b = T.1 ∨ b = T.2.1 ∨ b = T.2.2
    swap
    · exact hend b (Or.inr rfl) hb' hvb
    exfalso
    have hself : OnLine (a, b) (a, b) := by
      unfold OnLine orientation
      exact ⟨by ring, by ring⟩
    have hself' : OnLine (a, b) (b, a) := by
      unfold OnLine orientation
      exact ⟨by ring, by ring⟩
    rcases Plane.side_of_vertices a b hva hvb hs with h | h
    · exact hl _ h hself
    · exact hl _ h hself'

/-! ### along an edge -/

theorem rotate_inside {A B C x : K × K} (h : InsideTriangle (B, C, A) x) : InsideTriangle (A, B, C) x := by
  obtain ⟨u, v, w, hu, hv, hw, hs, hx, hy⟩ := h
  simp only at hx hy
  exact ⟨w, u, v, hw, hu, hv, by linarith, by simp only; rw [hx]; ring, by simp only; rw [hy]; ring⟩

theorem rotate_seen {A B C : K × K} {s : (K × K) × (K × K)} (h : Seen ss s (B, C, A)) : Seen ss s (A, B, C) := by
  rcases h with h | ⟨e, he, h⟩
  · exact Or.inl (h.imp rotate_inside rotate_inside)
  · refine Or.inr ⟨e, ?_, h⟩
    simp only [sides, List.mem_cons, List.not_mem_nil, or_false] at he ⊢
    tauto

theorem rotate_flat {A B C : K × K} (h : ¬ Flat (A, B, C)) : ¬ Flat (B, C, A) := fun h' => h (by
  unfold Flat orientation at *
  simp only at *
  linear_combination h')

theorem rotate_within {A B C : K × K} {s : (K × K) × (K × K)} (h : VertexWithin s (B, C, A)) : VertexWithin s (A, B, C) := by
  obtain ⟨v, hv, h⟩ := h
  refine ⟨v, ?_, h⟩
  simp only at hv ⊢
  tauto

/-- the points of a segment on the line of an edge -/
theorem line_points {A B : K × K} {s : (K × K) × (K × K)} (hs : s.1 ≠ s.2) (hl : OnLine s (A, B)) {x : K × K}
    (hx : OnSegment s x) : orientation A B x = 0 := by
  obtain ⟨h1, h2⟩ := Plane.online_swap s (A, B) hs hl
  obtain ⟨t, _, _, hx, hy⟩ := hx
  unfold orientation at *
  simp only at *
  rw [hx, hy]
  linear_combination (1 - t) * h1 + t * h2

theorem seen_along_first (hg : ExactCrossing pt ss) {A B C : K × K} (hT : ¬ Flat (A, B, C)) {s : (K × K) × (K × K)}
    (hs : s.1 ≠ s.2) (hl : OnLine s (A, B)) : Seen ss s (A, B, C) ↔ VertexWithin s (A, B, C) := by
  have hC : orientation A B C ≠ 0 := hT
  have notIn : ∀ p, OnSegment s p → ¬ InsideTriangle (A, B, C) p := by
    intro p hp hin
    have h0 := line_points hs hl hp
    have := ((Plane.inside_iff hT p).1 hin).2.2
    unfold Plane.co3 at this
    simp only [h0, zero_div, lt_irrefl] at this
  have hBC : ¬ OnLine s (B, C) := fun h => hC (by
    obtain ⟨h1, h2⟩ := Plane.param s.1 s.2 C hs h.2
    have e1 := line_points hs hl (Plane.segment_left s.1 s.2)
    have e2 := line_points hs hl (Plane.segment_right s.1 s.2)
    unfold orientation at *
    rw [h2.1, h2.2]
    linear_combination (1 - h1) * e1 + h1 * e2)
  have hCA : ¬ OnLine s (C, A) := fun h => hC (by
    obtain ⟨h1, h2⟩ := Plane.param s.1 s.2 C hs h.1
    have e1 := line_points hs hl (Plane.segment_left s.1 s.2)
    have e2 := line_points hs hl (Plane.segment_right s.1 s.2)
    unfold orientation at *
    rw [h2.1, h2.2]
    linear_combination (1 - h1) * e1 + h1 * e2)
  have onBC : ∀ x, OnSegment s x → OnSegment (B, C) x → x = B := by
    rintro x hx ⟨t, _, _, h1, h2⟩
    have h0 := line_points hs hl hx
    simp only at h1 h2
    have ht : t = 0 := by
      refine (mul_eq_zero.1 (?_ : t * orientation A B C = 0)).resolve_right hC
      unfold orientation at *
      rw [h1, h2] at h0
      linear_combination h0
    subst ht
    ext <;> linarith
  have onCA : ∀ x, OnSegment s x → OnSegment (C, A) x → x = A := by
    rintro x hx ⟨t, _, _, h1, h2⟩
    have h0 := line_points hs hl hx
    simp only at h1 h2
    have ht : 1 - t = 0 := by
      refine (mul_eq_zero.1 (?_ : (1 - t) * orientation A B C = 0)).resolve_right hC
      unfold orientation at *
      rw [h1, h2] at h0
      linear_combination h0
    have ht : t = 1 := by linarith
    subst ht
    ext <;> linarith
  constructor
  · rintro ((h | h) | ⟨e, he, h⟩)
    · exact absurd h (notIn _ (Plane.segment_left s.1 s.2))
    · exact absurd h (notIn _ (Plane.segment_right s.1 s.2))
    · simp only [sides, List.mem_cons, List.not_mem_nil, or_false] at he
      rcases he with rfl | rfl | rfl
      · obtain ⟨h1, h2⟩ := hg.aligned s (A, B) hl
        rcases h with h | h
        · rw [h] at h1; simp at h1
        · rw [h] at h2; simp at h2
      · by_cases hex : ∃ x, OnSegment s x ∧ OnSegment (B, C) x
        · obtain ⟨x, h1, h2⟩ := hex
          have hx := onBC x h1 h2
          rw [hg.first _ _ x hBC h1 h2, hg.second _ _ x hBC h1 h2] at h
          rcases h with h | h
          · exact ⟨x, Or.inr (Or.inl hx), h1, fun e => h (Or.inl e), fun e => h (Or.inr e)⟩
          · exact absurd (Or.inl hx) h
        · rw [hg.apart _ _ hBC hex] at h
          rcases h with h | h <;> cases h
      · by_cases hex : ∃ x, OnSegment s x ∧ OnSegment (C, A) x
        · obtain ⟨x, h1, h2⟩ := hex
          have hx := onCA x h1 h2
          rw [hg.first _ _ x hCA h1 h2, hg.second _ _ x hCA h1 h2] at h
          rcases h with h | h
          · exact ⟨x, Or.inl hx, h1, fun e => h (Or.inl e), fun e => h (Or.inr e)⟩
          · exact absurd (Or.inr hx) h
        · rw [hg.apart _ _ hCA hex] at h
          rcases h with h | h <;> cases h
  · rintro ⟨v, hv, hon, n1, n2⟩
    have hne : ¬ (v = s.1 ∨ v = s.2) := fun h => h.elim n1 n2
    rcases hv with hv | hv | hv <;> simp only at hv <;> rw [hv] at hon hne
    · refine Or.inr ⟨(C, A), by simp [sides], Or.inl ?_⟩
      rw [hg.first _ _ _ hCA hon (Plane.segment_right _ _)]
      exact hne
    · refine Or.inr ⟨(B, C), by simp [sides], Or.inl ?_⟩
      rw [hg.first _ _ _ hBC hon (Plane.segment_left _ _)]
      exact hne
    · exact absurd (line_points hs hl hon) hC

/-- the test in the plane, when the segment is along an edge -/
theorem seen_along (hg : ExactCrossing pt ss) {T : (K × K) × (K × K) × (K × K)} (hT : ¬ Flat T) {s : (K × K) × (K × K)}
    (hs : s.1 ≠ s.2) (hl : AlongEdge s T) : Seen ss s T ↔ VertexWithin s T := by
  obtain ⟨A, B, C⟩ := T
  obtain ⟨e, he, hl⟩ := hl
  simp only [sides, List.mem_cons, List.not_mem_nil, or_false] at he
  rcases he with rfl | rfl | rfl
  · exact seen_along_first hg hT hs hl
  · have := seen_along_first hg (rotate_flat hT) hs hl
    exact ⟨fun h => rotate_within (this.1 (rotate_seen (rotate_seen h))),
      fun h => rotate_seen (this.2 (rotate_within (rotate_within h)))⟩
  · have := seen_along_first hg (rotate_flat (rotate_flat hT)) hs hl
    exact ⟨fun h => rotate_within (rotate_within (this.1 (rotate_seen h))),
      fun h => rotate_seen (rotate_seen (this.2 (rotate_within h)))⟩

/-- a segment along an edge, which contains no vertex but by its ends -/
theorem within_crosses {T : (K × K) × (K × K) × (K × K)} (hT : ¬ Flat T) {s : (K × K) × (K × K)}
    (h : VertexWithin s T) : CrossesTriangle s T := by
  obtain ⟨v, hv, hon, h1, h2⟩ := h
  exact ⟨v, hon, Plane.vertex_in hT v hv, fun h => h.1.elim h1 h2⟩

/-! ### space -/

/-- a segment which is not in the plane of a triangle has at most one point in common with it -/
theorem space_unique (s : (K × K × K) × (K × K × K)) (T : (K × K × K) × (K × K × K) × (K × K × K)) (x y : K × K × K)
    (hT : ¬ FlatInSpace T) (hl : ¬ SegmentInPlane s T) (hxs : OnSpaceSegment s x) (hx : InSpaceTriangle T x)
    (hys : OnSpaceSegment s y) (hy : InSpaceTriangle T y) : x = y := by
  obtain ⟨t, _, _, x1, x2, x3⟩ := hxs
  obtain ⟨u, _, _, y1, y2, y3⟩ := hys
  have px := ((Space.in_iff hT x).1 hx).1
  have py := ((Space.in_iff hT y).1 hy).1
  by_cases htu : t = u
  · subst htu
    exact Space.ext3 (x1.trans y1.symm) (x2.trans y2.symm) (x3.trans y3.symm)
  · refine absurd ?_ hl
    unfold SegmentInPlane
    unfold InPlane at px py ⊢
    generalize normal T = n at *
    unfold dotProduct vector at *
    simp only at *
    have hz : n.1 * (s.2.1 - s.1.1) + n.2.1 * (s.2.2.1 - s.1.2.1) + n.2.2 * (s.2.2.2 - s.1.2.2) = 0 := by
      refine (mul_eq_zero.1 (?_ : (t - u) * _ = 0)).resolve_left (sub_ne_zero.2 htu)
      rw [x1, x2, x3] at px
      rw [y1, y2, y3] at py
      linear_combination px - py
    have h1 : n.1 * (s.1.1 - T.1.1) + n.2.1 * (s.1.2.1 - T.1.2.1) + n.2.2 * (s.1.2.2 - T.1.2.2) = 0 := by
      rw [x1, x2, x3] at px
      linear_combination px - t * hz
    exact ⟨h1, by linear_combination h1 + hz⟩

end Inspector.Crossing
