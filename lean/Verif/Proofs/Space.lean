import Mathlib.Tactic.Ring
import Mathlib.Tactic.Linarith
import Mathlib.Tactic.LinearCombination
import Verif.Spec.Space
/-
Geometry of the space for C113.
-/
namespace Inspector.Space
open Inspector Spec
variable {K : Type} [Field K] [LinearOrder K] [IsStrictOrderedRing K]

/-- a point of a line -/
def along (p d : K × K × K) (t : K) : K × K × K := (p.1 + t * d.1, p.2.1 + t * d.2.1, p.2.2 + t * d.2.2)

theorem ext3 {a b : K × K × K} (h1 : a.1 = b.1) (h2 : a.2.1 = b.2.1) (h3 : a.2.2 = b.2.2) : a = b := by
  obtain ⟨a1, a2, a3⟩ := a
  obtain ⟨b1, b2, b3⟩ := b
  simp only at h1 h2 h3
  rw [h1, h2, h3]

theorem square_pos (n : K × K × K) (h : n ≠ (0, 0, 0)) : 0 < dotProduct n n := by
  unfold dotProduct
  by_contra hn
  have h1 := mul_self_nonneg n.1
  have h2 := mul_self_nonneg n.2.1
  have h3 := mul_self_nonneg n.2.2
  have e1 := mul_self_eq_zero.1 (show n.1 * n.1 = 0 by linarith)
  have e2 := mul_self_eq_zero.1 (show n.2.1 * n.2.1 = 0 by linarith)
  have e3 := mul_self_eq_zero.1 (show n.2.2 * n.2.2 = 0 by linarith)
  exact h (ext3 e1 e2 e3)

/-- vectors orthogonal to two independent vectors are on a line -/
theorem on_axis (m n v : K × K × K) (hm : dotProduct m v = 0) (hn : dotProduct n v = 0)
    (hd : crossProduct m n ≠ (0, 0, 0)) : ∃ k : K, v.1 = k * (crossProduct m n).1 ∧ v.2.1 = k * (crossProduct m n).2.1 ∧
      v.2.2 = k * (crossProduct m n).2.2 := by
  have hp := square_pos _ hd
  have h0 := hp.ne'
  refine ⟨dotProduct (crossProduct m n) v / dotProduct (crossProduct m n) (crossProduct m n), ?_, ?_, ?_⟩ <;>
    (rw [div_mul_eq_mul_div, eq_div_iff h0]; unfold crossProduct dotProduct at *)
  · linear_combination ((m.1 * n.2.1 - m.2.1 * n.1) * n.2.1 - (m.2.2 * n.1 - m.1 * n.2.2) * n.2.2) * hm
      - ((m.1 * n.2.1 - m.2.1 * n.1) * m.2.1 - (m.2.2 * n.1 - m.1 * n.2.2) * m.2.2) * hn
  · linear_combination ((m.2.1 * n.2.2 - m.2.2 * n.2.1) * n.2.2 - (m.1 * n.2.1 - m.2.1 * n.1) * n.1) * hm
      - ((m.2.1 * n.2.2 - m.2.2 * n.2.1) * m.2.2 - (m.1 * n.2.1 - m.2.1 * n.1) * m.1) * hn
  · linear_combination ((m.2.2 * n.1 - m.1 * n.2.2) * n.1 - (m.2.1 * n.2.2 - m.2.2 * n.2.1) * n.2.1) * hm
      - ((m.2.2 * n.1 - m.1 * n.2.2) * m.1 - (m.2.1 * n.2.2 - m.2.2 * n.2.1) * m.2.1) * hn

theorem parallel_normals (n1 n2 v : K × K × K) (h1 : n1 ≠ (0, 0, 0)) (hc : crossProduct n2 n1 = (0, 0, 0))
    (hv : dotProduct n1 v = 0) : dotProduct n2 v = 0 := by
  have hp := (square_pos n1 h1).ne'
  refine (mul_eq_zero.1 (?_ : dotProduct n1 n1 * dotProduct n2 v = 0)).resolve_left hp
  have c1 : n2.2.1 * n1.2.2 - n2.2.2 * n1.2.1 = 0 := congrArg Prod.fst hc
  have c2 : n2.2.2 * n1.1 - n2.1 * n1.2.2 = 0 := congrArg (fun x => x.2.1) hc
  have c3 : n2.1 * n1.2.1 - n2.2.1 * n1.1 = 0 := congrArg (fun x => x.2.2) hc
  unfold dotProduct at *
  linear_combination (n1.1 * n2.1 + n1.2.1 * n2.2.1 + n1.2.2 * n2.2.2) * hv
    - (n1.2.1 * v.2.2 - n1.2.2 * v.2.1) * c1 - (n1.2.2 * v.1 - n1.1 * v.2.2) * c2 - (n1.1 * v.2.1 - n1.2.1 * v.1) * c3

/-! ### coordinates in a triangle -/

def co1 (T : (K × K × K) × (K × K × K) × (K × K × K)) (x : K × K × K) : K :=
  dotProduct (normal T) (crossProduct (vector T.2.1 T.2.2) (vector T.2.1 x)) / dotProduct (normal T) (normal T)
def co2 (T : (K × K × K) × (K × K × K) × (K × K × K)) (x : K × K × K) : K :=
  dotProduct (normal T) (crossProduct (vector T.2.2 T.1) (vector T.2.2 x)) / dotProduct (normal T) (normal T)
def co3 (T : (K × K × K) × (K × K × K) × (K × K × K)) (x : K × K × K) : K :=
  dotProduct (normal T) (crossProduct (vector T.1 T.2.1) (vector T.1 x)) / dotProduct (normal T) (normal T)

section
variable {T : (K × K × K) × (K × K × K) × (K × K × K)} (hT : ¬ FlatInSpace T)
include hT

theorem norm_ne : dotProduct (normal T) (normal T) ≠ 0 := (square_pos _ hT).ne'

theorem co_sum (x : K × K × K) : co1 T x + co2 T x + co3 T x = 1 := by
  unfold co1 co2 co3
  rw [← add_div, ← add_div, div_eq_one_iff_eq (norm_ne hT)]
  unfold normal dotProduct crossProduct vector
  ring

theorem co_recover (x : K × K × K) (h : InPlane T x) :
    x.1 = co1 T x * T.1.1 + co2 T x * T.2.1.1 + co3 T x * T.2.2.1 ∧
    x.2.1 = co1 T x * T.1.2.1 + co2 T x * T.2.1.2.1 + co3 T x * T.2.2.2.1 ∧
    x.2.2 = co1 T x * T.1.2.2 + co2 T x * T.2.1.2.2 + co3 T x * T.2.2.2.2 := by
  unfold co1 co2 co3
  have hN := norm_ne hT
  unfold InPlane at h
  refine ⟨?_, ?_, ?_⟩ <;>
    rw [div_mul_eq_mul_div, div_mul_eq_mul_div, div_mul_eq_mul_div, ← add_div, ← add_div, eq_div_iff hN]
  · rw [← sub_eq_zero]
    have : ∀ r : K, r = (normal T).1 * dotProduct (normal T) (vector T.1 x) → r = 0 := by
      intro r hr; rw [hr, h, mul_zero]
    apply this
    unfold normal dotProduct crossProduct vector
    ring
  · rw [← sub_eq_zero]
    have : ∀ r : K, r = (normal T).2.1 * dotProduct (normal T) (vector T.1 x) → r = 0 := by
      intro r hr; rw [hr, h, mul_zero]
    apply this
    unfold normal dotProduct crossProduct vector
    ring
  · rw [← sub_eq_zero]
    have : ∀ r : K, r = (normal T).2.2 * dotProduct (normal T) (vector T.1 x) → r = 0 := by
      intro r hr; rw [hr, h, mul_zero]
    apply this
    unfold normal dotProduct crossProduct vector
    ring

theorem co_unique (x : K × K × K) (u v w : K) (h : u + v + w = 1) (h1 : x.1 = u * T.1.1 + v * T.2.1.1 + w * T.2.2.1)
    (h2 : x.2.1 = u * T.1.2.1 + v * T.2.1.2.1 + w * T.2.2.2.1) (h3 : x.2.2 = u * T.1.2.2 + v * T.2.1.2.2 + w * T.2.2.2.2) :
    co1 T x = u ∧ co2 T x = v ∧ co3 T x = w ∧ InPlane T x := by
  have hN := norm_ne hT
  obtain rfl : u = 1 - v - w := by linear_combination h
  unfold co1 co2 co3 InPlane
  refine ⟨?_, ?_, ?_, ?_⟩
  · rw [div_eq_iff hN]; unfold normal dotProduct crossProduct vector; rw [h1, h2, h3]; ring
  · rw [div_eq_iff hN]; unfold normal dotProduct crossProduct vector; rw [h1, h2, h3]; ring
  · rw [div_eq_iff hN]; unfold normal dotProduct crossProduct vector; rw [h1, h2, h3]; ring
  · unfold normal dotProduct crossProduct vector; rw [h1, h2, h3]; ring

theorem in_iff (x : K × K × K) : InSpaceTriangle T x ↔ InPlane T x ∧ 0 ≤ co1 T x ∧ 0 ≤ co2 T x ∧ 0 ≤ co3 T x := by
  constructor
  · rintro ⟨u, v, w, hu, hv, hw, h, h1, h2, h3⟩
    obtain ⟨c1, c2, c3, hp⟩ := co_unique hT x u v w h h1 h2 h3
    rw [c1, c2, c3]
    exact ⟨hp, hu, hv, hw⟩
  · rintro ⟨hp, c1, c2, c3⟩
    obtain ⟨h1, h2, h3⟩ := co_recover hT x hp
    exact ⟨_, _, _, c1, c2, c3, co_sum hT x, h1, h2, h3⟩

/-- a point of the triangle with a null coordinate is on an edge -/
theorem on_side (x : K × K × K) (h : InSpaceTriangle T x) :
    (co1 T x = 0 → OnSpaceSegment (T.2.1, T.2.2) x) ∧ (co2 T x = 0 → OnSpaceSegment (T.2.2, T.1) x) ∧
      (co3 T x = 0 → OnSpaceSegment (T.1, T.2.1) x) := by
  obtain ⟨hp, n1, n2, n3⟩ := (in_iff hT x).1 h
  have hs := co_sum hT x
  obtain ⟨h1, h2, h3⟩ := co_recover hT x hp
  refine ⟨fun h0 => ?_, fun h0 => ?_, fun h0 => ?_⟩ <;> rw [h0] at hs h1 h2 h3
  · refine ⟨co3 T x, n3, by linarith, ?_, ?_, ?_⟩
    · show x.1 = _; rw [h1]; linear_combination T.2.1.1 * hs
    · show x.2.1 = _; rw [h2]; linear_combination T.2.1.2.1 * hs
    · show x.2.2 = _; rw [h3]; linear_combination T.2.1.2.2 * hs
  · refine ⟨co1 T x, n1, by linarith, ?_, ?_, ?_⟩
    · show x.1 = _; rw [h1]; linear_combination T.2.2.1 * hs
    · show x.2.1 = _; rw [h2]; linear_combination T.2.2.2.1 * hs
    · show x.2.2 = _; rw [h3]; linear_combination T.2.2.2.2 * hs
  · refine ⟨co2 T x, n2, by linarith, ?_, ?_, ?_⟩
    · show x.1 = _; rw [h1]; linear_combination T.1.1 * hs
    · show x.2.1 = _; rw [h2]; linear_combination T.1.2.1 * hs
    · show x.2.2 = _; rw [h3]; linear_combination T.1.2.2 * hs

/-- coordinates along the line orthogonal to the normal and to another vector `m` -/
theorem co_along (m x : K × K × K) (t : K) :
    co1 T (along x (crossProduct m (normal T)) t) = co1 T x + t * - dotProduct m (vector T.2.1 T.2.2) ∧
    co2 T (along x (crossProduct m (normal T)) t) = co2 T x + t * - dotProduct m (vector T.2.2 T.1) ∧
    co3 T (along x (crossProduct m (normal T)) t) = co3 T x + t * - dotProduct m (vector T.1 T.2.1) ∧
    (InPlane T x → InPlane T (along x (crossProduct m (normal T)) t)) := by
  have hN := norm_ne hT
  have key : ∀ a b : K × K × K, dotProduct (normal T) (vector a b) = 0 →
      dotProduct (normal T) (crossProduct (vector a b) (vector a (along x (crossProduct m (normal T)) t))) =
      dotProduct (normal T) (crossProduct (vector a b) (vector a x)) +
        t * - dotProduct m (vector a b) * dotProduct (normal T) (normal T) := by
    intro a b h
    unfold along
    generalize normal T = n at h ⊢
    unfold vector dotProduct crossProduct at *
    simp only at h ⊢
    linear_combination t * (m.1 * n.1 + m.2.1 * n.2.1 + m.2.2 * n.2.2) * h
  have o1 : dotProduct (normal T) (vector T.2.1 T.2.2) = 0 := by unfold normal dotProduct crossProduct vector; ring
  have o2 : dotProduct (normal T) (vector T.2.2 T.1) = 0 := by unfold normal dotProduct crossProduct vector; ring
  have o3 : dotProduct (normal T) (vector T.1 T.2.1) = 0 := by unfold normal dotProduct crossProduct vector; ring
  unfold co1 co2 co3
  refine ⟨?_, ?_, ?_, fun h => ?_⟩
  · rw [key _ _ o1, add_div, mul_div_cancel_right₀ _ hN]
  · rw [key _ _ o2, add_div, mul_div_cancel_right₀ _ hN]
  · rw [key _ _ o3, add_div, mul_div_cancel_right₀ _ hN]
  · unfold InPlane at h ⊢
    rw [← h]
    unfold along
    generalize normal T = n
    unfold vector dotProduct crossProduct
    ring

end

/-- where a line leaves an intersection of half planes -/
theorem leave (a b c a' b' c' : K) (ha : 0 ≤ a) (hb : 0 ≤ b) (hc : 0 ≤ c) (h : a' < 0 ∨ b' < 0 ∨ c' < 0) :
    ∃ t, 0 ≤ t ∧ (∀ s, 0 ≤ s → s ≤ t → 0 ≤ a + s * a' ∧ 0 ≤ b + s * b' ∧ 0 ≤ c + s * c') ∧
      ((a' < 0 ∧ a + t * a' = 0) ∨ (b' < 0 ∧ b + t * b' = 0) ∨ (c' < 0 ∧ c + t * c' = 0)) := by
  -- up to any bound
  have one : ∀ a a' T : K, 0 ≤ a → 0 ≤ T → ∃ t, 0 ≤ t ∧ t ≤ T ∧ (∀ s, 0 ≤ s → s ≤ t → 0 ≤ a + s * a') ∧
      ((a' < 0 ∧ a + t * a' = 0) ∨ t = T) := by
    intro a a' T ha hT
    by_cases hneg : a' < 0
    · have hd : 0 < - a' := by linarith
      by_cases hle : a / (- a') ≤ T
      · refine ⟨a / (- a'), div_nonneg ha hd.le, hle, fun s h0 hs => ?_, .inl ⟨hneg, ?_⟩⟩
        · have := (le_div_iff₀ hd).1 hs
          linarith
        · have := div_mul_cancel₀ a hd.ne'
          linarith
      · refine ⟨T, hT, le_refl _, fun s h0 hs => ?_, .inr rfl⟩
        have := (le_div_iff₀ hd).1 (le_trans hs (le_of_not_ge hle))
        linarith
    · refine ⟨T, hT, le_refl _, fun s h0 hs => ?_, .inr rfl⟩
      have := mul_nonneg h0 (not_lt.1 hneg)
      linarith
  have first : ∀ a a' : K, 0 ≤ a → a' < 0 → ∃ t, 0 ≤ t ∧ (∀ s, 0 ≤ s → s ≤ t → 0 ≤ a + s * a') ∧ a + t * a' = 0 := by
    intro a a' ha hneg
    have hd : 0 < - a' := by linarith
    refine ⟨a / (- a'), div_nonneg ha hd.le, fun s h0 hs => ?_, ?_⟩
    · have := (le_div_iff₀ hd).1 hs
      linarith
    · have := div_mul_cancel₀ a hd.ne'
      linarith
  -- with the first one decreasing
  have main : ∀ a b c a' b' c' : K, 0 ≤ a → 0 ≤ b → 0 ≤ c → a' < 0 →
      ∃ t, 0 ≤ t ∧ (∀ s, 0 ≤ s → s ≤ t → 0 ≤ a + s * a' ∧ 0 ≤ b + s * b' ∧ 0 ≤ c + s * c') ∧
      ((a' < 0 ∧ a + t * a' = 0) ∨ (b' < 0 ∧ b + t * b' = 0) ∨ (c' < 0 ∧ c + t * c' = 0)) := by
    intro a b c a' b' c' ha hb hc h
    obtain ⟨t1, p1, q1, r1⟩ := first a a' ha h
    obtain ⟨t2, p2, l2, q2, r2⟩ := one b b' t1 hb p1
    obtain ⟨t3, p3, l3, q3, r3⟩ := one c c' t2 hc p2
    refine ⟨t3, p3, fun s s0 hs => ⟨q1 s s0 (by linarith), q2 s s0 (by linarith), q3 s s0 hs⟩, ?_⟩
    rcases r3 with r3 | rfl
    · exact .inr (.inr r3)
    · rcases r2 with r2 | rfl
      · exact .inr (.inl r2)
      · exact .inl ⟨h, r1⟩
  rcases h with h | h | h
  · exact main a b c a' b' c' ha hb hc h
  · obtain ⟨t, t0, hs, hz⟩ := main b a c b' a' c' hb ha hc h
    exact ⟨t, t0, fun s s0 hst => ⟨(hs s s0 hst).2.1, (hs s s0 hst).1, (hs s s0 hst).2.2⟩, by tauto⟩
  · obtain ⟨t, t0, hs, hz⟩ := main c b a c' b' a' hc hb ha h
    exact ⟨t, t0, fun s s0 hst => ⟨(hs s s0 hst).2.2, (hs s s0 hst).2.1, (hs s s0 hst).1⟩, by tauto⟩

/-- a line of the plane of a triangle leaves it through an edge which is not orthogonal to `m` -/
theorem exit {T : (K × K × K) × (K × K × K) × (K × K × K)} (hT : ¬ FlatInSpace T) (m p : K × K × K)
    (hd : crossProduct m (normal T) ≠ (0, 0, 0)) (hp : InSpaceTriangle T p) :
    ∃ t, 0 ≤ t ∧ (∀ s, 0 ≤ s → s ≤ t → InSpaceTriangle T (along p (crossProduct m (normal T)) s)) ∧
      ∃ e ∈ spaceSides T, OnSpaceSegment e (along p (crossProduct m (normal T)) t) ∧ dotProduct m (vector e.1 e.2) ≠ 0 := by
  obtain ⟨hpl, n1, n2, n3⟩ := (in_iff hT p).1 hp
  -- a coordinate decreases
  have hslope : - dotProduct m (vector T.2.1 T.2.2) < 0 ∨ - dotProduct m (vector T.2.2 T.1) < 0 ∨
      - dotProduct m (vector T.1 T.2.1) < 0 := by
    by_contra hno
    push Not at hno
    obtain ⟨h1, h2, h3⟩ := hno
    have hs : dotProduct m (vector T.2.1 T.2.2) + dotProduct m (vector T.2.2 T.1) + dotProduct m (vector T.1 T.2.1) = 0 := by
      unfold dotProduct vector; ring
    have e2 : dotProduct m (vector T.2.2 T.1) = 0 := by linarith
    have e3 : dotProduct m (vector T.1 T.2.1) = 0 := by linarith
    apply hd
    unfold dotProduct vector at e2 e3
    unfold normal
    refine ext3 ?_ ?_ ?_ <;> (unfold crossProduct vector; simp only)
    · linear_combination - (T.2.1.1 - T.1.1) * e2 - (T.2.2.1 - T.1.1) * e3
    · linear_combination - (T.2.1.2.1 - T.1.2.1) * e2 - (T.2.2.2.1 - T.1.2.1) * e3
    · linear_combination - (T.2.1.2.2 - T.1.2.2) * e2 - (T.2.2.2.2 - T.1.2.2) * e3
  obtain ⟨t, t0, hst, hz⟩ := leave _ _ _ _ _ _ n1 n2 n3 hslope
  have hin : ∀ s, 0 ≤ s → s ≤ t → InSpaceTriangle T (along p (crossProduct m (normal T)) s) := by
    intro s s0 hs
    obtain ⟨c1, c2, c3, c4⟩ := co_along hT m p s
    rw [in_iff hT, c1, c2, c3]
    exact ⟨c4 hpl, hst s s0 hs⟩
  refine ⟨t, t0, hin, ?_⟩
  obtain ⟨c1, c2, c3, _⟩ := co_along hT m p t
  obtain ⟨o1, o2, o3⟩ := on_side hT _ (hin t t0 (le_refl _))
  rcases hz with ⟨hneg, hz⟩ | ⟨hneg, hz⟩ | ⟨hneg, hz⟩
  · exact ⟨(T.2.1, T.2.2), by simp [spaceSides], o1 (c1.trans hz), fun h => by rw [h, neg_zero] at hneg; exact lt_irrefl _ hneg⟩
  · exact ⟨(T.2.2, T.1), by simp [spaceSides], o2 (c2.trans hz), fun h => by rw [h, neg_zero] at hneg; exact lt_irrefl _ hneg⟩
  · exact ⟨(T.1, T.2.1), by simp [spaceSides], o3 (c3.trans hz), fun h => by rw [h, neg_zero] at hneg; exact lt_irrefl _ hneg⟩

theorem in_plane_edge (T : (K × K × K) × (K × K × K) × (K × K × K)) (a b : K × K × K) (ha : InPlane T a) (hb : InPlane T b) :
    dotProduct (normal T) (vector a b) = 0 := by
  unfold InPlane at ha hb
  generalize normal T = n at *
  unfold dotProduct vector at *
  linear_combination hb - ha

/-- the line from a common point leaves the triangles through an edge of one of them, not in the plane of the other -/
theorem meet_ray {T1 T2 : (K × K × K) × (K × K × K) × (K × K × K)} (h1 : ¬ FlatInSpace T1) (h2 : ¬ FlatInSpace T2)
    (hd : crossProduct (normal T2) (normal T1) ≠ (0, 0, 0)) (p : K × K × K) (hp1 : InSpaceTriangle T1 p)
    (hp2 : InSpaceTriangle T2 p) :
    ∃ t, 0 ≤ t ∧ InSpaceTriangle T1 (along p (crossProduct (normal T2) (normal T1)) t) ∧
      InSpaceTriangle T2 (along p (crossProduct (normal T2) (normal T1)) t) ∧
      ((∃ e ∈ spaceSides T1, OnSpaceSegment e (along p (crossProduct (normal T2) (normal T1)) t) ∧
          ¬ (InPlane T2 e.1 ∧ InPlane T2 e.2)) ∨
        ∃ e ∈ spaceSides T2, OnSpaceSegment e (along p (crossProduct (normal T2) (normal T1)) t) ∧
          ¬ (InPlane T1 e.1 ∧ InPlane T1 e.2)) := by
  -- the same line for the second triangle
  have hopp : ∀ n : K × K × K, crossProduct (-(normal T1).1, -(normal T1).2.1, -(normal T1).2.2) n = crossProduct n (normal T1) := by
    intro n
    refine ext3 ?_ ?_ ?_ <;> (unfold crossProduct; simp only; ring)
  obtain ⟨t1, p1, q1, e1, m1, s1, n1⟩ := exit h1 (normal T2) p hd hp1
  obtain ⟨t2, p2, q2, e2, m2, s2, n2⟩ := exit h2 (-(normal T1).1, -(normal T1).2.1, -(normal T1).2.2) p
    (by rw [hopp]; exact hd) hp2
  rw [hopp] at q2 s2
  rcases le_total t1 t2 with h | h
  · exact ⟨t1, p1, q1 t1 p1 (le_refl _), q2 t1 p1 h, .inl ⟨e1, m1, s1, fun hpl => n1 (in_plane_edge T2 _ _ hpl.1 hpl.2)⟩⟩
  · refine ⟨t2, p2, q1 t2 p2 h, q2 t2 p2 (le_refl _), .inr ⟨e2, m2, s2, fun hpl => n2 ?_⟩⟩
    have := in_plane_edge T1 _ _ hpl.1 hpl.2
    unfold dotProduct at this ⊢
    simp only
    linear_combination - this

/-- planes with a common point are parallel only if they are the same -/
theorem cross_ne {T1 T2 : (K × K × K) × (K × K × K) × (K × K × K)} (h1 : ¬ FlatInSpace T1) (hn : ¬ SamePlane T1 T2) (p : K × K × K)
    (hp1 : InPlane T1 p) (hp2 : InPlane T2 p) : crossProduct (normal T2) (normal T1) ≠ (0, 0, 0) := by
  intro hc
  apply hn
  have key : ∀ v, InPlane T1 v → InPlane T2 v := by
    intro v hv
    have e := parallel_normals (normal T1) (normal T2) (vector p v) h1 hc (in_plane_edge T1 p v hp1 hv)
    unfold InPlane at hp2 ⊢
    generalize normal T2 = n at *
    unfold dotProduct vector at *
    linear_combination e + hp2
  refine ⟨key _ ?_, key _ ?_, key _ ?_⟩ <;> (unfold InPlane normal dotProduct crossProduct vector; ring)

/-- when triangles of different planes meet, an edge of one of them which is not in the plane of the other meets the other;
when they meet elsewhere than at a common point, this happens elsewhere too -/
theorem crossing_edge {T1 T2 : (K × K × K) × (K × K × K) × (K × K × K)} (h1 : ¬ FlatInSpace T1) (h2 : ¬ FlatInSpace T2)
    (hn : ¬ SamePlane T1 T2) (avoid : K × K × K → Prop) (hA : ∀ x y, avoid x → avoid y → x = y)
    (hA1 : ∀ x, avoid x → InSpaceTriangle T1 x) (hA2 : ∀ x, avoid x → InSpaceTriangle T2 x) (p : K × K × K)
    (hp1 : InSpaceTriangle T1 p) (hp2 : InSpaceTriangle T2 p) (hp : ¬ avoid p) :
    ∃ x, ¬ avoid x ∧ InSpaceTriangle T1 x ∧ InSpaceTriangle T2 x ∧
      ((∃ e ∈ spaceSides T1, OnSpaceSegment e x ∧ ¬ (InPlane T2 e.1 ∧ InPlane T2 e.2)) ∨
        ∃ e ∈ spaceSides T2, OnSpaceSegment e x ∧ ¬ (InPlane T1 e.1 ∧ InPlane T1 e.2)) := by
  have pl1 := ((in_iff h1 p).1 hp1).1
  have pl2 := ((in_iff h2 p).1 hp2).1
  have hd := cross_ne h1 hn p pl1 pl2
  have hd' : crossProduct (normal T1) (normal T2) ≠ (0, 0, 0) := by
    intro h
    apply hd
    have c1 := congrArg Prod.fst h
    have c2 := congrArg (fun x => x.2.1) h
    have c3 := congrArg (fun x => x.2.2) h
    unfold crossProduct at c1 c2 c3
    simp only at c1 c2 c3
    exact ext3 (by unfold crossProduct; simp only; linear_combination - c1)
      (by unfold crossProduct; simp only; linear_combination - c2) (by unfold crossProduct; simp only; linear_combination - c3)
  -- away from the point which is avoided
  by_cases hav : ∃ z, avoid z
  · obtain ⟨z, hz⟩ := hav
    have z1 := ((in_iff h1 z).1 (hA1 z hz)).1
    have z2 := ((in_iff h2 z).1 (hA2 z hz)).1
    obtain ⟨k, k1, k2, k3⟩ := on_axis (normal T2) (normal T1) (vector z p) (in_plane_edge T2 z p z2 pl2)
      (in_plane_edge T1 z p z1 pl1) hd
    have hk : k ≠ 0 := by
      rintro rfl
      apply hp
      have : p = z := ext3 (by unfold vector at k1; simp only at k1; linarith) (by unfold vector at k2; simp only at k2; linarith)
        (by unfold vector at k3; simp only at k3; linarith)
      rw [this]; exact hz
    have far : ∀ (d : K × K × K) (s : K), d ≠ (0, 0, 0) → s ≠ 0 →
        ¬ (s * d.1 = 0 ∧ s * d.2.1 = 0 ∧ s * d.2.2 = 0) := by
      rintro d s hd hs ⟨e1, e2, e3⟩
      exact hd (ext3 ((mul_eq_zero.1 e1).resolve_left hs) ((mul_eq_zero.1 e2).resolve_left hs)
        ((mul_eq_zero.1 e3).resolve_left hs))
    unfold vector at k1 k2 k3
    simp only at k1 k2 k3
    rcases lt_or_gt_of_ne hk with hneg | hpos
    · obtain ⟨t, t0, i2, i1, he⟩ := meet_ray h2 h1 hd' p hp2 hp1
      refine ⟨_, fun hx => ?_, i1, i2, he.symm⟩
      have e := hA _ _ hx hz
      refine far (crossProduct (normal T2) (normal T1)) (k - t) hd (by linarith) ?_
      unfold along crossProduct at e
      have e1 := congrArg Prod.fst e
      have e2 := congrArg (fun x => x.2.1) e
      have e3 := congrArg (fun x => x.2.2) e
      unfold crossProduct at k1 k2 k3 ⊢
      simp only at e1 e2 e3 k1 k2 k3 ⊢
      exact ⟨by linear_combination e1 - k1, by linear_combination e2 - k2, by linear_combination e3 - k3⟩
    · obtain ⟨t, t0, i1, i2, he⟩ := meet_ray h1 h2 hd p hp1 hp2
      refine ⟨_, fun hx => ?_, i1, i2, he⟩
      have e := hA _ _ hx hz
      refine far (crossProduct (normal T2) (normal T1)) (k + t) hd (by linarith) ?_
      unfold along crossProduct at e
      have e1 := congrArg Prod.fst e
      have e2 := congrArg (fun x => x.2.1) e
      have e3 := congrArg (fun x => x.2.2) e
      unfold crossProduct at k1 k2 k3 ⊢
      simp only at e1 e2 e3 k1 k2 k3 ⊢
      exact ⟨by linear_combination e1 - k1, by linear_combination e2 - k2, by linear_combination e3 - k3⟩
  · obtain ⟨t, _, i1, i2, he⟩ := meet_ray h1 h2 hd p hp1 hp2
    exact ⟨_, fun hx => hav ⟨_, hx⟩, i1, i2, he⟩

end Inspector.Space
