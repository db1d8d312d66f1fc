import Mathlib.Tactic.Ring
import Mathlib.Tactic.FieldSimp
import Mathlib.Tactic.Linarith
import Mathlib.Tactic.LinearCombination
import Verif.Spec.Plane
/-
Plane geometry for C112.
-/
namespace Inspector.Plane
open Inspector Spec
variable {K : Type} [Field K] [LinearOrder K] [IsStrictOrderedRing K]

/-- barycentric coordinates of a point in a triangle -/
def co1 (T : (K × K) × (K × K) × (K × K)) (p : K × K) : K := orientation T.2.1 T.2.2 p / orientation T.1 T.2.1 T.2.2
def co2 (T : (K × K) × (K × K) × (K × K)) (p : K × K) : K := orientation T.2.2 T.1 p / orientation T.1 T.2.1 T.2.2
def co3 (T : (K × K) × (K × K) × (K × K)) (p : K × K) : K := orientation T.1 T.2.1 p / orientation T.1 T.2.1 T.2.2

section
variable {T : (K × K) × (K × K) × (K × K)} (hT : ¬ Flat T)
include hT

theorem co_sum (p : K × K) : co1 T p + co2 T p + co3 T p = 1 := by
  unfold co1 co2 co3
  rw [← add_div, ← add_div, div_eq_one_iff_eq hT]
  unfold orientation
  ring

theorem co_x (p : K × K) : p.1 = co1 T p * T.1.1 + co2 T p * T.2.1.1 + co3 T p * T.2.2.1 := by
  unfold co1 co2 co3
  have hD : orientation T.1 T.2.1 T.2.2 ≠ 0 := hT
  rw [div_mul_eq_mul_div, div_mul_eq_mul_div, div_mul_eq_mul_div, ← add_div, ← add_div, eq_div_iff hD]
  unfold orientation
  ring

theorem co_y (p : K × K) : p.2 = co1 T p * T.1.2 + co2 T p * T.2.1.2 + co3 T p * T.2.2.2 := by
  unfold co1 co2 co3
  have hD : orientation T.1 T.2.1 T.2.2 ≠ 0 := hT
  rw [div_mul_eq_mul_div, div_mul_eq_mul_div, div_mul_eq_mul_div, ← add_div, ← add_div, eq_div_iff hD]
  unfold orientation
  ring

theorem co_unique (p : K × K) (u v w : K) (h : u + v + w = 1) (hx : p.1 = u * T.1.1 + v * T.2.1.1 + w * T.2.2.1)
    (hy : p.2 = u * T.1.2 + v * T.2.1.2 + w * T.2.2.2) : co1 T p = u ∧ co2 T p = v ∧ co3 T p = w := by
  have hD : orientation T.1 T.2.1 T.2.2 ≠ 0 := hT
  obtain rfl : u = 1 - v - w := by linear_combination h
  unfold co1 co2 co3
  refine ⟨?_, ?_, ?_⟩ <;>
    (rw [div_eq_iff hD]; unfold orientation; rw [hx, hy]; ring)

theorem co_affine (p q x : K × K) (t : K) (hx : x.1 = p.1 + t * (q.1 - p.1)) (hy : x.2 = p.2 + t * (q.2 - p.2)) :
    co1 T x = co1 T p + t * (co1 T q - co1 T p) ∧ co2 T x = co2 T p + t * (co2 T q - co2 T p) ∧
      co3 T x = co3 T p + t * (co3 T q - co3 T p) := by
  have hD : orientation T.1 T.2.1 T.2.2 ≠ 0 := hT
  unfold co1 co2 co3
  refine ⟨?_, ?_, ?_⟩ <;>
    (rw [div_sub_div_same, mul_div_assoc', ← add_div]; congr 1; unfold orientation; rw [hx, hy]; ring)

theorem inTriangle_iff (p : K × K) : InTriangle T p ↔ 0 ≤ co1 T p ∧ 0 ≤ co2 T p ∧ 0 ≤ co3 T p := by
  constructor
  · rintro ⟨u, v, w, hu, hv, hw, h, hx, hy⟩
    obtain ⟨h1, h2, h3⟩ := co_unique hT p u v w h hx hy
    rw [h1, h2, h3]
    exact ⟨hu, hv, hw⟩
  · rintro ⟨h1, h2, h3⟩
    exact ⟨_, _, _, h1, h2, h3, co_sum hT p, co_x hT p, co_y hT p⟩

theorem inside_iff (p : K × K) : InsideTriangle T p ↔ 0 < co1 T p ∧ 0 < co2 T p ∧ 0 < co3 T p := by
  constructor
  · rintro ⟨u, v, w, hu, hv, hw, h, hx, hy⟩
    obtain ⟨h1, h2, h3⟩ := co_unique hT p u v w h hx hy
    rw [h1, h2, h3]
    exact ⟨hu, hv, hw⟩
  · rintro ⟨h1, h2, h3⟩
    exact ⟨_, _, _, h1, h2, h3, co_sum hT p, co_x hT p, co_y hT p⟩

/-- a point of the triangle with a null coordinate is on an edge -/
theorem on_side (p : K × K) (h : InTriangle T p) (h0 : co1 T p = 0 ∨ co2 T p = 0 ∨ co3 T p = 0) :
    ∃ e ∈ sides T, OnSegment e p := by
  obtain ⟨h1, h2, h3⟩ := (inTriangle_iff hT p).1 h
  have hs := co_sum hT p
  have hx := co_x hT p
  have hy := co_y hT p
  rcases h0 with h0 | h0 | h0 <;> rw [h0] at hs hx hy
  · refine ⟨(T.2.1, T.2.2), by simp [sides], co3 T p, h3, by linarith, ?_, ?_⟩
    · show p.1 = _; rw [hx]; linear_combination T.2.1.1 * hs
    · show p.2 = _; rw [hy]; linear_combination T.2.1.2 * hs
  · refine ⟨(T.2.2, T.1), by simp [sides], co1 T p, h1, by linarith, ?_, ?_⟩
    · show p.1 = _; rw [hx]; linear_combination T.2.2.1 * hs
    · show p.2 = _; rw [hy]; linear_combination T.2.2.2 * hs
  · refine ⟨(T.1, T.2.1), by simp [sides], co2 T p, h2, by linarith, ?_, ?_⟩
    · show p.1 = _; rw [hx]; linear_combination T.1.1 * hs
    · show p.2 = _; rw [hy]; linear_combination T.1.2 * hs

theorem side_in (p : K × K) (h : ∃ e ∈ sides T, OnSegment e p) :
    InTriangle T p ∧ (co1 T p = 0 ∨ co2 T p = 0 ∨ co3 T p = 0) := by
  obtain ⟨e, he, t, h0, h1, hx, hy⟩ := h
  simp only [sides, List.mem_cons, List.not_mem_nil, or_false] at he
  rcases he with rfl | rfl | rfl
  · have hc := co_unique hT p (1 - t) t 0 (by ring) (by rw [hx]; ring) (by rw [hy]; ring)
    exact ⟨⟨1 - t, t, 0, by linarith, h0, le_refl _, by ring, by rw [hx]; ring, by rw [hy]; ring⟩, Or.inr (Or.inr hc.2.2)⟩
  · have hc := co_unique hT p 0 (1 - t) t (by ring) (by rw [hx]; ring) (by rw [hy]; ring)
    exact ⟨⟨0, 1 - t, t, le_refl _, by linarith, h0, by ring, by rw [hx]; ring, by rw [hy]; ring⟩, Or.inl hc.1⟩
  · have hc := co_unique hT p t 0 (1 - t) (by ring) (by rw [hx]; ring) (by rw [hy]; ring)
    exact ⟨⟨t, 0, 1 - t, h0, le_refl _, by linarith, by ring, by rw [hx]; ring, by rw [hy]; ring⟩, Or.inr (Or.inl hc.2.1)⟩

end

/-- where a segment leaves an intersection of half planes: the last time before which `n` affine functions, non negative
at time 0, stay non negative -/
theorem leaving (a b c a' b' c' : K) (ha : 0 ≤ a) (hb : 0 ≤ b) (hc : 0 ≤ c) (h : a' < 0 ∨ b' < 0 ∨ c' < 0) :
    ∃ t, 0 ≤ t ∧ t ≤ 1 ∧ 0 ≤ a + t * (a' - a) ∧ 0 ≤ b + t * (b' - b) ∧ 0 ≤ c + t * (c' - c) ∧
      (a + t * (a' - a) = 0 ∨ b + t * (b' - b) = 0 ∨ c + t * (c' - c) = 0) := by
  have one : ∀ a a' : K, 0 ≤ a → ∃ t, 0 ≤ t ∧ t ≤ 1 ∧ (∀ s, 0 ≤ s → s ≤ t → 0 ≤ a + s * (a' - a)) ∧
      (a' < 0 → a + t * (a' - a) = 0) ∧ (¬ a' < 0 → t = 1) := by
    intro a a' ha
    by_cases h : a' < 0
    · have hd : 0 < a - a' := by linarith
      refine ⟨a / (a - a'), div_nonneg ha hd.le, (div_le_one hd).2 (by linarith), fun s h0 hs => ?_, fun _ => ?_,
        fun h' => absurd h h'⟩
      · have := (le_div_iff₀ hd).1 hs
        linarith
      · have := div_mul_cancel₀ a hd.ne'
        linarith
    · refine ⟨1, zero_le_one, le_refl _, fun s h0 hs => ?_, fun h' => absurd h' h, fun _ => rfl⟩
      have h1 : 0 ≤ s * a' := mul_nonneg h0 (not_lt.1 h)
      have h2 : 0 ≤ (1 - s) * a := mul_nonneg (by linarith) ha
      linarith
  obtain ⟨t1, p1, q1, r1, s1, u1⟩ := one a a' ha
  obtain ⟨t2, p2, q2, r2, s2, u2⟩ := one b b' hb
  obtain ⟨t3, p3, q3, r3, s3, u3⟩ := one c c' hc
  have hz : ∀ t : K, t = 1 → a' < 0 → ¬ 0 ≤ a + t * (a' - a) := by
    intro t ht h h'; rw [ht] at h'; linarith
  have hz2 : ∀ t : K, t = 1 → b' < 0 → ¬ 0 ≤ b + t * (b' - b) := by
    intro t ht h h'; rw [ht] at h'; linarith
  have hz3 : ∀ t : K, t = 1 → c' < 0 → ¬ 0 ≤ c + t * (c' - c) := by
    intro t ht h h'; rw [ht] at h'; linarith
  have key : ∀ t, 0 ≤ t → t ≤ t1 → t ≤ t2 → t ≤ t3 → (t = t1 ∨ t = t2 ∨ t = t3) →
      ∃ t, 0 ≤ t ∧ t ≤ 1 ∧ 0 ≤ a + t * (a' - a) ∧ 0 ≤ b + t * (b' - b) ∧ 0 ≤ c + t * (c' - c) ∧
      (a + t * (a' - a) = 0 ∨ b + t * (b' - b) = 0 ∨ c + t * (c' - c) = 0) := by
    intro t h0 l1 l2 l3 he
    have n1 := r1 t h0 l1
    have n2 := r2 t h0 l2
    have n3 := r3 t h0 l3
    refine ⟨t, h0, le_trans l1 q1, n1, n2, n3, ?_⟩
    have hne : t ≠ 1 := by
      intro h1
      rcases h with h | h | h
      · exact hz t h1 h n1
      · exact hz2 t h1 h n2
      · exact hz3 t h1 h n3
    rcases he with he | he | he
    · by_cases h' : a' < 0
      · left; rw [he]; exact s1 h'
      · exact absurd (he.trans (u1 h')) hne
    · by_cases h' : b' < 0
      · right; left; rw [he]; exact s2 h'
      · exact absurd (he.trans (u2 h')) hne
    · by_cases h' : c' < 0
      · right; right; rw [he]; exact s3 h'
      · exact absurd (he.trans (u3 h')) hne
  rcases le_total t1 t2 with h12 | h12
  · rcases le_total t1 t3 with h13 | h13
    · exact key t1 p1 (le_refl _) h12 h13 (Or.inl rfl)
    · exact key t3 p3 h13 (le_trans h13 h12) (le_refl _) (Or.inr (Or.inr rfl))
  · rcases le_total t2 t3 with h23 | h23
    · exact key t2 p2 h12 (le_refl _) h23 (Or.inr (Or.inl rfl))
    · exact key t3 p3 (le_trans h23 h12) h23 (le_refl _) (Or.inr (Or.inr rfl))

/-- a segment from a point of a triangle to a point outside it meets its border -/
theorem exit {T : (K × K) × (K × K) × (K × K)} (hT : ¬ Flat T) (p q : K × K) (hp : InTriangle T p)
    (hq : ¬ InTriangle T q) : ∃ x, OnSegment (p, q) x ∧ InTriangle T x ∧ ∃ e ∈ sides T, OnSegment e x := by
  obtain ⟨h1, h2, h3⟩ := (inTriangle_iff hT p).1 hp
  rw [inTriangle_iff hT q, not_and_or, not_and_or, not_le, not_le, not_le] at hq
  obtain ⟨t, t0, t1, n1, n2, n3, hz⟩ := leaving _ _ _ _ _ _ h1 h2 h3 hq
  obtain ⟨e1, e2, e3⟩ := co_affine hT p q (p.1 + t * (q.1 - p.1), p.2 + t * (q.2 - p.2)) t rfl rfl
  rw [← e1] at n1 hz
  rw [← e2] at n2 hz
  rw [← e3] at n3 hz
  have hin := (inTriangle_iff hT _).2 ⟨n1, n2, n3⟩
  exact ⟨_, ⟨t, t0, t1, rfl, rfl⟩, hin, on_side hT _ hin hz⟩

/-- a triangle is convex -/
theorem convex {T : (K × K) × (K × K) × (K × K)} (hT : ¬ Flat T) (p q x : K × K) (hp : InTriangle T p)
    (hq : InTriangle T q) (hx : OnSegment (p, q) x) : InTriangle T x := by
  obtain ⟨t, t0, t1, hx, hy⟩ := hx
  obtain ⟨e1, e2, e3⟩ := co_affine hT p q x t hx hy
  obtain ⟨p1, p2, p3⟩ := (inTriangle_iff hT p).1 hp
  obtain ⟨q1, q2, q3⟩ := (inTriangle_iff hT q).1 hq
  rw [inTriangle_iff hT, e1, e2, e3]
  have : ∀ a b : K, 0 ≤ a → 0 ≤ b → 0 ≤ a + t * (b - a) := by
    intro a b ha hb
    have h1 : 0 ≤ (1 - t) * a := mul_nonneg (by linarith) ha
    have h2 : 0 ≤ t * b := mul_nonneg t0 hb
    linarith
  exact ⟨this _ _ p1 q1, this _ _ p2 q2, this _ _ p3 q3⟩

/-- a triangle whose vertices are in another one is in it -/
theorem contained {T1 T2 : (K × K) × (K × K) × (K × K)} (h2 : ¬ Flat T2)
    (h : InTriangle T2 T1.1 ∧ InTriangle T2 T1.2.1 ∧ InTriangle T2 T1.2.2) (x : K × K) (hx : InTriangle T1 x) :
    InTriangle T2 x := by
  obtain ⟨⟨a1, a2, a3⟩, ⟨b1, b2, b3⟩, c1, c2, c3⟩ := And.imp (inTriangle_iff h2 _).1
    (And.imp (inTriangle_iff h2 _).1 (inTriangle_iff h2 _).1) h
  obtain ⟨u, v, w, hu, hv, hw, hs, hx, hy⟩ := hx
  have hD : orientation T2.1 T2.2.1 T2.2.2 ≠ 0 := h2
  obtain rfl : u = 1 - v - w := by linear_combination hs
  have comb : ∀ f : K × K → K, f x = (1 - v - w) * f T1.1 + v * f T1.2.1 + w * f T1.2.2 → 0 ≤ f T1.1 → 0 ≤ f T1.2.1 →
      0 ≤ f T1.2.2 → 0 ≤ f x := by
    intro f hf p q r
    rw [hf]
    have := mul_nonneg hu p
    have := mul_nonneg hv q
    have := mul_nonneg hw r
    linarith
  rw [inTriangle_iff h2]
  refine ⟨comb (co1 T2) ?_ a1 b1 c1, comb (co2 T2) ?_ a2 b2 c2, comb (co3 T2) ?_ a3 b3 c3⟩ <;>
    (simp only [co1, co2, co3]
     rw [mul_div_assoc', mul_div_assoc', mul_div_assoc', ← add_div, ← add_div]
     congr 1
     unfold orientation
     rw [hx, hy]
     ring)


/-! ### overlapping triangles whose borders do not meet -/

theorem segment_swap (a b x : K × K) (h : OnSegment (a, b) x) : OnSegment (b, a) x := by
  obtain ⟨t, t0, t1, hx, hy⟩ := h
  exact ⟨1 - t, by linarith, by linarith, by rw [hx]; ring, by rw [hy]; ring⟩

theorem segment_left (a b : K × K) : OnSegment (a, b) a := ⟨0, le_refl _, zero_le_one, by ring, by ring⟩

theorem segment_right (a b : K × K) : OnSegment (a, b) b := segment_swap _ _ _ (segment_left b a)

/-- a part of a segment -/
theorem segment_part (a b q x : K × K) (hq : OnSegment (a, b) q) (hx : OnSegment (q, b) x) :
    OnSegment (a, b) x ∧ (x = a → q = a ∨ a = b) := by
  obtain ⟨s, s0, s1, qx, qy⟩ := hq
  obtain ⟨t, t0, t1, xx, xy⟩ := hx
  simp only at qx qy xx xy
  have h1 : 0 ≤ t * (1 - s) := mul_nonneg t0 (by linarith)
  have h2 : 0 ≤ (1 - t) * (1 - s) := mul_nonneg (by linarith) (by linarith)
  refine ⟨⟨s + t * (1 - s), by linarith, by linarith, by rw [xx, qx]; ring, by rw [xy, qy]; ring⟩, fun h => ?_⟩
  by_cases hz : s + t * (1 - s) = 0
  · left
    have hs : s = 0 := by linarith
    ext
    · rw [qx, hs]; ring
    · rw [qy, hs]; ring
  · right
    have ex : (s + t * (1 - s)) * (b.1 - a.1) = 0 := by
      have : x.1 = a.1 := by rw [h]
      linear_combination this - xx - (1 - t) * qx
    have ey : (s + t * (1 - s)) * (b.2 - a.2) = 0 := by
      have : x.2 = a.2 := by rw [h]
      linear_combination this - xy - (1 - t) * qy
    ext
    · have := (mul_eq_zero.1 ex).resolve_left hz; linarith
    · have := (mul_eq_zero.1 ey).resolve_left hz; linarith

/-- a point is a vertex of a triangle -/
def Vertex (T : (K × K) × (K × K) × (K × K)) (x : K × K) : Prop := x = T.1 ∨ x = T.2.1 ∨ x = T.2.2

theorem vertex_border (T : (K × K) × (K × K) × (K × K)) (x : K × K) (h : Vertex T x) : ∃ e ∈ sides T, OnSegment e x := by
  rcases h with rfl | rfl | rfl
  · exact ⟨(T.1, T.2.1), by simp [sides], segment_left _ _⟩
  · exact ⟨(T.2.1, T.2.2), by simp [sides], segment_left _ _⟩
  · exact ⟨(T.2.2, T.1), by simp [sides], segment_left _ _⟩

/-- a side of a triangle, in any direction -/
def Side (T : (K × K) × (K × K) × (K × K)) (a b : K × K) : Prop := (a, b) ∈ sides T ∨ (b, a) ∈ sides T

theorem side_border {T : (K × K) × (K × K) × (K × K)} {a b : K × K} (h : Side T a b) (x : K × K) (hx : OnSegment (a, b) x) :
    ∃ e ∈ sides T, OnSegment e x := by
  rcases h with h | h
  · exact ⟨_, h, hx⟩
  · exact ⟨_, h, segment_swap _ _ _ hx⟩

theorem side_of_vertices {T : (K × K) × (K × K) × (K × K)} (a b : K × K) (ha : Vertex T a) (hb : Vertex T b) (h : a ≠ b) :
    Side T a b := by
  unfold Side sides
  rcases ha with rfl | rfl | rfl <;> rcases hb with rfl | rfl | rfl <;> first | exact absurd rfl h | simp

/-- the ends of a side are distinct vertices, and its only vertices -/
theorem side_vertices {T : (K × K) × (K × K) × (K × K)} (hT : ¬ Flat T) {a b : K × K} (h : Side T a b) :
    Vertex T a ∧ Vertex T b ∧ a ≠ b ∧ ∀ y, OnSegment (a, b) y → Vertex T y → y = a ∨ y = b := by
  have hD : orientation T.1 T.2.1 T.2.2 ≠ 0 := hT
  obtain ⟨p, q, r⟩ := T
  simp only at hD
  have hpq : p ≠ q := by rintro rfl; exact hD (by unfold orientation; ring)
  have hqr : q ≠ r := by rintro rfl; exact hD (by unfold orientation; ring)
  have hrp : r ≠ p := by rintro rfl; exact hD (by unfold orientation; ring)
  have third : ∀ a b c : K × K, OnSegment (a, b) c → orientation a b c = 0 := by
    rintro a b c ⟨t, _, _, hx, hy⟩
    unfold orientation; rw [hx, hy]; ring
  have n1 : ¬ OnSegment (p, q) r := fun h => hD (third _ _ _ h)
  have n2 : ¬ OnSegment (q, r) p := fun h => hD (by rw [← third _ _ _ h]; unfold orientation; ring)
  have n3 : ¬ OnSegment (r, p) q := fun h => hD (by rw [← third _ _ _ h]; unfold orientation; ring)
  have key : ∀ a b : K × K, (a, b) ∈ sides (p, q, r) → Vertex (p, q, r) a ∧ Vertex (p, q, r) b ∧ a ≠ b ∧
      ∀ y, OnSegment (a, b) y → Vertex (p, q, r) y → y = a ∨ y = b := by
    intro a b h
    simp only [sides, List.mem_cons, List.not_mem_nil, or_false, Prod.mk.injEq] at h
    unfold Vertex
    rcases h with ⟨rfl, rfl⟩ | ⟨rfl, rfl⟩ | ⟨rfl, rfl⟩
    · refine ⟨.inl rfl, .inr (.inl rfl), hpq, fun y hy hv => ?_⟩
      rcases hv with rfl | rfl | rfl
      · exact .inl rfl
      · exact .inr rfl
      · exact absurd hy n1
    · refine ⟨.inr (.inl rfl), .inr (.inr rfl), hqr, fun y hy hv => ?_⟩
      rcases hv with rfl | rfl | rfl
      · exact absurd hy n2
      · exact .inl rfl
      · exact .inr rfl
    · refine ⟨.inr (.inr rfl), .inl rfl, hrp, fun y hy hv => ?_⟩
      rcases hv with rfl | rfl | rfl
      · exact .inr rfl
      · exact absurd hy n3
      · exact .inl rfl
  rcases h with h | h
  · exact key a b h
  · obtain ⟨h1, h2, h3, h4⟩ := key b a h
    exact ⟨h2, h1, h3.symm, fun y hy hv => (h4 y (segment_swap _ _ _ hy) hv).symm⟩

theorem inside_not_border {T : (K × K) × (K × K) × (K × K)} (hT : ¬ Flat T) (p : K × K) (h : InsideTriangle T p)
    (hb : ∃ e ∈ sides T, OnSegment e p) : False := by
  obtain ⟨h1, h2, h3⟩ := (inside_iff hT p).1 h
  rcases (side_in hT p hb).2 with h0 | h0 | h0
  · exact h1.ne' h0
  · exact h2.ne' h0
  · exact h3.ne' h0

theorem inside_of_not_border {T : (K × K) × (K × K) × (K × K)} (hT : ¬ Flat T) (p : K × K) (h : InTriangle T p)
    (hb : ¬ ∃ e ∈ sides T, OnSegment e p) : InsideTriangle T p := by
  obtain ⟨h1, h2, h3⟩ := (inTriangle_iff hT p).1 h
  rw [inside_iff hT]
  have : ∀ c : K, 0 ≤ c → c ≠ 0 → 0 < c := fun c h h' => lt_of_le_of_ne h (Ne.symm h')
  exact ⟨this _ h1 fun e => hb (on_side hT p h (.inl e)), this _ h2 fun e => hb (on_side hT p h (.inr (.inl e))),
    this _ h3 fun e => hb (on_side hT p h (.inr (.inr e)))⟩

theorem inside_in {T : (K × K) × (K × K) × (K × K)} (p : K × K) (h : InsideTriangle T p) : InTriangle T p := by
  obtain ⟨u, v, w, hu, hv, hw, h⟩ := h
  exact ⟨u, v, w, hu.le, hv.le, hw.le, h⟩

theorem vertex_in {T : (K × K) × (K × K) × (K × K)} (hT : ¬ Flat T) (p : K × K) (h : Vertex T p) : InTriangle T p :=
  (side_in hT p (vertex_border T p h)).1

/-- the segment from a point of the interior stays in the interior up to its other end -/
theorem stays_inside {T : (K × K) × (K × K) × (K × K)} (hT : ¬ Flat T) (p q x : K × K) (hp : InsideTriangle T p)
    (hq : InTriangle T q) (hx : OnSegment (p, q) x) : x = q ∨ InsideTriangle T x := by
  obtain ⟨t, t0, t1, hx, hy⟩ := hx
  simp only at hx hy
  rcases eq_or_lt_of_le t1 with rfl | ht
  · left; ext
    · rw [hx]; ring
    · rw [hy]; ring
  · right
    obtain ⟨e1, e2, e3⟩ := co_affine hT p q x t hx hy
    obtain ⟨p1, p2, p3⟩ := (inside_iff hT p).1 hp
    obtain ⟨q1, q2, q3⟩ := (inTriangle_iff hT q).1 hq
    rw [inside_iff hT, e1, e2, e3]
    have : ∀ a b : K, 0 < a → 0 ≤ b → 0 < a + t * (b - a) := by
      intro a b ha hb
      have h1 : 0 < (1 - t) * a := mul_pos (by linarith) ha
      have h2 : 0 ≤ t * b := mul_nonneg t0 hb
      linarith
    exact ⟨this _ _ p1 q1, this _ _ p2 q2, this _ _ p3 q3⟩

/-- at most one point is avoided, a vertex of both triangles -/
structure Avoided (T1 T2 : (K × K) × (K × K) × (K × K)) (avoid : K × K → Prop) : Prop where
  one : ∀ x y, avoid x → avoid y → x = y
  first : ∀ x, avoid x → Vertex T1 x
  second : ∀ x, avoid x → Vertex T2 x

/-- from a point of a side of `T2` inside `T1`, the side ends in `T1` -/
theorem walk {T1 T2 : (K × K) × (K × K) × (K × K)} (h1 : ¬ Flat T1) (h2 : ¬ Flat T2) (avoid : K × K → Prop)
    (hA : Avoided T1 T2 avoid) (h : ∀ x, OnBothBorders T1 T2 x → avoid x) {a b : K × K} (hs : Side T2 a b) (q : K × K)
    (hq : OnSegment (a, b) q) (hi : InsideTriangle T1 q) : InTriangle T1 b := by
  by_contra hb
  obtain ⟨y, hy, hin, hbord⟩ := exit h1 q b (inside_in q hi) hb
  obtain ⟨hy', hya⟩ := segment_part a b q y hq hy
  have hav := h y ⟨hbord, side_border hs y hy'⟩
  obtain ⟨_, _, hne, hends⟩ := side_vertices h2 hs
  rcases hends y hy' (hA.second y hav) with rfl | rfl
  · rcases hya rfl with rfl | h'
    · exact inside_not_border h1 _ hi hbord
    · exact hne h'
  · exact hb hin

theorem nested {T1 T2 : (K × K) × (K × K) × (K × K)} (h1 : ¬ Flat T1) (h2 : ¬ Flat T2) (avoid : K × K → Prop)
    (hA : Avoided T1 T2 avoid) (h : ∀ x, OnBothBorders T1 T2 x → avoid x) (p : K × K) (hp1 : InsideTriangle T1 p)
    (hp2 : InsideTriangle T2 p) :
    (∀ x, InTriangle T1 x → InTriangle T2 x) ∨ ∀ x, InTriangle T2 x → InTriangle T1 x := by
  by_cases hc : InTriangle T2 T1.1 ∧ InTriangle T2 T1.2.1 ∧ InTriangle T2 T1.2.2
  · exact .inl fun x => contained h2 hc x
  · right
    obtain ⟨v, hv, hv2⟩ : ∃ v, Vertex T1 v ∧ ¬ InTriangle T2 v := by
      by_contra hno
      push Not at hno
      exact hc ⟨hno _ (.inl rfl), hno _ (.inr (.inl rfl)), hno _ (.inr (.inr rfl))⟩
    obtain ⟨x, hx, hx2, e, he, hxe⟩ := exit h2 p v (inside_in p hp2) hv2
    have hx1 : InsideTriangle T1 x := by
      rcases stays_inside h1 p v x hp1 (vertex_in h1 v hv) hx with rfl | h'
      · exact absurd hx2 hv2
      · exact h'
    obtain ⟨a, b⟩ := e
    have hs : Side T2 a b := .inl he
    have hs' : Side T2 b a := .inr he
    have hb := walk h1 h2 avoid hA h hs x hxe hx1
    have ha := walk h1 h2 avoid hA h hs' x (segment_swap _ _ _ hxe) hx1
    obtain ⟨va, vb, hab, _⟩ := side_vertices h2 hs
    -- an end which is not avoided is inside
    have inside : ∀ w, Vertex T2 w → InTriangle T1 w → ¬ avoid w → InsideTriangle T1 w := fun w hw hin hav =>
      inside_of_not_border h1 w hin fun hbo => hav (h w ⟨hbo, vertex_border T2 w hw⟩)
    have all : ∀ w, Vertex T2 w → InTriangle T1 w := by
      intro w hw
      by_cases hwa : w = a
      · rw [hwa]; exact ha
      by_cases hwb : w = b
      · rw [hwb]; exact hb
      by_cases hav : avoid a
      · have hnb : ¬ avoid b := fun hb' => hab (hA.one _ _ hav hb')
        exact walk h1 h2 avoid hA h (side_of_vertices b w vb hw (Ne.symm hwb)) b (segment_left _ _) (inside b vb hb hnb)
      · exact walk h1 h2 avoid hA h (side_of_vertices a w va hw (Ne.symm hwa)) a (segment_left _ _) (inside a va ha hav)
    exact fun x => contained h1 ⟨all _ (.inl rfl), all _ (.inr (.inl rfl)), all _ (.inr (.inr rfl))⟩ x

/-! ### borders meeting along a line -/

theorem param (a b c : K × K) (hab : a ≠ b) (h : orientation a b c = 0) :
    ∃ t : K, c.1 = a.1 + t * (b.1 - a.1) ∧ c.2 = a.2 + t * (b.2 - a.2) := by
  unfold orientation at h
  by_cases hx : b.1 - a.1 = 0
  · have hy : b.2 - a.2 ≠ 0 := by
      intro hy
      exact hab (by ext <;> linarith)
    refine ⟨(c.2 - a.2) / (b.2 - a.2), ?_, ?_⟩
    · rw [hx] at h
      have := (mul_eq_zero.1 (show (b.2 - a.2) * (c.1 - a.1) = 0 by linarith)).resolve_left hy
      rw [hx]; linarith
    · rw [div_mul_cancel₀ _ hy]; ring
  · refine ⟨(c.1 - a.1) / (b.1 - a.1), ?_, ?_⟩
    · rw [div_mul_cancel₀ _ hx]; ring
    · have : c.2 - a.2 = (c.1 - a.1) / (b.1 - a.1) * (b.2 - a.2) := by
        rw [div_mul_eq_mul_div, eq_div_iff hx]; linear_combination h
      linear_combination this

theorem on_line (a b c : K × K) (t : K) (hx : c.1 = a.1 + t * (b.1 - a.1)) (hy : c.2 = a.2 + t * (b.2 - a.2)) :
    orientation a b c = 0 := by
  unfold orientation; rw [hx, hy]; ring

theorem online_swap (s1 s2 : (K × K) × (K × K)) (h1 : s1.1 ≠ s1.2) (h : OnLine s1 s2) : OnLine s2 s1 := by
  obtain ⟨t, tx, ty⟩ := param _ _ _ h1 h.1
  obtain ⟨u, ux, uy⟩ := param _ _ _ h1 h.2
  constructor <;> (unfold orientation; rw [tx, ty, ux, uy]; ring)

/-- at an end of a side, the other side is not on the line of a segment of the line of the side -/
theorem turn {T : (K × K) × (K × K) × (K × K)} (hT : ¬ Flat T) (e : (K × K) × (K × K)) (he : e ∈ sides T) (v : K × K)
    (hv : v = e.1 ∨ v = e.2) : ∃ e' ∈ sides T, OnSegment e' v ∧ ∀ s, s.1 ≠ s.2 → OnLine e s → ¬ OnLine e' s := by
  have hD : orientation T.1 T.2.1 T.2.2 ≠ 0 := hT
  obtain ⟨p, q, r⟩ := T
  simp only at hD
  have hpq : p ≠ q := by rintro rfl; exact hD (by unfold orientation; ring)
  have hqr : q ≠ r := by rintro rfl; exact hD (by unfold orientation; ring)
  have hrp : r ≠ p := by rintro rfl; exact hD (by unfold orientation; ring)
  -- two lines from `v`
  have key : ∀ v o w : K × K, ∀ s : (K × K) × (K × K), orientation v o w ≠ 0 → s.1 ≠ s.2 →
      orientation v o s.1 = 0 → orientation v o s.2 = 0 → orientation v w s.1 = 0 → orientation v w s.2 = 0 → False := by
    intro v o w s hne hs h1 h2 h3 h4
    have hvo : v ≠ o := by rintro rfl; exact hne (by unfold orientation; ring)
    obtain ⟨t, tx, ty⟩ := param _ _ _ hvo h1
    obtain ⟨u, ux, uy⟩ := param _ _ _ hvo h2
    have ht : t * orientation v o w = 0 := by
      rw [← neg_eq_zero, ← h3]; unfold orientation; rw [tx, ty]; ring
    have hu : u * orientation v o w = 0 := by
      rw [← neg_eq_zero, ← h4]; unfold orientation; rw [ux, uy]; ring
    have ht := (mul_eq_zero.1 ht).resolve_right hne
    have hu := (mul_eq_zero.1 hu).resolve_right hne
    exact hs (by ext <;> simp [tx, ty, ux, uy, ht, hu])
  have sw : ∀ a b c : K × K, orientation a b c = 0 → orientation b a c = 0 := by
    intro a b c h; rw [← neg_eq_zero, ← h]; unfold orientation; ring
  have c1 : orientation q r p ≠ 0 := by intro h; exact hD (by rw [← h]; unfold orientation; ring)
  have c2 : orientation r p q ≠ 0 := by intro h; exact hD (by rw [← h]; unfold orientation; ring)
  have d0 : orientation q p r ≠ 0 := fun h => hD (sw _ _ _ h)
  have d1 : orientation r q p ≠ 0 := fun h => c1 (sw _ _ _ h)
  have d2 : orientation p r q ≠ 0 := fun h => c2 (sw _ _ _ h)
  simp only [sides, List.mem_cons, List.not_mem_nil, or_false] at he
  rcases he with rfl | rfl | rfl <;> rcases hv with hv | hv <;> simp only at hv <;> rw [hv]
  · exact ⟨(r, p), by simp [sides], segment_right _ _, fun s hs h h' =>
      key p q r s hD hs h.1 h.2 (sw _ _ _ h'.1) (sw _ _ _ h'.2)⟩
  · exact ⟨(q, r), by simp [sides], segment_left _ _, fun s hs h h' =>
      key q p r s d0 hs (sw _ _ _ h.1) (sw _ _ _ h.2) h'.1 h'.2⟩
  · exact ⟨(p, q), by simp [sides], segment_right _ _, fun s hs h h' =>
      key q r p s c1 hs h.1 h.2 (sw _ _ _ h'.1) (sw _ _ _ h'.2)⟩
  · exact ⟨(r, p), by simp [sides], segment_left _ _, fun s hs h h' =>
      key r q p s d1 hs (sw _ _ _ h.1) (sw _ _ _ h.2) h'.1 h'.2⟩
  · exact ⟨(q, r), by simp [sides], segment_right _ _, fun s hs h h' =>
      key r p q s c2 hs h.1 h.2 (sw _ _ _ h'.1) (sw _ _ _ h'.2)⟩
  · exact ⟨(p, q), by simp [sides], segment_left _ _, fun s hs h h' =>
      key p r q s d2 hs (sw _ _ _ h.1) (sw _ _ _ h.2) h'.1 h'.2⟩

/-- two segments of a line which have a point in common, the end of none of them, have an end of one of them after this
point on both -/
theorem overlap_after (a b c d x : K × K) (hab : a ≠ b) (hl : OnLine (a, b) (c, d)) (h1 : OnSegment (a, b) x)
    (h2 : OnSegment (c, d) x) (hd : ∃ r : K, 0 < r ∧ d.1 - x.1 = r * (b.1 - a.1) ∧ d.2 - x.2 = r * (b.2 - a.2)) (hb : x ≠ b) :
    ∃ y, OnSegment (a, b) y ∧ OnSegment (c, d) y ∧ (y = b ∨ y = d) ∧
      ∃ r : K, 0 < r ∧ y.1 - x.1 = r * (b.1 - a.1) ∧ y.2 - x.2 = r * (b.2 - a.2) := by
  obtain ⟨t, t0, t1, tx, ty⟩ := h1
  obtain ⟨u, u0, u1, ux, uy⟩ := h2
  obtain ⟨r, r0, rx, ry⟩ := hd
  simp only at tx ty ux uy
  have htl : t < 1 := by
    rcases eq_or_lt_of_le t1 with rfl | h
    · exact absurd (by ext <;> [rw [tx]; rw [ty]] <;> ring) hb
    · exact h
  rcases le_total (t + r) 1 with h | h
  · -- `d` is before `b`
    refine ⟨d, ⟨t + r, by linarith, h, ?_, ?_⟩, segment_right _ _, .inr rfl, r, r0, rx, ry⟩
    · show d.1 = _; linear_combination rx + tx
    · show d.2 = _; linear_combination ry + ty
  · -- `b` is before `d`
    refine ⟨b, segment_right _ _, ?_, .inl rfl, 1 - t, by linarith, by rw [tx]; ring, by rw [ty]; ring⟩
    -- b = x + (1-t)/r (d - x), x = c + u (d - c)
    have hk0 : 0 ≤ (1 - t) / r := div_nonneg (by linarith) r0.le
    have hk1 : (1 - t) / r ≤ 1 := (div_le_one r0).2 (by linarith)
    have hk : (1 - t) / r * r = 1 - t := div_mul_cancel₀ _ r0.ne'
    have hx : OnSegment (x, d) b := ⟨(1 - t) / r, hk0, hk1,
      by show b.1 = _; rw [rx, ← mul_assoc, hk, tx]; ring, by show b.2 = _; rw [ry, ← mul_assoc, hk, ty]; ring⟩
    exact (segment_part c d x b ⟨u, u0, u1, ux, uy⟩ hx).1

theorem side_ne {T : (K × K) × (K × K) × (K × K)} (hT : ¬ Flat T) (e : (K × K) × (K × K)) (he : e ∈ sides T) : e.1 ≠ e.2 :=
  (side_vertices hT (a := e.1) (b := e.2) (.inl he)).2.2.1

/-- two collinear sides have another end in common beside any point -/
theorem overlap_ends (a b c d x : K × K) (hab : a ≠ b) (hcd : c ≠ d) (hl : OnLine (a, b) (c, d)) (h1 : OnSegment (a, b) x)
    (h2 : OnSegment (c, d) x) (na : x ≠ a) (nb : x ≠ b) (nc : x ≠ c) (nd : x ≠ d) :
    ∃ y y', y ≠ y' ∧ (OnSegment (a, b) y ∧ OnSegment (c, d) y ∧ (y = a ∨ y = b ∨ y = c ∨ y = d)) ∧
      OnSegment (a, b) y' ∧ OnSegment (c, d) y' ∧ (y' = a ∨ y' = b ∨ y' = c ∨ y' = d) := by
  -- `d - c` is a multiple of `b - a`
  obtain ⟨γ, cx, cy⟩ := param a b c hab hl.1
  obtain ⟨δ, dx, dy⟩ := param a b d hab hl.2
  have hγδ : γ ≠ δ := by
    rintro rfl
    exact hcd (by ext <;> [rw [cx, dx]; rw [cy, dy]])
  obtain ⟨u, u0, u1, ux, uy⟩ := h2
  simp only at ux uy
  have hu0 : 0 < u := by
    rcases eq_or_lt_of_le u0 with rfl | h
    · exact absurd (by ext <;> [rw [ux]; rw [uy]] <;> ring) nc
    · exact h
  have hu1 : u < 1 := by
    rcases eq_or_lt_of_le u1 with rfl | h
    · exact absurd (by ext <;> [rw [ux]; rw [uy]] <;> ring) nd
    · exact h
  have hx2 : OnSegment (c, d) x := ⟨u, u0, u1, ux, uy⟩
  have opposite : ∀ r r' : K, 0 < r → 0 < r' → ∀ y y' : K × K, y.1 - x.1 = r * (b.1 - a.1) → y.2 - x.2 = r * (b.2 - a.2) →
      y'.1 - x.1 = r' * (a.1 - b.1) → y'.2 - x.2 = r' * (a.2 - b.2) → y ≠ y' := by
    intro r r' hr hr' y y' h1 h2 h3 h4 he
    have e1 : (r + r') * (b.1 - a.1) = 0 := by rw [he] at h1; linear_combination h3 - h1
    have e2 : (r + r') * (b.2 - a.2) = 0 := by rw [he] at h2; linear_combination h4 - h2
    have hne : r + r' ≠ 0 := by linarith
    have e1 := (mul_eq_zero.1 e1).resolve_left hne
    have e2 := (mul_eq_zero.1 e2).resolve_left hne
    exact hab (by ext <;> linarith)
  have sw : ∀ s : (K × K) × (K × K), OnLine (a, b) s → OnLine (b, a) s := by
    intro s h
    constructor
    · rw [← neg_eq_zero, ← h.1]; unfold orientation; ring
    · rw [← neg_eq_zero, ← h.2]; unfold orientation; ring
  rcases lt_or_gt_of_ne hγδ with hlt | hlt
  · obtain ⟨y, y1, y2, y3, r, hr, rx, ry⟩ := overlap_after a b c d x hab hl h1 hx2
      ⟨(1 - u) * (δ - γ), mul_pos (by linarith) (by linarith), by rw [ux, dx, cx]; ring, by rw [uy, dy, cy]; ring⟩ nb
    obtain ⟨y', y1', y2', y3', r', hr', rx', ry'⟩ := overlap_after b a d c x hab.symm (sw _ ⟨hl.2, hl.1⟩)
      (segment_swap _ _ _ h1) (segment_swap _ _ _ hx2)
      ⟨u * (δ - γ), mul_pos hu0 (by linarith), by rw [ux, dx, cx]; ring, by rw [uy, dy, cy]; ring⟩ na
    exact ⟨y, y', opposite r r' hr hr' y y' rx ry rx' ry', ⟨y1, y2, by tauto⟩, segment_swap _ _ _ y1',
      segment_swap _ _ _ y2', by tauto⟩
  · obtain ⟨y, y1, y2, y3, r, hr, rx, ry⟩ := overlap_after a b d c x hab ⟨hl.2, hl.1⟩ h1 (segment_swap _ _ _ hx2)
      ⟨u * (γ - δ), mul_pos hu0 (by linarith), by rw [ux, dx, cx]; ring, by rw [uy, dy, cy]; ring⟩ nb
    obtain ⟨y', y1', y2', y3', r', hr', rx', ry'⟩ := overlap_after b a c d x hab.symm (sw _ hl)
      (segment_swap _ _ _ h1) hx2
      ⟨(1 - u) * (γ - δ), mul_pos (by linarith) (by linarith), by rw [ux, dx, cx]; ring, by rw [uy, dy, cy]; ring⟩ na
    exact ⟨y, y', opposite r r' hr hr' y y' rx ry rx' ry', ⟨y1, segment_swap _ _ _ y2, by tauto⟩, segment_swap _ _ _ y1',
      y2', by tauto⟩

/-- when the borders meet at a point which is not avoided, two sides which are not on the same line do -/
theorem crossing_sides {T1 T2 : (K × K) × (K × K) × (K × K)} (h1 : ¬ Flat T1) (h2 : ¬ Flat T2) (avoid : K × K → Prop)
    (hA : ∀ x y, avoid x → avoid y → x = y) (x : K × K) (hx : OnBothBorders T1 T2 x) (hn : ¬ avoid x) :
    ∃ e1 ∈ sides T1, ∃ e2 ∈ sides T2, ¬ OnLine e1 e2 ∧ ∃ y, OnSegment e1 y ∧ OnSegment e2 y ∧ ¬ avoid y := by
  obtain ⟨⟨e1, he1, x1⟩, e2, he2, x2⟩ := hx
  by_cases hl : OnLine e1 e2
  · have n1 := side_ne h1 e1 he1
    have n2 := side_ne h2 e2 he2
    -- at an end of a side, turn
    have atEnd : ∀ y, OnSegment e1 y → OnSegment e2 y → ¬ avoid y → (y = e1.1 ∨ y = e1.2 ∨ y = e2.1 ∨ y = e2.2) →
        ∃ e1 ∈ sides T1, ∃ e2 ∈ sides T2, ¬ OnLine e1 e2 ∧ ∃ y, OnSegment e1 y ∧ OnSegment e2 y ∧ ¬ avoid y := by
      intro y y1 y2 hy he
      have : (y = e1.1 ∨ y = e1.2) ∨ (y = e2.1 ∨ y = e2.2) := by tauto
      rcases this with he | he
      · obtain ⟨e', he', hv, ht⟩ := turn h1 e1 he1 y he
        exact ⟨e', he', e2, he2, ht e2 n2 hl, y, hv, y2, hy⟩
      · obtain ⟨e', he', hv, ht⟩ := turn h2 e2 he2 y he
        refine ⟨e1, he1, e', he', fun h => ht e1 n1 (online_swap _ _ n1 hl) (online_swap _ _ n1 h), y, y1, hv, hy⟩
    by_cases hend : x = e1.1 ∨ x = e1.2 ∨ x = e2.1 ∨ x = e2.2
    · exact atEnd x x1 x2 hn hend
    · push Not at hend
      obtain ⟨y, y', hne, ⟨a1, a2, a3⟩, b1, b2, b3⟩ := overlap_ends e1.1 e1.2 e2.1 e2.2 x n1 n2 hl x1 x2 hend.1 hend.2.1
        hend.2.2.1 hend.2.2.2
      by_cases hy : avoid y
      · exact atEnd y' b1 b2 (fun h => hne (hA _ _ hy h)) b3
      · exact atEnd y a1 a2 hy a3
  · exact ⟨e1, he1, e2, he2, hl, x, x1, x2, hn⟩

/-- segments which are not on the same line have at most one point in common -/
theorem common_unique (s1 s2 : (K × K) × (K × K)) (h : ¬ OnLine s1 s2) (x y : K × K) (x1 : OnSegment s1 x)
    (x2 : OnSegment s2 x) (y1 : OnSegment s1 y) (y2 : OnSegment s2 y) : x = y := by
  obtain ⟨t, _, _, tx, ty⟩ := x1
  obtain ⟨u, _, _, ux, uy⟩ := x2
  obtain ⟨t', _, _, tx', ty'⟩ := y1
  obtain ⟨u', _, _, ux', uy'⟩ := y2
  by_contra hne
  have huu : u' - u ≠ 0 := by
    intro he
    obtain rfl : u' = u := by linarith
    exact hne (by ext <;> [rw [ux, ux']; rw [uy, uy']])
  -- the direction of the second segment is a multiple of the first one
  have ex : (u' - u) * (s2.2.1 - s2.1.1) = (t' - t) * (s1.2.1 - s1.1.1) := by
    linear_combination tx' - tx - ux' + ux
  have ey : (u' - u) * (s2.2.2 - s2.1.2) = (t' - t) * (s1.2.2 - s1.1.2) := by
    linear_combination ty' - ty - uy' + uy
  have hd : (s1.2.1 - s1.1.1) * (s2.2.2 - s2.1.2) - (s1.2.2 - s1.1.2) * (s2.2.1 - s2.1.1) = 0 := by
    refine (mul_eq_zero.1 ?_).resolve_left huu
    linear_combination (s1.2.1 - s1.1.1) * ey - (s1.2.2 - s1.1.2) * ex
  have c1 : orientation s1.1 s1.2 s2.1 = 0 := by
    unfold orientation
    have e1 : s2.1.1 = s1.1.1 + t * (s1.2.1 - s1.1.1) - u * (s2.2.1 - s2.1.1) := by linear_combination tx - ux
    have e2 : s2.1.2 = s1.1.2 + t * (s1.2.2 - s1.1.2) - u * (s2.2.2 - s2.1.2) := by linear_combination ty - uy
    linear_combination (s1.2.1 - s1.1.1) * e2 - (s1.2.2 - s1.1.2) * e1 - u * hd
  exact h ⟨c1, by unfold orientation at c1 ⊢; linear_combination c1 + hd⟩


/-! ### triangles with an edge in common -/

/-- two triangles with an edge in common overlap exactly when edges without common end meet, or the last vertex of one of
them is in the other -/
theorem adjacent_iff (A B p q : K × K) (h1 : ¬ Flat (A, B, p)) (h2 : ¬ Flat (A, B, q)) :
    ((∃ x, OnSegment (A, p) x ∧ OnSegment (B, q) x) ∨ (∃ x, OnSegment (B, p) x ∧ OnSegment (A, q) x) ∨
      InTriangle (A, B, q) p ∨ InTriangle (A, B, p) q) ↔ ∃ x, InsideTriangle (A, B, p) x ∧ InsideTriangle (A, B, q) x := by
  have hAB : A ≠ B := by rintro rfl; exact h1 (by unfold Flat orientation; ring)
  have hs := co_sum h2 p
  have hx := co_x h2 p
  have hy := co_y h2 p
  have hin := inTriangle_iff h2 p
  have hγ : co3 (A, B, q) p ≠ 0 := div_ne_zero h1 h2
  revert hs hx hy hin hγ
  generalize co1 (A, B, q) p = α
  generalize co2 (A, B, q) p = β
  generalize co3 (A, B, q) p = γ
  intro hs hx hy hin hγ
  simp only at hx hy
  -- coordinates in the second triangle of a point of the first one
  have co : ∀ (x : K × K) (u v w : K), u + v + w = 1 → x.1 = u * A.1 + v * B.1 + w * p.1 →
      x.2 = u * A.2 + v * B.2 + w * p.2 →
      co1 (A, B, q) x = u + w * α ∧ co2 (A, B, q) x = v + w * β ∧ co3 (A, B, q) x = w * γ := by
    intro x u v w h e1 e2
    refine co_unique h2 x _ _ _ (by linear_combination h + w * hs) ?_ ?_
    · rw [e1, hx]; ring
    · rw [e2, hy]; ring
  rcases lt_or_gt_of_ne hγ with hneg | hpos
  · constructor
    · rintro (⟨x, ⟨s, s0, s1, sx, sy⟩, t, t0, t1, tx, ty⟩ | ⟨x, ⟨s, s0, s1, sx, sy⟩, t, t0, t1, tx, ty⟩ | h | h)
      · have c := co x (1 - s) 0 s (by ring) (by rw [sx]; ring) (by rw [sy]; ring)
        have d := co_unique h2 x 0 (1 - t) t (by ring) (by rw [tx]; ring) (by rw [ty]; ring)
        have e := c.2.2.symm.trans d.2.2
        have : s * γ ≤ 0 := mul_nonpos_of_nonneg_of_nonpos s0 hneg.le
        have hs0 : s = 0 := (mul_eq_zero.1 (show s * γ = 0 by linarith)).resolve_right hγ
        have ht0 : t = 0 := by rw [← e, hs0]; ring
        exact absurd (show A = B by
          ext
          · have := sx.symm.trans tx; rw [hs0, ht0] at this; simpa using this
          · have := sy.symm.trans ty; rw [hs0, ht0] at this; simpa using this) hAB
      · have c := co x 0 (1 - s) s (by ring) (by rw [sx]; ring) (by rw [sy]; ring)
        have d := co_unique h2 x (1 - t) 0 t (by ring) (by rw [tx]; ring) (by rw [ty]; ring)
        have e := c.2.2.symm.trans d.2.2
        have : s * γ ≤ 0 := mul_nonpos_of_nonneg_of_nonpos s0 hneg.le
        have hs0 : s = 0 := (mul_eq_zero.1 (show s * γ = 0 by linarith)).resolve_right hγ
        have ht0 : t = 0 := by rw [← e, hs0]; ring
        exact absurd (show A = B by
          ext
          · have := sx.symm.trans tx; rw [hs0, ht0] at this; simpa using this.symm
          · have := sy.symm.trans ty; rw [hs0, ht0] at this; simpa using this.symm) hAB
      · exact absurd (hin.1 h).2.2 (not_le.2 hneg)
      · obtain ⟨u, v, w, _, _, hw, h, e1, e2⟩ := h
        have c := (co q u v w h e1 e2).2.2
        have d := (co_unique h2 q 0 0 1 (by ring) (by ring) (by ring)).2.2
        have : w * γ ≤ 0 := mul_nonpos_of_nonneg_of_nonpos hw hneg.le
        have := zero_lt_one (α := K)
        linarith
    · rintro ⟨x, ⟨u, v, w, _, _, hw, h, e1, e2⟩, hi⟩
      have c := (co x u v w h e1 e2).2.2
      have d := ((inside_iff h2 x).1 hi).2.2
      have : w * γ < 0 := mul_neg_of_pos_of_neg hw hneg
      linarith
  · refine iff_of_true ?_ ?_
    · by_cases hα : 0 ≤ α
      · by_cases hβ : 0 ≤ β
        · exact .inr (.inr (.inl (hin.2 ⟨hα, hβ, hpos.le⟩)))
        · -- `p` is beyond the edge from `A` to `q`
          have hb : 0 < 1 - β := by linarith [not_le.1 hβ]
          have hk : 1 / (1 - β) * (1 - β) = 1 := div_mul_cancel₀ _ hb.ne'
          have k0 : 0 < 1 / (1 - β) := div_pos one_pos hb
          have k1 : 1 / (1 - β) ≤ 1 := (div_le_one hb).2 (by linarith [not_le.1 hβ])
          generalize 1 / (1 - β) = k at hk k0 k1
          have hkα : 0 ≤ k * α := mul_nonneg k0.le hα
          have hkγ : 0 ≤ k * γ := mul_nonneg k0.le hpos.le
          have hsum : k * α + k * γ = 1 := by linear_combination k * hs + hk
          refine .inr (.inl ⟨(B.1 + k * (p.1 - B.1), B.2 + k * (p.2 - B.2)), ⟨k, k0.le, k1, rfl, rfl⟩, k * γ, hkγ,
            by linarith, ?_, ?_⟩)
          · simp only; rw [hx]; linear_combination A.1 * hsum - B.1 * hk
          · simp only; rw [hy]; linear_combination A.2 * hsum - B.2 * hk
      · have ha : 0 < 1 - α := by linarith [not_le.1 hα]
        by_cases hβ : 0 ≤ β
        · have hk : 1 / (1 - α) * (1 - α) = 1 := div_mul_cancel₀ _ ha.ne'
          have k0 : 0 < 1 / (1 - α) := div_pos one_pos ha
          have k1 : 1 / (1 - α) ≤ 1 := (div_le_one ha).2 (by linarith [not_le.1 hα])
          generalize 1 / (1 - α) = k at hk k0 k1
          have hkβ : 0 ≤ k * β := mul_nonneg k0.le hβ
          have hkγ : 0 ≤ k * γ := mul_nonneg k0.le hpos.le
          have hsum : k * β + k * γ = 1 := by linear_combination k * hs + hk
          refine .inl ⟨(A.1 + k * (p.1 - A.1), A.2 + k * (p.2 - A.2)), ⟨k, k0.le, k1, rfl, rfl⟩, k * γ, hkγ,
            by linarith, ?_, ?_⟩
          · simp only; rw [hx]; linear_combination B.1 * hsum - A.1 * hk
          · simp only; rw [hy]; linear_combination B.2 * hsum - A.2 * hk
        · -- `q` is in the first triangle
          have hk : 1 / γ * γ = 1 := div_mul_cancel₀ _ hγ
          have k0 : 0 < 1 / γ := div_pos one_pos hpos
          generalize 1 / γ = k at hk k0
          refine .inr (.inr (.inr ⟨k * (-α), k * (-β), k, mul_nonneg k0.le (by linarith [not_le.1 hα]),
            mul_nonneg k0.le (by linarith [not_le.1 hβ]), k0.le, by linear_combination hk - k * hs, ?_, ?_⟩))
          · simp only; rw [hx]; linear_combination - q.1 * hk
          · simp only; rw [hy]; linear_combination - q.2 * hk
    · -- a point close to the middle of the common edge
      have hM : 0 < 4 * (1 + |α| + |β|) := by
        have := abs_nonneg α; have := abs_nonneg β; linarith
      have hk : 1 / (4 * (1 + |α| + |β|)) * (4 * (1 + |α| + |β|)) = 1 := div_mul_cancel₀ _ hM.ne'
      have k0 : 0 < 1 / (4 * (1 + |α| + |β|)) := div_pos one_pos hM
      generalize 1 / (4 * (1 + |α| + |β|)) = k at hk k0
      have ka : 0 ≤ k * |α| := mul_nonneg k0.le (abs_nonneg _)
      have kb : 0 ≤ k * |β| := mul_nonneg k0.le (abs_nonneg _)
      have la : -(k * |α|) ≤ k * α := by
        have := mul_le_mul_of_nonneg_left (neg_abs_le α) k0.le; linarith
      have lb : -(k * |β|) ≤ k * β := by
        have := mul_le_mul_of_nonneg_left (neg_abs_le β) k0.le; linarith
      have c := co (((1 - k) / 2) * A.1 + ((1 - k) / 2) * B.1 + k * p.1, ((1 - k) / 2) * A.2 + ((1 - k) / 2) * B.2 + k * p.2)
        ((1 - k) / 2) ((1 - k) / 2) k (by ring) rfl rfl
      refine ⟨(((1 - k) / 2) * A.1 + ((1 - k) / 2) * B.1 + k * p.1, ((1 - k) / 2) * A.2 + ((1 - k) / 2) * B.2 + k * p.2),
        ⟨(1 - k) / 2, (1 - k) / 2, k, by linarith, by linarith, k0, by ring, rfl, rfl⟩, (inside_iff h2 _).2 ?_⟩
      rw [c.1, c.2.1, c.2.2]
      exact ⟨by linarith, by linarith, mul_pos k0 hpos⟩

end Inspector.Plane
