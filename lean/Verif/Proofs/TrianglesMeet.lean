import Verif.Spec.TrianglesMeet
import Verif.Proofs.Triangles
/-
Proofs for C105.
-/
namespace Inspector.Meet
open Spec
variable {P : Type}

theorem firstOf_iff (p : Index → Bool) (q : Index → Prop) (h : ∀ v, p v = true ↔ q v) (t : List Index) (y : Index) :
    t.find? p = some y ↔ FirstOf q t y := by
  rw [List.find?_eq_some_iff_append]
  constructor
  · rintro ⟨h1, l, r, h2, h3⟩
    refine ⟨l, r, h2, (h y).1 h1, fun u hu hq => ?_⟩
    have := h3 u hu
    rw [(h u).2 hq] at this
    cases this
  · rintro ⟨l, r, h2, h1, h3⟩
    refine ⟨(h y).2 h1, l, r, h2, fun u hu => ?_⟩
    cases hp : p u with
    | false => rfl
    | true => exact absurd ((h u).1 hp) (h3 u hu)

theorem firstOf_unique {q : Index → Prop} {t : List Index} {x y : Index} (hx : FirstOf q t x) (hy : FirstOf q t y) :
    x = y := by
  classical
  have h := fun v => decide_eq_true_iff (p := q v)
  have h1 := (firstOf_iff (fun v => decide (q v)) q h t x).2 hx
  have h2 := (firstOf_iff (fun v => decide (q v)) q h t y).2 hy
  rw [h1] at h2
  exact Option.some.inj h2

theorem third_iff (t : List Index) (u v x : Index) :
    thirdPointIndex t u v = .ok x ↔ FirstOf (fun w => w ≠ u ∧ w ≠ v) t x := by
  rw [← firstOf_iff (fun w => !(w == u || w == v)) _ (by intro w; simp) t x]
  unfold thirdPointIndex
  cases t.find? (fun w => !(w == u || w == v)) with
  | none => simp
  | some y => simp

theorem common_ok (s1 s2 : ModelSurface P) (t1 t2 : List Index) :
    CommonVertices s1 s2 t1 t2 (trianglesCommonVertices s1 s2 t1 t2) where
  vertices := by
    rw [common_fst]
    apply List.filter_congr
    intro v _
    rw [Bool.eq_iff_iff, List.any_eq_true, decide_eq_true_iff]
    simp only [beq_iff_eq]
    rfl
  others := by
    intro c hc
    unfold trianglesCommonVertices at hc
    obtain ⟨v, _, hv⟩ := List.mem_filterMap.1 hc
    obtain ⟨w, hw, rfl⟩ := Option.map_eq_some_iff.1 hv
    exact (firstOf_iff _ _ (by intro u; simp [Shared]) t2 w).1 hw

theorem pairs_ext : ∀ (l l' : List (Index × Index)) (q : Index → Index → Prop),
    (∀ v w w', q v w → q v w' → w = w') → l.map Prod.fst = l'.map Prod.fst →
    (∀ c ∈ l, q c.1 c.2) → (∀ c ∈ l', q c.1 c.2) → l = l' := by
  intro l
  induction l with
  | nil => intro l' q _ h _ _; cases l' with
    | nil => rfl
    | cons => cases h
  | cons c l ih =>
    intro l' q hq h h1 h2
    cases l' with
    | nil => cases h
    | cons c' l' =>
      simp only [List.map_cons, List.cons.injEq] at h
      rw [ih l' q hq h.2 (fun d hd => h1 d (List.mem_cons_of_mem _ hd)) (fun d hd => h2 d (List.mem_cons_of_mem _ hd))]
      have e2 : c.2 = c'.2 := hq c.1 _ _ (h1 c (by simp)) (by have := h2 c' (by simp); rw [← h.1] at this; exact this)
      rw [Prod.ext h.1 e2]

theorem common_unique {s1 s2 : ModelSurface P} {t1 t2 : List Index} {l : List (Index × Index)}
    (h : CommonVertices s1 s2 t1 t2 l) : l = trianglesCommonVertices s1 s2 t1 t2 :=
  pairs_ext _ _ (fun v w => FirstOf (fun w => Shared s1 s2 v w) t2 w) (fun _ _ _ => firstOf_unique)
    (h.vertices.trans (common_ok s1 s2 t1 t2).vertices.symm) h.others (common_ok s1 s2 t1 t2).others

theorem exists_common (s1 s2 : ModelSurface P) (t1 t2 : List Index) (q : List (Index × Index) → Prop) :
    (∃ common, CommonVertices s1 s2 t1 t2 common ∧ q common) ↔ q (trianglesCommonVertices s1 s2 t1 t2) := by
  constructor
  · rintro ⟨l, hl, hq⟩
    rw [← common_unique hl]
    exact hq
  · exact fun h => ⟨_, common_ok s1 s2 t1 t2, h⟩

theorem common_length (s1 s2 : ModelSurface P) (t1 t2 : List Index) :
    (trianglesCommonVertices s1 s2 t1 t2).length ≤ t1.length := by
  unfold trianglesCommonVertices
  exact List.length_filterMap_le _ _

theorem of_ok {r : Except Failure Bool} {q : Prop} (h : ∃ b, r = .ok b ∧ (b = true ↔ q)) : r = .ok true ↔ q := by
  obtain ⟨b, rfl, h⟩ := h
  rw [← h]
  exact ⟨fun e => Except.ok.inj e, fun e => by rw [e]⟩

/-- the answers of a Section for two common vertices -/
theorem section_pair (g : Geometry P) (s1 s2 : ModelSurface P) (a b c d e f : Index) (c0 c1 : Index × Index) :
    sectionTrianglesIntersect g s1 s2 [a, b, c] [d, e, f] [c0, c1] = .ok true ↔
      c1.2 < s1.nbVertices ∧ SectionAdjacentMeet g s1 s2 [a, b, c] [d, e, f] c0 c1 (s1.point c1.2) := by
  unfold sectionTrianglesIntersect
  rw [if_pos (by rfl)]
  simp only [List.getD_cons_zero, List.getD_cons_succ]
  by_cases hb : c1.2 < s1.nbVertices
  · rw [if_neg (by simpa using hb), and_iff_right hb]
    unfold SectionAdjacentMeet
    cases h1 : thirdPointIndex [a, b, c] c0.1 c1.1 with
    | error k =>
      refine iff_of_false (by simp) ?_
      rintro ⟨x, y, z1, z2, hx, _⟩
      rw [(third_iff _ _ _ _).2 hx] at h1
      cases h1
    | ok x =>
      have hx := (third_iff _ _ _ _).1 h1
      cases h2 : thirdPointIndex [d, e, f] c0.2 c1.2 with
      | error k =>
        refine iff_of_false (by simp) ?_
        rintro ⟨x', y, z1, z2, _, hy, _⟩
        rw [(third_iff _ _ _ _).2 hy] at h2
        cases h2
      | ok y =>
        have hy := (third_iff _ _ _ _).1 h2
        simp only
        have key : (∃ x' y' z1 z2, FirstOf (fun v => v ≠ c0.1 ∧ v ≠ c1.1) [a, b, c] x' ∧
            FirstOf (fun v => v ≠ c0.2 ∧ v ≠ c1.2) [d, e, f] y' ∧ TriangleOf s1 [a, b, c] z1 ∧
            TriangleOf s2 [d, e, f] z2 ∧
            FoldedTriangles g (s1.point c0.1) (s1.point c1.2) (s1.point x') (s2.point y') z1 z2) ↔
            FoldedTriangles g (s1.point c0.1) (s1.point c1.2) (s1.point x) (s2.point y) (meshTriangle s1 [a, b, c])
              (meshTriangle s2 [d, e, f]) := by
          constructor
          · rintro ⟨x', y', z1, z2, hx', hy', hz1, hz2, hf⟩
            rw [firstOf_unique hx' hx, firstOf_unique hy' hy] at hf
            have := (triangleOf_iff s1 a b c fun z => FoldedTriangles g _ _ _ _ z z2).1 ⟨z1, hz1, hf⟩
            exact (triangleOf_iff s2 d e f fun z => FoldedTriangles g _ _ _ _ _ z).1 ⟨z2, hz2, this⟩
          · intro hf
            exact ⟨x, y, _, _, hx, hy, ⟨a, b, c, rfl, rfl⟩, ⟨d, e, f, rfl, rfl⟩, hf⟩
        rw [key]
        unfold FoldedTriangles
        generalize (g.segmentSegment (s1.point c0.1, s1.point x) (s1.point c1.2, s2.point y)).1 = k1
        generalize (g.segmentSegment (s1.point c1.2, s1.point x) (s1.point c0.1, s2.point y)).1 = k2
        generalize g.pointTriangle (s1.point x) (meshTriangle s2 [d, e, f]) = k3
        generalize g.pointTriangle (s2.point y) (meshTriangle s1 [a, b, c]) = k4
        split
        · next h => simp only [Bool.or_eq_true, bne_iff_ne] at h; simp; tauto
        · next h => simp only [Bool.or_eq_true, bne_iff_ne] at h; simp; tauto
  · rw [if_pos (by simpa using hb)]
    exact iff_of_false (by simp) fun h => hb h.1

/-- **the whole test of a Section** -/
theorem section_iff (g : Geometry P) (hg : PositionsOk g) (s1 s2 : ModelSurface P) (a b c d e f : Index) :
    trianglesIntersectionDetection (sectionTrianglesIntersect g) s1 s2 [a, b, c] [d, e, f] = .ok true ↔
      SectionTrianglesMeet g s1 s2 [a, b, c] [d, e, f] := by
  unfold SectionTrianglesMeet trianglesIntersectionDetection
  rw [exists_common]
  have hl := common_length s1 s2 [a, b, c] [d, e, f]
  simp only
  generalize trianglesCommonVertices s1 s2 [a, b, c] [d, e, f] = l at *
  match l with
  | [] => exact of_ok (section_none g s1 s2 a b c d e f)
  | [x] => exact of_ok (section_single g hg s1 s2 a b c d e f x)
  | [c0, c1] => exact section_pair g s1 s2 a b c d e f c0 c1
  | [_, _, _] => simp
  | _ :: _ :: _ :: _ :: _ => simp at hl

/-- the answers of a BRep for two common vertices -/
theorem brep_pair (g : Geometry P) (s1 s2 : ModelSurface P) (a b c d e f : Index) (c0 c1 : Index × Index) :
    brepTrianglesIntersect g s1 s2 [a, b, c] [d, e, f] [c0, c1] = .ok true ↔
      ∃ x y, FirstOf (fun v => v ≠ c0.1 ∧ v ≠ c1.1) [a, b, c] x ∧ TriangleOf s2 [d, e, f] y ∧
        ((g.segmentTriangle (segmentOf s1 (c0.1, x)) y).1 = .parallel ∨
          (g.segmentTriangle (segmentOf s1 (c1.1, x)) y).1 = .parallel) := by
  unfold brepTrianglesIntersect
  simp only
  rw [if_pos (by rfl)]
  simp only [List.getD_cons_zero, List.getD_cons_succ]
  cases h1 : thirdPointIndex [a, b, c] c0.1 c1.1 with
  | error k =>
    refine iff_of_false (by simp) ?_
    rintro ⟨x, y, hx, _⟩
    rw [(third_iff _ _ _ _).2 hx] at h1
    cases h1
  | ok x =>
    have hx := (third_iff _ _ _ _).1 h1
    have key : (∃ x' y, FirstOf (fun v => v ≠ c0.1 ∧ v ≠ c1.1) [a, b, c] x' ∧ TriangleOf s2 [d, e, f] y ∧
        ((g.segmentTriangle (segmentOf s1 (c0.1, x')) y).1 = .parallel ∨
          (g.segmentTriangle (segmentOf s1 (c1.1, x')) y).1 = .parallel)) ↔
        ((g.segmentTriangle (segmentOf s1 (c0.1, x)) (meshTriangle s2 [d, e, f])).1 = .parallel ∨
          (g.segmentTriangle (segmentOf s1 (c1.1, x)) (meshTriangle s2 [d, e, f])).1 = .parallel) := by
      constructor
      · rintro ⟨x', y, hx', hy, hf⟩
        rw [firstOf_unique hx' hx] at hf
        exact (triangleOf_iff s2 d e f fun z => (g.segmentTriangle (segmentOf s1 (c0.1, x)) z).1 = .parallel ∨
          (g.segmentTriangle (segmentOf s1 (c1.1, x)) z).1 = .parallel).1 ⟨y, hy, hf⟩
      · exact fun hf => ⟨x, _, hx, ⟨d, e, f, rfl, rfl⟩, hf⟩
    rw [key]
    simp [segmentOf]

/-- **the whole test of a BRep** -/
theorem brep_iff (g : Geometry P) (hg : PositionsOk g) (s1 s2 : ModelSurface P) (a b c d e f : Index) :
    trianglesIntersectionDetection (brepTrianglesIntersect g) s1 s2 [a, b, c] [d, e, f] = .ok true ↔
      BRepTrianglesMeet g s1 s2 [a, b, c] [d, e, f] := by
  unfold BRepTrianglesMeet trianglesIntersectionDetection
  rw [exists_common]
  have hl := common_length s1 s2 [a, b, c] [d, e, f]
  simp only
  generalize trianglesCommonVertices s1 s2 [a, b, c] [d, e, f] = l at *
  match l with
  | [] =>
    refine of_ok ⟨_, rfl, ?_⟩
    rw [Bool.or_eq_true, other_apart, other_apart]
  | [x] =>
    refine of_ok ⟨_, rfl, ?_⟩
    rw [Bool.or_eq_true, other_one g hg, other_one g hg]
  | [c0, c1] => exact brep_pair g s1 s2 a b c d e f c0 c1
  | [_, _, _] => simp
  | _ :: _ :: _ :: _ :: _ => simp at hl

theorem fan_three (polygon : List Index) (t : List Index) (h : t ∈ fan polygon) : ∃ a b c, t = [a, b, c] := by
  obtain ⟨k, _, rfl⟩ := List.mem_map.1 h
  exact ⟨_, _, _, rfl⟩

end Inspector.Meet
