import Verif.Spec.ExpectedCmvs
import Verif.Proofs.Topology
/-! The expected number of block vertices: wrapping arithmetic against integers. -/
namespace Inspector
open Spec

/-! ### `index_t` arithmetic -/

theorem ofInt_natCast (n : Nat) : UInt32.ofInt (n : Int) = UInt32.ofNat n := by
  apply UInt32.toNat_inj.1
  simp only [UInt32.ofInt, UInt32.toNat_ofNat']
  omega

theorem ofInt_sub (a b : Int) : UInt32.ofInt (a - b) = UInt32.ofInt a - UInt32.ofInt b := by
  rw [Int.sub_eq_add_neg, UInt32.ofInt_add, UInt32.ofInt_neg, ← UInt32.sub_eq_add_neg]

theorem toNat_ofInt (a : Int) : ((UInt32.ofInt a).toNat : Int) = a % 2 ^ 32 := by
  simp only [UInt32.ofInt, UInt32.toNat_ofNat']
  omega

theorem ofInt_inj {a b : Int} : UInt32.ofInt a = UInt32.ofInt b ↔ a % 2 ^ 32 = b % 2 ^ 32 := by
  rw [← toNat_ofInt, ← toNat_ofInt, Int.ofNat_inj, UInt32.toNat_inj]

/-! ### Loops -/

variable {m : TopologyModel}

theorem vertexCmvs_fold (l : List ComponentMeshVertex) (r : VertexCMVsByComponent) :
    l.foldl (fun result cmv =>
      let result := if cmv.component_id.type == .block then
        { result with
          block_cmvs := result.block_cmvs ++ [cmv] } else result
      let result := if cmv.component_id.type == .surface then
        { result with
          surface_cmvs := result.surface_cmvs ++ [cmv] } else result
      let result := if cmv.component_id.type == .line then
        { result with
          line_cmvs := result.line_cmvs ++ [cmv] } else result
      if cmv.component_id.type == .corner then
        { result with
          corner_cmvs := result.corner_cmvs ++ [cmv] } else result) r =
    ⟨r.block_cmvs ++ l.filter (fun cmv => decide (cmv.component_id.type = .block)),
     r.surface_cmvs ++ l.filter (fun cmv => decide (cmv.component_id.type = .surface)),
     r.line_cmvs ++ l.filter (fun cmv => decide (cmv.component_id.type = .line)),
     r.corner_cmvs ++ l.filter (fun cmv => decide (cmv.component_id.type = .corner))⟩ := by
  induction l generalizing r with
  | nil => simp
  | cons cmv l ih =>
    rw [List.foldl_cons, ih]
    cases h : cmv.component_id.type <;> simp [h]

theorem vertexCmvsByComponent_eq (v : Index) : vertexCmvsByComponent m v =
    ⟨cmvsOf m v .block, cmvsOf m v .surface, cmvsOf m v .line, cmvsOf m v .corner⟩ := by
  unfold vertexCmvsByComponent
  rw [vertexCmvs_fold]
  rfl

theorem countCmvs_eq (l : List ComponentMeshVertex) (p : ComponentMeshVertex → Bool) :
    countCmvs l p = (l.filter p).length := by
  have key : ∀ n, l.foldl (fun counter cmv => if p cmv then counter + 1 else counter) n =
      n + (l.filter p).length := by
    induction l with
    | nil => intro n; rfl
    | cons x l ih =>
      intro n
      rw [List.foldl_cons, ih, List.filter_cons]
      cases h : p x <;> simp <;> omega
  unfold countCmvs
  rw [key, Nat.zero_add]

theorem related_eq (l : List ComponentID) (kind : ComponentType) :
    m.related l kind = (l.filter fun c => decide (c.type = kind)).map ComponentID.id := by
  unfold TopologyModel.related
  congr 1

theorem lineOnBlockBoundaryCount_eq (line b : Uuid) :
    lineOnBlockBoundaryCount m line b = boundarySheets m b line / 2 := by
  unfold lineOnBlockBoundaryCount boundarySheets boundarySurfaces
  rw [related_eq]
  generalize (List.map ComponentID.id (List.filter (fun c => decide (c.type = ComponentType.surface))
    (m.boundaries b))) = l
  congr 1
  have key : ∀ n, l.foldl (fun counter s =>
      let counter := if m.isBoundary line s then counter + 1 else counter
      if m.isInternal line s then counter + 2 else counter) n =
      n + ((l.filter fun s => m.isBoundary line s).length +
        2 * (l.filter fun s => m.isInternal line s).length) := by
    induction l with
    | nil => intro n; rfl
    | cons x l ih =>
      intro n
      rw [List.foldl_cons, ih, List.filter_cons, List.filter_cons]
      cases h1 : m.isBoundary line x <;> cases h2 : m.isInternal line x <;> simp <;> omega
  rw [key, Nat.zero_add]

theorem surfaceCmvsLoop_eq (ids : ∀ kind, ((m.components kind).map TopologyComponent.id).Nodup) (b : Uuid) :
    ∀ (l : List ComponentMeshVertex) (n k : Nat), (∀ cmv ∈ l, Has m .surface cmv.component_id.id) →
    surfaceCmvsLoop m b l n k =
      .ok (n + (l.filter fun cmv => m.isBoundary cmv.component_id.id b).length,
        k + (l.filter fun cmv => !m.isBoundary cmv.component_id.id b && m.isInternal cmv.component_id.id b).length)
  | [], n, k, _ => rfl
  | cmv :: l, n, k, h => by
    obtain ⟨c, hc, _⟩ := component_ok (ids .surface) (h cmv (by simp))
    have hrec := fun n k => surfaceCmvsLoop_eq ids b l n k (fun x hx => h x (by simp [hx]))
    rw [surfaceCmvsLoop, hc]
    simp only [hrec]
    cases h1 : m.isBoundary cmv.component_id.id b <;> cases h2 : m.isInternal cmv.component_id.id b <;>
      simp [h1, h2] <;> omega

/-- The lines of a list which are not embedded in a block. -/
def freeLines (m : TopologyModel) (l : List ComponentMeshVertex) : List Uuid :=
  (l.map fun cmv => cmv.component_id.id).filter fun line => decide (∀ e ∈ m.embeddings line, e.type ≠ .block)

theorem related_length_ne (l : List ComponentID) (kind : ComponentType) :
    ((m.related l kind).length != 0) = true ↔ ¬ ∀ e ∈ l, e.type ≠ kind := by
  rw [related_eq, List.length_map, bne_iff_ne, ne_eq, List.length_eq_zero_iff, List.filter_eq_nil_iff]
  simp

theorem lineInside_iff (line b : Uuid) (hs : ∀ e ∈ m.embeddings line, e.type ≠ .surface) :
    lineIsInsideBlock m line b = true ↔ LineInside m b line := by
  unfold lineIsInsideBlock LineInside
  rw [Bool.not_eq_true', ← Bool.not_eq_true, loopAny_iff]
  constructor
  · intro h
    refine ⟨?_, ?_⟩
    · rintro ⟨e, he, ht⟩; exact absurd ht (hs e he)
    · intro _ e he ht
      by_contra hn
      exact h ⟨e.id, mem_related.2 (by rw [← ht]; exact he), by simpa using hn⟩
  · rintro ⟨_, h⟩ ⟨s, hs', hi⟩
    have := h hs ⟨.surface, s⟩ (mem_related.1 hs') rfl
    simp [this] at hi

/-- Sum of the three counters of lines to remove. -/
def LineCmvsCounters.toRemove (c : LineCmvsCounters) : Nat :=
  c.nb_line_internal_to_internal_surface_cmvs + c.nb_free_line_cmvs
    + c.nb_line_boundary_to_several_internal_surfaces_cmvs

theorem lineCmvsBody_eq (ids : ∀ kind, ((m.components kind).map TopologyComponent.id).Nodup) (b : Uuid)
    (c : LineCmvsCounters) (cmv : ComponentMeshVertex) (h : Has m .line cmv.component_id.id) :
    ∃ c', lineCmvsBody m b c cmv = .ok c' ∧
      c'.nb_line_on_boundary_cmvs = c.nb_line_on_boundary_cmvs +
        ((freeLines m [cmv]).map fun line => boundarySheets m b line / 2).sum ∧
      c'.nb_lines_on_several_boundaries = c.nb_lines_on_several_boundaries +
        ((freeLines m [cmv]).filter fun line => decide (1 < boundarySheets m b line / 2)).length ∧
      c'.nb_additional_corners_count = c.nb_additional_corners_count +
        ((freeLines m [cmv]).map fun line => boundarySheets m b line / 2 - 1).sum ∧
      c'.toRemove = c.toRemove + ((freeLines m [cmv]).filter fun line =>
        decide (boundarySheets m b line / 2 = 0 ∧ LineInside m b line)).length := by
  obtain ⟨x, hx, _⟩ := component_ok (ids .line) h
  unfold lineCmvsBody
  simp only [hx]
  by_cases hb : ∀ e ∈ m.embeddings cmv.component_id.id, e.type ≠ .block
  · have hfree : freeLines m [cmv] = [cmv.component_id.id] := by
      unfold freeLines
      simp only [List.map_cons, List.map_nil]
      rw [List.filter_cons, if_pos (by simpa using hb), List.filter_nil]
    rw [hfree]
    have h0 : ((m.related (m.embeddings cmv.component_id.id) .block).length != 0) = false := by
      rw [← Bool.not_eq_true, related_length_ne]; exact not_not.2 hb
    rw [h0, lineOnBlockBoundaryCount_eq]
    simp only [Bool.false_eq_true, if_false, List.map_cons, List.map_nil, List.sum_cons, List.sum_nil,
      Nat.add_zero, List.filter_cons, List.filter_nil]
    generalize boundarySheets m b cmv.component_id.id / 2 = n
    by_cases hn : n > 0
    · rw [if_pos hn]
      refine ⟨_, rfl, rfl, ?_, ?_, ?_⟩
      · by_cases h1 : n > 1 <;> simp [h1]
      · by_cases h1 : n > 1
        · simp [h1]
        · have : n - 1 = 0 := by omega
          simp [h1, this]
      · have : ¬ n = 0 := by omega
        simp only [this, false_and, decide_false, Bool.false_eq_true, if_false, List.length_nil, Nat.add_zero]
        rfl
    · rw [if_neg hn]
      have hn0 : n = 0 := by omega
      subst hn0
      simp only [Nat.not_lt_zero, decide_false, Bool.false_eq_true, if_false, List.length_nil, true_and,
        Nat.zero_sub]
      by_cases hs : ∀ e ∈ m.embeddings cmv.component_id.id, e.type ≠ .surface
      · have hlen : ¬ (m.related (m.embeddings cmv.component_id.id) .surface).length > 0 := by
          have := related_length_ne (m := m) (m.embeddings cmv.component_id.id) .surface
          rw [bne_iff_ne] at this
          intro hgt
          exact this.1 (by omega) hs
        rw [if_neg hlen]
        by_cases hi : LineInside m b cmv.component_id.id
        · have := (lineInside_iff _ _ hs).2 hi
          simp only [this, hi, Bool.not_true, Bool.false_eq_true, if_false, decide_true, if_true]
          by_cases h1 : (m.nbIncidences cmv.component_id.id == 1) = true
          · rw [if_pos h1]
            refine ⟨_, rfl, rfl, rfl, rfl, ?_⟩
            simp only [LineCmvsCounters.toRemove, List.length_singleton]; omega
          · rw [if_neg h1]
            refine ⟨_, rfl, rfl, rfl, rfl, ?_⟩
            simp only [LineCmvsCounters.toRemove, List.length_singleton]; omega
        · have : lineIsInsideBlock m cmv.component_id.id b = false := by
            rw [← Bool.not_eq_true]; exact fun h => hi ((lineInside_iff _ _ hs).1 h)
          simp only [this, hi, Bool.not_false, if_true, decide_false, Bool.false_eq_true, if_false]
          exact ⟨_, rfl, rfl, rfl, rfl, rfl⟩
      · have hlen : (m.related (m.embeddings cmv.component_id.id) .surface).length > 0 := by
          have := (related_length_ne (m := m) (m.embeddings cmv.component_id.id) .surface).2 hs
          rw [bne_iff_ne] at this
          omega
        rw [if_pos hlen]
        have hi : loopAny (fun s => m.isInternal s b) (m.related (m.embeddings cmv.component_id.id) .surface) = true ↔
            LineInside m b cmv.component_id.id := by
          rw [loopAny_iff]
          unfold LineInside
          push Not at hs
          constructor
          · rintro ⟨s, hs', hint⟩
            refine ⟨fun _ => ⟨⟨.surface, s⟩, mem_related.1 hs', rfl, hint⟩, fun hno => ?_⟩
            exact absurd rfl (hno ⟨.surface, s⟩ (mem_related.1 hs'))
          · rintro ⟨h1, _⟩
            obtain ⟨e, he, ht, hint⟩ := h1 hs
            exact ⟨e.id, mem_related.2 (by rw [← ht]; exact he), hint⟩
        by_cases hl : LineInside m b cmv.component_id.id
        · rw [if_pos (hi.2 hl)]
          refine ⟨_, rfl, rfl, rfl, rfl, ?_⟩
          simp only [LineCmvsCounters.toRemove, hl, decide_true, if_true, List.length_singleton]; omega
        · rw [if_neg (fun h => hl (hi.1 h))]
          refine ⟨_, rfl, rfl, rfl, rfl, ?_⟩
          simp [hl]
  · have hfree : freeLines m [cmv] = [] := by
      unfold freeLines
      simp only [List.map_cons, List.map_nil]
      rw [List.filter_cons, if_neg (by simpa using hb), List.filter_nil]
    rw [hfree, if_pos ((related_length_ne _ _).2 hb)]
    exact ⟨c, rfl, rfl, rfl, rfl, rfl⟩

theorem freeLines_cons (cmv : ComponentMeshVertex) (l : List ComponentMeshVertex) :
    freeLines m (cmv :: l) = freeLines m [cmv] ++ freeLines m l := by
  unfold freeLines
  rw [← List.filter_append, ← List.map_append, List.singleton_append]

theorem lineCmvs_fold (ids : ∀ kind, ((m.components kind).map TopologyComponent.id).Nodup) (b : Uuid) :
    ∀ (l : List ComponentMeshVertex) (c : LineCmvsCounters), (∀ cmv ∈ l, Has m .line cmv.component_id.id) →
    ∃ c', l.foldlM (lineCmvsBody m b) c = .ok c' ∧
      c'.nb_line_on_boundary_cmvs = c.nb_line_on_boundary_cmvs +
        ((freeLines m l).map fun line => boundarySheets m b line / 2).sum ∧
      c'.nb_lines_on_several_boundaries = c.nb_lines_on_several_boundaries +
        ((freeLines m l).filter fun line => decide (1 < boundarySheets m b line / 2)).length ∧
      c'.nb_additional_corners_count = c.nb_additional_corners_count +
        ((freeLines m l).map fun line => boundarySheets m b line / 2 - 1).sum ∧
      c'.toRemove = c.toRemove + ((freeLines m l).filter fun line =>
        decide (boundarySheets m b line / 2 = 0 ∧ LineInside m b line)).length
  | [], c, _ => ⟨c, rfl, rfl, rfl, rfl, rfl⟩
  | cmv :: l, c, h => by
    obtain ⟨c1, e1, a1, a2, a3, a4⟩ := lineCmvsBody_eq ids b c cmv (h cmv (by simp))
    obtain ⟨c2, e2, b1, b2, b3, b4⟩ := lineCmvs_fold ids b l c1 (fun x hx => h x (by simp [hx]))
    refine ⟨c2, ?_, ?_, ?_, ?_, ?_⟩
    · rw [List.foldlM_cons, e1]; exact e2
    all_goals
      rw [freeLines_cons]
      simp only [List.map_append, List.sum_append, List.filter_append, List.length_append]
      omega

/-! ### Result -/

theorem predicted_eq {v : Index} {b : Uuid} {c : LineCmvsCounters} (h1 : c.nb_line_on_boundary_cmvs = nbLinePassages m v b)
    (h2 : c.nb_additional_corners_count = nbAdditionalPassages m v b) (h3 : c.toRemove = nbLinesInside m v b) :
    predictedNbBlockCmvs (nbBoundarySurfaceCmvs m v b) (nbInternalSurfaceCmvs m v b) (cmvsOf m v .corner).length c =
      UInt32.ofInt (expectedCount m v b) := by
  unfold predictedNbBlockCmvs expectedCount
  unfold LineCmvsCounters.toRemove at h3
  simp only [h1, h2, h3]
  generalize nbBoundarySurfaceCmvs m v b = B
  generalize nbInternalSurfaceCmvs m v b = I
  generalize nbLinePassages m v b = P
  generalize nbLinesInside m v b = R
  generalize nbAdditionalPassages m v b / 2 = A
  generalize (cmvsOf m v .corner).length = C
  have hcond : (R != 0 || P != 0) = decide (R ≠ 0 ∨ P ≠ 0) := by
    by_cases hr : R = 0 <;> by_cases hp : P = 0 <;> simp [hr, hp]
  rw [hcond]
  by_cases hB : B > 0 <;> by_cases hR : R ≠ 0 ∨ P ≠ 0 <;>
    simp only [hB, hR, if_true, if_false, decide_true, decide_false, Bool.false_eq_true,
      UInt32.ofInt_add, ofInt_sub, ofInt_natCast, UInt32.ofInt_one, Int.add_zero, UInt32.add_assoc]

theorem has_of_cmvsOf (wf : WellFormed m) {v : Index} (hv : v < m.nbUniqueVertices) {kind : ComponentType} :
    ∀ cmv ∈ cmvsOf m v kind, Has m kind cmv.component_id.id := by
  intro cmv hc
  have := List.mem_filter.1 hc
  have h2 := wf.vertices v hv cmv this.1
  rwa [of_decide_eq_true this.2] at h2

theorem block_cmvs_ne {v : Index} {b : Uuid} (hb : At m v .block b) : cmvsOf m v .block ≠ [] := by
  obtain ⟨cmv, hc, he⟩ := hb
  exact List.ne_nil_of_mem (List.mem_filter.2 ⟨hc, by simp [he]⟩)

/-- The pair computed, for a block at `v`. -/
theorem expected_eq (wf : WellFormed m) {v : Index} (hv : v < m.nbUniqueVertices) {b : Uuid} (hb : At m v .block b) :
    ∃ c, (cmvsOf m v .line).foldlM (lineCmvsBody m b) {} = .ok c ∧
      expectedBlockCmvsAndError m v b (vertexCmvsByComponent m v) =
      .ok (if nbSeveralPassages m v b % 2 = 1 ∧ UInt32.ofInt (nbBlockCmvs m v b) =
            UInt32.ofInt (expectedCount m v b + nbSeveralPassages m v b) then
          (UInt32.ofInt (nbBlockCmvs m v b), none)
        else if UInt32.ofInt (nbBlockCmvs m v b) = UInt32.ofInt (expectedCount m v b) then
          (UInt32.ofInt (expectedCount m v b), none)
        else (UInt32.ofInt (expectedCount m v b), some (blockCmvsMessage m v b (vertexCmvsByComponent m v)
          (nbBoundarySurfaceCmvs m v b, nbInternalSurfaceCmvs m v b) c (nbBlockCmvs m v b)
          (UInt32.ofInt (expectedCount m v b))))) := by
  have hbh : Has m .block b := by
    obtain ⟨cmv, hc, he⟩ := hb
    have := wf.vertices v hv cmv hc
    rwa [he] at this
  obtain ⟨x, hx, _⟩ := component_ok (wf.ids .block) hbh
  obtain ⟨c, hc, c1, c2, c3, c4⟩ := lineCmvs_fold wf.ids b (cmvsOf m v .line) {} (has_of_cmvsOf wf hv)
  have e1 : c.nb_line_on_boundary_cmvs = nbLinePassages m v b := by rw [c1]; exact Nat.zero_add _
  have e2 : c.nb_lines_on_several_boundaries = nbSeveralPassages m v b := by rw [c2]; exact Nat.zero_add _
  have e3 : c.nb_additional_corners_count = nbAdditionalPassages m v b := by rw [c3]; exact Nat.zero_add _
  have e4 : c.toRemove = nbLinesInside m v b := by rw [c4]; exact Nat.zero_add _
  refine ⟨c, hc, ?_⟩
  unfold expectedBlockCmvsAndError
  rw [vertexCmvsByComponent_eq]
  simp only [hx, surfaceCmvsLoop_eq wf.ids b _ _ _ (has_of_cmvsOf wf hv), hc, bind, Except.bind, Nat.zero_add]
  have hp := predicted_eq e1 e3 e4
  have hnil : (cmvsOf m v .block == []) = false := by
    have := block_cmvs_ne hb
    cases h : cmvsOf m v .block with
    | nil => exact absurd h this
    | cons a l => rfl
  have hcount : countCmvs (cmvsOf m v .block) (fun cmv => cmv.component_id.id == b) = nbBlockCmvs m v b := by
    rw [countCmvs_eq]; rfl
  rw [show ((cmvsOf m v .surface).filter fun cmv => m.isBoundary cmv.component_id.id b).length =
    nbBoundarySurfaceCmvs m v b from rfl,
    show ((cmvsOf m v .surface).filter fun cmv => !m.isBoundary cmv.component_id.id b &&
      m.isInternal cmv.component_id.id b).length = nbInternalSurfaceCmvs m v b from rfl, hp, e2, hcount, hnil]
  simp only [← ofInt_natCast, ← UInt32.ofInt_add]
  generalize UInt32.ofInt (expectedCount m v b + nbSeveralPassages m v b) = Z
  generalize UInt32.ofInt (expectedCount m v b) = Y
  generalize UInt32.ofInt (nbBlockCmvs m v b) = X
  by_cases h1 : nbSeveralPassages m v b % 2 = 1
  · simp only [h1, beq_self_eq_true, if_true, Bool.false_eq_true, if_false, true_and, beq_iff_eq]
    by_cases h2 : X = Z
    · simp only [h2, if_true]; rfl
    · simp only [h2, if_false]
      by_cases h3 : X = Y
      · simp only [h3, if_true]; rfl
      · simp only [h3, if_false]; rfl
  · have h1' : (nbSeveralPassages m v b % 2 == 1) = false := by simpa using h1
    simp only [h1, h1', Bool.false_eq_true, if_false, false_and, beq_iff_eq]
    by_cases h3 : X = Y
    · simp only [h3, if_true]; rfl
    · simp only [h3, if_false]; rfl

theorem kinds_le (l : List ComponentMeshVertex) (p q r s t : ComponentMeshVertex → Bool) :
    ((l.filter fun cmv => decide (cmv.component_id.type = .block)).filter p).length +
    ((l.filter fun cmv => decide (cmv.component_id.type = .surface)).filter q).length +
    ((l.filter fun cmv => decide (cmv.component_id.type = .surface)).filter
      (fun x => !q x && r x)).length +
    ((l.filter fun cmv => decide (cmv.component_id.type = .line)).filter s).length +
    ((l.filter fun cmv => decide (cmv.component_id.type = .corner)).filter t).length ≤ l.length := by
  induction l with
  | nil => simp
  | cons x l ih =>
    cases h : x.component_id.type <;> cases hp : p x <;> cases hq : q x <;> cases hr : r x <;> cases hs : s x <;>
      cases ht : t x <;> simp_all <;> omega

theorem sum_pred_le (l : List Uuid) (f : Uuid → Nat) : (l.map fun x => f x - 1).sum ≤ (l.map f).sum := by
  induction l with
  | nil => simp
  | cons x l ih => simp only [List.map_cons, List.sum_cons]; omega

theorem counts_bounds {v : Index} {b : Uuid} (h : CountsFit m v b) :
    nbBlockCmvs m v b < 2 ^ 30 ∧ -(2 ^ 31) ≤ expectedCount m v b ∧ expectedCount m v b < 2 ^ 31 ∧
      nbSeveralPassages m v b < 2 ^ 30 := by
  obtain ⟨hl, hp⟩ := h
  have k1 := kinds_le (m.componentMeshVertices v) (fun cmv => decide (cmv.component_id.id = b))
    (fun cmv => m.isBoundary cmv.component_id.id b) (fun cmv => m.isInternal cmv.component_id.id b)
    (fun _ => true) (fun _ => true)
  rw [List.filter_true, List.filter_true] at k1
  have hA : nbAdditionalPassages m v b ≤ nbLinePassages m v b := sum_pred_le _ _
  have hlines : (linesAt m v).length ≤ (cmvsOf m v .line).length := by
    unfold linesAt
    refine (List.length_filter_le _ _).trans ?_
    rw [List.length_map]
  have hR : nbLinesInside m v b ≤ (linesAt m v).length := List.length_filter_le _ _
  have hS : nbSeveralPassages m v b ≤ (linesAt m v).length := List.length_filter_le _ _
  change nbBlockCmvs m v b + nbBoundarySurfaceCmvs m v b + nbInternalSurfaceCmvs m v b + (cmvsOf m v .line).length +
    (cmvsOf m v .corner).length ≤ _ at k1
  refine ⟨by omega, ?_, ?_, by omega⟩
  · unfold expectedCount; split_ifs <;> omega
  · unfold expectedCount; split_ifs <;> omega

theorem count_answers (wf : WellFormed m) {v : Index} (hv : v < m.nbUniqueVertices) {b : Uuid} (hb : At m v .block b)
    (hf : CountsFit m v b) :
    Answers (wrongNbExpectedBlockCmvs m v b (vertexCmvsByComponent m v)) (¬ CountIsRight m v b) := by
  obtain ⟨c, hc, ht⟩ := expected_eq wf hv hb
  obtain ⟨b1, b2, b3, b4⟩ := counts_bounds hf
  unfold wrongNbExpectedBlockCmvs
  rw [ht]
  refine ⟨_, rfl, ?_⟩
  unfold CountIsRight
  simp only [ofInt_inj]
  have e1 : ((nbBlockCmvs m v b : Int) % 2 ^ 32 = expectedCount m v b % 2 ^ 32) ↔
      (nbBlockCmvs m v b : Int) = expectedCount m v b := by omega
  have e2 : ((nbBlockCmvs m v b : Int) % 2 ^ 32 = (expectedCount m v b + nbSeveralPassages m v b) % 2 ^ 32) ↔
      (nbBlockCmvs m v b : Int) = expectedCount m v b + nbSeveralPassages m v b := by omega
  simp only [e1, e2]
  split_ifs with h1 h2
  · simp [h1]
  · simp [h2]
  · simp only [Option.isSome_some, true_iff]
    rintro (h | h)
    · exact h2 h
    · exact h1 h

end Inspector
