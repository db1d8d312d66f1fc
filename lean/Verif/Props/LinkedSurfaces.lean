import Verif.Proofs.LinkedSurfaces
import Verif.Proofs.FusedSurface
import Verif.Proofs.ExpectedCmvs
import Verif.Proofs.TopologyData
/-! Boundary surfaces of blocks: C49 (linked parts), C50 (closedness), C72 (fused mesh), C73 (model boundaries), and
C51 (expected number of block vertices).  A function with a `while` loop takes a bound on the number of iterations:
"it terminates" is "there is a bound from which the result no longer depends on it". -/
namespace Inspector
open Spec

/-! ### C49 -/

/-- **C49**: grouping the boundary surfaces of a block terminates; the groups are not empty, no surface is in two
groups or twice in one, they cover the boundary surfaces, and the group of a surface is exactly the boundary
surfaces linked to it by lines shared by boundary surfaces. -/
theorem C49_linked_parts (m : TopologyModel) (coh : CoherentLines m) (block : Uuid) :
    ∃ parts N, (∀ fuel ≥ N, linkedBoundaryParts m fuel fuel (queueWithBlockBoundaries m block) = .ok parts) ∧
      IsPartition m (boundarySurfaces m block) parts := by
  obtain ⟨parts, N, h, he⟩ := linkedBoundaryParts_terminates coh (queueWithBlockBoundaries m block)
  refine ⟨parts, N, he, ?_⟩
  rw [queueWithBlockBoundaries_eq] at h
  convert h using 1
  unfold boundarySurfaces TopologyModel.related
  congr 1

/-- The surfaces given at first are in the first part, whatever the queue (with repetitions): grouping is a
partition for every list of surfaces. -/
theorem C49_linked_parts_any_queue (m : TopologyModel) (coh : CoherentLines m) (Q : List Uuid) :
    ∃ parts N, (∀ fuel ≥ N, linkedBoundaryParts m fuel fuel Q = .ok parts) ∧ IsPartition m Q parts := by
  obtain ⟨parts, N, h, he⟩ := linkedBoundaryParts_terminates coh Q
  exact ⟨parts, N, he, h⟩

/-- Block 9 with boundary surfaces 1, 4, 2, 5, 3: 1, 2 and 3 are linked by lines 11 and 12, 4 and 5 by line 13; line 14
links 3 and 6, which is not a boundary surface of the block. -/
def twoPartsBRep : TopologyData where
  lines := [⟨11, true, 2, 1⟩, ⟨12, true, 2, 1⟩, ⟨13, true, 2, 1⟩, ⟨14, true, 2, 1⟩]
  surfaces := [⟨1, true, 3, 1⟩, ⟨2, true, 3, 1⟩, ⟨3, true, 3, 1⟩, ⟨4, true, 3, 1⟩, ⟨5, true, 3, 1⟩, ⟨6, true, 3, 1⟩]
  blocks := [⟨9, true, 4, 1⟩]
  boundary := [(⟨.surface, 1⟩, ⟨.block, 9⟩), (⟨.surface, 4⟩, ⟨.block, 9⟩), (⟨.surface, 2⟩, ⟨.block, 9⟩),
    (⟨.surface, 5⟩, ⟨.block, 9⟩), (⟨.surface, 3⟩, ⟨.block, 9⟩),
    (⟨.line, 11⟩, ⟨.surface, 1⟩), (⟨.line, 11⟩, ⟨.surface, 3⟩), (⟨.line, 12⟩, ⟨.surface, 2⟩),
    (⟨.line, 12⟩, ⟨.surface, 3⟩), (⟨.line, 13⟩, ⟨.surface, 4⟩), (⟨.line, 13⟩, ⟨.surface, 5⟩),
    (⟨.line, 14⟩, ⟨.surface, 3⟩), (⟨.line, 14⟩, ⟨.surface, 6⟩)]

example : CoherentLines twoPartsBRep.toModel := twoPartsBRep.coherent_of_check (by decide)

example : (linkedBoundaryParts twoPartsBRep.toModel 50 50 (queueWithBlockBoundaries twoPartsBRep.toModel 9)).toOption =
    some [[1, 3, 2], [5, 4]] := by decide

/-! ### C50 -/

/-- Boxes are compatible with the test of points: a part with all its vertices inside another one has a box
strictly contained in the box of the other one. -/
def BoxesCompatible (m : TopologyModel) (g : BlockGeometry) (parts : List (List Uuid)) : Prop :=
  ∀ p ∈ parts, ∀ q ∈ parts, p ≠ q → ∀ mesh, fuseBRepSurfacesFromList m p = .ok mesh → PartInside m g mesh q →
    g.contains (surfaceListBox g p) (surfaceListBox g q) = true ∧
    g.contains (surfaceListBox g q) (surfaceListBox g p) = false

/-- **C50**: the test of a block terminates and succeeds; the block is declared closed exactly when its
boundary surfaces form fewer than two parts, or the first part whose box contains the other boxes, glued along
unique vertices, contains all the vertices of the other parts. -/
theorem C50_block_closed (m : TopologyModel) (wf : WellFormed m) (coh : CoherentLines m) (g : BlockGeometry)
    (hg : RaisesOpenGeode g) (block : Uuid) :
    ∃ parts b N, IsPartition m (boundarySurfaces m block) parts ∧
      (∀ fuel ≥ N, linkedBoundaryParts m fuel fuel (queueWithBlockBoundaries m block) = .ok parts ∧
        blockBoundariesAreClosed m g fuel block = .ok b) ∧
      (b = true ↔ parts.length < 2 ∨
        ∃ i, BoxEncloses g parts i ∧ (∀ j < i, ¬ BoxEncloses g parts j) ∧ MeshEncloses m g parts i) := by
  obtain ⟨parts, N, he, hp⟩ := C49_linked_parts m coh block
  have hs : ∀ p ∈ parts, ∀ s ∈ p, Has m .surface s := by
    intro p hpm s hs
    have := (hp.cover s).2 ⟨p, hpm, hs⟩
    unfold boundarySurfaces at this
    obtain ⟨c, hc, rfl⟩ := List.mem_map.1 this
    obtain ⟨hc, ht⟩ := List.mem_filter.1 hc
    have := wf.boundaries block c hc
    rwa [of_decide_eq_true ht] at this
  obtain ⟨b, _, hb⟩ := blockClosed_spec wf hg (he N le_rfl) hs
  refine ⟨parts, b, N, hp, fun fuel hf => ⟨he fuel hf, ?_⟩, hb⟩
  obtain ⟨b', hb'1, hb'2⟩ := blockClosed_spec wf hg (he fuel hf) hs
  rw [hb'1]
  congr 1
  rw [Bool.eq_iff_iff, hb'2, hb]

/-- **C50**, when boxes are compatible with the test of points: a block is declared closed exactly when its
boundary surfaces form fewer than two parts or one part contains all the others. -/
theorem C50_block_closed_geometric (m : TopologyModel) (wf : WellFormed m) (coh : CoherentLines m)
    (g : BlockGeometry) (hg : RaisesOpenGeode g) (block : Uuid)
    (hbox : ∀ parts, IsPartition m (boundarySurfaces m block) parts → BoxesCompatible m g parts) :
    ∃ parts b N, IsPartition m (boundarySurfaces m block) parts ∧
      (∀ fuel ≥ N, blockBoundariesAreClosed m g fuel block = .ok b) ∧
      (b = true ↔ parts.length < 2 ∨ ∃ i, MeshEncloses m g parts i) := by
  obtain ⟨parts, b, N, hp, he, hb⟩ := C50_block_closed m wf coh g hg block
  refine ⟨parts, b, N, hp, fun fuel hf => (he fuel hf).2, hb.trans (or_congr_right ?_)⟩
  have hc := hbox parts hp
  have hne : ∀ i j : Nat, ∀ p q, parts[i]? = some p → parts[j]? = some q → i ≠ j → p ≠ q := by
    intro i j p q hi hj hij hpq
    subst hpq
    obtain ⟨h1, e1⟩ := List.getElem?_eq_some_iff.1 hi
    obtain ⟨h2, e2⟩ := List.getElem?_eq_some_iff.1 hj
    have hpm : p ∈ parts := e1 ▸ List.getElem_mem h1
    obtain ⟨x, hx⟩ := List.exists_mem_of_ne_nil _ (hp.nonempty p hpm)
    have hd := (List.nodup_flatten.1 hp.nodup).2
    rw [List.pairwise_iff_getElem] at hd
    rcases Nat.lt_or_gt_of_ne hij with h | h
    · exact hd i j h1 h2 h (e1 ▸ hx) (e2 ▸ hx)
    · exact hd j i h2 h1 h (e2 ▸ hx) (e1 ▸ hx)
  constructor
  · rintro ⟨i, _, _, h⟩; exact ⟨i, h⟩
  · rintro ⟨i, p, mesh, hip, hm, hin⟩
    have hpm := List.mem_of_getElem? hip
    have key : ∀ j q, parts[j]? = some q → j ≠ i →
        g.contains (surfaceListBox g p) (surfaceListBox g q) = true ∧
        g.contains (surfaceListBox g q) (surfaceListBox g p) = false := fun j q hq hj =>
      hc p hpm q (List.mem_of_getElem? hq) (hne i j p q hip hq (Ne.symm hj)) mesh hm (hin j q hq hj)
    refine ⟨i, ⟨p, hip, fun j q hq hj => (key j q hq hj).1⟩, ?_, ⟨p, mesh, hip, hm, hin⟩⟩
    rintro j hj ⟨q, hq, hall⟩
    have := (key j q hq (by omega)).2
    rw [hall i p hip (by omega)] at this
    cases this

/-- Boxes are intervals of `[0, 100]`; surface 1, 2, 3 (a part) have box `[0, 10]`, surfaces 4 and 5 have box `[2, 5]`,
and the vertices of surfaces 4 and 5 are inside the first part. -/
def twoPartsGeometry : BlockGeometry where
  Box := Nat × Nat
  emptyBox := (100, 0)
  addBox a b := (min a.1 b.1, max a.2 b.2)
  contains a b := decide (a.1 ≤ b.1 ∧ b.2 ≤ a.2)
  surfaceBox s := if s ≤ 3 then (0, 10) else (2, 5)
  isVertexInside mesh s _ := if mesh.points.any (fun p => p.1 == 1) then .ok (4 ≤ s) else .error .openGeodeException

example : WellFormed twoPartsBRep.toModel ∧ CoherentLines twoPartsBRep.toModel ∧ RaisesOpenGeode twoPartsGeometry := by
  refine ⟨twoPartsBRep.wf_of_check (by decide), twoPartsBRep.coherent_of_check (by decide), ?_⟩
  intro mesh s v f h
  unfold twoPartsGeometry at h
  simp only [] at h
  split_ifs at h
  cases h; rfl

/-- Without polygons, the test of points raises and the block is not declared closed; with polygons it is. -/
example : (blockBoundariesAreClosed twoPartsBRep.toModel twoPartsGeometry 50 9).toOption = some false ∧
    (blockBoundariesAreClosed { twoPartsBRep with
      polygons := [((1, 0), [0, 1, 2])] }.toModel twoPartsGeometry 50 9).toOption = some true := by decide

/-- A block with one part is declared closed, whatever the geometry: here one surface with a free border. -/
example (g : BlockGeometry) : ∃ N, ∀ fuel ≥ N, blockBoundariesAreClosed
    { twoPartsBRep with
      boundary := [(⟨.surface, 1⟩, ⟨.block, 9⟩), (⟨.line, 11⟩, ⟨.surface, 1⟩)] }.toModel g fuel 9 = .ok true := by
  refine ⟨2, fun fuel hf => ?_⟩
  obtain ⟨k, rfl⟩ : ∃ k, fuel = k + 2 := ⟨fuel - 2, by omega⟩
  rfl

/-! ### C72 -/

/-- **C72**: fusing surfaces of the model succeeds, and glues their polygons, in order, exactly along unique
vertices (vertices without unique vertex are all glued together). -/
theorem C72_fused_mesh (m : TopologyModel) (wf : WellFormed m) (cs : List TopologyComponent)
    (hc : ∀ c ∈ cs, c ∈ m.components .surface) :
    ∃ fused, fuseBRepSurfacesFromList m (cs.map TopologyComponent.id) = .ok fused ∧
      IsFusion m (cs.flatMap (facetsOfSurface m)) fused := by
  refine fuse_spec cs fun c h => ?_
  obtain ⟨c', h1, h2, h3, _⟩ := component_ok (wf.ids .surface) (id := c.id) ⟨c, hc c h, rfl⟩
  have : c' = c := List.inj_on_of_nodup_map (wf.ids .surface) h2 (hc c h) h3
  rw [h1, this]

/-- In a fused mesh, two corners of polygons are the same point exactly when they have the same unique vertex. -/
theorem C72_glued_iff {m : TopologyModel} {polygons : List (List (Uuid × Index))} {fused : FusedSurface}
    (h : IsFusion m polygons fused) {k k' : Nat} {P P' : List (Uuid × Index)} {I I' : List Nat}
    (hP : polygons[k]? = some P) (hI : fused.polygons[k]? = some I)
    (hP' : polygons[k']? = some P') (hI' : fused.polygons[k']? = some I')
    {a a' : Nat} {p p' : Uuid × Index} {i i' : Nat} (hp : P[a]? = some p) (hi : I[a]? = some i)
    (hp' : P'[a']? = some p') (hi' : I'[a']? = some i') :
    i = i' ↔ uniqueVertexOf m p = uniqueVertexOf m p' := by
  have get : ∀ {k : Nat} {P : List (Uuid × Index)} {I : List Nat} {a : Nat} {p : Uuid × Index} {i : Nat},
      polygons[k]? = some P → fused.polygons[k]? = some I → P[a]? = some p → I[a]? = some i →
      ∃ q, fused.points[i]? = some q ∧ uniqueVertexOf m q = uniqueVertexOf m p := by
    intro k P I a p i hP hI hp hi
    have hc := h.corners
    rw [List.forall₂_iff_get] at hc
    obtain ⟨h1, e1⟩ := List.getElem?_eq_some_iff.1 hP
    obtain ⟨h2, e2⟩ := List.getElem?_eq_some_iff.1 hI
    have hk := hc.2 k h1 h2
    simp only [List.get_eq_getElem, e1, e2] at hk
    rw [List.forall₂_iff_get] at hk
    obtain ⟨h3, e3⟩ := List.getElem?_eq_some_iff.1 hp
    obtain ⟨h4, e4⟩ := List.getElem?_eq_some_iff.1 hi
    have := hk.2 a h3 h4
    simp only [List.get_eq_getElem, e3, e4] at this
    exact this
  obtain ⟨q, hq, hqu⟩ := get hP hI hp hi
  obtain ⟨q', hq', hqu'⟩ := get hP' hI' hp' hi'
  constructor
  · rintro rfl
    rw [hq] at hq'
    cases hq'
    rw [← hqu, ← hqu']
  · intro hu
    have h1 : (fused.points.map (uniqueVertexOf m))[i]? = some (uniqueVertexOf m p) := by
      rw [List.getElem?_map, hq, Option.map_some, hqu]
    have h2 : (fused.points.map (uniqueVertexOf m))[i']? = some (uniqueVertexOf m p) := by
      rw [List.getElem?_map, hq', Option.map_some, hqu', hu]
    exact (List.getElem?_inj (List.getElem?_eq_some_iff.1 h1).1 h.distinct).1 (h1.trans h2.symm)

/-- Two triangles sharing two unique vertices. -/
def twoTriangles : TopologyData where
  surfaces := [⟨4, true, 3, 1⟩, ⟨5, true, 3, 1⟩]
  vertices := [[⟨⟨.surface, 4⟩, 0⟩, ⟨⟨.surface, 5⟩, 2⟩], [⟨⟨.surface, 4⟩, 1⟩, ⟨⟨.surface, 5⟩, 1⟩],
    [⟨⟨.surface, 4⟩, 2⟩], [⟨⟨.surface, 5⟩, 0⟩]]
  polygons := [((4, 0), [0, 1, 2]), ((5, 0), [0, 1, 2])]

example : (fuseBRepSurfacesFromList twoTriangles.toModel [4, 5]).toOption.map (fun f => (f.points, f.polygons)) =
    some ([(4, 0), (4, 1), (4, 2), (5, 0)], [[0, 1, 2], [3, 1, 0]]) := by decide

/-! ### C73 -/

/-- **C73** is false of the code: with model boundaries which have no item, `front()` and `pop()` are called on an
empty queue. -/
theorem C73_false (m : TopologyModel) : ∃ modelBoundaries : List (List Uuid), modelBoundaries ≠ [] ∧
    ∀ fuel, brepBoundariesAreClosed m modelBoundaries fuel = .error .undefinedBehaviour :=
  ⟨[[]], by simp, fun _ => rfl⟩

/-- **C73**, when some model boundary has an item: the test terminates, and the boundaries are declared closed
exactly when all their surfaces are linked by shared lines. -/
theorem C73_model_boundaries_partial (m : TopologyModel) (coh : CoherentLines m) (modelBoundaries : List (List Uuid))
    (hne : modelBoundaries.flatten ≠ []) :
    ∃ b N, (∀ fuel ≥ N, brepBoundariesAreClosed m modelBoundaries fuel = .ok b) ∧
      (b = true ↔ AllLinked m modelBoundaries.flatten) := by
  obtain ⟨first, rest, hq⟩ := List.exists_cons_of_ne_nil hne
  obtain ⟨P, Q', N, hp, he⟩ := closedLinkedSurfaces_terminates coh first rest
  refine ⟨Q'.isEmpty, N, fun fuel hf => ?_, ?_⟩
  · unfold brepBoundariesAreClosed
    rw [queueWithModelBoundaries_eq, hq, he fuel hf]
    rfl
  · rw [List.isEmpty_iff, hq]
    have hfirst := hp.head first rfl
    constructor
    · intro hnil a ha b hb
      have hin : ∀ x ∈ first :: rest, x ∈ P := by
        intro x hx
        by_contra hc
        have := (hp.rest x).2 ⟨hx, hc⟩
        rw [hnil] at this
        cases this
      exact ((hp.component a (hin a ha) b).1 (hin b hb)).2
    · intro hall
      rw [List.eq_nil_iff_forall_not_mem]
      intro x hx
      obtain ⟨h1, h2⟩ := (hp.rest x).1 hx
      exact h2 ((hp.component first hfirst x).2 ⟨h1, hall first (by simp) x h1⟩)

example : [[[1, 2, 3]], [[1, 2], [3, 6, 1]], [[1], [4]], [[1, 2]]].map
    (fun l => (brepBoundariesAreClosed twoPartsBRep.toModel l 50).toOption) =
    [some true, some true, some false, some false] := by decide

/-! ### C51 -/

/-- A BRep: at 0, block 9, four vertices of line 3, and surface 4, boundary of the block, in which the line is
embedded. -/
def wrappedCountBRep : TopologyData where
  lines := [⟨3, true, 4, 3⟩]
  surfaces := [⟨4, true, 3, 1⟩]
  blocks := [⟨9, true, 4, 1⟩]
  vertices := [[⟨⟨.block, 9⟩, 0⟩, ⟨⟨.surface, 4⟩, 0⟩, ⟨⟨.line, 3⟩, 0⟩, ⟨⟨.line, 3⟩, 1⟩, ⟨⟨.line, 3⟩, 2⟩]]
  boundary := [(⟨.surface, 4⟩, ⟨.block, 9⟩)]
  internal := [(⟨.line, 3⟩, ⟨.surface, 4⟩)]

/-- **C51** is false of the code: the number announced to the user may be the wrapped value of a negative
count. -/
theorem C51_false : ∃ (m : TopologyModel) (v : Index) (b : Uuid), WellFormed m ∧ v < m.nbUniqueVertices ∧
    At m v .block b ∧ expectedCount m v b = -2 ∧
    (nbExpectedBlockCmvs m v b (vertexCmvsByComponent m v)).toOption = some 4294967294 :=
  ⟨wrappedCountBRep.toModel, 0, 9, wrappedCountBRep.wf_of_check (by decide), by decide,
    ⟨⟨⟨.block, 9⟩, 0⟩, by decide, by rfl⟩, by decide, by decide⟩

/-- **C51**: for a block at the unique vertex, the vertex is accepted exactly when its number of block vertices is
the combinatorial count over the integers (or the second one accepted beside a non-manifold line): the
wrap-around never changes the decision.  The number returned is the count when this is not negative and no second
number is accepted. -/
theorem C51_expected_count_partial (m : TopologyModel) (wf : WellFormed m) (v : Index) (hv : v < m.nbUniqueVertices)
    (b : Uuid) (hb : At m v .block b) (hf : CountsFit m v b) :
    (∃ text, wrongNbExpectedBlockCmvs m v b (vertexCmvsByComponent m v) = .ok text ∧
      (text = none ↔ CountIsRight m v b)) ∧
    ((0 ≤ expectedCount m v b ∧ ¬ (nbSeveralPassages m v b % 2 = 1 ∧
        (nbBlockCmvs m v b : Int) = expectedCount m v b + nbSeveralPassages m v b)) →
      ∃ n, nbExpectedBlockCmvs m v b (vertexCmvsByComponent m v) = .ok n ∧ (n.toNat : Int) = expectedCount m v b) := by
  obtain ⟨o, ho, hi⟩ := count_answers wf hv hb hf
  refine ⟨⟨o, ho, ?_⟩, ?_⟩
  · rw [← Option.not_isSome_iff_eq_none, hi, Classical.not_not]
  · rintro ⟨h0, hsecond⟩
    obtain ⟨c, hc, ht⟩ := expected_eq wf hv hb
    obtain ⟨b1, b2, b3, b4⟩ := counts_bounds hf
    have hne : ¬ (nbSeveralPassages m v b % 2 = 1 ∧ UInt32.ofInt (nbBlockCmvs m v b) =
        UInt32.ofInt (expectedCount m v b + nbSeveralPassages m v b)) := by
      rintro ⟨h1, h2⟩
      rw [ofInt_inj] at h2
      exact hsecond ⟨h1, by omega⟩
    refine ⟨UInt32.ofInt (expectedCount m v b), ?_, ?_⟩
    · unfold nbExpectedBlockCmvs
      rw [ht, if_neg hne]
      split_ifs <;> rfl
    · obtain ⟨k, hk⟩ := Int.eq_ofNat_of_zero_le h0
      rw [hk] at b3 ⊢
      have : (k : Int) < 2 ^ 31 := b3
      rw [ofInt_natCast, UInt32.toNat_ofNat_of_lt']
      simp [UInt32.size]; omega

/-- At a vertex of two boundary surfaces and of their common line, one block vertex is expected. -/
def rightCountBRep : TopologyData where
  lines := [⟨3, true, 4, 3⟩]
  surfaces := [⟨4, true, 3, 1⟩, ⟨5, true, 3, 1⟩]
  blocks := [⟨9, true, 4, 1⟩]
  vertices := [[⟨⟨.block, 9⟩, 0⟩, ⟨⟨.surface, 4⟩, 0⟩, ⟨⟨.surface, 5⟩, 0⟩, ⟨⟨.line, 3⟩, 0⟩]]
  boundary := [(⟨.surface, 4⟩, ⟨.block, 9⟩), (⟨.surface, 5⟩, ⟨.block, 9⟩), (⟨.line, 3⟩, ⟨.surface, 4⟩),
    (⟨.line, 3⟩, ⟨.surface, 5⟩)]

example : WellFormed rightCountBRep.toModel ∧ At rightCountBRep.toModel 0 .block 9 ∧
    CountsFit rightCountBRep.toModel 0 9 ∧ expectedCount rightCountBRep.toModel 0 9 = 1 ∧
    CountIsRight rightCountBRep.toModel 0 9 :=
  ⟨rightCountBRep.wf_of_check (by decide), ⟨⟨⟨.block, 9⟩, 0⟩, by decide, by rfl⟩, ⟨by decide, by decide⟩, by decide,
    Or.inl (by decide)⟩

end Inspector
