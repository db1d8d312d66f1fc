import Verif.Proofs.Closed
import Verif.Props.LinkedSurfaces
/-
C103: the closedness of the boundary of a block does not depend on the order in which its surfaces are stored.
-/
namespace Inspector
open Spec

/-- **C103**: if being inside a closed surface does not depend on the numbering of its points and polygons, and if a piece
inside another one has a smaller box, a block is declared closed exactly when its boundary is in one piece or one of
its pieces, glued along unique vertices, contains all the vertices of the others. -/
theorem C103_closed (m : TopologyModel) (wf : WellFormed m) (coh : CoherentLines m) (g : BlockGeometry)
    (hg : RaisesOpenGeode g) (shape : InsideOfShape m g) (block : Uuid)
    (smaller : InsideIsSmaller m g (boundarySurfaces m block)) :
    ∃ b N, (∀ fuel ≥ N, blockBoundariesAreClosed m g fuel block = .ok b) ∧ (b = true ↔ ClosedBoundary m g block) := by
  have hs := Closed.boundary_has wf block
  have hbox : ∀ parts, IsPartition m (boundarySurfaces m block) parts → BoxesCompatible m g parts := by
    intro parts hp p hpm q hqm hpq mesh hm hin
    obtain ⟨a, ha⟩ := List.exists_mem_of_ne_nil _ (hp.nonempty p hpm)
    obtain ⟨b, hb⟩ := List.exists_mem_of_ne_nil _ (hp.nonempty q hqm)
    obtain ⟨cs, e, hc, hpc⟩ := Closed.piece_of_part wf hp hs hpm
    obtain ⟨ds, e', hd, hqd⟩ := Closed.piece_of_part wf hp hs hqm
    obtain ⟨fused, hf, hfu⟩ := fuse_spec cs fun c h => (hc c h).1
    rw [e, hf] at hm
    cases hm
    have hl : ¬ LinkedIn m (boundarySurfaces m block) a b := fun h => hpq (by
      have hbp := (hp.component p hpm a ha b).2 ⟨(hp.cover b).2 ⟨q, hqm, hb⟩, h⟩
      obtain ⟨i, hi⟩ := List.getElem?_of_mem hpm
      obtain ⟨j, hj⟩ := List.getElem?_of_mem hqm
      have := Closed.part_unique hp hi hj hbp hb
      subst this
      rw [hi] at hj
      cases hj; rfl)
    have := smaller a ((hp.cover a).2 ⟨p, hpm, ha⟩) b ((hp.cover b).2 ⟨q, hqm, hb⟩) hl cs ds _ (hpc a ha) (hqd b hb) hfu
      fun c h v hv => hin c.id (e' ▸ List.mem_map_of_mem h) c (hd c h).2 rfl v hv
    rw [e, e']
    exact this
  obtain ⟨parts, b, N, hp, he, hb⟩ := C50_block_closed_geometric m wf coh g hg block hbox
  refine ⟨b, N, he, hb.trans ?_⟩
  unfold ClosedBoundary
  rw [Closed.one_piece hp, Closed.mesh_encloses wf shape hp hs]

/-- **C103**, order: the same surfaces and boundary relationships stored in another order give the same answer. -/
theorem C103_any_order (m m' : TopologyModel) (wf : WellFormed m) (coh : CoherentLines m) (wf' : WellFormed m')
    (coh' : CoherentLines m') (block : Uuid) (same : SameBoundaries m m' block) (g : BlockGeometry)
    (hg : RaisesOpenGeode g) (shape : InsideOfShape m g) (smaller : InsideIsSmaller m g (boundarySurfaces m block)) :
    ∃ b N, ∀ fuel ≥ N, blockBoundariesAreClosed m g fuel block = .ok b ∧
      blockBoundariesAreClosed m' g fuel block = .ok b := by
  obtain ⟨b, N, h, hb⟩ := C103_closed m wf coh g hg shape block smaller
  obtain ⟨b', N', h', hb'⟩ := C103_closed m' wf' coh' g hg (Closed.shape_same same shape) block
    (Closed.smaller_same same smaller)
  have : b = b' := by rw [Bool.eq_iff_iff, hb, hb', Closed.closed_same same]
  subst this
  exact ⟨b, max N N', fun fuel hf => ⟨h fuel (by omega), h' fuel (by omega)⟩⟩

/-- Block 9 bounded by surfaces 1 and 2, which share line 11, and by surface 4, alone. -/
def shellBRep : TopologyData where
  lines := [⟨11, true, 2, 1⟩]
  surfaces := [⟨1, true, 3, 1⟩, ⟨2, true, 3, 1⟩, ⟨4, true, 3, 1⟩]
  blocks := [⟨9, true, 4, 1⟩]
  vertices := [[⟨⟨.surface, 1⟩, 0⟩, ⟨⟨.surface, 2⟩, 0⟩], [⟨⟨.surface, 1⟩, 1⟩, ⟨⟨.surface, 2⟩, 1⟩], [⟨⟨.surface, 1⟩, 2⟩],
    [⟨⟨.surface, 2⟩, 2⟩], [⟨⟨.surface, 4⟩, 0⟩], [⟨⟨.surface, 4⟩, 1⟩], [⟨⟨.surface, 4⟩, 2⟩]]
  polygons := [((1, 0), [0, 1, 2]), ((2, 0), [0, 1, 2]), ((4, 0), [0, 1, 2])]
  boundary := [(⟨.surface, 1⟩, ⟨.block, 9⟩), (⟨.surface, 4⟩, ⟨.block, 9⟩), (⟨.surface, 2⟩, ⟨.block, 9⟩),
    (⟨.line, 11⟩, ⟨.surface, 1⟩), (⟨.line, 11⟩, ⟨.surface, 2⟩)]

/-- The same block, the surface 4 being stored first. -/
def otherShellBRep : TopologyData :=
  { shellBRep with
    surfaces := [⟨4, true, 3, 1⟩, ⟨2, true, 3, 1⟩, ⟨1, true, 3, 1⟩]
    boundary := [(⟨.line, 11⟩, ⟨.surface, 2⟩), (⟨.surface, 4⟩, ⟨.block, 9⟩), (⟨.surface, 2⟩, ⟨.block, 9⟩),
      (⟨.surface, 1⟩, ⟨.block, 9⟩), (⟨.line, 11⟩, ⟨.surface, 1⟩)] }

/-- Boxes centred at the same point, given by their size: 1 for surface 4, 2 for the others; surface 4 is inside the
surfaces having the unique vertex 0. -/
def shellGeometry : BlockGeometry where
  Box := Nat
  emptyBox := 0
  addBox a b := max a b
  contains a b := decide (b ≤ a)
  surfaceBox s := if s = 4 then 1 else 2
  isVertexInside mesh s _ :=
    .ok (decide (∃ q ∈ mesh.points, uniqueVertexOf shellBRep.toModel q = some 0) && decide (s = 4))

theorem shellGeometry_shape : InsideOfShape shellBRep.toModel shellGeometry := by
  have key : ∀ polygons mesh, IsFusion shellBRep.toModel polygons mesh →
      ((∃ q ∈ mesh.points, uniqueVertexOf shellBRep.toModel q = some 0) ↔
        ∃ polygon ∈ polygons, ∃ q ∈ polygon, uniqueVertexOf shellBRep.toModel q = some 0) := by
    intro polygons mesh h
    constructor
    · rintro ⟨q, hq, e⟩
      obtain ⟨polygon, hp, hqp⟩ := h.points q hq
      exact ⟨polygon, hp, q, hqp, e⟩
    · rintro ⟨polygon, hp, q, hq, e⟩
      obtain ⟨k, hk⟩ := List.getElem?_of_mem hp
      obtain ⟨l, hl⟩ := List.getElem?_of_mem hq
      obtain ⟨k1, k2⟩ := List.getElem?_eq_some_iff.1 hk
      obtain ⟨l1, l2⟩ := List.getElem?_eq_some_iff.1 hl
      have hc := (List.forall₂_iff_get.1 h.corners).2 k k1
        ((List.forall₂_iff_get.1 h.corners).1 ▸ k1)
      simp only [List.get_eq_getElem, k2] at hc
      have hd := (List.forall₂_iff_get.1 hc).2 l l1 ((List.forall₂_iff_get.1 hc).1 ▸ l1)
      simp only [List.get_eq_getElem, l2] at hd
      obtain ⟨q', h1, h2⟩ := hd
      exact ⟨q', List.mem_of_getElem? h1, h2.trans e⟩
  intro P P' mesh mesh' hp h1 h2 s v
  have : (∃ q ∈ mesh.points, uniqueVertexOf shellBRep.toModel q = some 0) ↔
      ∃ q ∈ mesh'.points, uniqueVertexOf shellBRep.toModel q = some 0 := by
    rw [key P mesh h1, key P' mesh' h2]
    simp only [hp.mem_iff]
  simp only [shellGeometry, this]

theorem foldl_max (f : Uuid → Nat) : ∀ (l : List Uuid) (x n : Nat),
    l.foldl (fun box s => max box (f s)) x ≤ n ↔ x ≤ n ∧ ∀ s ∈ l, f s ≤ n
  | [], x, n => by simp
  | s :: l, x, n => by
    rw [List.foldl_cons, foldl_max f l]
    simp only [List.mem_cons, forall_eq_or_imp, Nat.max_le, and_assoc]

theorem shellGeometry_smaller :
    InsideIsSmaller shellBRep.toModel shellGeometry (boundarySurfaces shellBRep.toModel 9) := by
  intro a ha b hb hl p q mesh hp hq hf hin
  have four : ∀ c ∈ q, c.id = 4 := by
    intro c hc
    have hm := ((hq.2 c).1 hc).1
    have hv : 0 < c.nbVertices := by
      have : c ∈ shellBRep.surfaces := hm
      simp only [shellBRep, List.mem_cons, List.not_mem_nil, or_false] at this
      rcases this with rfl | rfl | rfl <;> decide
    have := hin c hc 0 hv
    simp only [shellGeometry, Except.ok.injEq, Bool.and_eq_true, decide_eq_true_eq] at this
    exact this.2
  obtain ⟨c, hc, he⟩ := Closed.boundary_has (shellBRep.wf_of_check (by decide)) 9 b hb
  have hcq : c ∈ q := (hq.2 c).2 ⟨hc, he ▸ hb, he ▸ Relation.ReflTransGen.refl⟩
  have out : ∃ d ∈ p, d.id ≠ 4 := by
    have hv : 0 < c.nbVertices := by
      have : c ∈ shellBRep.surfaces := hc
      simp only [shellBRep, List.mem_cons, List.not_mem_nil, or_false] at this
      rcases this with rfl | rfl | rfl <;> decide
    have := hin c hcq 0 hv
    simp only [shellGeometry, Except.ok.injEq, Bool.and_eq_true, decide_eq_true_eq] at this
    obtain ⟨⟨x, hx, hu⟩, _⟩ := this
    obtain ⟨polygon, hpo, hxp⟩ := hf.points x hx
    obtain ⟨d, hd, hpd⟩ := List.mem_flatMap.1 hpo
    refine ⟨d, hd, fun h4 => ?_⟩
    have hx4 : x.1 = 4 := by
      unfold facetsOfSurface at hpd
      obtain ⟨_, _, rfl⟩ := List.mem_map.1 hpd
      obtain ⟨_, _, rfl⟩ := List.mem_map.1 hxp
      exact h4
    obtain ⟨x1, x2⟩ := x
    simp only [] at hx4
    subst hx4
    have hz : (⟨⟨.surface, 4⟩, x2⟩ : ComponentMeshVertex) ∈
        [(⟨⟨.surface, 1⟩, 0⟩ : ComponentMeshVertex), ⟨⟨.surface, 2⟩, 0⟩] := by
      unfold uniqueVertexOf TopologyData.toModel at hu
      simp only [] at hu
      have := (List.findIdx?_eq_some_iff_getElem.1 hu).2.1
      exact of_decide_eq_true this
    simp at hz
  have hq1 : LE.le (α := Nat) (boxAround shellGeometry q) 1 := by
    refine (foldl_max (fun s => if s = 4 then 1 else 2) _ 0 1).2 ⟨by omega, fun s hs => ?_⟩
    obtain ⟨c, hc, rfl⟩ := List.mem_map.1 hs
    rw [four c hc]; decide
  have hp2 : ¬ LE.le (α := Nat) (boxAround shellGeometry p) 1 := by
    intro h
    obtain ⟨d, hd, h4⟩ := out
    have := ((foldl_max (fun s => if s = 4 then 1 else 2) _ 0 1).1 h).2 d.id (List.mem_map_of_mem hd)
    rw [if_neg h4] at this
    omega
  have h1 : LE.le (α := Nat) (boxAround shellGeometry q) (boxAround shellGeometry p) :=
    Nat.le_trans hq1 (Nat.le_of_lt (Nat.lt_of_not_le hp2))
  have h2 : ¬ LE.le (α := Nat) (boxAround shellGeometry p) (boxAround shellGeometry q) :=
    fun h => hp2 (Nat.le_trans h hq1)
  exact ⟨@decide_eq_true _ (Nat.decLe _ _) h1, @decide_eq_false _ (Nat.decLe _ _) h2⟩

/-- The hypotheses of C103 hold for `shellBRep`, `otherShellBRep` and `shellGeometry`. -/
example : WellFormed shellBRep.toModel ∧ CoherentLines shellBRep.toModel ∧ WellFormed otherShellBRep.toModel ∧
    CoherentLines otherShellBRep.toModel ∧ SameBoundaries shellBRep.toModel otherShellBRep.toModel 9 ∧
    RaisesOpenGeode shellGeometry ∧ InsideOfShape shellBRep.toModel shellGeometry ∧
    InsideIsSmaller shellBRep.toModel shellGeometry (boundarySurfaces shellBRep.toModel 9) := by
  refine ⟨shellBRep.wf_of_check (by decide), shellBRep.coherent_of_check (by decide),
    otherShellBRep.wf_of_check (by decide), otherShellBRep.coherent_of_check (by decide), ⟨?_, ?_, ?_, ?_, ?_⟩, ?_,
    shellGeometry_shape, shellGeometry_smaller⟩
  · intro c
    change c ∈ shellBRep.surfaces ↔ c ∈ otherShellBRep.surfaces
    simp only [shellBRep, otherShellBRep, List.mem_cons, List.not_mem_nil, or_false]
    tauto
  · intro s
    change _ ∈ TopologyData.select _ _ ↔ _ ∈ TopologyData.select _ _
    rw [TopologyData.mem_select, TopologyData.mem_select]
    simp [shellBRep, otherShellBRep]
    tauto
  · intro s l
    change _ ∈ TopologyData.select _ _ ↔ _ ∈ TopologyData.select _ _
    rw [TopologyData.mem_select, TopologyData.mem_select]
    simp [shellBRep, otherShellBRep]
    tauto
  · intro s p; rfl
  · intro s v; rfl
  · intro mesh s v f h; cases h

/-- It is declared closed in both orders. -/
example : (blockBoundariesAreClosed shellBRep.toModel shellGeometry 50 9).toOption = some true ∧
    (blockBoundariesAreClosed otherShellBRep.toModel shellGeometry 50 9).toOption = some true := by decide +kernel

/-- If two pieces have the same box, though one is inside the other (here the test of points accepts points on the
surface), the answer depends on the order in which the boundary surfaces are stored. -/
theorem C103_equal_boxes : let g := { shellGeometry with
        contains := fun _ _ => true }
    (∀ fuel ≥ 50, blockBoundariesAreClosed shellBRep.toModel g fuel 9 = .ok true) ∧
    ∀ fuel ≥ 50, blockBoundariesAreClosed otherShellBRep.toModel g fuel 9 = .ok false := by
  constructor
  · intro fuel hf
    obtain ⟨k, rfl⟩ := Nat.exists_eq_add_of_le' hf
    rfl
  · intro fuel hf
    obtain ⟨k, rfl⟩ := Nat.exists_eq_add_of_le' hf
    rfl

end Inspector
