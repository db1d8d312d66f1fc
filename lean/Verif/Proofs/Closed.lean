import Verif.Spec.Closed
import Verif.Spec.TopologyBlocks
import Verif.Proofs.FusedSurface
import Verif.Proofs.LinkedSurfaces
/-
Proofs for C103: the parts found by the inspector are the pieces of the boundary.
-/
namespace Inspector.Closed
open Inspector Spec
variable {m : TopologyModel}

/-- Two parts of a partition with a common surface are the same part. -/
theorem part_unique {Q : List Uuid} {parts : List (List Uuid)} (hp : IsPartition m Q parts) {i j : Nat} {p q : List Uuid}
    (hi : parts[i]? = some p) (hj : parts[j]? = some q) {s : Uuid} (h1 : s ∈ p) (h2 : s ∈ q) : i = j := by
  by_contra hij
  obtain ⟨l1, e1⟩ := List.getElem?_eq_some_iff.1 hi
  obtain ⟨l2, e2⟩ := List.getElem?_eq_some_iff.1 hj
  have hd := (List.nodup_flatten.1 hp.nodup).2
  rw [List.pairwise_iff_getElem] at hd
  rcases Nat.lt_or_gt_of_ne hij with h | h
  · exact hd i j l1 l2 h (e1 ▸ h1) (e2 ▸ h2)
  · exact hd j i l2 l1 h (e2 ▸ h2) (e1 ▸ h1)

/-- A part is the piece of each of its surfaces. -/
theorem piece_of_part (wf : WellFormed m) {Q : List Uuid} {parts : List (List Uuid)} (hp : IsPartition m Q parts)
    (hs : ∀ s ∈ Q, Has m .surface s) {p : List Uuid} (hpm : p ∈ parts) :
    ∃ cs : List TopologyComponent, p = cs.map TopologyComponent.id ∧
      (∀ c ∈ cs, m.component .surface c.id = .ok c ∧ c ∈ m.components .surface) ∧ ∀ a ∈ p, Piece m Q a cs := by
  obtain ⟨cs, e, hc⟩ := exists_components wf p fun s h => hs s ((hp.cover s).2 ⟨p, hpm, h⟩)
  have hnd : p.Nodup := (List.nodup_flatten.1 hp.nodup).1 p hpm
  refine ⟨cs, e, hc, fun a ha => ⟨List.Nodup.of_map _ (e ▸ hnd), fun c => ⟨fun h => ?_, ?_⟩⟩⟩
  · have : c.id ∈ p := e ▸ List.mem_map_of_mem h
    exact ⟨(hc c h).2, (hp.component p hpm a ha c.id).1 this⟩
  · rintro ⟨h1, h2⟩
    have : c.id ∈ p := (hp.component p hpm a ha c.id).2 h2
    rw [e] at this
    obtain ⟨c', h', e'⟩ := List.mem_map.1 this
    rw [← List.inj_on_of_nodup_map (wf.ids .surface) (hc c' h').2 h1 e']
    exact h'

theorem piece_perm {Q : List Uuid} {a : Uuid} {p q : List TopologyComponent} (hp : Piece m Q a p) (hq : Piece m Q a q) :
    p.Perm q := (List.perm_ext_iff_of_nodup hp.1 hq.1).2 fun c => (hp.2 c).trans (hq.2 c).symm

/-- Fewer than two parts: in one piece. -/
theorem one_piece {Q : List Uuid} {parts : List (List Uuid)} (hp : IsPartition m Q parts) :
    parts.length < 2 ↔ AllLinked m Q := by
  constructor
  · intro h a ha b hb
    obtain ⟨p, hpm, hap⟩ := (hp.cover a).1 ha
    obtain ⟨q, hqm, hbq⟩ := (hp.cover b).1 hb
    have : p = q := by
      match parts, h, hpm, hqm with
      | [], _, h, _ => cases h
      | [_], _, h, h' => rw [List.mem_singleton.1 h, List.mem_singleton.1 h']
      | _ :: _ :: _, h, _, _ => simp at h; omega
    subst this
    exact ((hp.component p hpm a hap b).1 hbq).2
  · intro h
    by_contra hlt
    match parts, hp, hlt with
    | [], _, h => simp at h
    | [_], _, h => simp at h
    | p :: q :: rest, hp, _ =>
      obtain ⟨a, ha⟩ := List.exists_mem_of_ne_nil _ (hp.nonempty p (by simp))
      obtain ⟨b, hb⟩ := List.exists_mem_of_ne_nil _ (hp.nonempty q (by simp))
      have haQ := (hp.cover a).2 ⟨p, by simp, ha⟩
      have hbQ := (hp.cover b).2 ⟨q, by simp, hb⟩
      have hbp := (hp.component p (by simp) a ha b).2 ⟨hbQ, h a haQ b hbQ⟩
      have := part_unique hp (i := 0) (j := 1) rfl rfl hbp hb
      omega

theorem mesh_encloses (wf : WellFormed m) {g : BlockGeometry} (shape : InsideOfShape m g) {Q : List Uuid}
    {parts : List (List Uuid)} (hp : IsPartition m Q parts) (hs : ∀ s ∈ Q, Has m .surface s) :
    (∃ i, MeshEncloses m g parts i) ↔ ∃ a ∈ Q, PieceEncloses m g Q a := by
  constructor
  · rintro ⟨i, p, mesh, hi, hm, hin⟩
    have hpm := List.mem_of_getElem? hi
    obtain ⟨a, ha⟩ := List.exists_mem_of_ne_nil _ (hp.nonempty p hpm)
    obtain ⟨cs, e, hc, hpc⟩ := piece_of_part wf hp hs hpm
    obtain ⟨fused, hf, hfu⟩ := fuse_spec cs fun c h => (hc c h).1
    rw [e, hf] at hm
    cases hm
    refine ⟨a, (hp.cover a).2 ⟨p, hpm, ha⟩, cs, mesh, hpc a ha, hfu, fun c hcm hcQ hl v hv => ?_⟩
    obtain ⟨q, hqm, hcq⟩ := (hp.cover c.id).1 hcQ
    obtain ⟨j, hj⟩ := List.getElem?_of_mem hqm
    refine hin j q hj (fun h => hl ?_) c.id hcq c hcm rfl v hv
    subst h
    rw [hi] at hj
    cases hj
    exact ((hp.component p hpm a ha c.id).1 hcq).2
  · rintro ⟨a, haQ, piece, mesh, hpi, hfu, hin⟩
    obtain ⟨p, hpm, ha⟩ := (hp.cover a).1 haQ
    obtain ⟨i, hi⟩ := List.getElem?_of_mem hpm
    obtain ⟨cs, e, hc, hpc⟩ := piece_of_part wf hp hs hpm
    obtain ⟨fused, hf, hfu'⟩ := fuse_spec cs fun c h => (hc c h).1
    refine ⟨i, p, fused, hi, e ▸ hf, fun j q hj hji s hsq c hcm hcs v hv => ?_⟩
    rw [← shape _ _ _ _ ((piece_perm hpi (hpc a ha)).flatMap_right _) hfu hfu']
    subst hcs
    have hqm := List.mem_of_getElem? hj
    have hcQ := (hp.cover c.id).2 ⟨q, hqm, hsq⟩
    refine hin c hcm hcQ (fun hl => hji ?_) v hv
    exact part_unique hp hj hi hsq ((hp.component p hpm a ha c.id).2 ⟨hcQ, hl⟩)

/-- The surfaces which bound a block exist. -/
theorem boundary_has (wf : WellFormed m) (block : Uuid) : ∀ s ∈ boundarySurfaces m block, Has m .surface s := by
  intro s hs
  unfold boundarySurfaces at hs
  obtain ⟨c, hc, rfl⟩ := List.mem_map.1 hs
  obtain ⟨hc, ht⟩ := List.mem_filter.1 hc
  have := wf.boundaries block c hc
  rwa [of_decide_eq_true ht] at this

theorem mem_boundarySurfaces {block s : Uuid} : s ∈ boundarySurfaces m block ↔ ⟨.surface, s⟩ ∈ m.boundaries block := by
  unfold boundarySurfaces
  constructor
  · intro hs
    obtain ⟨c, hc, rfl⟩ := List.mem_map.1 hs
    obtain ⟨hc, ht⟩ := List.mem_filter.1 hc
    obtain ⟨t, id⟩ := c
    have : t = .surface := of_decide_eq_true ht
    subst this
    exact hc
  · intro h
    exact List.mem_map.2 ⟨_, List.mem_filter.2 ⟨h, by simp⟩, rfl⟩

/-! ### Another order -/

section
variable {m' : TopologyModel} {block : Uuid} (same : SameBoundaries m m' block)
include same

theorem mem_boundary (s : Uuid) : s ∈ boundarySurfaces m block ↔ s ∈ boundarySurfaces m' block := by
  rw [mem_boundarySurfaces, mem_boundarySurfaces]; exact same.boundarySurfaces s

theorem linked_same (a b : Uuid) :
    LinkedIn m (boundarySurfaces m block) a b ↔ LinkedIn m' (boundarySurfaces m' block) a b := by
  have h : (fun x y => SharesLine m x y ∧ y ∈ boundarySurfaces m block) =
      fun x y => SharesLine m' x y ∧ y ∈ boundarySurfaces m' block := by
    funext x y
    have := mem_boundary same y
    unfold SharesLine
    simp only [same.boundaryLines, this]
  unfold LinkedIn
  rw [h]

theorem piece_same (a : Uuid) (p : List TopologyComponent) :
    Piece m (boundarySurfaces m block) a p ↔ Piece m' (boundarySurfaces m' block) a p := by
  unfold Piece
  simp only [same.surfaces, mem_boundary same, linked_same same]

theorem unique_same (p : Uuid × Index) : uniqueVertexOf m p = uniqueVertexOf m' p := same.uniqueVertex p.1 p.2

theorem fusion_same (polygons : List (List (Uuid × Index))) (mesh : FusedSurface) :
    IsFusion m polygons mesh ↔ IsFusion m' polygons mesh := by
  have h : uniqueVertexOf m = uniqueVertexOf m' := funext (unique_same same)
  constructor
  · rintro ⟨h1, h2, h3⟩; exact ⟨h ▸ h1, h ▸ h2, h3⟩
  · rintro ⟨h1, h2, h3⟩; exact ⟨h ▸ h1, h ▸ h2, h3⟩

theorem facets_same : facetsOfSurface m = facetsOfSurface m' := by
  funext c
  unfold facetsOfSurface
  simp only [same.polygonVertices]

theorem encloses_same (g : BlockGeometry) (a : Uuid) :
    PieceEncloses m g (boundarySurfaces m block) a ↔ PieceEncloses m' g (boundarySurfaces m' block) a := by
  unfold PieceEncloses
  simp only [same.surfaces, mem_boundary same, linked_same same, piece_same same, fusion_same same, facets_same same]

theorem closed_same (g : BlockGeometry) : ClosedBoundary m g block ↔ ClosedBoundary m' g block := by
  unfold ClosedBoundary AllLinked
  simp only [mem_boundary same, linked_same same, encloses_same same]

theorem shape_same {g : BlockGeometry} (h : InsideOfShape m g) : InsideOfShape m' g :=
  fun P P' mesh mesh' hp h1 h2 => h P P' mesh mesh' hp ((fusion_same same P mesh).2 h1) ((fusion_same same P' mesh').2 h2)

theorem smaller_same {g : BlockGeometry} (h : InsideIsSmaller m g (boundarySurfaces m block)) :
    InsideIsSmaller m' g (boundarySurfaces m' block) := by
  intro a ha b hb hl p q mesh hp hq hf hin
  exact h a ((mem_boundary same a).2 ha) b ((mem_boundary same b).2 hb) (fun h => hl ((linked_same same a b).1 h)) p q mesh
    ((piece_same same a p).2 hp) ((piece_same same b q).2 hq)
    ((fusion_same same _ mesh).2 (by rw [facets_same same]; exact hf)) hin

end

end Inspector.Closed
