import Verif.Proofs.Skin
import Verif.Props.WholeModel
/-
C125: the boundary of the Blocks of a valid BRep is closed.  C126: the border facets of its Blocks are on its Surfaces.
C127: the border edges of the Surfaces of a valid model are on its Lines.
-/
namespace Inspector
open Spec

/-- **C125**, if the Lines, and the Surfaces bounding the Block, are active and if the wrong embeddings of the Lines can be
described (see C54): when the BRep is declared valid, any edge of a polygon of a Surface bounding an active Block is shared
by another polygon edge of the boundary of the Block.  Missing: the other BReps (see `C125_false`). -/
theorem C125_partial {P : Type} (lib : ModelLibrary P) (rt : ModelRuntime) (hrt : ModelRuntimeOk rt) (m : ModelData P)
    (c : Candidates P) (h : BRepOk lib rt m c) (hu : ¬ LinesUnreadable (m.topology rt)) (found : EdgesFound m)
    (agree : BoundariesAgree m) (sound : FacesSound m) :
    ∃ v N, (∀ fuel ≥ N, isBRepOfValid lib rt fuel m = .ok v) ∧ (v.isValid = true →
      ∀ b ∈ m.blocks, b.active = true → BoundaryActive m b → Watertight m b) := by
  obtain ⟨v, N, h1, h2, _⟩ := C82_brep_partial lib rt hrt m c h
  exact ⟨v, N, h1, fun hv b hb hba hact =>
    Watertight.watertight h found agree sound ((h2 hu).1 hv) hb hba hact⟩

/-! ### The tetrahedron -/

section
variable (d : TopologyData) (scale : Nat → Nat) (sign : Sign)

/-- A Surface of `exampleModel`. -/
def exampleFace (c : TopologyComponent) : FaceData Nat where
  id := c.id
  active := c.active
  nbPolygons := c.nbElements
  nbPolygonVertices := fun _ => 3
  polygonVertex := fun x => x.2
  polygonAdjacent := fun _ => none
  label := ""
  points := exampleModel.points d scale .surface c
  polygonsAroundVertex := fun v => .ok [(0, v)]
  nbEdges := 3
  edgeVertices := fun e => [(0, 1), (1, 2), (2, 0)].getD e (0, 0)
  minimumHeight := fun _ => .num 5
  isPolygonDegenerated := fun _ => false
  polygonAreaSign := fun _ => sign
  polygonsIntersect := fun _ _ => .ok false
  traverse := fun _ => []

theorem example_faceEdge (c : TopologyComponent) (p i u v : Nat) :
    FaceEdge (exampleModel d scale sign) (exampleFace d scale sign c) (p, i) u v ↔ (p < c.nbElements ∧ i < 3) ∧
      d.toModel.uniqueVertex ⟨⟨.surface, c.id⟩, i⟩ = some u ∧
      d.toModel.uniqueVertex ⟨⟨.surface, c.id⟩, (i + 1) % 3⟩ = some v := by
  constructor
  · rintro ⟨h, a, b, ⟨rfl, rfl⟩, h1, h2⟩
    exact ⟨h, h1, h2⟩
  · rintro ⟨h, h1, h2⟩
    exact ⟨h, i, (i + 1) % 3, ⟨rfl, rfl⟩, h1, h2⟩

/-- The numbers of edges told around the edges of the Lines are right. -/
def edgesCheck : Bool :=
  d.lines.all fun l => (List.range l.nbElements).all fun e =>
    match d.toModel.uniqueVertex ⟨⟨.line, l.id⟩, e⟩, d.toModel.uniqueVertex ⟨⟨.line, l.id⟩, e + 1⟩ with
    | some u, some v => d.surfaces.all fun s =>
      let k := ((pairs s.nbElements fun _ => 3).filter fun x =>
        (d.toModel.uniqueVertex ⟨⟨.surface, s.id⟩, x.2⟩ = some u ∧
          d.toModel.uniqueVertex ⟨⟨.surface, s.id⟩, (x.2 + 1) % 3⟩ = some v) ∨
        (d.toModel.uniqueVertex ⟨⟨.surface, s.id⟩, x.2⟩ = some v ∧
          d.toModel.uniqueVertex ⟨⟨.surface, s.id⟩, (x.2 + 1) % 3⟩ = some u)).length
      ((d.toModel.surfaceEdges l.id e).filter fun x => x.1 == s.id) == if k = 0 then [] else [(s.id, k)]
    | _, _ => true

theorem exampleModel_lineEdges : LineEdgesFound (exampleModel d scale sign) := by
  intro u v h
  obtain ⟨x, hx⟩ := List.exists_mem_of_ne_nil _ h
  obtain ⟨c, hc, hx⟩ := List.mem_flatMap.1 hx
  obtain ⟨e, he, hx⟩ := List.mem_filterMap.1 hx
  refine ⟨_, List.mem_map.2 ⟨c, hc, rfl⟩, e, ?_⟩
  split at hx
  · rename_i hh
    exact hh.imp (fun hh => ⟨List.mem_range.1 he, hh⟩) fun hh => ⟨List.mem_range.1 he, hh⟩
  · cases hx

theorem exampleModel_edgesFound (hc : edgesCheck d = true) : EdgesFound (exampleModel d scale sign) where
  lines := exampleModel_lineEdges d scale sign
  surfaces l hl e u v he s hs n := by
    obtain ⟨lc, hlc, rfl⟩ := List.mem_map.1 hl
    obtain ⟨sc, hsc, rfl⟩ := List.mem_map.1 hs
    obtain ⟨h0, h1, h2⟩ := he
    replace h1 : d.toModel.uniqueVertex ⟨⟨.line, lc.id⟩, e⟩ = some u := h1
    replace h2 : d.toModel.uniqueVertex ⟨⟨.line, lc.id⟩, e + 1⟩ = some v := h2
    have hk := List.all_eq_true.1 (List.all_eq_true.1 hc lc hlc) e (List.mem_range.2 h0)
    rw [h1, h2] at hk
    replace hk := List.all_eq_true.1 hk sc hsc
    simp only [] at hk
    generalize hX : (pairs sc.nbElements fun _ => 3).filter _ = X at hk
    have hX1 : X.Nodup := by rw [← hX]; exact (pairs_nodup _ _).filter _
    have hX2 : ∀ x, x ∈ X ↔ FaceEdgeOn (exampleModel d scale sign) (exampleFace d scale sign sc) x u v := by
      rintro ⟨p, i⟩
      rw [← hX, List.mem_filter, mem_pairs, decide_eq_true_eq, and_or_left]
      exact or_congr (example_faceEdge d scale sign sc p i u v).symm (example_faceEdge d scale sign sc p i v u).symm
    have hmem : (sc.id, n) ∈ d.toModel.surfaceEdges lc.id e ↔ n ≠ 0 ∧ n = X.length := by
      have : (sc.id, n) ∈ d.toModel.surfaceEdges lc.id e ↔
          (sc.id, n) ∈ ((d.toModel.surfaceEdges lc.id e).filter fun x => x.1 == sc.id) := by
        simp [List.mem_filter]
      rw [this, eq_of_beq hk]
      split
      · simp only [List.not_mem_nil, false_iff]; omega
      · simp only [List.mem_singleton, Prod.mk.injEq, true_and]; omega
    refine hmem.trans (and_congr_right fun _ => ⟨fun hn => ⟨X, hX1, hn.symm, hX2⟩, ?_⟩)
    rintro ⟨xs, x1, x2, x3⟩
    rw [← x2]
    exact ((List.perm_ext_iff_of_nodup x1 hX1).2 fun x => (x3 x).trans (hX2 x).symm).length_eq

theorem exampleModel_sound_faces : FacesSound (exampleModel d scale sign) where
  noLoop s hs x a b hx hab := by
    obtain ⟨sc, hsc, rfl⟩ := List.mem_map.1 hs
    obtain ⟨p, i⟩ := x
    obtain ⟨rfl, rfl⟩ := hab
    have : i < 3 := hx.2
    show i ≠ (i + 1) % 3
    omega
  adjacent s hs x q hx hq := by
    obtain ⟨sc, hsc, rfl⟩ := List.mem_map.1 hs
    cases hq

/-- The relationships are told the same. -/
def boundariesCheck : Bool :=
  (d.lines.all fun l => d.surfaces.all fun s =>
    d.toModel.isBoundary l.id s.id == decide (⟨.line, l.id⟩ ∈ d.toModel.boundaries s.id)) &&
  d.surfaces.all fun s => d.blocks.all fun b =>
    d.toModel.isBoundary s.id b.id == decide (⟨.surface, s.id⟩ ∈ d.toModel.boundaries b.id)

theorem exampleModel_agree (hc : boundariesCheck d = true) : BoundariesAgree (exampleModel d scale sign) := by
  obtain ⟨h1, h2⟩ := Bool.and_eq_true_iff.1 hc
  constructor
  · intro l hl s hs
    obtain ⟨lc, hlc, rfl⟩ := List.mem_map.1 hl
    obtain ⟨sc, hsc, rfl⟩ := List.mem_map.1 hs
    have := eq_of_beq (List.all_eq_true.1 (List.all_eq_true.1 h1 lc hlc) sc hsc)
    show d.toModel.isBoundary lc.id sc.id = true ↔ _
    rw [this, decide_eq_true_eq]
    exact Iff.rfl
  · intro s hs b hb
    obtain ⟨sc, hsc, rfl⟩ := List.mem_map.1 hs
    obtain ⟨bc, hbc, rfl⟩ := List.mem_map.1 hb
    have := eq_of_beq (List.all_eq_true.1 (List.all_eq_true.1 h2 sc hsc) bc hbc)
    show d.toModel.isBoundary sc.id bc.id = true ↔ _
    rw [this, decide_eq_true_eq]
    exact Iff.rfl

end

set_option maxRecDepth 20000 in
/-- the hypotheses are met by the tetrahedron, whose boundary is found closed -/
example : Watertight (exampleModel tetrahedronBRep (10 * ·) .positive)
    { exampleSolidData .positive with
      id := 31
      active := true
      points := exampleModel.points tetrahedronBRep (10 * ·) .block ⟨31, true, 4, 1⟩ } := by
  obtain ⟨v, N, h1, h2⟩ := C125_partial modelLibrary modelRuntime modelRuntime_ok _ _ (tetrahedronBRep_ok .positive)
    (tetrahedronBRep_readable .positive) (exampleModel_edgesFound _ _ _ (by decide +kernel))
    (exampleModel_agree _ _ _ (by decide)) (exampleModel_sound_faces _ _ _)
  have he : isBRepOfValid modelLibrary modelRuntime (N + 20) (exampleModel tetrahedronBRep (10 * ·) .positive) = .ok {} := by
    rfl
  have h := h1 (N + 20) (by omega)
  rw [he] at h
  injection h with h
  subst h
  refine h2 rfl _ (List.mem_singleton.2 rfl) rfl ⟨fun l hl => ?_, fun s hs _ => ?_⟩
  · obtain ⟨c, hc, rfl⟩ := List.mem_map.1 hl
    exact (by decide : ∀ c ∈ tetrahedronBRep.lines, c.active = true) c hc
  · obtain ⟨c, hc, rfl⟩ := List.mem_map.1 hs
    exact (by decide : ∀ c ∈ tetrahedronBRep.surfaces, c.active = true) c hc

/-- The tetrahedron, the last of its faces being inactive. -/
def openTetrahedron : TopologyData := { tetrahedronBRep with
  surfaces := [⟨21, true, 3, 1⟩, ⟨22, true, 3, 1⟩, ⟨23, true, 3, 1⟩, ⟨24, false, 3, 1⟩] }

set_option maxRecDepth 20000 in
/-- **C125 is false** without the hypothesis on the active Surfaces: a BRep is declared valid although an active Block is
bounded by three faces of a tetrahedron, the fourth one being inactive. -/
theorem C125_false : ∃ (lib : ModelLibrary Nat) (rt : ModelRuntime) (m : ModelData Nat), ModelRuntimeOk rt ∧
    MeshesOk lib m ∧ WellFormed (m.topology rt) ∧ EdgesFound m ∧ BoundariesAgree m ∧ FacesSound m ∧
    (∃ b ∈ m.blocks, b.active = true ∧ ¬ Watertight m b) ∧
    ∀ fuel ≥ 20, ∃ v, isBRepOfValid lib rt fuel m = .ok v ∧ v.isValid = true := by
  refine ⟨modelLibrary, modelRuntime, exampleModel openTetrahedron (10 * ·) .positive, modelRuntime_ok,
    exampleModel_meshes _ _ _ (by decide), exampleModel_wf _ _ _ _ (by decide) (by decide) (by decide),
    exampleModel_edgesFound _ _ _ (by decide +kernel), exampleModel_agree _ _ _ (by decide),
    exampleModel_sound_faces _ _ _, ⟨_, List.mem_singleton.2 rfl, rfl, fun h => ?_⟩, fun fuel hf => ?_⟩
  · -- the edge of the face 21 opposite to its first vertex is only shared with the face 24
    obtain ⟨u, v, h1, s', hs', ha, _, ⟨p, i⟩, hne, h2⟩ := h _ (List.mem_map.2 ⟨⟨21, true, 3, 1⟩, by decide, rfl⟩) rfl
      (by decide) (0, 1) ⟨by decide, by decide⟩
    obtain ⟨_, h1, h1'⟩ := (example_faceEdge ..).1 h1
    obtain ⟨c, hc, rfl⟩ := List.mem_map.1 hs'
    have hu : u = 1 := by
      have : openTetrahedron.toModel.uniqueVertex ⟨⟨.surface, 21⟩, 1⟩ = some 1 := by decide
      rw [this] at h1; injection h1 with h1; exact h1.symm
    have hv : v = 2 := by
      have : openTetrahedron.toModel.uniqueVertex ⟨⟨.surface, 21⟩, (1 + 1) % 3⟩ = some 2 := by decide
      rw [this] at h1'; injection h1' with h1'; exact h1'.symm
    subst hu hv
    have key : ∀ c ∈ openTetrahedron.surfaces, c.active = true → ∀ i < 3, ((c.id, i) : Nat × Nat) ≠ (21, 1) →
        ¬ ((openTetrahedron.toModel.uniqueVertex ⟨⟨.surface, c.id⟩, i⟩ = some 1 ∧
          openTetrahedron.toModel.uniqueVertex ⟨⟨.surface, c.id⟩, (i + 1) % 3⟩ = some 2) ∨
        (openTetrahedron.toModel.uniqueVertex ⟨⟨.surface, c.id⟩, i⟩ = some 2 ∧
          openTetrahedron.toModel.uniqueVertex ⟨⟨.surface, c.id⟩, (i + 1) % 3⟩ = some 1)) := by decide
    have h3 : (p < c.nbElements ∧ i < 3) := by
      rcases h2 with h2 | h2 <;> exact ((example_faceEdge ..).1 h2).1
    have hp : c.nbElements = 1 := (by decide : ∀ c ∈ openTetrahedron.surfaces, c.nbElements = 1) c hc
    refine key c hc ha i h3.2 (fun e => hne ?_) (h2.imp (fun h2 => ((example_faceEdge ..).1 h2).2)
      fun h2 => ((example_faceEdge ..).1 h2).2)
    injection e with e1 e2
    have : p = 0 := by omega
    subst this e2
    show (c.id, _) = _
    rw [e1]
  · obtain ⟨N, rfl⟩ := Nat.exists_eq_add_of_le' hf
    have he : isBRepOfValid modelLibrary modelRuntime (N + 20) (exampleModel openTetrahedron (10 * ·) .positive) =
      .ok {} := by rfl
    exact ⟨_, he, rfl⟩

/-! ### C126 -/

/-- **C126** (facets), if all Surfaces are active, all Blocks meshed, and if the wrong embeddings of the Lines can be
described (see C54): when the BRep is declared valid, any border facet of an active Block is on a polygon of a Surface,
which bounds the Block and has no other facet of it, or which is inside the Block and has exactly two facets of it.
Missing: the other BReps (see `C126_facets_false`). -/
theorem C126_facets_partial {P : Type} (lib : ModelLibrary P) (rt : ModelRuntime) (hrt : ModelRuntimeOk rt)
    (m : ModelData P) (c : Candidates P) (h : BRepOk lib rt m c) (hu : ¬ LinesUnreadable (m.topology rt))
    (found : PolygonsFound m) (sound : FacetsSound m) (known : AllKnown m) :
    ∃ v N, (∀ fuel ≥ N, isBRepOfValid lib rt fuel m = .ok v) ∧ (v.isValid = true →
      ∀ b ∈ m.blocks, b.active = true → ∀ x, IsPolyhedronFacet b.toSolidMesh x → b.polyhedronAdjacent x = none →
        Skinned m b x) := by
  obtain ⟨v, N, h1, h2, _⟩ := C82_brep_partial lib rt hrt m c h
  exact ⟨v, N, h1, fun hv b hb hba x hx hn => Skin.skinned found sound ((h2 hu).1 hv) hb hba known hx hn⟩

section
variable (d : TopologyData) (scale : Nat → Nat) (sign : Sign)

theorem somes {l : List (Option Nat)} (h : none ∉ l) : ∃ ws : List Nat, l = ws.map some := by
  obtain ⟨ws, hw⟩ := Skin.all_some id l fun a ha => by
    cases a with
    | none => exact absurd ha h
    | some b => exact ⟨b, rfl⟩
  exact ⟨ws, by rw [← hw, List.map_id]⟩

theorem map_some_perm {l l' : List Nat} : (l.map some).Perm (l'.map some) ↔ l.Perm l' :=
  ⟨fun h => by simpa using h.filterMap id, fun h => h.map _⟩

/-- A Block of `exampleModel`. -/
def exampleVolume (c : TopologyComponent) : VolumeData Nat := { exampleSolidData sign with
  id := c.id
  active := c.active
  points := exampleModel.points d scale .block c }

/-- The unique vertices of a facet, and of a polygon. -/
def facetUvs (b : Uuid) (x : PolyhedronFacet) : List (Option Nat) :=
  ([[1, 2, 3], [0, 3, 2], [0, 1, 3], [0, 2, 1]].getD x.2 []).map fun k => d.toModel.uniqueVertex ⟨⟨.block, b⟩, k⟩

def polygonUvs (s : Uuid) : List (Option Nat) := (List.range 3).map fun k => d.toModel.uniqueVertex ⟨⟨.surface, s⟩, k⟩

theorem example_facetOn (b s : TopologyComponent) (x : PolyhedronFacet) (p : Nat) :
    FacetOn (exampleModel d scale sign) (exampleVolume d scale sign b) x (exampleFace d scale sign s) p ↔
      (x.1 < 1 ∧ x.2 < 4) ∧ p < s.nbElements ∧ (facetUvs d b.id x).Perm (polygonUvs d s.id) ∧
        none ∉ facetUvs d b.id x := by
  constructor
  · rintro ⟨hx, uvs, h1, hp, ws, hw, h2⟩
    replace h1 : facetUvs d b.id x = uvs.map some := h1
    replace h2 : polygonUvs d s.id = ws.map some := h2
    refine ⟨hx, hp, ?_, ?_⟩
    · rw [h1, h2]; exact (hw.map _).symm
    · rw [h1]; simp
  · rintro ⟨hx, hp, h1, h2⟩
    obtain ⟨uvs, hu⟩ := somes h2
    obtain ⟨ws, hw⟩ := somes (fun hh => h2 (h1.mem_iff.2 hh))
    rw [hu, hw] at h1
    exact ⟨hx, uvs, hu, hp, ws, (map_some_perm.1 h1).symm, hw⟩

/-- The numbers of facets told around the polygons are right. -/
def facetsCheck : Bool :=
  d.surfaces.all fun s => (List.range s.nbElements).all fun p => d.blocks.all fun b =>
    let k := ((pairs 1 fun _ => 4).filter fun x =>
      (facetUvs d b.id x).isPerm (polygonUvs d s.id) && decide (none ∉ facetUvs d b.id x)).length
    ((d.toModel.blockPolygons s.id p).filter fun x => x.1 == b.id) == if k = 0 then [] else [(b.id, k)]

theorem exampleModel_polygonsFound (hc : facetsCheck d = true) : PolygonsFound (exampleModel d scale sign) where
  polygons uvs h := by
    obtain ⟨x, hx⟩ := List.exists_mem_of_ne_nil _ h
    obtain ⟨c, hc, hx⟩ := List.mem_flatMap.1 hx
    obtain ⟨p, hp, hx⟩ := List.mem_filterMap.1 hx
    refine ⟨_, List.mem_map.2 ⟨c, hc, rfl⟩, p, List.mem_range.1 hp, ?_⟩
    split at hx
    · rename_i hh
      rw [List.isPerm_iff] at hh
      obtain ⟨ws, hw⟩ := somes (l := polygonUvs d c.id) (fun hn => by simpa using hh.mem_iff.1 hn)
      exact ⟨ws, map_some_perm.1 (hw ▸ hh), hw⟩
    · cases hx
  blocks s hs p hp b hb n := by
    obtain ⟨sc, hsc, rfl⟩ := List.mem_map.1 hs
    obtain ⟨bc, hbc, rfl⟩ := List.mem_map.1 hb
    have hk := List.all_eq_true.1 (List.all_eq_true.1 (List.all_eq_true.1 hc sc hsc) p (List.mem_range.2 hp)) bc hbc
    simp only [] at hk
    generalize hX : (pairs 1 fun _ => 4).filter _ = X at hk
    have hX1 : X.Nodup := by rw [← hX]; exact (pairs_nodup _ _).filter _
    have hX2 : ∀ x, x ∈ X ↔
        FacetOn (exampleModel d scale sign) (exampleVolume d scale sign bc) x (exampleFace d scale sign sc) p := by
      rintro ⟨q, i⟩
      rw [example_facetOn, ← hX, List.mem_filter, mem_pairs, Bool.and_eq_true, List.isPerm_iff, decide_eq_true_eq]
      exact and_congr_right fun _ => ⟨fun hh => ⟨hp, hh⟩, fun hh => hh.2⟩
    have hmem : (bc.id, n) ∈ d.toModel.blockPolygons sc.id p ↔ n ≠ 0 ∧ n = X.length := by
      have : (bc.id, n) ∈ d.toModel.blockPolygons sc.id p ↔
          (bc.id, n) ∈ ((d.toModel.blockPolygons sc.id p).filter fun x => x.1 == bc.id) := by
        simp [List.mem_filter]
      rw [this, eq_of_beq hk]
      split
      · simp only [List.not_mem_nil, false_iff]; omega
      · simp only [List.mem_singleton, Prod.mk.injEq, true_and]; omega
    refine hmem.trans (and_congr_right fun _ => ⟨fun hn => ⟨X, hX1, hn.symm, hX2⟩, ?_⟩)
    rintro ⟨xs, x1, x2, x3⟩
    rw [← x2]
    exact ((List.perm_ext_iff_of_nodup x1 hX1).2 fun x => (x3 x).trans (hX2 x).symm).length_eq

theorem exampleModel_facetsSound (hc : ∀ b ∈ d.blocks, b.nbVertices = 4) : FacetsSound (exampleModel d scale sign) := by
  rintro b hb ⟨q, i⟩ hx k hk
  obtain ⟨bc, hbc, rfl⟩ := List.mem_map.1 hb
  have hn : (exampleModel.points d scale .block bc).length = 4 := by
    simp [exampleModel.points, exampleModel.vertices, hc bc hbc]
  show k < (exampleModel.points d scale .block bc).length
  rw [hn]
  have hi : i < 4 := hx.2
  have hk : k ∈ [[1, 2, 3], [0, 3, 2], [0, 1, 3], [0, 2, 1]].getD i [] := hk
  exact (by decide : ∀ i < 4, ∀ k ∈ [[1, 2, 3], [0, 3, 2], [0, 1, 3], [0, 2, 1]].getD i [], k < 4) i hi k hk

end

set_option maxRecDepth 20000 in
/-- the hypotheses are met by the tetrahedron, whose facets are found on its Surfaces -/
example (i : Nat) (hi : i < 4) : Skinned (exampleModel tetrahedronBRep (10 * ·) .positive)
    (exampleVolume tetrahedronBRep (10 * ·) .positive ⟨31, true, 4, 1⟩) (0, i) := by
  obtain ⟨v, N, h1, h2⟩ := C126_facets_partial modelLibrary modelRuntime modelRuntime_ok _ _
    (tetrahedronBRep_ok .positive) (tetrahedronBRep_readable .positive)
    (exampleModel_polygonsFound _ _ _ (by decide +kernel)) (exampleModel_facetsSound _ _ _ (by decide))
    ⟨fun s hs => (by
      obtain ⟨c, hc, rfl⟩ := List.mem_map.1 hs
      exact (by decide : ∀ c ∈ tetrahedronBRep.surfaces, c.active = true) c hc), fun b hb => (by
      obtain ⟨c, hc, rfl⟩ := List.mem_map.1 hb
      exact Nat.one_ne_zero)⟩
  have he : isBRepOfValid modelLibrary modelRuntime (N + 20) (exampleModel tetrahedronBRep (10 * ·) .positive) = .ok {} := by
    rfl
  have h := h1 (N + 20) (by omega)
  rw [he] at h
  injection h with h
  subst h
  exact h2 rfl _ (List.mem_singleton.2 rfl) rfl (0, i) ⟨Nat.one_pos, hi⟩ rfl

/-- The tetrahedron, its faces being inactive and not bounding the Block. -/
def unrelatedFaces : TopologyData := { tetrahedronBRep with
  surfaces := tetrahedronBRep.surfaces.map fun c => { c with active := false }
  boundary := tetrahedronBRep.boundary.filter fun e => e.2.type != .block }

set_option maxRecDepth 20000 in
/-- **C126 is false** for facets without the hypothesis on the active Surfaces: a BRep is declared valid although the border
facets of an active Block are on Surfaces which neither bound it nor are inside it. -/
theorem C126_facets_false : ∃ (lib : ModelLibrary Nat) (rt : ModelRuntime) (m : ModelData Nat), ModelRuntimeOk rt ∧
    MeshesOk lib m ∧ WellFormed (m.topology rt) ∧ PolygonsFound m ∧ FacetsSound m ∧
    (∃ b ∈ m.blocks, b.active = true ∧ ∃ x, IsPolyhedronFacet b.toSolidMesh x ∧ b.polyhedronAdjacent x = none ∧
      ¬ Skinned m b x) ∧
    ∀ fuel ≥ 20, ∃ v, isBRepOfValid lib rt fuel m = .ok v ∧ v.isValid = true := by
  refine ⟨modelLibrary, modelRuntime, exampleModel unrelatedFaces (10 * ·) .positive, modelRuntime_ok,
    exampleModel_meshes _ _ _ (by decide), exampleModel_wf _ _ _ _ (by decide) (by decide) (by decide),
    exampleModel_polygonsFound _ _ _ (by decide +kernel), exampleModel_facetsSound _ _ _ (by decide),
    ⟨_, List.mem_singleton.2 rfl, rfl, (0, 0), ⟨by decide, by decide⟩, rfl, fun h => ?_⟩, fun fuel hf => ?_⟩
  · obtain ⟨s, hs, p, _, h⟩ := h
    obtain ⟨c, hc, rfl⟩ := List.mem_map.1 hs
    have key : ∀ c ∈ unrelatedFaces.surfaces, unrelatedFaces.toModel.isBoundary c.id 31 = false ∧
        unrelatedFaces.toModel.isInternal c.id 31 = false := by decide
    rcases h with ⟨h, _⟩ | ⟨_, h, _⟩
    · exact absurd ((key c hc).1.symm.trans h) (by decide)
    · exact absurd ((key c hc).2.symm.trans h) (by decide)
  · obtain ⟨N, rfl⟩ := Nat.exists_eq_add_of_le' hf
    have he : isBRepOfValid modelLibrary modelRuntime (N + 20) (exampleModel unrelatedFaces (10 * ·) .positive) =
      .ok {} := by rfl
    exact ⟨_, he, rfl⟩

/-- The tetrahedron and its boundary, and another tetrahedron 101 to 124 of Surfaces, also bounding the Block 31, which has no
facet on them. -/
def bubbleInTetrahedron : TopologyData where
  corners := tetrahedronBRep.corners ++ tetrahedronBRep.corners.map move
  lines := tetrahedronBRep.lines ++ tetrahedronBRep.lines.map move
  surfaces := tetrahedronBRep.surfaces ++ tetrahedronBRep.surfaces.map move
  blocks := tetrahedronBRep.blocks
  vertices := tetrahedronBRep.vertices ++ tetrahedronBRep.vertices.map fun l =>
    (l.filter fun x => x.component_id.type != .block).map fun x =>
      ⟨⟨x.component_id.type, x.component_id.id + 100⟩, x.vertex⟩
  boundary := tetrahedronBRep.boundary ++ tetrahedronBRep.boundary.map fun e =>
    (⟨e.1.type, e.1.id + 100⟩, if e.2.type = .block then e.2 else ⟨e.2.type, e.2.id + 100⟩)
  surfaceEdges := tetrahedronBRep.surfaceEdges ++ tetrahedronBRep.surfaceEdges.map fun e =>
    ((e.1.1 + 100, e.1.2), (e.2.1 + 100, e.2.2))
  blockEdges := tetrahedronBRep.blockEdges
  blockPolygons := tetrahedronBRep.blockPolygons
  polygons := tetrahedronBRep.polygons ++ tetrahedronBRep.polygons.map fun e => ((e.1.1 + 100, e.1.2), e.2)
  border := tetrahedronBRep.border ++ tetrahedronBRep.border.map fun e => (e.1 + 100, e.2)
where
  move (c : TopologyComponent) : TopologyComponent := { c with id := c.id + 100 }

/-- The second boundary is inside the first one. -/
def bubbleGeometry : BlockGeometry where
  Box := Bool
  emptyBox := false
  addBox a b := a || b
  contains a b := a || !b
  surfaceBox s := decide (s < 100)
  isVertexInside _ _ _ := .ok true

/-- The BRep with these boundaries. -/
def bubbleModel : ModelData Nat := { exampleModel bubbleInTetrahedron (10 * ·) .positive with
    blocksOracle := { noModelBoundary with geometry := bubbleGeometry } }
set_option maxRecDepth 20000 in
/-- **C126 is false** for the polygons of the Surfaces: a BRep, all active and meshed, is declared valid although no facet of
its Block is on the polygons of some Surfaces bounding it. -/
theorem C126_polygons_false : ∃ (lib : ModelLibrary Nat) (rt : ModelRuntime) (m : ModelData Nat), ModelRuntimeOk rt ∧
    MeshesOk lib m ∧ WellFormed (m.topology rt) ∧ PolygonsFound m ∧ FacetsSound m ∧ AllKnown m ∧
    (∃ b ∈ m.blocks, b.active = true ∧ ∃ s ∈ m.surfaces, m.isBoundary s.id b.id = true ∧
      ∃ p, p < s.nbPolygons ∧ ∀ x, ¬ FacetOn m b x s p) ∧
    ∀ fuel ≥ 20, ∃ v, isBRepOfValid lib rt fuel m = .ok v ∧ v.isValid = true := by
  refine ⟨modelLibrary, modelRuntime, bubbleModel, modelRuntime_ok, ?_, ?_, ?_, ?_, ⟨?_, ?_⟩,
    ⟨_, List.mem_singleton.2 rfl, rfl, _, List.mem_map.2 ⟨⟨121, true, 3, 1⟩, by decide, rfl⟩, by decide, 0, by decide,
      ?_⟩, fun fuel hf => ?_⟩
  · have h := exampleModel_meshes bubbleInTetrahedron (10 * ·) .positive (by decide)
    exact { h with }
  · exact exampleModel_wf bubbleInTetrahedron (10 * ·) .positive modelRuntime (by decide) (by decide) (by decide)
  · have h := exampleModel_polygonsFound bubbleInTetrahedron (10 * ·) .positive (by decide +kernel)
    exact ⟨h.polygons, h.blocks⟩
  · exact exampleModel_facetsSound bubbleInTetrahedron (10 * ·) .positive (by decide)
  · intro s hs
    obtain ⟨c, hc, rfl⟩ := List.mem_map.1 hs
    exact (by decide : ∀ c ∈ bubbleInTetrahedron.surfaces, c.active = true) c hc
  · intro b hb
    obtain ⟨c, hc, rfl⟩ := List.mem_map.1 hb
    exact Nat.one_ne_zero
  · rintro ⟨q, i⟩ h
    obtain ⟨⟨_, hi⟩, _, h, _⟩ := (example_facetOn bubbleInTetrahedron (10 * ·) .positive ⟨31, true, 4, 1⟩
      ⟨121, true, 3, 1⟩ (q, i) 0).1 h
    have key : ∀ i < 4, ¬ (facetUvs bubbleInTetrahedron 31 (0, i)).Perm (polygonUvs bubbleInTetrahedron 121) := by
      decide +kernel
    exact key i hi h
  · obtain ⟨N, rfl⟩ := Nat.exists_eq_add_of_le' hf
    have he : isBRepOfValid modelLibrary modelRuntime (N + 20) bubbleModel = .ok {} := by rfl
    exact ⟨_, he, rfl⟩

/-! ### C127 -/

/-- **C127** (Sections): when the Section is declared valid, any border edge of an active Surface is on an edge of a Line.
Missing: that the Line bounds the Surface or is inside it, which is false (see `C127_section_false`). -/
theorem C127_section_partial {P : Type} (lib : ModelLibrary P) (rt : ModelRuntime) (hrt : ModelRuntimeOk rt)
    (m : ModelData P) (c : Candidates P) (h : SectionOk lib rt m c) (found : LineEdgesFound m) :
    ∃ v, isSectionOfValid lib rt m = .ok v ∧ (v.isValid = true →
      ∀ s ∈ m.surfaces, s.active = true → ∀ x, IsPolygonEdge s.toSurfaceMesh x → s.polygonAdjacent x = none →
        OnLineEdge m s x) := by
  obtain ⟨v, h1, h2⟩ := C82_section lib rt hrt m c h
  refine ⟨v, h1, fun hv s hs ha x hx hn => Skin.onLine (lib := lib) found (fun hd => h2.1 hv ?_) hx hn⟩
  exact Or.inr (Or.inr (Or.inr (Or.inl ⟨s, hs, ha, Or.inl hd⟩)))

/-- **C127** (BReps), if all Lines are active and if the wrong embeddings of the Lines can be described (see C54): when the
BRep is declared valid, any border edge of an active Surface is on an edge of a Line, which bounds the Surface and has no
other edge of it, or which is inside the Surface and has exactly two edges of it.  Missing: the other BReps (see
`C127_brep_false`). -/
theorem C127_brep_partial {P : Type} (lib : ModelLibrary P) (rt : ModelRuntime) (hrt : ModelRuntimeOk rt)
    (m : ModelData P) (c : Candidates P) (h : BRepOk lib rt m c) (hu : ¬ LinesUnreadable (m.topology rt))
    (found : EdgesFound m) (active : ∀ l ∈ m.lines, l.active = true) :
    ∃ v N, (∀ fuel ≥ N, isBRepOfValid lib rt fuel m = .ok v) ∧ (v.isValid = true →
      ∀ s ∈ m.surfaces, s.active = true → ∀ x, IsPolygonEdge s.toSurfaceMesh x → s.polygonAdjacent x = none →
        Edged m s x) := by
  obtain ⟨v, N, h1, h2, _⟩ := C82_brep_partial lib rt hrt m c h
  exact ⟨v, N, h1, fun hv s hs ha x hx hn => Skin.edged found ((h2 hu).1 hv) active hs ha hx hn⟩

/-- the hypotheses are met by the triangle, whose edges are found on its Lines -/
example (i : Nat) (hi : i < 3) : OnLineEdge (exampleModel triangleSection (10 * ·) .positive)
    (exampleFace triangleSection (10 * ·) .positive ⟨21, true, 3, 1⟩) (0, i) := by
  obtain ⟨v, h1, h2⟩ := C127_section_partial modelLibrary modelRuntime modelRuntime_ok _ _ (triangleSection_ok .positive)
    (exampleModel_lineEdges _ _ _)
  have he : isSectionOfValid modelLibrary modelRuntime (exampleModel triangleSection (10 * ·) .positive) = .ok {} := by rfl
  rw [he] at h1
  injection h1 with h1
  subst h1
  exact h2 rfl _ (List.mem_singleton.2 rfl) rfl (0, i) ⟨Nat.one_pos, hi⟩ rfl

set_option maxRecDepth 20000 in
/-- the hypotheses are met by the tetrahedron -/
example (i : Nat) (hi : i < 3) : Edged (exampleModel tetrahedronBRep (10 * ·) .positive)
    (exampleFace tetrahedronBRep (10 * ·) .positive ⟨21, true, 3, 1⟩) (0, i) := by
  obtain ⟨v, N, h1, h2⟩ := C127_brep_partial modelLibrary modelRuntime modelRuntime_ok _ _
    (tetrahedronBRep_ok .positive) (tetrahedronBRep_readable .positive)
    (exampleModel_edgesFound _ _ _ (by decide +kernel)) (fun l hl => by
      obtain ⟨c, hc, rfl⟩ := List.mem_map.1 hl
      exact (by decide : ∀ c ∈ tetrahedronBRep.lines, c.active = true) c hc)
  have he : isBRepOfValid modelLibrary modelRuntime (N + 20) (exampleModel tetrahedronBRep (10 * ·) .positive) = .ok {} := by
    rfl
  have h := h1 (N + 20) (by omega)
  rw [he] at h
  injection h with h
  subst h
  exact h2 rfl _ (List.mem_map.2 ⟨⟨21, true, 3, 1⟩, by decide, rfl⟩) rfl (0, i) ⟨Nat.one_pos, hi⟩ rfl

/-- Two triangles 21 (Lines 11 to 13) and 22 (Lines 14 to 16) apart: the Lines 13 and 16 are told to bound the Surface of the
other triangle. -/
def exchangedLines : TopologyData where
  corners := triangleSection.corners ++ [⟨4, true, 1, 0⟩, ⟨5, true, 1, 0⟩, ⟨6, true, 1, 0⟩]
  lines := triangleSection.lines ++ [⟨14, true, 2, 1⟩, ⟨15, true, 2, 1⟩, ⟨16, true, 2, 1⟩]
  surfaces := [⟨21, true, 3, 1⟩, ⟨22, true, 3, 1⟩]
  vertices := triangleSection.vertices ++ [
    [⟨⟨.corner, 4⟩, 0⟩, ⟨⟨.line, 14⟩, 0⟩, ⟨⟨.line, 16⟩, 1⟩, ⟨⟨.surface, 22⟩, 0⟩],
    [⟨⟨.corner, 5⟩, 0⟩, ⟨⟨.line, 15⟩, 0⟩, ⟨⟨.line, 14⟩, 1⟩, ⟨⟨.surface, 22⟩, 1⟩],
    [⟨⟨.corner, 6⟩, 0⟩, ⟨⟨.line, 16⟩, 0⟩, ⟨⟨.line, 15⟩, 1⟩, ⟨⟨.surface, 22⟩, 2⟩]]
  boundary := [(⟨.corner, 1⟩, ⟨.line, 11⟩), (⟨.corner, 2⟩, ⟨.line, 11⟩), (⟨.corner, 2⟩, ⟨.line, 12⟩),
    (⟨.corner, 3⟩, ⟨.line, 12⟩), (⟨.corner, 3⟩, ⟨.line, 13⟩), (⟨.corner, 1⟩, ⟨.line, 13⟩),
    (⟨.corner, 4⟩, ⟨.line, 14⟩), (⟨.corner, 5⟩, ⟨.line, 14⟩), (⟨.corner, 5⟩, ⟨.line, 15⟩),
    (⟨.corner, 6⟩, ⟨.line, 15⟩), (⟨.corner, 6⟩, ⟨.line, 16⟩), (⟨.corner, 4⟩, ⟨.line, 16⟩),
    (⟨.line, 11⟩, ⟨.surface, 21⟩), (⟨.line, 12⟩, ⟨.surface, 21⟩), (⟨.line, 16⟩, ⟨.surface, 21⟩),
    (⟨.line, 14⟩, ⟨.surface, 22⟩), (⟨.line, 15⟩, ⟨.surface, 22⟩), (⟨.line, 13⟩, ⟨.surface, 22⟩)]
  surfaceEdges := [((11, 0), (21, 1)), ((12, 0), (21, 1)), ((13, 0), (21, 1)), ((14, 0), (22, 1)), ((15, 0), (22, 1)),
    ((16, 0), (22, 1))]
  border := [(21, 0), (21, 1), (21, 2), (22, 0), (22, 1), (22, 2)]

/-- **C127 is false** for Sections: the Line on which the border edge of a Surface is may bound another Surface only. -/
theorem C127_section_false : ∃ (lib : ModelLibrary Nat) (rt : ModelRuntime) (m : ModelData Nat), ModelRuntimeOk rt ∧
    MeshesOk lib m ∧ WellFormed (m.topology rt) ∧ EdgesFound m ∧ BoundariesAgree m ∧
    (∀ l ∈ m.lines, l.active = true) ∧ (∀ s ∈ m.surfaces, s.active = true) ∧
    (∃ s ∈ m.surfaces, ∃ x, IsPolygonEdge s.toSurfaceMesh x ∧ s.polygonAdjacent x = none ∧ ¬ Edged m s x) ∧
    ∃ v, isSectionOfValid lib rt m = .ok v ∧ v.isValid = true := by
  refine ⟨modelLibrary, modelRuntime, exampleModel exchangedLines (10 * ·) .positive, modelRuntime_ok,
    exampleModel_meshes _ _ _ (by decide), exampleModel_wf _ _ _ _ (by decide) (by decide) (by decide),
    exampleModel_edgesFound _ _ _ (by decide +kernel), exampleModel_agree _ _ _ (by decide), ?_, ?_,
    ⟨_, List.mem_map.2 ⟨⟨21, true, 3, 1⟩, by decide, rfl⟩, (0, 2), ⟨by decide, by decide⟩, rfl, fun h => ?_⟩, ?_⟩
  · intro l hl
    obtain ⟨c, hc, rfl⟩ := List.mem_map.1 hl
    exact (by decide : ∀ c ∈ exchangedLines.lines, c.active = true) c hc
  · intro s hs
    obtain ⟨c, hc, rfl⟩ := List.mem_map.1 hs
    exact (by decide : ∀ c ∈ exchangedLines.surfaces, c.active = true) c hc
  · obtain ⟨u, v, h1, l, hl, ⟨e, he⟩, hrel⟩ := h
    obtain ⟨_, h1, h1'⟩ := (example_faceEdge exchangedLines (10 * ·) .positive ⟨21, true, 3, 1⟩ 0 2 u v).1 h1
    obtain ⟨c, hc, rfl⟩ := List.mem_map.1 hl
    have hu : u = 2 := by
      have : exchangedLines.toModel.uniqueVertex ⟨⟨.surface, 21⟩, 2⟩ = some 2 := by decide
      rw [this] at h1; injection h1 with h1; exact h1.symm
    have hv : v = 0 := by
      have : exchangedLines.toModel.uniqueVertex ⟨⟨.surface, 21⟩, (2 + 1) % 3⟩ = some 0 := by decide
      rw [this] at h1'; injection h1' with h1'; exact h1'.symm
    subst hu hv
    have key : ∀ c ∈ exchangedLines.lines, ∀ e < c.nbElements,
        ((exchangedLines.toModel.uniqueVertex ⟨⟨.line, c.id⟩, e⟩ = some 2 ∧
          exchangedLines.toModel.uniqueVertex ⟨⟨.line, c.id⟩, e + 1⟩ = some 0) ∨
        (exchangedLines.toModel.uniqueVertex ⟨⟨.line, c.id⟩, e⟩ = some 0 ∧
          exchangedLines.toModel.uniqueVertex ⟨⟨.line, c.id⟩, e + 1⟩ = some 2)) →
        exchangedLines.toModel.isBoundary c.id 21 = false ∧ exchangedLines.toModel.isInternal c.id 21 = false := by
      decide +kernel
    have h3 : e < c.nbElements := by rcases he with he | he <;> exact he.1
    have h4 := key c hc e h3 (he.imp (fun he => he.2) fun he => he.2)
    rcases hrel with ⟨h, _⟩ | ⟨_, h, _⟩
    · exact absurd (h4.1.symm.trans h) (by decide)
    · exact absurd (h4.2.symm.trans h) (by decide)
  · have he : isSectionOfValid modelLibrary modelRuntime (exampleModel exchangedLines (10 * ·) .positive) = .ok {} := by rfl
    exact ⟨_, he, rfl⟩

/-- The tetrahedron, its edges being inactive and not bounding the faces, which do not bound the Block, also inactive. -/
def unrelatedEdges : TopologyData := { tetrahedronBRep with
  lines := tetrahedronBRep.lines.map fun c => { c with active := false }
  blocks := tetrahedronBRep.blocks.map fun c => { c with active := false }
  boundary := tetrahedronBRep.boundary.filter fun e => e.2.type == .line }

set_option maxRecDepth 20000 in
/-- **C127 is false** for BReps without the hypothesis on the active Lines: a BRep is declared valid although the border
edges of its active Surfaces are on Lines which neither bound them nor are inside them. -/
theorem C127_brep_false : ∃ (lib : ModelLibrary Nat) (rt : ModelRuntime) (m : ModelData Nat), ModelRuntimeOk rt ∧
    MeshesOk lib m ∧ WellFormed (m.topology rt) ∧ EdgesFound m ∧ BoundariesAgree m ∧
    (∃ s ∈ m.surfaces, s.active = true ∧ ∃ x, IsPolygonEdge s.toSurfaceMesh x ∧ s.polygonAdjacent x = none ∧
      ¬ Edged m s x) ∧
    ∀ fuel ≥ 20, ∃ v, isBRepOfValid lib rt fuel m = .ok v ∧ v.isValid = true := by
  refine ⟨modelLibrary, modelRuntime, exampleModel unrelatedEdges (10 * ·) .positive, modelRuntime_ok,
    exampleModel_meshes _ _ _ (by decide), exampleModel_wf _ _ _ _ (by decide) (by decide) (by decide),
    exampleModel_edgesFound _ _ _ (by decide +kernel), exampleModel_agree _ _ _ (by decide),
    ⟨_, List.mem_map.2 ⟨⟨21, true, 3, 1⟩, by decide, rfl⟩, rfl, (0, 0), ⟨by decide, by decide⟩, rfl, fun h => ?_⟩,
    fun fuel hf => ?_⟩
  · obtain ⟨u, v, _, l, hl, _, hrel⟩ := h
    obtain ⟨c, hc, rfl⟩ := List.mem_map.1 hl
    have key : ∀ c ∈ unrelatedEdges.lines, unrelatedEdges.toModel.isBoundary c.id 21 = false ∧
        unrelatedEdges.toModel.isInternal c.id 21 = false := by decide
    rcases hrel with ⟨h, _⟩ | ⟨_, h, _⟩
    · exact absurd ((key c hc).1.symm.trans h) (by decide)
    · exact absurd ((key c hc).2.symm.trans h) (by decide)
  · obtain ⟨N, rfl⟩ := Nat.exists_eq_add_of_le' hf
    have he : isBRepOfValid modelLibrary modelRuntime (N + 20) (exampleModel unrelatedEdges (10 * ·) .positive) =
      .ok {} := by rfl
    exact ⟨_, he, rfl⟩

end Inspector
